import Verif.Proofs.CaseText
import Verif.Proofs.WordWhole
import Verif.Spec.Foreign

/-! The whole procedure on text of other scripts. -/

namespace Verif.Foreign

open Verif.Hre Verif.Words Verif.Spec.Subword Verif.Spec.Procedure Verif.Spec.Reference Verif.Spec.Foreign

/-! ## Blocks -/

theorem blocks_head {x : UInt8 × Int} {t : Tagged} : ∃ s rest, blocks (x :: t) = s :: rest ∧ s.level = x.2 := by
  obtain ⟨b, l⟩ := x
  simp only [blocks]
  split
  · exact ⟨_, _, rfl, rfl⟩
  · split
    · exact ⟨_, _, rfl, rfl⟩
    · exact ⟨_, _, rfl, rfl⟩

/-- Texts of different levels where they meet. -/
def Meet (a b : Tagged) : Prop := ∀ x y, a.getLast? = some x → b.head? = some y → x.2 ≠ y.2

theorem blocks_cut {b : Tagged} : ∀ {a : Tagged}, Meet a b → blocks (a ++ b) = blocks a ++ blocks b
  | [], _ => rfl
  | [(c, l)], h => by
    cases b with
    | nil => simp [blocks]
    | cons y b =>
      obtain ⟨s, rest, e, hl⟩ := blocks_head (x := y) (t := b)
      have := h (c, l) y rfl rfl
      have h2 : l ≠ s.level := by rw [hl]; exact this
      have : blocks ((c, l) :: y :: b) = ⟨[c], l⟩ :: s :: rest := by
        rw [blocks, e]
        simp only
        rw [if_neg h2]
      rw [List.singleton_append, this, e]
      rfl
  | (c, l) :: x :: a, h => by
    have ih := blocks_cut (a := x :: a) (b := b) fun p q hp hq => h p q (by rw [List.getLast?_cons_cons]; exact hp) hq
    obtain ⟨s, rest, e, hl⟩ := blocks_head (x := x) (t := a)
    rw [List.cons_append, blocks, ih, e, blocks, e]
    simp only [List.cons_append]
    split <;> rfl

theorem blocks_at_one {w : Bytes} (hw : w ≠ []) (l : Int) : blocks (at_ l w) = [⟨w, l⟩] := by
  have := blocks_at hw (l := l) (t := [])
  simpa [blocks] using this

theorem last_zero : ∀ (a : Tagged), ∃ b w, a = b ++ at_ 0 w ∧ ∀ x, b.getLast? = some x → x.2 ≠ 0 := by
  intro a
  induction h : a.length generalizing a with
  | zero =>
    have : a = [] := by simpa using h
    exact ⟨[], [], by simp [this, at_], by simp⟩
  | succ n ih =>
    rcases List.eq_nil_or_concat a with rfl | ⟨b, x, rfl⟩
    · simp at h
    · by_cases hx : x.2 = 0
      · obtain ⟨c, w, rfl, h2⟩ := ih b (by simpa using h)
        refine ⟨c, w ++ [x.1], ?_, h2⟩
        obtain ⟨x1, x2⟩ := x
        simp only at hx
        subst hx
        simp [at_]
      · refine ⟨b ++ [x], [], by simp [at_], fun y hy => ?_⟩
        simp only [List.getLast?_append, List.getLast?_singleton, Option.some_or, Option.some.injEq] at hy
        exact hy ▸ hx

/-! ## Stages which leave meaningless text -/

/-- Meaningless text stays as it is. -/
def Leaves (R : Subword → Tagged → Prop) : Prop := ∀ w t, R ⟨w, 0⟩ t ↔ t = at_ 0 w

theorem Through.append {R : Subword → Tagged → Prop} : ∀ {a b : List Subword} {x y : Tagged}, Through R a x → Through R b y →
    Through R (a ++ b) (x ++ y)
  | [], _, _, _, .nil, hb => hb
  | _ :: _, _, _, _, .cons one rest, hb => by
    rw [List.cons_append, List.append_assoc]
    exact .cons one (Through.append rest hb)

theorem leaves_cons {R : Subword → Tagged → Prop} (hR : Leaves R) {c : UInt8} {b t : Tagged}
    (h : Through R (blocks ((c, 0) :: b)) t) : ∃ t', Through R (blocks b) t' ∧ t = (c, 0) :: t' := by
  simp only [blocks] at h
  split at h
  · rename_i e
    cases h with
    | cons one rest =>
      cases rest
      rw [e]
      exact ⟨[], .nil, by rw [(hR _ _).1 one]; rfl⟩
  · rename_i s rest e
    rw [e]
    split at h
    · rename_i hl
      cases h with
      | cons one rest' =>
        refine ⟨_, .cons (t := at_ 0 s.word) ?_ rest', ?_⟩
        · obtain ⟨sw, sl⟩ := s
          simp only at hl
          subst hl
          exact (hR sw _).2 rfl
        · rw [(hR _ _).1 one]
          rfl
    · cases h with
      | cons one rest' => exact ⟨_, rest', by rw [(hR _ _).1 one]; rfl⟩

theorem leaves_at {R : Subword → Tagged → Prop} (hR : Leaves R) {b : Tagged} : ∀ {w : Bytes} {t : Tagged},
    Through R (blocks (at_ 0 w ++ b)) t → ∃ t', Through R (blocks b) t' ∧ t = at_ 0 w ++ t'
  | [], t, h => ⟨t, h, rfl⟩
  | c :: w, t, h => by
    obtain ⟨t', h1, rfl⟩ := leaves_cons hR h
    obtain ⟨t'', h2, rfl⟩ := leaves_at hR h1
    exact ⟨t'', h2, rfl⟩

theorem leaves_one {R : Subword → Tagged → Prop} (hR : Leaves R) (w : Bytes) : Through R (blocks (at_ 0 w)) (at_ 0 w) := by
  by_cases hw : w = []
  · subst hw
    exact .nil
  · rw [blocks_at_one hw]
    have := Through.cons ((hR w _).2 rfl) .nil
    rwa [List.append_nil] at this

/-- Meaningless text separates what is before and after it. -/
theorem leaves_split {R : Subword → Tagged → Prop} (hR : Leaves R) {a b t : Tagged} {w : Bytes} (hw : w ≠ [])
    (h : Through R (blocks (a ++ at_ 0 w ++ b)) t) :
    ∃ x y, Through R (blocks a) x ∧ Through R (blocks b) y ∧ t = x ++ at_ 0 w ++ y := by
  obtain ⟨a', v, rfl, ha⟩ := last_zero a
  have e : a' ++ at_ 0 v ++ at_ 0 w ++ b = a' ++ (at_ 0 (v ++ w) ++ b) := by simp [at_]
  rw [e, blocks_cut (fun x y hx hy => ?_)] at h
  · obtain ⟨x, y, h1, h2, rfl⟩ := h.split
    obtain ⟨z, h3, rfl⟩ := leaves_at hR h2
    refine ⟨x ++ at_ 0 v, z, ?_, h3, by simp [at_]⟩
    rw [blocks_cut (fun x y hx hy => ?_)]
    · exact Through.append h1 (leaves_one hR v)
    · have : y.2 = 0 := by
        cases v <;> simp [at_] at hy
        rw [← hy]
      rw [this]
      exact ha x hx
  · have : y.2 = 0 := by
      cases v with
      | nil =>
        cases w with
        | nil => exact absurd rfl hw
        | cons c w =>
          simp [at_] at hy
          rw [← hy]
      | cons c v =>
        simp [at_] at hy
        rw [← hy]
    rw [this]
    exact ha x hx

/-- A stage which changes nothing. -/
theorem through_same {R : Subword → Tagged → Prop} : ∀ {ps : List Subword} {t : Tagged}, Through R ps t →
    (∀ p ∈ ps, ∀ t, R p t → t = at_ p.level p.word) → t = tagged ps
  | [], _, .nil, _ => rfl
  | p :: ps, _, .cons one rest, h => by
    rw [h p (by simp) _ one, through_same rest fun q hq => h q (by simp [hq])]
    rfl

/-! ## Rules -/

theorem applied_dead {lvl : Int} {view : Tagged → Bytes} : ∀ {rules : List Rule} {t t' : Tagged} {ws : List Bytes},
    Applied lvl view rules t ws t' → (∀ r ∈ rules, r.replacements (view t) = .ok []) → t' = t
  | [], _, _, _, .done t, _ => rfl
  | r :: rules, t, t', _, .rule rs seen inside rest, h => by
    rw [h r (by simp)] at seen
    simp only [Go.ok.injEq] at seen
    subst seen
    have e : splice (at_ lvl) t 0 [] = t := by simp [splice]
    rw [e] at rest
    exact applied_dead rest fun r hr => h r (by simp [hr])

theorem map_at (l : Int) (w : Bytes) : (at_ l w).map (·.1) = w := by
  simp [at_, Function.comp_def]

theorem veil_at {l : Int} (hl : l ≠ 2) (w : Bytes) : (at_ l w).map veil = w := by
  simp [at_, veil, hl, Function.comp_def]

/-- Rewriting leaves text without letters of the script and signs. -/
theorem rewrite_dead {L : Rune → Bool} {P : List (List Rune)} {rules : List Rule} (hr : ∀ r ∈ rules, alive L P r.pat.re = true)
    {p : Subword} (hw : ¬ Alive L P (runes p.word)) {t : Tagged} (h : RewriteT rules p t) : t = at_ p.level p.word := by
  obtain ⟨ws, h⟩ := h
  refine applied_dead h fun r hr' => ?_
  rw [map_at]
  exact replacements_dead (hr r hr') hw

theorem leaves_transcribe (rules : List Rule) : Leaves (TranscribeT rules) := by
  intro w t
  constructor
  · rintro (⟨_, h⟩ | ⟨h, _⟩)
    · exact h
    · exact absurd rfl h
  · exact fun h => .inl ⟨rfl, h⟩

/-- Transcribing leaves white space. -/
theorem transcribe_dead {L : Rune → Bool} {P : List (List Rune)} {rules : List Rule} (hr : ∀ r ∈ rules, alive L P r.pat.re = true)
    {p : Subword} (h1 : p.level ≠ 2) (hw : p.level ≠ 0 → ¬ Alive L P (runes p.word)) {t : Tagged} (h : TranscribeT rules p t) :
    t = at_ p.level p.word := by
  rcases h with ⟨h, rfl⟩ | ⟨h, ws, k⟩
  · rw [h]
  · refine applied_dead k fun r hr' => ?_
    rw [veil_at h1]
    exact replacements_dead (hr r hr') (hw h)

/-! ## The end of the procedure -/

/-- What remains of a piece. -/
def CleanT (p : Subword) (t : Tagged) : Prop := t = tagged (cleaned [p])

theorem leaves_clean : Leaves CleanT := by
  intro w t
  simp [CleanT, cleaned, tagged, at_]

theorem through_clean : ∀ (ps : List Subword), Through CleanT ps (tagged (cleaned ps))
  | [] => .nil
  | p :: ps => by
    have e : tagged (cleaned (p :: ps)) = tagged (cleaned [p]) ++ tagged (cleaned ps) := by
      rw [← tagged_append]
      simp [cleaned]
    rw [e]
    exact .cons rfl (through_clean ps)

theorem clean_unique {ps : List Subword} {t : Tagged} (h : Through CleanT ps t) : t = tagged (cleaned ps) :=
  (through_clean ps).unique (fun _ _ _ _ h1 h2 => h2.trans h1.symm) h

theorem clean_split {a b : Tagged} {w : Bytes} (hw : w ≠ []) : tagged (cleaned (blocks (a ++ at_ 0 w ++ b))) =
    tagged (cleaned (blocks a)) ++ at_ 0 w ++ tagged (cleaned (blocks b)) := by
  obtain ⟨x, y, h1, h2, h3⟩ := leaves_split leaves_clean hw (through_clean (blocks (a ++ at_ 0 w ++ b)))
  rw [h3, clean_unique h1, clean_unique h2]

theorem syllables_split {w : Bytes} (hw : w ≠ []) (b : Tagged) : ∀ (a : Tagged) (buf : Bytes),
    syllables buf (a ++ at_ 0 w ++ b) = syllables buf a ++ w ++ syllables [] b
  | [], buf => by rw [List.nil_append, syllables_zero hw]; rfl
  | (c, l) :: a, buf => by
    simp only [List.cons_append, syllables]
    split
    · rw [syllables_split hw b a []]
      simp
    · rw [syllables_split hw b a]

/-! ## After normalization -/

theorem begin_append (sp : Spec) (xs ys : List Rune) : begin_ sp (xs ++ ys) = begin_ sp xs ++ begin_ sp ys := by
  simp [begin_, runesText]

theorem begin_cons (sp : Spec) (c : Rune) (cs : List Rune) : begin_ sp (c :: cs) = at_ (level sp c) (encodeRune c) ++ begin_ sp cs := by
  simp [begin_, runesText]

theorem begin_zero {sp : Spec} : ∀ {xs : List Rune}, (∀ c ∈ xs, ¬ Meaningful sp c) → begin_ sp xs = at_ 0 (encode xs)
  | [], _ => rfl
  | c :: xs, h => by
    rw [begin_cons, begin_zero fun d hd => h d (by simp [hd]), level, if_neg (h c (by simp)), encode_cons]
    simp [at_]

theorem encodeRune_last {c : Rune} (l : Int) : ∀ x, (at_ l (encodeRune c)).getLast? = some x → x.2 = l := by
  intro x hx
  have := List.mem_of_getLast? hx
  simp only [at_, List.mem_map] at this
  obtain ⟨_, _, rfl⟩ := this
  rfl

/-- The stages of a text, as `rest_stages` gives them. -/
def Part (sp : Spec) (cs : List Rune) (out : Bytes) : Prop := ∃ u v,
  Through (RewriteT sp.rewrite) (blocks (begin_ sp cs)) u ∧ Through (TranscribeT sp.transcribe) (blocks u) v ∧
  out = encode (localized sp.script (runes (syllables [] (tagged (cleaned (blocks v))))))

theorem rest_part {sp : Spec} (r1 : ∀ r ∈ sp.rewrite, bundleCheck .rewrite r = true)
    (t1 : ∀ r ∈ sp.transcribe, bundleCheck .transcribe r = true) {cs : List Rune} (hv : ∀ c ∈ cs, validRune c = true) {out : Bytes}
    (h : Rest sp cs out) : Part sp cs out := by
  obtain ⟨u, v, h1, h2, h3, _⟩ := rest_stages r1 t1 hv h
  exact ⟨u, v, h1, h2, h3⟩

theorem part_unique {sp : Spec} {cs : List Rune} {a b : Bytes} (ha : Part sp cs a) (hb : Part sp cs b) : b = a := by
  obtain ⟨u1, v1, k1, k2, rfl⟩ := ha
  obtain ⟨u2, v2, k3, k4, rfl⟩ := hb
  have e1 := k1.unique (fun p _ t t' ⟨_, h1⟩ ⟨_, h2⟩ => applied_unique h1 h2) k3
  subst e1
  have uq : ∀ p t t', TranscribeT sp.transcribe p t → TranscribeT sp.transcribe p t' → t' = t := by
    rintro p t t' (⟨h1, rfl⟩ | ⟨h1, _, h2⟩) (⟨h3, rfl⟩ | ⟨h3, _, h4⟩)
    · rfl
    · exact absurd h1 h3
    · exact absurd h3 h1
    · exact applied_unique h2 h4
  have e2 := k2.unique (fun p _ => uq p) k4
  subst e2
  rfl

/-- The stages of a text around meaningless text, of which zero width spaces vanish. -/
theorem part_around {sp : Spec} {L : Rune → Bool} {P : List (List Rune)}
    (hr : ∀ r ∈ sp.rewrite, alive L P r.pat.re = true) (hs : sp.script ≠ .hrkt) {xs ys zs : List Rune}
    (hy : ∀ c ∈ ys, validRune c = true) (hn : ys ≠ []) (hm : ∀ c ∈ ys, ¬ Meaningful sp c) (ha : ¬ Alive L P ys)
    (h1 : ∀ c, xs.getLast? = some c → Meaningful sp c) (h2 : ∀ c, zs.head? = some c → Meaningful sp c)
    {c : Bytes} (kc : Part sp (xs ++ ys ++ zs) c) :
    ∃ a b, Part sp xs a ∧ Part sp zs b ∧ c = a ++ encode (ys.filter (· ≠ zwsp)) ++ b := by
  obtain ⟨u3, v3, k5, k6, rfl⟩ := kc
  have ne : encode ys ≠ [] := by
    cases ys with
    | nil => exact absurd rfl hn
    | cons c ys =>
      rw [encode_cons]
      intro e
      exact encodeRune_ne_nil c (List.append_eq_nil_iff.1 e).1
  rw [begin_append, begin_append, begin_zero hm, List.append_assoc, blocks_cut, blocks_cut, blocks_at_one ne] at k5
  · obtain ⟨x, y', e1, e2, rfl⟩ := k5.split
    obtain ⟨y, z, e3, e4, rfl⟩ := e2.split
    have e5 : y = at_ 0 (encode ys) := by
      cases e3 with
      | cons one rest =>
        cases rest
        rw [List.append_nil, rewrite_dead hr (p := ⟨encode ys, 0⟩) (by rw [runes_encode hy]; exact ha) one]
    subst e5
    rw [← List.append_assoc] at k6
    obtain ⟨x, z, f1, f2, rfl⟩ := leaves_split (leaves_transcribe _) ne k6
    refine ⟨_, _, ⟨_, _, e1, f1, rfl⟩, ⟨_, _, e4, f2, rfl⟩, ?_⟩
    obtain ⟨q, t, e, hq⟩ := Case.valid_lead (encode_validUtf8 ys) ne
    rw [clean_split ne, syllables_split ne, List.append_assoc, e, List.cons_append, Case.runes_split _ hq, ← List.cons_append, ← e,
      runes_append (encode_validUtf8 ys), runes_encode hy]
    unfold localized
    simp only [if_neg hs, List.filter_append, encode_append, List.append_assoc]
  · intro x y hx' hy'
    have e1 : x.2 = 0 := by
      have := List.mem_of_getLast? hx'
      simp only [at_, List.mem_map] at this
      obtain ⟨_, _, rfl⟩ := this
      rfl
    cases zs with
    | nil => simp [begin_, runesText] at hy'
    | cons d zs =>
      have hl : level sp d = 1 := by rw [level, if_pos (h2 d rfl)]
      rw [begin_cons, hl, List.head?_append_of_ne_nil _ (by simp [at_, encodeRune_ne_nil])] at hy'
      have := List.mem_of_head? hy'
      simp only [at_, List.mem_map] at this
      obtain ⟨_, _, rfl⟩ := this
      rw [e1]
      simp
  · intro x y hx' hy'
    have e1 : y.2 = 0 := by
      rw [List.head?_append_of_ne_nil _ (by simpa [at_] using ne)] at hy'
      have := List.mem_of_head? hy'
      simp only [at_, List.mem_map] at this
      obtain ⟨_, _, rfl⟩ := this
      rfl
    rcases List.eq_nil_or_concat xs with rfl | ⟨xs, d, rfl⟩
    · simp [begin_, runesText] at hx'
    · have hl : level sp d = 1 := by rw [level, if_pos (h1 d (by simp))]
      have : begin_ sp [d] = at_ 1 (encodeRune d) := by rw [begin_cons, hl]; simp [begin_, runesText]
      rw [List.concat_eq_append, begin_append, this, List.getLast?_append_of_ne_nil _ (by simp [at_, encodeRune_ne_nil])] at hx'
      rw [e1, encodeRune_last 1 x hx']
      simp

/-- The result for a text around meaningless text. -/
theorem rest_around {sp : Spec} (r1 : ∀ r ∈ sp.rewrite, bundleCheck .rewrite r = true)
    (t1 : ∀ r ∈ sp.transcribe, bundleCheck .transcribe r = true) {L : Rune → Bool} {P : List (List Rune)}
    (hr : ∀ r ∈ sp.rewrite, alive L P r.pat.re = true) (hs : sp.script ≠ .hrkt) {xs ys zs : List Rune}
    (hx : ∀ c ∈ xs, validRune c = true) (hy : ∀ c ∈ ys, validRune c = true) (hz : ∀ c ∈ zs, validRune c = true)
    (hn : ys ≠ []) (hm : ∀ c ∈ ys, ¬ Meaningful sp c) (hw : zwsp ∉ ys) (ha : ¬ Alive L P ys)
    (h1 : ∀ c, xs.getLast? = some c → Meaningful sp c) (h2 : ∀ c, zs.head? = some c → Meaningful sp c)
    {a b c : Bytes} (ka : Rest sp xs a) (kb : Rest sp zs b) (kc : Rest sp (xs ++ ys ++ zs) c) : c = a ++ encode ys ++ b := by
  have : ys.filter (· ≠ zwsp) = ys := by
    rw [List.filter_eq_self]
    intro c hc
    simp only [ne_eq, decide_not, Bool.not_eq_eq_eq_not, Bool.not_true, decide_eq_false_iff_not]
    rintro rfl
    exact hw hc
  obtain ⟨a', b', e1, e2, e3⟩ := part_around hr hs hy hn hm ha h1 h2 (rest_part r1 t1 (by
    intro c hc
    simp only [List.mem_append] at hc
    rcases hc with (hc | hc) | hc
    · exact hx c hc
    · exact hy c hc
    · exact hz c hc) kc)
  rw [e3, this, part_unique (rest_part r1 t1 hx ka) e1, part_unique (rest_part r1 t1 hz kb) e2]

theorem split_last (p : Rune → Prop) [DecidablePred p] (cs : List Rune) : ∃ xs ys, cs = xs ++ ys ∧ (∀ c ∈ ys, ¬ p c) ∧
    ∀ c, xs.getLast? = some c → p c := by
  induction cs using List.reverseRecOn with
  | nil => exact ⟨[], [], rfl, by simp, by simp⟩
  | append_singleton cs c ih =>
    by_cases hc : p c
    · exact ⟨cs ++ [c], [], by simp, by simp, by simpa using hc⟩
    · obtain ⟨xs, ys, rfl, h1, h2⟩ := ih
      refine ⟨xs, ys ++ [c], by simp, fun d hd => ?_, h2⟩
      rcases List.mem_append.1 hd with hd | hd
      · exact h1 d hd
      · rw [List.mem_singleton.1 hd]
        exact hc

theorem split_first (p : Rune → Prop) [DecidablePred p] : ∀ cs : List Rune, ∃ xs ys, cs = xs ++ ys ∧ (∀ c ∈ xs, ¬ p c) ∧
    ∀ c, ys.head? = some c → p c
  | [] => ⟨[], [], rfl, by simp, by simp⟩
  | c :: cs => by
    by_cases hc : p c
    · exact ⟨[], c :: cs, by simp, by simp, by simpa using hc⟩
    · obtain ⟨xs, ys, rfl, h1, h2⟩ := split_first p cs
      exact ⟨c :: xs, ys, by simp, by simpa using ⟨hc, h1⟩, h2⟩

/-- Meaningless text at the end stays. -/
theorem part_end {sp : Spec} {L : Rune → Bool} {P : List (List Rune)} (hr : ∀ r ∈ sp.rewrite, alive L P r.pat.re = true)
    (hs : sp.script ≠ .hrkt) {xs ys : List Rune} (hy : ∀ c ∈ ys, validRune c = true) (hm : ∀ c ∈ ys, ¬ Meaningful sp c)
    (ha : ¬ Alive L P ys) (h1 : ∀ c, xs.getLast? = some c → Meaningful sp c) {c : Bytes} (kc : Part sp (xs ++ ys) c) :
    ∃ a, Part sp xs a ∧ c = a ++ encode (ys.filter (· ≠ zwsp)) := by
  by_cases hn : ys = []
  · subst hn
    rw [List.append_nil] at kc
    exact ⟨c, kc, by simp [encode]⟩
  · rw [← List.append_nil (xs ++ ys)] at kc
    obtain ⟨a, b, e1, e2, rfl⟩ := part_around hr hs hy hn hm ha h1 (by simp) kc
    refine ⟨a, e1, ?_⟩
    have : Part sp [] [] := ⟨[], [], .nil, .nil, by simp [localized, hs, cleaned, syllables, blocks, tagged,
      show Jamo.composeHangul [] = [] by decide +kernel, show runes [] = [] from rfl, encode]⟩
    rw [part_unique this e2, List.append_nil]

/-- Meaningless text at the beginning stays. -/
theorem part_start {sp : Spec} {L : Rune → Bool} {P : List (List Rune)} (hr : ∀ r ∈ sp.rewrite, alive L P r.pat.re = true)
    (hs : sp.script ≠ .hrkt) {xs ys : List Rune} (hy : ∀ c ∈ xs, validRune c = true) (hm : ∀ c ∈ xs, ¬ Meaningful sp c)
    (ha : ¬ Alive L P xs) (h1 : ∀ c, ys.head? = some c → Meaningful sp c) {c : Bytes} (kc : Part sp (xs ++ ys) c) :
    ∃ b, Part sp ys b ∧ c = encode (xs.filter (· ≠ zwsp)) ++ b := by
  by_cases hn : xs = []
  · subst hn
    exact ⟨c, kc, by simp [encode]⟩
  · rw [← List.nil_append (xs ++ ys), ← List.append_assoc] at kc
    obtain ⟨a, b, e1, e2, rfl⟩ := part_around hr hs hy hn hm ha (by simp) h1 kc
    refine ⟨b, e2, ?_⟩
    have : Part sp [] [] := ⟨[], [], .nil, .nil, by simp [localized, hs, cleaned, syllables, blocks, tagged,
      show Jamo.composeHangul [] = [] by decide +kernel, show runes [] = [] from rfl, encode]⟩
    rw [part_unique this e1, List.nil_append]

/-- The result for any text around meaningless text. -/
theorem part_between {sp : Spec} {L : Rune → Bool} {P : List (List Rune)} (hr : ∀ r ∈ sp.rewrite, alive L P r.pat.re = true)
    (hs : sp.script ≠ .hrkt) {xs ys zs : List Rune} (hx : ∀ c ∈ xs, validRune c = true) (hy : ∀ c ∈ ys, validRune c = true)
    (hz : ∀ c ∈ zs, validRune c = true) (hn : ys ≠ []) (hm : ∀ c ∈ ys, ¬ Meaningful sp c)
    (ha : ∀ u v, u <:+ xs → v <+: zs → (∀ c ∈ u ++ v, ¬ Meaningful sp c) → ¬ Alive L P (u ++ ys ++ v))
    {a b c : Bytes} (ka : Part sp xs a) (kb : Part sp zs b) (kc : Part sp (xs ++ ys ++ zs) c) :
    c = a ++ encode (ys.filter (· ≠ zwsp)) ++ b := by
  obtain ⟨xs, us, rfl, m1, l1⟩ := split_last (Meaningful sp) xs
  obtain ⟨vs, zs, rfl, m2, l2⟩ := split_first (Meaningful sp) zs
  have ha' := ha us vs (by simp) (by simp) (fun c hc => (List.mem_append.1 hc).elim (m1 c) (m2 c))
  have hinf : ∀ {u v w : List Rune}, ¬ Alive L P (u ++ v ++ w) → ¬ Alive L P v := by
    rintro u v w h (⟨c, hc, hl⟩ | ⟨s, hs, hi⟩)
    · exact h (.inl ⟨c, by simp [hc], hl⟩)
    · exact h (.inr ⟨s, hs, hi.trans ⟨u, w, rfl⟩⟩)
  obtain ⟨a, e1, rfl⟩ := part_end hr hs (fun c hc => hx c (by simp [hc])) m1
    (hinf (u := []) (w := ys ++ vs) (by simpa using ha')) l1 ka
  obtain ⟨b, e2, rfl⟩ := part_start hr hs (fun c hc => hz c (by simp [hc])) m2
    (hinf (u := us ++ ys) (w := []) (by simpa using ha')) l2 kb
  rw [show xs ++ us ++ ys ++ (vs ++ zs) = xs ++ (us ++ ys ++ vs) ++ zs by simp] at kc
  obtain ⟨a', b', e3, e4, rfl⟩ := part_around hr hs (by
    intro c hc
    simp only [List.mem_append] at hc
    rcases hc with (hc | hc) | hc
    · exact hx c (by simp [hc])
    · exact hy c hc
    · exact hz c (by simp [hc])) (by simp [hn]) (by
    intro c hc
    simp only [List.mem_append] at hc
    rcases hc with (hc | hc) | hc
    · exact m1 c hc
    · exact hm c hc
    · exact m2 c hc) ha' l1 l2 kc
  rw [part_unique e1 e3, part_unique e2 e4]
  simp [encode_append]

/-! ## Text without letters -/

theorem level_space {sp : Spec} {c : Rune} (h : Unicode.isSpace c = true) : level sp c = 1 := by
  rw [level, if_pos (.inr (.inr h))]

theorem blocks_space {sp : Spec} {c : Rune} (h : Unicode.isSpace c = true) (cs : List Rune) :
    ∃ y rest, blocks (begin_ sp (c :: cs)) = ⟨encodeRune c ++ y, 1⟩ :: rest ∧
      ((∃ d ∈ cs.head?, Unicode.isSpace d = true) → ∃ z, blocks (begin_ sp cs) = ⟨z, 1⟩ :: rest) ∧
      (¬ (∃ d ∈ cs.head?, Unicode.isSpace d = true) → (∀ d ∈ cs, Unicode.isSpace d = true ∨ ¬ Meaningful sp d) →
        blocks (begin_ sp cs) = rest) := by
  rw [begin_cons, level_space h, blocks_at (encodeRune_ne_nil c)]
  cases cs with
  | nil => exact ⟨[], [], by simp [begin_, runesText, blocks], by simp, by simp [begin_, runesText, blocks]⟩
  | cons d cs =>
    have hn : at_ (level sp d) (encodeRune d) ≠ [] := by simp [at_, encodeRune_ne_nil]
    obtain ⟨x, t, e, hx⟩ : ∃ x t, begin_ sp (d :: cs) = x :: t ∧ x.2 = level sp d := by
      rw [begin_cons]
      cases he : encodeRune d with
      | nil => exact absurd he (encodeRune_ne_nil d)
      | cons b v => exact ⟨(b, level sp d), _, rfl, rfl⟩
    obtain ⟨s, rest, e', hl⟩ := blocks_head (x := x) (t := t)
    rw [e, e']
    simp only
    by_cases hd : Unicode.isSpace d = true
    · have : s.level = 1 := by rw [hl, hx, level_space hd]
      refine ⟨s.word, rest, by rw [if_pos this.symm], fun _ => ⟨s.word, by rw [← this]⟩, fun h => ?_⟩
      exact absurd ⟨d, rfl, hd⟩ h
    · by_cases hm : Meaningful sp d
      · have : s.level = 1 := by rw [hl, hx, level, if_pos hm]
        refine ⟨s.word, rest, by rw [if_pos this.symm], fun _ => ⟨s.word, by rw [← this]⟩, fun _ h => ?_⟩
        rcases h d (by simp) with h | h
        · exact absurd h hd
        · exact absurd hm h
      · have : s.level = 0 := by rw [hl, hx, level, if_neg hm]
        refine ⟨[], s :: rest, by rw [if_neg (by omega), List.append_nil], fun ⟨d', h1, h2⟩ => ?_, fun _ _ => rfl⟩
        simp only [List.head?_cons, Option.mem_def, Option.some.injEq] at h1
        exact absurd (h1 ▸ h2) hd

theorem cleaned_cons (p : Subword) (ps : List Subword) : cleaned (p :: ps) = cleaned [p] ++ cleaned ps := by simp [cleaned]

theorem syllables_plain {sp : Spec} : ∀ {cs : List Rune}, (∀ c ∈ cs, validRune c = true) →
    (∀ c ∈ cs, Unicode.isSpace c = true ∨ ¬ Meaningful sp c) →
    syllables [] (tagged (cleaned (blocks (begin_ sp cs)))) = encode (squeezed cs)
  | [], _, _ => by
    show Jamo.composeHangul [] = []
    exact compose_empty
  | c :: cs, hv, h => by
    have ih := syllables_plain (sp := sp) (cs := cs) (fun d hd => hv d (by simp [hd])) fun d hd => h d (by simp [hd])
    by_cases hc : Unicode.isSpace c = true
    · obtain ⟨y, rest, e1, e2, e3⟩ := blocks_space (sp := sp) hc cs
      have one : cleaned [⟨encodeRune c ++ y, 1⟩] = [⟨[0x20], 1⟩] := by
        have : ∃ d ∈ runes (encodeRune c ++ y), Unicode.isSpace d = true := by
          have hr := runes_encode (rs := [c]) (by simpa using hv c (by simp))
          simp only [encode_cons, encode_nil, List.append_nil] at hr
          have hu := encode_validUtf8 [c]
          simp only [encode_cons, encode_nil, List.append_nil] at hu
          rw [runes_append hu, hr]
          exact ⟨c, by simp, hc⟩
        simp only [cleaned, List.flatMap_cons, List.flatMap_nil, List.append_nil]
        rw [if_neg (by simp), if_pos this]
        rfl
      rw [e1, cleaned_cons, one]
      by_cases hd : ∃ d ∈ cs.head?, Unicode.isSpace d = true
      · obtain ⟨z, e4⟩ := e2 hd
        rw [squeezed, if_pos hc, if_pos hd, ← ih]
        obtain ⟨d, hd1, hd2⟩ := hd
        cases cs with
        | nil => simp at hd1
        | cons d' cs =>
          simp only [List.head?_cons, Option.mem_def, Option.some.injEq] at hd1
          subst hd1
          obtain ⟨y', rest', e5, _, _⟩ := blocks_space (sp := sp) hd2 cs
          have one' : cleaned [⟨encodeRune d' ++ y', 1⟩] = [⟨[0x20], 1⟩] := by
            have : ∃ d ∈ runes (encodeRune d' ++ y'), Unicode.isSpace d = true := by
              have hr := runes_encode (rs := [d']) (by simpa using hv d' (by simp))
              simp only [encode_cons, encode_nil, List.append_nil] at hr
              have hu := encode_validUtf8 [d']
              simp only [encode_cons, encode_nil, List.append_nil] at hu
              rw [runes_append hu, hr]
              exact ⟨d', by simp, hd2⟩
            simp only [cleaned, List.flatMap_cons, List.flatMap_nil, List.append_nil]
            rw [if_neg (by simp), if_pos this]
            rfl
          rw [e5] at e4 ⊢
          simp only [List.cons.injEq] at e4
          rw [cleaned_cons, one', e4.2]
      · rw [squeezed, if_pos hc, if_neg hd, encode_cons, ← ih, e3 hd fun d hd => h d (by simp [hd])]
        have : tagged ([⟨[0x20], 1⟩] ++ cleaned rest) = [] ++ gap :: tagged (cleaned rest) := by simp [tagged, gap]
        rw [this, syllables_both]
        have : syllables [] [] = [] := compose_empty
        rw [this]
        rfl
    · have hm : ¬ Meaningful sp c := (h c (by simp)).resolve_left hc
      rw [squeezed, if_neg hc, encode_cons, ← ih, begin_cons, level, if_neg hm]
      have := clean_split (a := []) (b := begin_ sp cs) (encodeRune_ne_nil c)
      rw [List.nil_append] at this
      rw [this]
      have e : tagged (cleaned (blocks [])) = [] := rfl
      rw [e, List.nil_append, syllables_zero (encodeRune_ne_nil c), compose_empty, List.nil_append]

theorem squeezed_mem : ∀ {cs : List Rune} {c : Rune}, c ∈ squeezed cs → c = 0x20 ∨ c ∈ cs
  | [], _, h => by simp [squeezed] at h
  | d :: cs, c, h => by
    rw [squeezed] at h
    split at h
    · split at h
      · exact (squeezed_mem h).imp id fun h => by simp [h]
      · rcases List.mem_cons.1 h with rfl | h
        · exact .inl rfl
        · exact (squeezed_mem h).imp id fun h => by simp [h]
    · rcases List.mem_cons.1 h with rfl | h
      · exact .inr (by simp)
      · exact (squeezed_mem h).imp id fun h => by simp [h]

/-- The result for text without letters. -/
theorem rest_plain {sp : Spec} (r1 : ∀ r ∈ sp.rewrite, bundleCheck .rewrite r = true)
    (t1 : ∀ r ∈ sp.transcribe, bundleCheck .transcribe r = true) {L : Rune → Bool} {P : List (List Rune)}
    (hr : ∀ r ∈ sp.rewrite, alive L P r.pat.re = true)
    (ht : ∀ r ∈ sp.transcribe, alive (fun c => !Unicode.isSpace c) [] r.pat.re = true) (hs : sp.script ≠ .hrkt) {cs : List Rune}
    (hv : ∀ c ∈ cs, validRune c = true) (hm : ∀ c ∈ cs, Unicode.isSpace c = true ∨ ¬ Meaningful sp c) (hw : zwsp ∉ cs)
    (ha : ¬ Alive L P cs) {out : Bytes} (h : Rest sp cs out) : out = encode (squeezed cs) := by
  obtain ⟨u, v, k1, k2, rfl, _, _⟩ := rest_stages r1 t1 hv h
  have key : ∀ p ∈ blocks (begin_ sp cs), runes p.word <:+: cs ∧ p.level ≠ 2 ∧
      (p.level ≠ 0 → ∀ c ∈ runes p.word, Unicode.isSpace c = true) := by
    intro p hp
    rw [← chunks_begin] at hp
    obtain ⟨g, hg, rfl⟩ := List.mem_map.1 hp
    have hi : g <:+: cs.map fun c => (c, level sp c) := by
      have := List.infix_of_mem_flatten hg
      rwa [List.flatten_splitBy] at this
    have hi' : g.map (·.1) <:+: cs := by
      have := hi.map (·.1)
      rwa [List.map_map, show (Prod.fst ∘ fun c => (c, level sp c)) = id from rfl, List.map_id] at this
    have hg2 : ∀ c ∈ g, c.2 = level sp c.1 := by
      intro c hc
      obtain ⟨d, _, rfl⟩ := List.mem_map.1 (hi.subset hc)
      rfl
    have hru : runes (chunk g).word = g.map (·.1) := by
      show runes (encode (g.map (·.1))) = _
      exact runes_encode fun c hc => hv c (hi'.subset hc)
    have hlv := chunk_levels hg
    rw [hru]
    refine ⟨hi', ?_, fun h0 c hc => ?_⟩
    · cases g with
      | nil => simp [chunk]
      | cons a g =>
        rw [← hlv a (by simp), hg2 a (by simp)]
        rcases level_01 sp a.1 with h | h <;> omega
    · obtain ⟨d, hd, rfl⟩ := List.mem_map.1 hc
      rcases hm d.1 (hi'.subset hc) with h | h
      · exact h
      · rw [← hlv d hd, hg2 d hd, level, if_neg h] at h0
        exact absurd rfl h0
  have e1 := through_same k1 fun p hp t h => rewrite_dead hr (fun h => ha (h.mono (key p hp).1)) h
  rw [tagged_blocks] at e1
  subst e1
  have e2 := through_same k2 fun p hp t h => transcribe_dead ht (key p hp).2.1 (fun h0 h => by
    rcases h with ⟨c, hc, h⟩ | ⟨s, hs, _⟩
    · simp [(key p hp).2.2 h0 c hc] at h
    · simp at hs) h
  rw [tagged_blocks] at e2
  subst e2
  have hv' : ∀ c ∈ squeezed cs, validRune c = true := by
    intro c hc
    rcases squeezed_mem hc with rfl | hc
    · decide
    · exact hv c hc
  rw [syllables_plain hv hm, runes_encode hv', localized, if_neg hs]
  congr 1
  rw [List.filter_eq_self]
  intro c hc
  simp only [ne_eq, decide_not, Bool.not_eq_eq_eq_not, Bool.not_true, decide_eq_false_iff_not]
  rintro rfl
  rcases squeezed_mem hc with hc | hc
  · exact absurd hc (by decide)
  · exact hw hc

end Verif.Foreign
