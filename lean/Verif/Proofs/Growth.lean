import Verif.Proofs.Reference
import Verif.Proofs.VarScan
import Verif.Proofs.Made
import Verif.Proofs.Jamo
import Verif.Spec.Growth

/-! How the steps of the procedure change the size of a text. -/

namespace Verif.Growth

open Verif.Hre Verif.Spec.Hre Verif.Spec.Reference Verif.Spec.Subword Verif.Spec.Procedure Verif.Spec.Growth

/-! ## Characters -/

theorem encodeRune_le (r : Rune) : (encodeRune r).length ≤ 4 := by
  have : ∀ r, (encodeValid r).length ≤ 4 := by
    intro r
    unfold encodeValid
    repeat' split
    all_goals simp
  unfold encodeRune
  split <;> exact this _

theorem encode_le : ∀ rs : List Rune, (encode rs).length ≤ 4 * rs.length
  | [] => by simp [encode]
  | r :: rs => by
    have h1 := encodeRune_le r
    have h2 := encode_le rs
    show (encodeRune r ++ encode rs).length ≤ _
    simp only [List.length_append, List.length_cons]
    omega

theorem runes_le (w : Bytes) : (runes w).length ≤ w.length := by
  unfold runes
  rw [List.length_map]
  exact decode_length_le w

/-! ## Replacements of texts -/

/-- The length of the longest value. -/
def longest (vals : List Bytes) : Nat := vals.foldr (fun v n => max v.length n) 0

theorem le_longest {v : Bytes} : ∀ {vals : List Bytes}, v ∈ vals → v.length ≤ longest vals
  | [], h => by simp at h
  | a :: vals, h => by
    show v.length ≤ max a.length (longest vals)
    rcases List.mem_cons.1 h with rfl | h
    · omega
    · have := le_longest h
      omega

theorem lookupKey_le {pairs : List (Bytes × Bytes)} {s v : Bytes} {b : Bool} {n : Nat} (h : lookupKey pairs s b = some (v, n)) :
    v.length ≤ longest (pairs.map (·.2)) := by
  unfold lookupKey at h
  rw [Option.map_eq_some_iff] at h
  obtain ⟨p, h1, h2⟩ := h
  rw [Prod.mk.injEq] at h2
  rw [← h2.1]
  exact le_longest (List.mem_map_of_mem (List.mem_of_find?_eq_some h1))

theorem replaceFrom_le (pairs : List (Bytes × Bytes)) : ∀ (s : Bytes) (k : Nat),
    (replaceFrom pairs k s).length ≤ (2 * longest (pairs.map (·.2)) + 1) * (s.length + 1)
  | [], k => by
    cases k <;> rw [replaceFrom] <;> split <;> simp only [List.length_nil]
    all_goals first
      | (have := lookupKey_le (by assumption); omega)
      | omega
  | c :: t, 0 => by
    have ih := replaceFrom_le pairs t
    have e : (2 * longest (pairs.map (·.2)) + 1) * ((c :: t).length + 1) =
        (2 * longest (pairs.map (·.2)) + 1) * (t.length + 1) + (2 * longest (pairs.map (·.2)) + 1) := by
      rw [List.length_cons, Nat.mul_add, Nat.mul_one]
    rw [e, replaceFrom]
    split
    · have := ih 0
      simp only [List.length_cons]
      omega
    · rename_i k h
      have := ih k
      have := lookupKey_le h
      simp only [List.length_append]
      omega
    · rename_i h
      have h1 := lookupKey_le h
      split
      · have := ih 0
        simp only [List.length_append, List.length_cons]
        omega
      · rename_i v' k h'
        have := lookupKey_le h'
        have := ih (k - 1)
        simp only [List.length_append]
        omega
  | c :: t, k + 1 => by
    have ih := replaceFrom_le pairs t k
    have e : (2 * longest (pairs.map (·.2)) + 1) * ((c :: t).length + 1) =
        (2 * longest (pairs.map (·.2)) + 1) * (t.length + 1) + (2 * longest (pairs.map (·.2)) + 1) := by
      rw [List.length_cons, Nat.mul_add, Nat.mul_one]
    rw [e, replaceFrom]
    omega

theorem replacePairs_le (pairs : List (Bytes × Bytes)) (s : Bytes) :
    (replacePairs pairs s).length ≤ (2 * longest (pairs.map (·.2)) + 1) * (s.length + 1) := replaceFrom_le pairs s 0

/-! ## Rules -/

/-- The most a replacement writes. -/
def widest : List RPart → Nat
  | [] => 0
  | .plain t :: ps => t.length + widest ps
  | .toVar vals :: ps => longest vals + widest ps

theorem interpolateParts_le {p : Pattern} {word : Bytes} {m : List Int} : ∀ (ps : List RPart) (k : Nat) {w : Bytes},
    interpolateParts p word m k ps = .ok w → w.length ≤ widest ps
  | [], k, w, h => by
    simp only [interpolateParts, Go.ok.injEq] at h
    subst h
    simp
  | .plain t :: ps, k, w, h => by
    simp only [interpolateParts, Go.bind_eq_ok, Go.pure_eq, Go.ok.injEq] at h
    obtain ⟨rest, h3, rfl⟩ := h
    have := interpolateParts_le ps k h3
    simp only [List.length_append, widest]
    omega
  | .toVar vals :: ps, k, w, h => by
    simp only [interpolateParts] at h
    split at h
    · simp at h
    · simp only [Go.bind_eq_ok] at h
      obtain ⟨_, _, _, _, h⟩ := h
      split at h
      · simp at h
      · split at h
        · simp at h
        · simp only [Go.bind_eq_ok, Go.pure_eq, Go.ok.injEq] at h
          obtain ⟨v, hv, rest, h3, rfl⟩ := h
          have hm : v ∈ vals := by
            unfold index at hv
            split at hv
            · simp only [Go.ok.injEq] at hv
              subst hv
              rename_i hi
              exact List.mem_of_getElem? hi
            · simp at hv
          have := interpolateParts_le ps _ h3
          have := le_longest hm
          simp only [List.length_append, widest]
          omega

/-- Replacements of nonempty parts, one after the other, with texts which are not longer than `n`. -/
def Tight (n len : Nat) : Nat → List Repl → Prop
  | off, [] => off ≤ len
  | off, r :: rs => off ≤ r.start ∧ r.start < r.stop ∧ r.word.length ≤ n ∧ Tight n len r.stop rs

theorem Tight.le {n len : Nat} : ∀ {rs : List Repl} {off : Nat}, Tight n len off rs → off ≤ len
  | [], _, h => h
  | r :: rs, _, h => by
    obtain ⟨h1, h2, _, h3⟩ := h
    have := Tight.le h3
    omega

theorem Tight.weaken {n len : Nat} {rs : List Repl} {off off' : Nat} (h : Tight n len off rs) (ho : off' ≤ off) : Tight n len off' rs := by
  cases rs with
  | nil => exact Nat.le_trans ho h
  | cons r rs => exact ⟨Nat.le_trans ho h.1, h.2⟩

theorem replacementsLoop_tight {r : Rule} {word : Bytes} : ∀ {ms : List (List Int)} {lo : Nat} {rs : List Repl},
    ProperMatches word lo ms → lo ≤ word.length → r.replacementsLoop word ms = .ok rs →
    Tight (widest r.to.parts) word.length lo rs
  | [], lo, rs, _, hl, h => by
    simp only [Rule.replacementsLoop, Go.ok.injEq] at h
    subst h
    exact hl
  | m :: ms, lo, rs, hp, hl, h => by
    obtain ⟨a, b, g, rfl, l1, l2, l3, _, _, l4⟩ := hp
    simp only [Rule.replacementsLoop, index, List.getElem?_cons_zero, List.getElem?_cons_succ, Go.bind_ok] at h
    split at h
    · rename_i repl hi
      simp only [Go.bind_eq_ok, Go.pure_eq, Go.ok.injEq] at h
      obtain ⟨rest, h1, rfl⟩ := h
      refine ⟨?_, ?_, interpolateParts_le _ 0 hi, replacementsLoop_tight l4 l3 h1⟩
      · simpa using l1
      · simpa using l2
    · exact (replacementsLoop_tight l4 l3 h).weaken (by omega)
    · simp at h
    · simp at h

/-- The matches of a rule are nonempty and follow one another. -/
def Orderly (r : Rule) : Prop := ∀ word ms, find r.pat word (-1) = .ok ms → ProperMatches word 0 ms

theorem replacements_tight {r : Rule} (hr : Orderly r) {word : Bytes} {rs : List Repl} (h : r.replacements word = .ok rs) :
    Tight (widest r.to.parts) word.length 0 rs := by
  simp only [Rule.replacements, Go.bind_eq_ok] at h
  obtain ⟨ms, h1, h2⟩ := h
  exact replacementsLoop_tight (hr _ _ h1) (Nat.zero_le _) h2

theorem splice_le {α : Type} {new : Bytes → List α} (hn : ∀ w, (new w).length = w.length) {t : List α} {n : Nat} :
    ∀ {rs : List Repl} {off : Nat}, Tight n t.length off rs → (Spec.Procedure.splice new t off rs).length ≤ (n + 1) * (t.length - off)
  | [], off, h => by
    rw [Spec.Procedure.splice, List.length_drop]
    exact Nat.le_mul_of_pos_left _ (by omega)
  | r :: rs, off, h => by
    obtain ⟨h1, h2, h3, h4⟩ := h
    have ih := splice_le hn h4
    have hle := h4.le
    rw [Spec.Procedure.splice]
    simp only [List.length_append, hn, List.length_take, List.length_drop]
    have e : t.length - off = (r.start - off) + (r.stop - r.start) + (t.length - r.stop) := by omega
    have a : r.start - off ≤ (n + 1) * (r.start - off) := Nat.le_mul_of_pos_left _ (by omega)
    have b : (n + 1) * 1 ≤ (n + 1) * (r.stop - r.start) := Nat.mul_le_mul_left _ (by omega)
    rw [e, Nat.mul_add, Nat.mul_add]
    omega

/-- The most by which rules multiply the size of a text. -/
def factor : List Rule → Nat
  | [] => 1
  | r :: rules => (widest r.to.parts + 1) * factor rules

theorem factor_pos : ∀ rules, 1 ≤ factor rules
  | [] => Nat.le_refl _
  | r :: rules => Nat.mul_pos (by omega) (factor_pos rules)

theorem applied_le {lvl : Int} {view : Tagged → Bytes} (hv : ∀ t, (view t).length = t.length) {rules : List Rule} {t t' : Tagged}
    {words : List Bytes} (h : Applied lvl view rules t words t') (hr : ∀ r ∈ rules, Orderly r) :
    t'.length ≤ factor rules * t.length ∧ ∀ w ∈ words, w.length ≤ factor rules * t.length := by
  induction h with
  | done t => simp [factor]
  | @rule r rules t t' words rs seen inside rest ih =>
    obtain ⟨i1, i2⟩ := ih fun r hr' => hr r (List.mem_cons_of_mem _ hr')
    have ht := replacements_tight (hr r (by simp)) seen
    rw [hv] at ht
    have h1 := splice_le (new := at_ lvl) (by simp [at_]) ht
    rw [Nat.sub_zero] at h1
    have h2 := Nat.mul_le_mul_left (factor rules) h1
    have e : factor (r :: rules) * t.length = factor rules * ((widest r.to.parts + 1) * t.length) := by
      rw [factor, Nat.mul_comm (widest r.to.parts + 1), Nat.mul_assoc]
    rw [e]
    refine ⟨Nat.le_trans i1 h2, ?_⟩
    intro w hw
    rcases List.mem_cons.1 hw with rfl | hw
    · refine Nat.le_trans ?_ h2
      simp only [text, List.length_map]
      exact Nat.le_mul_of_pos_left _ (factor_pos rules)
    · exact Nat.le_trans (i2 w hw) h2

/-! ## Pieces -/

/-- The size of all pieces. -/
def size (sws : List Subword) : Nat := (sws.flatMap (·.word)).length

theorem size_append (a b : List Subword) : size (a ++ b) = size a + size b := by simp [size]

theorem size_cons (a : Subword) (b : List Subword) : size (a :: b) = a.word.length + size b := by simp [size]

theorem range_snd : ∀ (l : List (Rune × Nat)) (i : Nat), (rangeFrom i l).map (·.2) = l.map (·.1)
  | [], _ => rfl
  | (r, n) :: l, i => by simp only [rangeFrom, List.map_cons, range_snd l]

theorem pieces_le (t : Tagged) : size (pieces t) ≤ 4 * t.length := by
  unfold size pieces letters
  rw [chunks_word, List.map_map]
  have : (rangeStr (text t)).map ((fun x : Rune × Int => x.1) ∘ fun p => (p.2, (t[p.1]?.map (·.2)).getD 0)) = runes (text t) :=
    range_snd _ _
  rw [this]
  have h1 := encode_le (runes (text t))
  have h2 := runes_le (text t)
  have h3 : (text t).length = t.length := by simp [text]
  omega

theorem each_le {R : Subword → Option (List Bytes) → List Subword → Prop} {k : Nat}
    (hR : ∀ p words out, R p words out → size out ≤ k * p.word.length ∧ ∀ ws, words = some ws → ∀ w ∈ ws, w.length ≤ k * p.word.length)
    {ps : List Subword} {rows : List (Option (List Bytes))} {outs : List Subword} (h : Each R ps rows outs) :
    size outs ≤ k * size ps ∧ ∀ i, ((List.zipWith (fun (p : Subword) (row : Option (List Bytes)) =>
          match row with | none => p.word | some ws => ws.getD i []) ps rows).flatten).length ≤ (k + 1) * size ps := by
  induction h with
  | nil => simp [size]
  | @cons p words out ps rows outs one rest ih =>
    obtain ⟨h1, h2⟩ := hR _ _ _ one
    rw [size_append, size_cons, Nat.mul_add]
    refine ⟨by omega, fun i => ?_⟩
    have h3 := ih.2 i
    have e : (k + 1) * (p.word.length + size ps) = k * p.word.length + p.word.length + (k + 1) * size ps := by
      rw [Nat.mul_add, Nat.add_mul k 1 p.word.length, Nat.one_mul]
    rw [List.zipWith_cons_cons, List.flatten_cons, List.length_append, e]
    refine Nat.add_le_add ?_ h3
    · cases words with
      | none => simp
      | some ws =>
        show (ws.getD i []).length ≤ _
        rw [List.getD_eq_getElem?_getD]
        cases hw : ws[i]? with
        | none => simp
        | some w =>
          have := h2 ws rfl w (List.mem_of_getElem? hw)
          simp only [Option.getD_some]
          omega

theorem length_at_ (l : Int) (w : Bytes) : (at_ l w).length = w.length := by simp [at_]

theorem rewritten_le {rules : List Rule} (hr : ∀ r ∈ rules, Orderly r) {p : Subword} {words : Option (List Bytes)} {out : List Subword}
    (h : Rewritten rules p words out) : size out ≤ 4 * factor rules * p.word.length ∧
      ∀ ws, words = some ws → ∀ w ∈ ws, w.length ≤ 4 * factor rules * p.word.length := by
  obtain ⟨ws, t, rfl, h1, rfl⟩ := h
  obtain ⟨a1, a2⟩ := applied_le (by simp [text]) h1 hr
  rw [length_at_] at a1 a2
  have := pieces_le t
  rw [Nat.mul_assoc]
  refine ⟨by omega, ?_⟩
  rintro ws' rfl' w hw
  rw [Option.some.injEq] at rfl'
  subst rfl'
  have := a2 w hw
  omega

theorem transcribed_le {rules : List Rule} (hr : ∀ r ∈ rules, Orderly r) {p : Subword} {words : Option (List Bytes)}
    {out : List Subword} (h : Transcribed rules p words out) : size out ≤ 4 * factor rules * p.word.length ∧
      ∀ ws, words = some ws → ∀ w ∈ ws, w.length ≤ 4 * factor rules * p.word.length := by
  have hf := factor_pos rules
  rcases h with ⟨_, rfl, rfl⟩ | ⟨_, ws, t, rfl, h1, rfl⟩
  · refine ⟨?_, by simp⟩
    rw [size_cons]
    have := Nat.le_mul_of_pos_left p.word.length (show 0 < 4 * factor rules by omega)
    simpa [size] using this
  · obtain ⟨a1, a2⟩ := applied_le (by simp [Spec.Procedure.hidden]) h1 hr
    rw [length_at_] at a1 a2
    have := pieces_le t
    rw [Nat.mul_assoc]
    refine ⟨by omega, ?_⟩
    rintro ws' rfl' w hw
    rw [Option.some.injEq] at rfl'
    subst rfl'
    have := a2 w hw
    omega

theorem blocks_size : ∀ t : Tagged, size (blocks t) = t.length
  | [] => rfl
  | (b, l) :: t => by
    have ih := blocks_size t
    rw [blocks]
    split
    · rename_i h
      rw [h] at ih
      have : t.length = 0 := ih.symm
      simp [size, this]
    · rename_i s rest h
      rw [h, size_cons] at ih
      split
      · rw [size_cons]
        simp only [List.length_cons]
        omega
      · rw [size_cons, size_cons]
        simp only [List.length_cons, List.length_nil]
        omega

theorem joined_size (sws : List Subword) : size (joined sws) = size sws := by
  rw [joined, blocks_size]
  induction sws with
  | nil => rfl
  | cons s sws ih =>
    rw [size_cons, ← ih]
    simp [tagged]

theorem cleaned_le : ∀ sws : List Subword, size (cleaned sws) ≤ size sws
  | [] => by simp [cleaned]
  | s :: sws => by
    have ih := cleaned_le sws
    have e : cleaned (s :: sws) = cleaned [s] ++ cleaned sws := by simp [cleaned]
    rw [e, size_append, size_cons]
    have : size (cleaned [s]) ≤ s.word.length := by
      simp only [cleaned, List.flatMap_cons, List.flatMap_nil, List.append_nil]
      split
      · simp [size]
      · split
        · rename_i h
          obtain ⟨c, h1, _⟩ := h
          have : s.word ≠ [] := by
            intro he
            rw [he, show runes [] = [] from rfl] at h1
            simp at h1
          have := List.length_pos_iff.2 this
          simp only [size_cons]
          exact this
        · simp [size]
    omega

/-! ## Syllables and punctuation -/

theorem splitBy_count {α : Type} (R : α → α → Bool) (l : List α) : (l.splitBy R).length ≤ l.length := by
  have h1 : ∀ g ∈ l.splitBy R, 1 ≤ g.length := fun g hg => List.length_pos_iff.2 (List.ne_nil_of_mem_splitBy hg)
  have h2 : ∀ gs : List (List α), (∀ g ∈ gs, 1 ≤ g.length) → gs.length ≤ gs.flatten.length := by
    intro gs
    induction gs with
    | nil => simp
    | cons g gs ih =>
      intro h
      have := h g (by simp)
      have := ih fun g hg => h g (List.mem_cons_of_mem _ hg)
      simp only [List.length_cons, List.flatten_cons, List.length_append]
      omega
  have := h2 _ h1
  rwa [List.flatten_splitBy] at this

theorem tokens_count : ∀ (rs : List Rune) (h : Bool), (Spec.Jamo.tokens h rs).length ≤ rs.length
  | [], _ => by simp [Spec.Jamo.tokens]
  | r :: rs, h => by
    rw [Spec.Jamo.tokens]
    split
    · have := tokens_count rs true
      simp only [List.length_cons]
      omega
    · have := tokens_count rs false
      simp only [List.length_cons]
      omega

theorem composeHangul_le (w : Bytes) : (Jamo.composeHangul w).length ≤ 4 * w.length := by
  rw [Jamo.composeHangul_eq]
  have h1 := encode_le (Spec.Jamo.compose (runes w))
  have h2 := runes_le w
  have h3 := tokens_count (runes w) false
  have h4 := splitBy_count Spec.Jamo.continues (Spec.Jamo.tokens false (runes w))
  have h5 : (Spec.Jamo.compose (runes w)).length = ((Spec.Jamo.tokens false (runes w)).splitBy Spec.Jamo.continues).length := by
    simp [Spec.Jamo.compose]
  omega

theorem composed_le {sws : List Subword} {x : Bytes} (h : Composed sws x) : x.length ≤ 4 * size sws := by
  induction h with
  | run h => exact composeHangul_le _
  | split left h right ih1 ih2 =>
    rw [size_append, size_cons]
    simp only [List.length_append]
    omega

theorem localized_le (sc : Script) (cs : List Rune) : (localized sc cs).length ≤ 3 * cs.length := by
  unfold localized
  split
  · have : ∀ (cs : List Rune) (prev : Option Rune), (japanesePieces prev cs).flatten.length ≤ 3 * cs.length := by
      intro cs
      induction cs with
      | nil => simp [japanesePieces]
      | cons c cs ih =>
        intro prev
        have := ih (some c)
        rw [japanesePieces, List.flatten_cons, List.length_append, List.length_cons]
        have : (japanesePiece prev c cs.head?).length ≤ 3 := by
          have hs : ∀ b, (space b).length ≤ 1 := by intro b; cases b <;> simp [space]
          unfold japanesePiece
          split
          · simp
          · split
            · rename_i l x r _
              simp only [List.length_append, List.length_cons, List.length_nil]
              exact Nat.add_le_add (Nat.add_le_add (hs _) (Nat.le_refl 1)) (hs _)
            · simp
        omega
    exact this cs none
  · exact Nat.le_trans (List.length_filter_le _ cs) (by omega)

/-! ## The whole procedure -/

theorem linear_comp {a b c n : Nat} {k l : Nat} (h1 : b ≤ k * (a + 1)) (h2 : c ≤ l * (b + 1)) (hn : n = a) : c ≤ l * (k + 1) * (n + 1) := by
  subst hn
  refine Nat.le_trans h2 ?_
  rw [Nat.mul_assoc]
  refine Nat.mul_le_mul_left _ ?_
  rw [Nat.add_mul, Nat.one_mul]
  omega

theorem transliterated_le {translits : List (Bytes × Translit)} {ss : List Bytes}
    (hs : ∀ s ∈ ss, ∀ t, translits.lookup s = some t → Linear t.transliterate) :
    ∃ k, ∀ w evs out, Transliterated translits ss w evs out → out.length ≤ k * (w.length + 1) ∧ evs.length ≤ k ∧
      ∀ e ∈ evs, e.word.length ≤ k * (w.length + 1) := by
  induction ss with
  | nil =>
    refine ⟨1, fun w evs out h => ?_⟩
    cases h
    simp
  | cons s ss ih =>
    obtain ⟨k, hk⟩ := ih fun s hs' => hs s (List.mem_cons_of_mem _ hs')
    cases hl : translits.lookup s with
    | none =>
      refine ⟨0, fun w evs out h => ?_⟩
      cases h with
      | scheme found => rw [hl] at found; contradiction
    | some t =>
      obtain ⟨l, hl'⟩ := hs s (by simp) t hl
      refine ⟨k * (l + 1) + l + 1 + k, fun w evs out h => ?_⟩
      cases h with
      | scheme found ok rest =>
        rw [hl, Option.some.injEq] at found
        subst found
        rename_i w' evs
        have h1 := hl' _ _ ok
        obtain ⟨r1, r2, r3⟩ := hk _ _ _ rest
        have bound : ∀ n, n ≤ k * (w'.length + 1) → n ≤ (k * (l + 1) + l + 1 + k) * (w.length + 1) := fun n hn =>
          Nat.le_trans (linear_comp h1 hn rfl) (Nat.mul_le_mul_right _ (by omega))
        refine ⟨bound _ r1, by simp only [List.length_cons]; omega, fun e he => ?_⟩
        rcases List.mem_cons.1 he with rfl | he
        · exact Nat.le_trans h1 (Nat.mul_le_mul_right _ (by omega))
        · exact bound _ (r3 e he)

theorem events_le {step : TStep} {rules : List Rule} {ps : List Subword} {rows : List (Option (List Bytes))} {n : Nat}
    (h : ∀ i, ((List.zipWith (fun (p : Subword) (row : Option (List Bytes)) =>
          match row with | none => p.word | some ws => ws.getD i []) ps rows).flatten).length ≤ n) :
    (events step rules ps rows).length ≤ rules.length ∧ ∀ e ∈ events step rules ps rows, e.word.length ≤ n := by
  unfold events
  split
  · simp
  · refine ⟨by simp, fun e he => ?_⟩
    obtain ⟨i, hi, rfl⟩ := List.mem_mapIdx.1 he
    rw [List.length_map]
    exact h i

/-- The result and the events are at most proportional to the word. -/
theorem hangulized_le {sp : Spec} (hr : ∀ r ∈ sp.rewrite ++ sp.transcribe, Orderly r) {translits : List (Bytes × Translit)}
    (hs : ∀ s ∈ sp.lang.translit, ∀ t, translits.lookup s = some t → Linear t.transliterate) :
    ∃ k, ∀ word evs out, Hangulized sp translits word evs out → out.length ≤ k * (word.length + 1) ∧ evs.length ≤ k ∧
      ∀ e ∈ evs, e.word.length ≤ k * (word.length + 1) := by
  obtain ⟨k, hk⟩ := transliterated_le hs
  obtain ⟨v, hv⟩ : ∃ v, v = 2 * longest (sp.normPairs.map (·.2)) + 1 := ⟨_, rfl⟩
  obtain ⟨f, hf⟩ : ∃ f, f = 4 * factor sp.rewrite := ⟨_, rfl⟩
  obtain ⟨g, hg⟩ : ∃ g, g = 4 * factor sp.transcribe := ⟨_, rfl⟩
  refine ⟨64 * ((g + 1) * ((f + 1) * (16 * (v * (k + 1))))) + (k + sp.rewrite.length + sp.transcribe.length + 8), ?_⟩
  rintro word evs out ⟨w, evs1, rows, rows', rewritten, transcribed, composed, t1, e1, e2, e3, rfl, rfl⟩
  obtain ⟨k1, k2, k3⟩ := hk _ _ _ t1
  obtain ⟨w1, hw1⟩ : ∃ w1, w1 = replacePairs sp.normPairs w := ⟨_, rfl⟩
  rw [← hw1] at e1 ⊢
  obtain ⟨w2, hw2⟩ : ∃ w2, w2 = encode (normalized sp (runes w1)) := ⟨_, rfl⟩
  rw [← hw2] at e1 ⊢
  generalize hps : chunks _ = ps at e1 ⊢
  obtain ⟨N, hN⟩ : ∃ N, N = word.length + 1 := ⟨_, rfl⟩
  obtain ⟨A, hA⟩ : ∃ A, A = v * (k + 1) * N := ⟨_, rfl⟩
  obtain ⟨B, hB⟩ : ∃ B, B = (f + 1) * (16 * A) := ⟨_, rfl⟩
  obtain ⟨C, hC⟩ : ∃ C, C = (g + 1) * B := ⟨_, rfl⟩
  have b1 : w1.length ≤ A := by
    rw [hA, hw1, hv]
    rw [hN]
    exact linear_comp k1 (replacePairs_le _ _) rfl
  have b2 : w2.length ≤ 4 * A := by
    have h1 := encode_le (normalized sp (runes w1))
    have h2 := runes_le w1
    rw [← hw2] at h1
    simp only [normalized, List.length_map] at h1
    omega
  have b3 : size ps ≤ 16 * A := by
    have h1 := encode_le (runes w2)
    have h2 := runes_le w2
    have : size ps = (encode (runes w2)).length := by
      rw [← hps]
      unfold size
      rw [chunks_word, List.map_map]
      simp only [Function.comp_def, List.map_id']
    omega
  have b4 : 16 * A ≤ B := hB ▸ Nat.le_mul_of_pos_left _ (by omega)
  have b5 : B ≤ C := hC ▸ Nat.le_mul_of_pos_left _ (by omega)
  obtain ⟨r1, r2⟩ := each_le (fun _ _ _ => rewritten_le fun r h => hr r (by simp [h])) e1
  obtain ⟨s1, s2⟩ := each_le (fun _ _ _ => transcribed_le fun r h => hr r (by simp [h])) e2
  rw [← hf] at r1 r2
  rw [← hg] at s1 s2
  rw [joined_size] at s1 s2
  have c1 : size rewritten ≤ B := Nat.le_trans r1 (hB ▸ Nat.mul_le_mul (by omega) b3)
  have c2 : size transcribed ≤ C := Nat.le_trans s1 (hC ▸ Nat.mul_le_mul (by omega) c1)
  have c3 := fun i => Nat.le_trans (r2 i) (hB ▸ Nat.mul_le_mul_left (f + 1) b3 : _ ≤ B)
  have c4 := fun i => Nat.le_trans (s2 i) (hC ▸ Nat.mul_le_mul_left (g + 1) c1 : _ ≤ C)
  have c5 : composed.length ≤ 4 * C := by
    have h1 := composed_le e3
    rw [joined_size] at h1
    have h2 := cleaned_le (joined transcribed)
    rw [joined_size] at h2
    omega
  have c6 : (encode (localized sp.script (runes composed))).length ≤ 48 * C := by
    have h1 := encode_le (localized sp.script (runes composed))
    have h2 := localized_le sp.script (runes composed)
    have h3 := runes_le composed
    omega
  have key : (64 * ((g + 1) * ((f + 1) * (16 * (v * (k + 1))))) + (k + sp.rewrite.length + sp.transcribe.length + 8)) * N =
      64 * C + (k + sp.rewrite.length + sp.transcribe.length + 8) * N := by
    rw [Nat.add_mul, hC, hB, hA]
    simp only [Nat.mul_assoc]
  have key' : k * N + N ≤ (k + sp.rewrite.length + sp.transcribe.length + 8) * N := by
    have := Nat.mul_le_mul_right N (show k + 1 ≤ k + sp.rewrite.length + sp.transcribe.length + 8 by omega)
    rwa [Nat.add_mul, Nat.one_mul] at this
  rw [← hN] at k1 k3
  rw [← hN, key]
  obtain ⟨x1, x2⟩ := events_le (step := .rewrite) (rules := sp.rewrite) c3
  obtain ⟨y1, y2⟩ := events_le (step := .transcribe) (rules := sp.transcribe) c4
  refine ⟨by omega, ?_, ?_⟩
  · simp only [List.length_append, List.length_cons, List.length_nil]
    omega
  · intro e he
    simp only [List.mem_append, List.mem_cons, List.not_mem_nil, or_false] at he
    rcases he with ((((rfl | he) | rfl | rfl | he) | he) | rfl | rfl)
    · show word.length ≤ _
      omega
    · have := k3 e he
      omega
    · show w1.length ≤ _
      omega
    · show w2.length ≤ _
      omega
    · have := x2 e he
      omega
    · have := y2 e he
      omega
    · show composed.length ≤ _
      omega
    · show (encode (localized sp.script (runes composed))).length ≤ _
      omega

end Verif.Growth
