import Verif.Proofs.Utf8
import Verif.Model.Jamo
import Verif.Spec.Jamo

/-! Refinement of the composer to the block specification. -/

namespace Verif.Jamo
open Verif.Hangul Verif.Spec.Jamo

/-- `splitBy` as a recursion with an open block. -/
def groups : List Tok → List Tok → List (List Tok)
  | blk, [] => if blk = [] then [] else [blk]
  | blk, t :: ts =>
    match blk.getLast? with
    | none => groups [t] ts
    | some a => if continues a t then groups (blk ++ [t]) ts else blk :: groups [t] ts

theorem splitBy_loop_eq (as : List Tok) : ∀ (a : Tok) (g : List Tok) (gs : List (List Tok)),
    List.splitBy.loop continues as a g gs = gs.reverse ++ groups (g.reverse ++ [a]) as := by
  induction as with
  | nil => intro a g gs; simp [List.splitBy.loop, groups]
  | cons b as ih =>
    intro a g gs
    rw [List.splitBy.loop, groups]
    simp only [List.getLast?_append, List.getLast?_singleton, Option.some_or]
    cases h : continues a b
    · simp [ih]
    · simp [ih]

theorem splitBy_eq (ts : List Tok) : ts.splitBy continues = groups [] ts := by
  cases ts with
  | nil => rfl
  | cons a as => simp [List.splitBy, splitBy_loop_eq, groups]

theorem groups_other (r : Rune) (ts : List Tok) : groups [.other r] ts = [.other r] :: groups [] ts := by
  cases ts with
  | nil => simp [groups]
  | cons t ts => simp [groups, continues, Tok.last]

theorem compat_lead : ∀ k < 94, leadIdx (0x3131 + k) = posOf leadLetters (0x3131 + k) := by
  decide +kernel
theorem compat_medial : ∀ k < 94, medialIdx (0x3131 + k) = posOf medialLetters (0x3131 + k) := by
  decide +kernel
theorem compat_tail : ∀ k < 94,
    tailIdx (0x3131 + k) = (posOf tailLetters (0x3131 + k)).map (· + 1) := by
  decide +kernel

theorem IsJamo.eq {r : Rune} (h : IsJamo r) : ∃ k < 94, r = 0x3131 + k :=
  ⟨r - 0x3131, by unfold IsJamo at h; omega, by unfold IsJamo at h; omega⟩

theorem IsJamo.leadIdx {r : Rune} (h : IsJamo r) : leadIdx r = posOf leadLetters r := by
  obtain ⟨k, hk, rfl⟩ := IsJamo.eq h; exact compat_lead k hk
theorem IsJamo.medialIdx {r : Rune} (h : IsJamo r) : medialIdx r = posOf medialLetters r := by
  obtain ⟨k, hk, rfl⟩ := IsJamo.eq h; exact compat_medial k hk
theorem IsJamo.tailIdx {r : Rune} (h : IsJamo r) : tailIdx r = (posOf tailLetters r).map (· + 1) := by
  obtain ⟨k, hk, rfl⟩ := IsJamo.eq h; exact compat_tail k hk

theorem leadIdx_conj {l : Nat} (h : l < 19) : leadIdx (0x1100 + l) = some l := by
  simp [leadIdx]; omega
theorem medialIdx_conj {l : Nat} (h : l < 21) : medialIdx (0x1161 + l) = some l := by
  simp [medialIdx]; omega
theorem tailIdx_conj {l : Nat} (h : l < 28) :
    tailIdx (if l = 0 then 0 else 0x11A7 + l) = some l := by
  split
  · simp_all [tailIdx]
  · simp [tailIdx]; omega

/-- The buffered Jamo and the open block describe the same thing. -/
inductive Corr : List Tok → St → Prop
  | l {r} (h : IsJamo r) : Corr [.jamo .lead r] ⟨r, 0, 0, 0⟩
  | m {r} (h : IsJamo r) : Corr [.jamo .medial r] ⟨0, r, 0, 1⟩
  | t {r} (h : IsJamo r) : Corr [.jamo .tail r] ⟨0, 0, r, 2⟩
  | lm {r q} (h : IsJamo r) (h2 : IsJamo q) : Corr [.jamo .lead r, .jamo .medial q] ⟨r, q, 0, 1⟩
  | lt {r q} (h : IsJamo r) (h2 : IsJamo q) : Corr [.jamo .lead r, .jamo .tail q] ⟨r, 0, q, 2⟩
  | mt {r q} (h : IsJamo r) (h2 : IsJamo q) : Corr [.jamo .medial r, .jamo .tail q] ⟨0, r, q, 2⟩
  | lmt {r q p} (h : IsJamo r) (h2 : IsJamo q) (h3 : IsJamo p) :
    Corr [.jamo .lead r, .jamo .medial q, .jamo .tail p] ⟨r, q, p, 2⟩
  | syl {l m t} (hl : l < 19) (hm : m < 21) (ht : t < 28) :
    Corr [.syl l m t] ⟨0x1100 + l, 0x1161 + m, if t = 0 then 0 else 0x11A7 + t, if t = 0 then 1 else 2⟩
  | sylt {l m p} (hl : l < 19) (hm : m < 21) (h : IsJamo p) :
    Corr [.syl l m 0, .jamo .tail p] ⟨0x1100 + l, 0x1161 + m, p, 2⟩

theorem IsJamo.ne_zero {r : Rune} (h : IsJamo r) : r ≠ 0 := by unfold IsJamo at h; omega

theorem write_corr {blk : List Tok} {st : St} (h : Corr blk st) :
    write st = (encodeRune (blockRune blk), { st with lead := 0, medial := 0, tail := 0 }) := by
  have e1 : leadIdx 12615 = some 11 := by decide
  have e2 : medialIdx 12641 = some 18 := by decide
  have e3 : tailIdx 0 = some 0 := by decide
  cases h <;> simp_all [write, blockRune, blockLead, blockMedial, blockTail, join, IsJamo.ne_zero,
    IsJamo.leadIdx, IsJamo.medialIdx, IsJamo.tailIdx, leadIdx_conj, medialIdx_conj, tailIdx_conj, runeError] <;> try rfl
  case syl l m t hl hm ht => 
    have := tailIdx_conj ht
    cases t <;> simp_all [blockTail]

/-- An empty buffer. -/
def Clear (st : St) : Prop := st.lead = 0 ∧ st.medial = 0 ∧ st.tail = 0 ∧ st.score ≠ -1

theorem write_clear {st : St} (h : Clear st) : write st = ([], st) := by
  obtain ⟨a, b, c, _⟩ := h; simp [write, a, b, c]

theorem Corr.ne_nil {blk : List Tok} {st : St} (h : Corr blk st) : blk ≠ [] := by cases h <;> simp
theorem Corr.score {blk : List Tok} {st : St} (h : Corr blk st) : st.score ≠ -1 := by
  cases h <;> simp
  split <;> simp

theorem Corr.clear {blk : List Tok} {st : St} (h : Corr blk st) :
    Clear { st with lead := 0, medial := 0, tail := 0 } := ⟨rfl, rfl, rfl, h.score⟩

theorem isHangul_iff (r : Rune) : isHangul r = true ↔ IsSyllable r ∨ IsJamo r := by
  simp [isHangul, isJaeum, isMoeum, IsSyllable, IsJamo]; omega

theorem step_other {st : St} {r : Rune} {h : Bool} (hr : isHangul r = false) (hs : st.score ≠ -1) :
    step st r h = ((write st).1 ++ encodeRune r, (write st).2) := by
  simp [step, hr, hs]

theorem step_syl {st : St} {r : Rune} {h : Bool} (hr : IsSyllable r) :
    ∃ st', step st r h = ((write st).1, st') ∧
      Corr [.syl ((r - 0xAC00) / 588) ((r - 0xAC00) % 588 / 28) ((r - 0xAC00) % 28)] st' := by
  have h1 : isHangul r = true := (isHangul_iff r).2 (.inl hr)
  have h2 : isJaeum r = false := by unfold IsSyllable at hr; simp [isJaeum]; omega
  have h3 : isMoeum r = false := by unfold IsSyllable at hr; simp [isMoeum]; omega
  unfold IsSyllable at hr
  refine ⟨_, by simp [step, h1, h2, h3, split]; rfl, ?_⟩
  have := Corr.syl (l := (r - 0xAC00) / 588) (m := (r - 0xAC00) % 588 / 28) (t := (r - 0xAC00) % 28)
    (by omega) (by omega) (by omega)
  exact this

/-- The place of a Jamo. -/
def place (r : Rune) (h : Bool) : Place := if isVowel r then .medial else if h then .tail else .lead

theorem step_jamo {st : St} {r : Rune} {h : Bool} (hr : IsJamo r) :
    step st r h =
      (if (place r h).rank ≤ st.score then (write st).1 else [],
        { put (if (place r h).rank ≤ st.score then (write st).2 else st) (place r h).rank r with
          score := (place r h).rank }) := by
  have h1 : isHangul r = true := (isHangul_iff r).2 (.inr hr)
  have h2 : isMoeum r = isVowel r := rfl
  have h3 : isJaeum r = !isVowel r := by
    unfold IsJamo at hr; rw [Bool.eq_iff_iff]; simp [isJaeum, isVowel]; omega
  cases hv : isVowel r <;> cases h <;> simp [step, h1, h2, h3, hv, place, Place.rank] <;> split <;> simp

theorem loop_spec (rs : List Rune) : ∀ (h : Bool) (st : St),
    (Clear st → loop h st rs = encode ((groups [] (tokens h rs)).map blockRune)) ∧
    (∀ blk, Corr blk st → loop h st rs = encode ((groups blk (tokens h rs)).map blockRune)) := by
  induction rs with
  | nil =>
    intro h st
    constructor
    · intro hc; simp [loop, write_clear hc, tokens, groups]
    · intro blk hc
      simp [loop, write_corr hc, tokens, groups, hc.ne_nil, hc.score]
  | cons r rs ih =>
    intro h st
    by_cases hy : r = 0x2D
    · simp only [loop, hy, if_true, tokens, Char.reduceToNat]; exact ih true st
    · simp only [loop, hy, if_false, tokens, Char.reduceToNat]
      by_cases hs : IsSyllable r
      · obtain ⟨st', e, hc'⟩ := step_syl (st := st) (h := h) hs
        rw [e, if_pos hs]
        simp only [(ih false st').2 _ hc']
        constructor
        · intro hc; simp [write_clear hc, groups]
        · intro blk hc
          have hne := hc.ne_nil
          rw [groups]
          cases hl : blk.getLast? with
          | none => simp_all
          | some a =>
            have : continues a (.syl ((r - 0xAC00) / 588) ((r - 0xAC00) % 588 / 28) ((r - 0xAC00) % 28))
              = false := by unfold continues; split <;> simp_all
            simp [this, write_corr hc]
      · rw [if_neg hs]
        by_cases hj : IsJamo r
        · rw [if_pos hj, step_jamo hj]
          rw [show (if isVowel r = true then Place.medial else if h = true then Place.tail else Place.lead)
            = place r h from rfl]
          constructor
          · intro hc
            rw [write_clear hc]
            simp only [ite_self, List.nil_append, groups, List.getLast?_nil]
            apply (ih false _).2
            obtain ⟨h1, h2, h3, h4⟩ := hc
            cases hp : place r h <;> simp [put, Place.rank, h1, h2, h3] <;> constructor <;> assumption
          · intro blk hc
            rw [groups, write_corr hc]
            have key : ∀ p : Place, 
              (if p.rank ≤ st.score then encodeRune (blockRune blk) else []) ++ 
              loop false { put (if p.rank ≤ st.score then { st with lead := 0, medial := 0, tail := 0 } else st)
               p.rank r with score := p.rank} rs = encode (List.map blockRune (match blk.getLast? with
                | none => groups [.jamo p r] (tokens false rs)
                | some a => if continues a (.jamo p r) = true then groups (blk ++ [.jamo p r]) (tokens false rs)
                  else blk :: groups [.jamo p r] (tokens false rs))) := by
              intro p
              cases hc <;> cases p <;>
                simp [Place.rank, continues, Tok.last, put] <;> first
                | (apply (ih false _).2; constructor <;> assumption)
                | (congr 1; apply (ih false _).2; constructor <;> assumption)
                | skip
              all_goals
                rename_i l m t hl hm ht
                by_cases h0 : t = 0
                · subst h0
                  simp <;> first
                  | (apply (ih false _).2; constructor <;> assumption)
                  | (congr 1; apply (ih false _).2; constructor <;> assumption)
                · simp [h0]
                  try (congr 1)
                  apply (ih false _).2; constructor <;> assumption
            exact key _
        · rw [if_neg hj]
          have hn : isHangul r = false := by
            rw [Bool.eq_false_iff]; intro hh; rcases (isHangul_iff r).1 hh with h | h <;> contradiction
          constructor
          · intro hc
            rw [step_other hn hc.2.2.2]
            simp only [groups, List.getLast?_nil, groups_other, write_clear hc]
            simp [(ih false st).1 hc, blockRune]
          · intro blk hc
            rw [step_other hn hc.score, write_corr hc]
            simp only [groups]
            cases hl : blk.getLast? with
            | none => have := hc.ne_nil; simp_all
            | some a =>
              have : continues a (.other r) = false := by unfold continues; split <;> simp_all
              simp [this, groups_other, (ih false _).1 hc.clear, blockRune]

/-- The composer implements the block specification. -/
theorem composeHangul_eq (w : Bytes) : composeHangul w = encode (compose (runes w)) := by
  unfold composeHangul compose
  rw [splitBy_eq]
  exact (loop_spec (runes w) false St.init).1 ⟨rfl, rfl, rfl, by decide⟩

theorem groups_flatten (ts : List Tok) : ∀ blk, (groups blk ts).flatten = blk ++ ts := by
  induction ts with
  | nil => intro blk; simp only [groups]; split <;> simp_all
  | cons t ts ih =>
    intro blk
    rw [groups]
    split
    · simp_all
    · split <;> simp [ih]

theorem groups_append_other (x : Rune) (us ts : List Tok) : ∀ blk,
    groups blk (ts ++ .other x :: us) = groups blk ts ++ [.other x] :: groups [] us := by
  induction ts with
  | nil =>
    intro blk
    simp only [List.nil_append, groups]
    split
    · simp_all [groups_other]
    · have : ∀ a, continues a (.other x) = false := by intro a; unfold continues; split <;> simp_all
      have hb : blk ≠ [] := by intro h; simp_all
      simp [this, groups_other, hb]
  | cons t ts ih =>
    intro blk
    simp only [List.cons_append, groups]
    split
    · simp [ih]
    · split <;> simp [ih]

/-- A token that can never continue a block. -/
def Starts : Tok → Prop
  | .jamo .lead _ => True
  | .jamo _ _ => False
  | _ => True

theorem continues_starts {a t : Tok} (h : Starts t) : continues a t = false := by
  unfold continues
  split
  · rename_i q _ _
    cases q <;> simp_all [Starts, Place.rank]
  · rfl

theorem groups_append_start (t : Tok) (ht : Starts t) (us ts : List Tok) : ∀ blk,
    groups blk (ts ++ t :: us) = groups blk ts ++ groups [] (t :: us) := by
  induction ts with
  | nil =>
    intro blk
    simp only [List.nil_append, groups]
    split
    · simp_all
    · have hb : blk ≠ [] := by intro h; simp_all
      simp [continues_starts ht, hb]
  | cons t ts ih =>
    intro blk
    simp only [List.cons_append, groups]
    split
    · simp [ih, groups]
    · split <;> simp [ih, groups]

theorem tokens_append (a b : List Rune) (x : Rune) (hx : x ≠ 0x2D) : ∀ h,
    tokens h (a ++ x :: b) = tokens h a ++
      (if IsSyllable x ∨ ¬ IsJamo x then tokens false (x :: b)
        else tokens (a.foldl (fun _ r => r == 0x2D) h) (x :: b)) := by
  induction a with
  | nil => intro h; by_cases h1 : IsSyllable x <;> by_cases h2 : IsJamo x <;> simp [tokens, hx, h1, h2] <;> rfl
  | cons r a ih =>
    intro h
    by_cases hr : r = 0x2D
    · subst hr; simp [tokens, ih]
    · have : (r == 0x2D) = false := by simpa using hr
      simp [tokens, ih, hr, this]

/-- What the tokens of a text look like. -/
def TokOk (rs : List Rune) : Tok → Prop
  | .jamo _ r => IsJamo r
  | .syl l m t => l < 19 ∧ m < 21 ∧ t < 28
  | .other r => r ∈ rs ∧ r ≠ 0x2D ∧ ¬ IsSyllable r ∧ ¬ IsJamo r

theorem tokens_ok (rs : List Rune) : ∀ h, ∀ t ∈ tokens h rs, TokOk rs t := by
  induction rs with
  | nil => simp [tokens]
  | cons r rs ih =>
    have mono : ∀ t, TokOk rs t → TokOk (r :: rs) t := by
      intro t; cases t <;> simp only [TokOk] <;> intro h <;> simp_all
    intro h t ht
    simp only [tokens] at ht
    split at ht
    · exact mono t (ih _ t ht)
    · rcases List.mem_cons.1 ht with rfl | ht
      · split
        · rename_i hs; simp only [TokOk]; unfold IsSyllable at hs; omega
        · split
          · simpa [TokOk]
          · simp_all [TokOk]
      · exact mono t (ih _ t ht)

theorem posOf_lt {cs : List Rune} {r : Rune} {i : Nat} (h : posOf cs r = some i) : i < cs.length := by
  unfold posOf at h
  rw [List.idxOf?, List.findIdx?_eq_some_iff_getElem] at h
  exact h.1

theorem blockLead_lt {rs : List Rune} {b : List Tok} (h : ∀ t ∈ b, TokOk rs t) {l : Nat}
    (hl : blockLead b = some l) : l < 19 := by
  cases b with
  | nil => simp [blockLead] at hl; omega
  | cons t ts =>
    have h0 := h t (by simp)
    cases t with
    | jamo p r =>
      cases p <;> simp only [blockLead] at hl
      · have := posOf_lt hl; simpa [leadLetters] using this
      all_goals simp at hl; omega
    | syl l' m t => simp only [blockLead, Option.some.injEq] at hl; simp only [TokOk] at h0; omega
    | other r => simp only [blockLead, Option.some.injEq] at hl; omega

theorem blockMedial_lt {rs : List Rune} {b : List Tok} (h : ∀ t ∈ b, TokOk rs t) {l : Nat}
    (hl : blockMedial b = some l) : l < 21 := by
  induction b with
  | nil => simp [blockMedial] at hl; omega
  | cons t ts ih =>
    have h0 := h t (by simp)
    have ih := ih (fun t ht => h t (by simp [ht]))
    cases t with
    | jamo p r =>
      cases p <;> simp only [blockMedial] at hl
      · exact ih hl
      · have := posOf_lt hl; simpa [medialLetters] using this
      · exact ih hl
    | syl l' m t => simp only [blockMedial, Option.some.injEq] at hl; simp only [TokOk] at h0; omega
    | other r => exact ih hl

theorem blockTail_lt {rs : List Rune} {b : List Tok} (h : ∀ t ∈ b, TokOk rs t) {l : Nat}
    (hl : blockTail b = some l) : l < 28 := by
  induction b with
  | nil => simp [blockTail] at hl; omega
  | cons t ts ih =>
    have h0 := h t (by simp)
    have ih := ih (fun t ht => h t (by simp [ht]))
    cases t with
    | jamo p r =>
      cases p <;> simp only [blockTail] at hl
      · exact ih hl
      · exact ih hl
      · cases hp : posOf tailLetters r with
        | none => simp [hp] at hl
        | some i =>
          have := posOf_lt hp
          have e : tailLetters.length = 27 := rfl
          simp only [hp, Option.map_some, Option.some.injEq] at hl; omega
    | syl l' m t =>
      simp only [TokOk] at h0
      cases t with
      | zero => exact ih hl
      | succ t => simp only [blockTail, Option.some.injEq] at hl; omega
    | other r => exact ih hl

theorem blockRune_cases {rs : List Rune} {b : List Tok} (h : ∀ t ∈ b, TokOk rs t) :
    (∃ r ∈ rs, blockRune b = r ∧ r ≠ 0x2D ∧ ¬ IsSyllable r ∧ ¬ IsJamo r) ∨
    IsSyllable (blockRune b) ∨ blockRune b = 0xFFFD := by
  unfold blockRune
  split
  · rename_i r
    have := h (.other r) (by simp)
    exact .inl ⟨r, this.1, rfl, this.2⟩
  · split
    · rename_i l m t h1 h2 h3
      have := blockLead_lt h h1
      have := blockMedial_lt h h2
      have := blockTail_lt h h3
      refine .inr (.inl ?_)
      unfold IsSyllable; omega
    · exact .inr (.inr rfl)

/-- Every character of the composition is a syllable, U+FFFD, or an input character that is neither
Hangul nor a hyphen. -/
theorem compose_mem {rs : List Rune} {x : Rune} (hx : x ∈ compose rs) :
    (x ∈ rs ∧ x ≠ 0x2D ∧ ¬ IsSyllable x ∧ ¬ IsJamo x) ∨ IsSyllable x ∨ x = 0xFFFD := by
  unfold compose at hx
  rw [splitBy_eq] at hx
  obtain ⟨b, hb, rfl⟩ := List.mem_map.1 hx
  have hm : ∀ t ∈ b, TokOk rs t := by
    intro t ht
    apply tokens_ok rs false
    have := groups_flatten (tokens false rs) []
    simp only [List.nil_append] at this
    rw [← this]
    exact List.mem_flatten.2 ⟨b, hb, ht⟩
  rcases blockRune_cases hm with ⟨r, h1, h2, h3⟩ | h | h
  · rw [h2]; exact .inl ⟨h1, h3⟩
  · exact .inr (.inl h)
  · exact .inr (.inr h)

theorem compose_nil : compose [] = [] := rfl

theorem compose_append_other {x : Rune} (hx : x ≠ 0x2D) (h1 : ¬ IsSyllable x) (h2 : ¬ IsJamo x)
    (a b : List Rune) : compose (a ++ x :: b) = compose a ++ x :: compose b := by
  unfold compose
  rw [splitBy_eq, splitBy_eq, splitBy_eq, tokens_append a b x hx]
  simp [h2, tokens, hx, h1, groups_append_other, blockRune]

theorem compose_append_syl {x : Rune} (h1 : IsSyllable x)
    (a b : List Rune) : compose (a ++ x :: b) = compose a ++ compose (x :: b) := by
  have hx : x ≠ 0x2D := by unfold IsSyllable at h1; omega
  unfold compose
  rw [splitBy_eq, splitBy_eq, splitBy_eq, tokens_append a b x hx]
  simp only [h1, true_or, if_true, tokens, hx, Char.reduceToNat, if_false]
  rw [groups_append_start _ (by simp [Starts])]
  simp

theorem blockRune_syl (l m t : Nat) : blockRune [.syl l m t] = 0xAC00 + (l * 21 + m) * 28 + t := by
  cases t <;> rfl

theorem compose_id {rs : List Rune} (h : ∀ r ∈ rs, r ≠ 0x2D ∧ ¬ IsJamo r) : compose rs = rs := by
  induction rs with
  | nil => rfl
  | cons r rs ih =>
    have ih := ih (fun x hx => h x (by simp [hx]))
    obtain ⟨h1, h2⟩ := h r (by simp)
    by_cases hs : IsSyllable r
    · unfold compose at ih ⊢
      rw [splitBy_eq] at ih ⊢
      have : ∀ t ∈ (tokens false rs).head?, Starts t := by
        intro t ht
        cases rs with
        | nil => simp [tokens] at ht
        | cons q qs =>
          obtain ⟨g1, g2⟩ := h q (by simp)
          simp [tokens, g1, g2] at ht
          subst ht
          split <;> simp [Starts]
      simp only [tokens, h1, Char.reduceToNat, if_false, hs, if_true, groups, List.getLast?_nil]
      have key : ∀ t : Tok, groups [t] (tokens false rs) = [t] :: groups [] (tokens false rs) := by
        intro t
        cases ht : tokens false rs with
        | nil => simp [groups]
        | cons u us => simp [groups, continues_starts (this u (by simp [ht]))]
      rw [key]
      simp only [List.map_cons, ih, List.cons.injEq, and_true]
      unfold IsSyllable at hs
      rw [blockRune_syl]
      omega
    · have := compose_append_other h1 hs h2 [] rs
      simpa [compose_nil, ih] using this

/-! ### Spelled syllables -/

theorem spell_facts : (∀ l : Fin 19, letter leadLetters l ≠ 0x2D ∧ ¬ IsSyllable (letter leadLetters l) ∧
      IsJamo (letter leadLetters l) ∧ isVowel (letter leadLetters l) = false ∧
      posOf leadLetters (letter leadLetters l) = some l.val) ∧
    (∀ l : Fin 21, letter medialLetters l ≠ 0x2D ∧ ¬ IsSyllable (letter medialLetters l) ∧
      IsJamo (letter medialLetters l) ∧ isVowel (letter medialLetters l) = true ∧
      posOf medialLetters (letter medialLetters l) = some l.val) ∧
    (∀ l : Fin 27, letter tailLetters l ≠ 0x2D ∧ ¬ IsSyllable (letter tailLetters l) ∧
      IsJamo (letter tailLetters l) ∧ isVowel (letter tailLetters l) = false ∧
      posOf tailLetters (letter tailLetters l) = some l.val) := by
  decide +kernel

theorem groups_starts {blk ts : List Tok} (hb : blk ≠ []) (h : ∀ t ∈ ts.head?, Starts t) :
    groups blk ts = blk :: groups [] ts := by
  cases ts with
  | nil => simp [groups, hb]
  | cons t ts =>
    rw [groups]
    split
    · simp_all
    · simp [continues_starts (h t (by simp)), groups]

theorem compose_spell (l : Fin 19) (m : Fin 21) (t : Fin 28) (rs : List Rune)
    (h : ∀ t ∈ (tokens false rs).head?, Starts t) :
    compose (spell l m t ++ rs) = syllable l m t :: compose rs := by
  obtain ⟨a1, a2, a3, a4, a5⟩ := spell_facts.1 l
  obtain ⟨b1, b2, b3, b4, b5⟩ := spell_facts.2.1 m
  unfold compose
  rw [splitBy_eq, splitBy_eq]
  by_cases ht : t.val = 0
  · simp [spell, ht, tokens, a1, a2, a3, a4, b1, b2, b3, b4, groups, continues, Tok.last, Place.rank]
    rw [groups_starts (by simp) h]
    simp [blockRune, blockLead, blockMedial, blockTail, a5, b5, syllable, ht]
  · obtain ⟨c1, c2, c3, c4, c5⟩ := spell_facts.2.2 ⟨t.val - 1, by omega⟩
    simp [spell, ht, tokens, a1, a2, a3, a4, b1, b2, b3, b4, groups, continues, Tok.last, Place.rank]
    simp only at c1 c2 c3 c4 c5
    simp [c1, c2, c3, c4, groups, Tok.last, Place.rank, continues]
    rw [groups_starts (by simp) h]
    simp [blockRune, blockLead, blockMedial, blockTail, a5, b5, c5, syllable]
    omega

theorem spell_head (l : Fin 19) (m : Fin 21) (t : Fin 28) (rs : List Rune) :
    ∀ x ∈ (tokens false (spell l m t ++ rs)).head?, Starts x := by
  obtain ⟨a1, a2, a3, a4, a5⟩ := spell_facts.1 l
  simp [spell, tokens, a1, a2, a3, a4, Starts]

end Verif.Jamo
