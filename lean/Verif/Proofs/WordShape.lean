import Verif.Proofs.WordRun
import Verif.Proofs.Hre

/-! Patterns which match inside a word. -/

namespace Verif.Words

open Verif.Rx

open Verif.Hre

/-! ## Edges of words -/

/-- `\s+` -/
def blanks : Re := .plus true (.cls false blankRanges)
/-- `\{\}` -/
def hint : Re := .cat [.lit [123], .lit [125]]
/-- `^` in a pattern: the begin of the text, white space or a hint. -/
def leftEdge : Re := .alt [.beginText, blanks, hint]
/-- `$` in a pattern: the end of the text, white space or a hint. -/
def rightEdge : Re := .alt [.endText, blanks, hint]

def isBlanks : Re → Bool
  | .plus true (.cls false rs) => rs == blankRanges
  | _ => false
def isHint : Re → Bool
  | .cat [.lit [123], .lit [125]] => true
  | _ => false
def isLeft : Re → Bool
  | .alt [.beginText, b, h] => isBlanks b && isHint h
  | _ => false
def isRight : Re → Bool
  | .alt [.endText, b, h] => isBlanks b && isHint h
  | _ => false

theorem isBlanks_eq {r : Re} (h : isBlanks r = true) : r = blanks := by
  unfold isBlanks at h
  split at h
  · simp at h; rw [h]; rfl
  · simp at h

theorem isHint_eq {r : Re} (h : isHint r = true) : r = hint := by
  unfold isHint at h
  split at h
  · rfl
  · simp at h

theorem isLeft_eq {r : Re} (h : isLeft r = true) : r = leftEdge := by
  unfold isLeft at h
  split at h
  · simp only [Bool.and_eq_true] at h
    rw [isBlanks_eq h.1, isHint_eq h.2]; rfl
  · simp at h

theorem isRight_eq {r : Re} (h : isRight r = true) : r = rightEdge := by
  unfold isRight at h
  split at h
  · simp only [Bool.and_eq_true] at h
    rw [isBlanks_eq h.1, isHint_eq h.2]; rfl
  · simp at h

theorem run_left (s : St) : run leftEdge s = check s.prev.isNone s ++ (run blanks s ++ run hint s) := by
  simp [leftEdge, run, runAlt]

theorem run_right (s : St) : run rightEdge s = check s.rest.isEmpty s ++ (run blanks s ++ run hint s) := by
  simp [rightEdge, run, runAlt]

theorem inner_hint : inner hint = true := by decide
theorem eats_hint : eats hint = true := by decide

theorem run_blanks (s : St) : run blanks s = plusLoop true (one blank) s.rest.length s := by
  have e : run (.cls false blankRanges) = one blank := by
    funext s
    simp only [run]
    congr 1
    funext c
    rw [inRanges_blank]
    simp
  show plusLoop true (run (.cls false blankRanges)) s.rest.length s = _
  rw [e]

/-- Past white space. -/
def skip : St → List (Rune × Nat) → St
  | s, [] => { s with rest := [] }
  | s, (c, n) :: t => if blank c then skip { s with prev := some c, pos := s.pos + n } t else { s with rest := (c, n) :: t }

/-- `\s+` before something which does not begin with white space. -/
theorem blanks_then {β : Type} {F : St → List β} (hF : ∀ s, Stuck s → F s = []) : ∀ (n : Nat) (s : St) {c : Rune} {k : Nat}
    {t : List (Rune × Nat)}, s.rest = (c, k) :: t → blank c = true → s.rest.length ≤ n →
    (plusLoop true (one blank) n s).flatMap F = F (skip s s.rest)
  | 0, s, c, k, t, e, _, hn => by simp [e] at hn
  | n + 1, s, c, k, t, e, hc, hn => by
    have e1 : one blank s = [{ s with prev := some c, pos := s.pos + k, rest := t }] := by
      simp [one, e, hc]
    have e2 : skip s s.rest = skip { s with prev := some c, pos := s.pos + k, rest := t } t := by
      rw [e, skip, if_pos hc]
      cases t with
      | nil => rfl
      | cons a t =>
        obtain ⟨d, m⟩ := a
        have : ∀ (u : List (Rune × Nat)) (s s' : St), s.prev = s'.prev → s.pos = s'.pos → s.caps = s'.caps →
            skip s u = skip s' u := by
          intro u
          induction u with
          | nil => intro s s' h1 h2 h3; simp [skip, h1, h2, h3]
          | cons a u ih =>
            intro s s' h1 h2 h3
            obtain ⟨d, m⟩ := a
            simp only [skip]
            split
            · exact ih _ _ rfl (by simp [h2]) h3
            · simp [h1, h2, h3]
        exact this _ _ _ rfl rfl rfl
    simp only [plusLoop, e1, List.flatMap_cons, List.flatMap_nil, List.append_nil]
    rw [if_pos (by simp [e]), if_true, List.flatMap_append]
    simp only [List.flatMap_cons, List.flatMap_nil, List.append_nil]
    rw [e2]
    cases t with
    | nil =>
      have : plusLoop true (one blank) n { s with prev := some c, pos := s.pos + k, rest := ([] : List (Rune × Nat)) } = [] := by
        cases n <;> simp [plusLoop, one]
      rw [this]
      simp [skip]
    | cons a t =>
      obtain ⟨d, m⟩ := a
      by_cases hd : blank d = true
      · rw [blanks_then hF n _ (c := d) (k := m) (t := t) rfl hd (by simp [e] at hn ⊢; omega)]
        rw [hF { s with prev := some c, pos := s.pos + k, rest := (d, m) :: t } (by
          intro c t h; simp at h; rw [← h.1]; exact hd)]
        simp
      · have : plusLoop true (one blank) n { s with prev := some c, pos := s.pos + k, rest := (d, m) :: t } = [] := by
          cases n <;> simp [plusLoop, one, hd]
        rw [this]
        simp [skip, hd]

theorem blanks_none {s : St} (h : ∀ c t, s.rest = c :: t → blank c.1 = false) : run blanks s = [] := by
  have e : one blank s = [] := by
    unfold one
    split
    · rename_i r n t e
      rw [if_neg (by simp [h _ _ e])]
    · rfl
  rw [run_blanks]
  cases s.rest.length <;> simp [plusLoop, e]

theorem skip_rest : ∀ (u : List (Rune × Nat)) (s : St), (skip s u).rest = u.dropWhile (fun c => blank c.1)
  | [], s => rfl
  | (c, n) :: t, s => by
    simp only [skip, List.dropWhile_cons]
    split
    · rw [skip_rest t]
    · rfl

theorem skip_caps : ∀ (u : List (Rune × Nat)) (s : St), (skip s u).caps = s.caps
  | [], s => rfl
  | (c, n) :: t, s => by
    simp only [skip]
    split
    · rw [skip_caps t]
    · rfl

theorem skip_pos : ∀ (u : List (Rune × Nat)) (s : St),
    (skip s u).pos = s.pos + width (u.takeWhile (fun c => blank c.1))
  | [], s => by simp [skip]
  | (c, n) :: t, s => by
    simp only [skip, List.takeWhile_cons]
    split
    · rw [skip_pos t]; simp; omega
    · simp

theorem skip_none {u : List (Rune × Nat)} {s : St} (h : ∀ c t, u = c :: t → blank c.1 = false) : skip s u = { s with rest := u } := by
  cases u with
  | nil => rfl
  | cons a u =>
    obtain ⟨c, n⟩ := a
    have := h _ _ rfl
    simp [skip, this]

mutual
/-- The expression matches no white space, except that it may end at the end of a word. -/
def tail : Re → Bool
  | .alt rs => isRight (.alt rs) || tailAlt rs
  | .cat rs => tailCat rs
  | r => inner r
def tailAlt : List Re → Bool
  | [] => true
  | r :: rs => tail r && tailAlt rs
def tailCat : List Re → Bool
  | [] => true
  | [r] => tail r
  | r :: rs => inner r && tailCat rs
end

/-! ## Within the first word -/

/-- The space between words. -/
def space : Rune × Nat := (0x20, 1)

/-- The text goes on with a space. -/
def Ext (β : List (Rune × Nat)) (s s' : St) : Prop :=
  s'.prev = s.prev ∧ s'.pos = s.pos ∧ s'.rest = s.rest ++ space :: β ∧ s'.caps = s.caps ∧
    ∀ c ∈ s.rest, blank c.1 = false

theorem ext_sim (β : List (Rune × Nat)) : Sim (fun c => blank c = false) (Ext β) where
  len := by
    rintro s s' t t' ⟨_, _, h1, _⟩ ⟨_, _, h2, _⟩
    rw [h1, h2]
    simp
  one := by
    rintro s s' p ⟨h1, h2, h3, h4, h5⟩ hp
    unfold one
    rw [h3]
    cases e : s.rest with
    | nil =>
      have : p space.1 = false := by
        cases h : p space.1 with
        | false => rfl
        | true => exact absurd (hp _ h) (by decide)
      simp only [List.nil_append]
      show Pairs _ [] (if p space.1 = true then _ else [])
      rw [if_neg (by simp [this])]
      exact .nil
    | cons a t =>
      obtain ⟨c, n⟩ := a
      simp only [List.cons_append]
      split
      · exact .one ⟨rfl, by simp [h2], rfl, h4, fun c hc => h5 c (by simp [e]; exact .inr hc)⟩
      · exact .nil
  set := by
    rintro s s' i ⟨h1, h2, h3, h4, h5⟩
    exact ⟨h1, h2, h3, by simp [setCap, h2, h4], h5⟩

/-- The captures up to `n` agree. -/
def Agree (n : Nat) (s s' : St) : Prop := ∀ i ≤ n, s'.caps[i]? = s.caps[i]?

theorem Ext.agree {β : List (Rune × Nat)} {s s' : St} (h : Ext β s s') (n : Nat) : Agree n s s' := by
  intro i _
  rw [h.2.2.2.1]

theorem keeps_all {r : Re} (hz : ∀ i, HasCap i r = false) {s t : St} (ht : t ∈ run r s) (i : Nat) :
    t.caps[i]? = s.caps[i]? := by
  rcases Nat.mod_two_eq_zero_or_one i with e | e
  · have := (run_keeps (hz (i / 2)) ht).1
    rwa [show 2 * (i / 2) = i by omega] at this
  · have := (run_keeps (hz (i / 2)) ht).2
    rwa [show 2 * (i / 2) + 1 = i by omega] at this

/-- The right edge of the first word is where the text goes on with a space. -/
theorem right_ext {β : List (Rune × Nat)} {n : Nat} {s s' : St} (h : Ext β s s') :
    Heads (Agree n) (run rightEdge s) (run rightEdge s') := by
  obtain ⟨h1, h2, h3, h4, h5⟩ := h
  have hh : Heads (Agree n) (run hint s) (run hint s') :=
    (steps_inner (ext_sim β) (fun _ h => h) hint inner_hint ⟨h1, h2, h3, h4, h5⟩).heads.mono fun _ _ h => h.agree n
  rw [run_right, run_right]
  cases e : s.rest with
  | nil =>
    have e1 : check s.rest.isEmpty s = [s] := by simp [e, check]
    have e2 : check s'.rest.isEmpty s' = [] := by simp [h3, check]
    have e3 : ∃ t l, run blanks s' = t :: l := by
      cases hb : run blanks s' with
      | cons t l => exact ⟨t, l, rfl⟩
      | nil =>
        exfalso
        have hb' := blanks_then (F := fun s => if s.rest = [] ∨ blank (s.rest.headD space).1 = true then ([] : List St) else [s])
          (by
            intro s hs
            cases hr : s.rest with
            | nil => simp
            | cons c t => simp [hs c t hr])
        have e5 : one blank s' = [{ s' with prev := some space.1, pos := s'.pos + space.2, rest := β }] := by
          simp [one, h3, e, space, blank]
        rw [run_blanks] at hb
        have hl : s'.rest.length = β.length + 1 := by simp [h3, e]
        rw [hl, plusLoop, e5] at hb
        simp [hl] at hb
    obtain ⟨t, l, e3⟩ := e3
    have e1 : check true s = [s] := rfl
    have e4 : check s'.rest.isEmpty s' = [] := e2
    rw [show ([] : List (Rune × Nat)).isEmpty = true from rfl, e1, e4, e3]
    refine .cons fun i _ => ?_
    have := keeps_all (r := blanks) (by intro i; simp [blanks, HasCap]) (s := s') (t := t) (by rw [e3]; simp) i
    rw [this, h4]
  | cons a t =>
    have e1 : check s'.rest.isEmpty s' = [] := by simp [h3, e, check]
    have hb : blank a.1 = false := h5 a (by simp [e])
    have e2 : run blanks s = [] := blanks_none fun c t h => by
      rw [e] at h; simp at h; rw [← h.1]; exact hb
    have e3 : run blanks s' = [] := blanks_none fun c t h => by
      rw [h3, e] at h; simp at h; rw [← h.1]; exact hb
    rw [e1, e2, e3]
    simpa [check] using hh

mutual
theorem tail_ext {β : List (Rune × Nat)} {n : Nat} : ∀ (r : Re), tail r = true → ∀ {s s' : St}, Ext β s s' →
    Heads (Agree n) (run r s) (run r s')
  | .alt rs, ht, s, s', h => by
    simp only [tail, Bool.or_eq_true] at ht
    rcases ht with ht | ht
    · rw [isRight_eq ht]
      exact right_ext h
    · simp only [run]
      exact tailAlt_ext rs ht h
  | .cat rs, ht, s, s', h => by
    simp only [run]
    exact tailCat_ext rs (by simpa [tail] using ht) h
  | .noMatch, ht, s, s', h => tail_ext_inner (by simpa [tail] using ht) h
  | .empty, ht, s, s', h => tail_ext_inner (by simpa [tail] using ht) h
  | .lit _, ht, s, s', h => tail_ext_inner (by simpa [tail] using ht) h
  | .cls _ _, ht, s, s', h => tail_ext_inner (by simpa [tail] using ht) h
  | .anyNotNL, ht, s, s', h => tail_ext_inner (by simpa [tail] using ht) h
  | .any, ht, s, s', h => tail_ext_inner (by simpa [tail] using ht) h
  | .beginLine, ht, s, s', h => tail_ext_inner (by simpa [tail] using ht) h
  | .endLine, ht, s, s', h => tail_ext_inner (by simpa [tail] using ht) h
  | .beginText, ht, s, s', h => tail_ext_inner (by simpa [tail] using ht) h
  | .endText, ht, s, s', h => tail_ext_inner (by simpa [tail] using ht) h
  | .wordB, ht, s, s', h => tail_ext_inner (by simpa [tail] using ht) h
  | .noWordB, ht, s, s', h => tail_ext_inner (by simpa [tail] using ht) h
  | .cap _ _, ht, s, s', h => tail_ext_inner (by simpa [tail] using ht) h
  | .star _ _, ht, s, s', h => tail_ext_inner (by simpa [tail] using ht) h
  | .plus _ _, ht, s, s', h => tail_ext_inner (by simpa [tail] using ht) h
  | .quest _ _, ht, s, s', h => tail_ext_inner (by simpa [tail] using ht) h
  | .rep _ _ _ _, ht, s, s', h => tail_ext_inner (by simpa [tail] using ht) h
theorem tail_ext_inner {β : List (Rune × Nat)} {n : Nat} {r : Re} (hi : inner r = true) {s s' : St} (h : Ext β s s') :
    Heads (Agree n) (run r s) (run r s') :=
  (steps_inner (ext_sim β) (fun _ h => h) r hi h).heads.mono fun _ _ h => h.agree n
theorem tailAlt_ext {β : List (Rune × Nat)} {n : Nat} : ∀ (rs : List Re), tailAlt rs = true → ∀ {s s' : St}, Ext β s s' →
    Heads (Agree n) (runAlt rs s) (runAlt rs s')
  | [], _, s, s', h => by simpa [runAlt] using Heads.nil
  | r :: rs, ht, s, s', h => by
    simp only [tailAlt, Bool.and_eq_true] at ht
    simp only [runAlt]
    exact (tail_ext r ht.1 h).append (tailAlt_ext rs ht.2 h)
theorem tailCat_ext {β : List (Rune × Nat)} {n : Nat} : ∀ (rs : List Re), tailCat rs = true → ∀ {s s' : St}, Ext β s s' →
    Heads (Agree n) (runCat rs s) (runCat rs s')
  | [], _, s, s', h => by simpa [runCat] using Heads.cons (h.agree n)
  | [r], ht, s, s', h => by
    simp only [runCat]
    have := tail_ext (n := n) r (by simpa [tailCat] using ht) h
    simpa using this
  | r :: r' :: rs, ht, s, s', h => by
    simp only [tailCat, Bool.and_eq_true] at ht
    rw [runCat, runCat]
    exact Heads.flatMap (steps_inner (ext_sim β) (fun _ h => h) r ht.1 h) fun a _ b _ hab =>
      tailCat_ext (r' :: rs) ht.2 hab
end

end Verif.Words
