import Verif.Proofs.Regexp

/-! Regular expressions on texts which agree up to white space at their ends. -/

namespace Verif.Words

open Verif.Rx

/-! ## Lists of related states -/

/-- The members are related in order. -/
inductive Pairs {α β : Type} (R : α → β → Prop) : List α → List β → Prop
  | nil : Pairs R [] []
  | cons {a : α} {b : β} {l : List α} {m : List β} (h : R a b) (t : Pairs R l m) : Pairs R (a :: l) (b :: m)

theorem Pairs.one {α β : Type} {R : α → β → Prop} {a : α} {b : β} (h : R a b) : Pairs R [a] [b] := .cons h .nil

theorem Pairs.append {α β : Type} {R : α → β → Prop} {l l' : List α} {m m' : List β} (h : Pairs R l m)
    (h' : Pairs R l' m') : Pairs R (l ++ l') (m ++ m') := by
  induction h with
  | nil => exact h'
  | cons h _ ih => exact .cons h ih

theorem Pairs.flatMap {α β γ δ : Type} {R : α → β → Prop} {S : γ → δ → Prop} {l : List α} {m : List β} (h : Pairs R l m)
    {F : α → List γ} {G : β → List δ} (hf : ∀ a ∈ l, ∀ b ∈ m, R a b → Pairs S (F a) (G b)) :
    Pairs S (l.flatMap F) (m.flatMap G) := by
  induction h with
  | nil => exact .nil
  | @cons a b l m h _ ih =>
    simp only [List.flatMap_cons]
    exact (hf a (by simp) b (by simp) h).append (ih fun a ha b hb => hf a (by simp [ha]) b (by simp [hb]))

theorem Pairs.map {α β γ δ : Type} {R : α → β → Prop} {S : γ → δ → Prop} {l : List α} {m : List β} (h : Pairs R l m)
    {F : α → γ} {G : β → δ} (hf : ∀ a b, R a b → S (F a) (G b)) : Pairs S (l.map F) (m.map G) := by
  induction h with
  | nil => exact .nil
  | cons h _ ih => exact .cons (hf _ _ h) ih

/-- Both lists are empty, or their first members are related. -/
def Heads {α β : Type} (R : α → β → Prop) (l : List α) (m : List β) : Prop :=
  (l = [] ∧ m = []) ∨ ∃ a l' b m', l = a :: l' ∧ m = b :: m' ∧ R a b

theorem Heads.nil {α β : Type} {R : α → β → Prop} : Heads R [] [] := .inl ⟨rfl, rfl⟩

theorem Heads.cons {α β : Type} {R : α → β → Prop} {a : α} {b : β} {l : List α} {m : List β} (h : R a b) :
    Heads R (a :: l) (b :: m) := .inr ⟨a, l, b, m, rfl, rfl, h⟩

theorem Pairs.heads {α β : Type} {R : α → β → Prop} {l : List α} {m : List β} (h : Pairs R l m) : Heads R l m := by
  cases h with
  | nil => exact .nil
  | cons h _ => exact .cons h

theorem Heads.append {α β : Type} {R : α → β → Prop} {l l' : List α} {m m' : List β} (h : Heads R l m)
    (h' : Heads R l' m') : Heads R (l ++ l') (m ++ m') := by
  rcases h with ⟨rfl, rfl⟩ | ⟨a, l1, b, m1, rfl, rfl, h⟩
  · exact h'
  · exact .cons h

theorem Heads.flatMap {α β γ δ : Type} {R : α → β → Prop} {S : γ → δ → Prop} {l : List α} {m : List β} (h : Pairs R l m)
    {F : α → List γ} {G : β → List δ} (hf : ∀ a ∈ l, ∀ b ∈ m, R a b → Heads S (F a) (G b)) :
    Heads S (l.flatMap F) (m.flatMap G) := by
  induction h with
  | nil => exact .nil
  | @cons a b l m h _ ih =>
    simp only [List.flatMap_cons]
    exact (hf a (by simp) b (by simp) h).append (ih fun a ha b hb => hf a (by simp [ha]) b (by simp [hb]))

theorem Heads.map {α β γ δ : Type} {R : α → β → Prop} {S : γ → δ → Prop} {l : List α} {m : List β} (h : Heads R l m)
    {F : α → γ} {G : β → δ} (hf : ∀ a b, R a b → S (F a) (G b)) : Heads S (l.map F) (m.map G) := by
  rcases h with ⟨rfl, rfl⟩ | ⟨a, l1, b, m1, rfl, rfl, h⟩
  · exact .nil
  · exact .cons (hf _ _ h)

theorem Heads.mono {α β : Type} {R S : α → β → Prop} {l : List α} {m : List β} (h : Heads R l m)
    (hf : ∀ a b, R a b → S a b) : Heads S l m := by
  rcases h with h | ⟨a, l1, b, m1, rfl, rfl, h⟩
  · exact .inl h
  · exact .cons (hf _ _ h)

/-! ## White space -/

/-- The members of `\s`. -/
def blank (c : Rune) : Bool := c == 9 || c == 10 || c == 12 || c == 13 || c == 32

/-- What `\s` stands for. -/
def blankRanges : List (Nat × Nat) := [(9, 10), (12, 13), (32, 32)]

theorem inRanges_blank (c : Rune) : inRanges blankRanges c = blank c := by
  rw [Bool.eq_iff_iff]
  simp [inRanges, blankRanges, blank]
  omega

/-! ## What an expression may look like -/

mutual
/-- The expression matches no white space and looks at nothing around a match. -/
def inner : Re → Bool
  | .noMatch | .empty => true
  | .lit rs => rs.all fun c => !blank c
  | .cls neg ranges => !neg && ranges.all fun p => Nat.beq p.1 p.2 && !blank p.1
  | .cap _ r | .star _ r | .plus _ r | .quest _ r | .rep _ _ _ r => inner r
  | .cat rs | .alt rs => innerList rs
  | _ => false
def innerList : List Re → Bool
  | [] => true
  | r :: rs => inner r && innerList rs
end

mutual
/-- The expression matches at least one character. -/
def eats : Re → Bool
  | .noMatch => true
  | .lit rs => !rs.isEmpty
  | .cls _ _ => true
  | .cap _ r | .plus _ r => eats r
  | .cat rs => eatsAny rs
  | .alt rs => eatsAll rs
  | _ => false
def eatsAny : List Re → Bool
  | [] => false
  | r :: rs => eats r || eatsAny rs
def eatsAll : List Re → Bool
  | [] => true
  | r :: rs => eats r && eatsAll rs
end

/-! ## Simulation -/

/-- A relation of states which is kept by reading admissible characters. -/
structure Sim (ok : Rune → Prop) (R : St → St → Prop) : Prop where
  len : ∀ {s s' t t'}, R s s' → R t t' → (t.rest.length < s.rest.length ↔ t'.rest.length < s'.rest.length)
  one : ∀ {s s'} (p : Rune → Bool), R s s' → (∀ c, p c = true → ok c) → Pairs R (one p s) (one p s')
  set : ∀ {s s'} (i : Nat), R s s' → R (setCap i s) (setCap i s')

/-- An expression keeps a relation. -/
def Steps (R : St → St → Prop) (f : St → List St) : Prop := ∀ {s s'}, R s s' → Pairs R (f s) (f s')

variable {ok : Rune → Prop} {R : St → St → Prop}

theorem steps_lits (h : Sim ok R) : ∀ (rs : List Rune), (∀ c ∈ rs, ok c) → Steps R (lits rs)
  | [], _, _, _, hs => .one hs
  | r :: rs, hr, s, s', hs => by
    simp only [lits]
    refine (h.one _ hs fun c hc => ?_).flatMap fun a _ b _ hab =>
      steps_lits h rs (fun c hc => hr c (by simp [hc])) hab
    have : c = r := by simpa using hc
    exact hr c (by simp [this])

/-- An expression never moves back. -/
def Down (f : St → List St) : Prop := ∀ s, ∀ t ∈ f s, t.rest.length ≤ s.rest.length

theorem steps_plusLoop (h : Sim ok R) {f : St → List St} (hf : Steps R f) (g : Bool) :
    ∀ (n n' : Nat) {s s' : St}, R s s' → s.rest.length ≤ n → s'.rest.length ≤ n' →
      Pairs R (plusLoop g f n s) (plusLoop g f n' s')
  | 0, 0, s, s', hs, _, _ => hf hs
  | 0, n' + 1, s, s', hs, h1, h2 => by
    have e : plusLoop g f 0 s = (f s).flatMap fun t => [t] := by simp [plusLoop]
    rw [e]
    simp only [plusLoop]
    refine (hf hs).flatMap fun a _ b _ hab => ?_
    have : ¬ b.rest.length < s'.rest.length := by rw [← h.len hs hab]; omega
    rw [if_neg this]
    exact .one hab
  | n + 1, 0, s, s', hs, h1, h2 => by
    have e : plusLoop g f 0 s' = (f s').flatMap fun t => [t] := by simp [plusLoop]
    rw [e]
    simp only [plusLoop]
    refine (hf hs).flatMap fun a _ b _ hab => ?_
    have : ¬ a.rest.length < s.rest.length := by rw [h.len hs hab]; omega
    rw [if_neg this]
    exact .one hab
  | n + 1, n' + 1, s, s', hs, h1, h2 => by
    simp only [plusLoop]
    refine (hf hs).flatMap fun a _ b _ hab => ?_
    have hl := h.len hs hab
    by_cases hc : a.rest.length < s.rest.length
    · rw [if_pos hc, if_pos (hl.1 hc)]
      have ih := steps_plusLoop h hf g n n' hab (by omega) (by have := hl.1 hc; omega)
      split
      · exact ih.append (.one hab)
      · exact .cons hab ih
    · rw [if_neg hc, if_neg (fun x => hc (hl.2 x))]
      exact .one hab

theorem steps_starLoop (h : Sim ok R) {f : St → List St} (hf : Steps R f) (g : Bool) : Steps R (starLoop g f) := by
  intro s s' hs
  have := steps_plusLoop h hf g s.rest.length s'.rest.length hs (Nat.le_refl _) (Nat.le_refl _)
  unfold starLoop
  split
  · exact this.append (.one hs)
  · exact .cons hs this

theorem steps_times {f : St → List St} (hf : Steps R f) : ∀ (n : Nat), Steps R (times f n)
  | 0, _, _, hs => .one hs
  | n + 1, _, _, hs => (hf hs).flatMap fun _ _ _ _ hab => steps_times hf n hab

theorem steps_upTo {f : St → List St} (hf : Steps R f) (g : Bool) : ∀ (n : Nat), Steps R (upTo g f n)
  | 0, _, _, hs => .one hs
  | n + 1, s, s', hs => by
    have := (hf hs).flatMap fun _ _ _ _ hab => steps_upTo hf g n hab
    simp only [upTo]
    split
    · exact this.append (.one hs)
    · exact .cons hs this

theorem steps_repLoop (h : Sim ok R) {f : St → List St} (hf : Steps R f) (mn : Nat) (mx : Option Nat) (g : Bool) :
    Steps R (repLoop mn mx g f) := by
  intro s s' hs
  unfold repLoop
  split
  · exact (steps_times hf _ hs).flatMap fun _ _ _ _ hab => steps_upTo hf g _ hab
  · split
    · exact steps_starLoop h hf g hs
    · exact (steps_times hf _ hs).flatMap fun _ _ _ _ hab =>
        steps_plusLoop h hf g _ _ hab (Nat.le_refl _) (Nat.le_refl _)

theorem singleton_mem {ranges : List (Nat × Nat)} (h : ∀ p ∈ ranges, Nat.beq p.1 p.2 = true ∧ blank p.1 = false) {c : Rune}
    (hc : inRanges ranges c = true) : blank c = false := by
  simp only [inRanges, List.any_eq_true, Bool.and_eq_true, decide_eq_true_eq] at hc
  obtain ⟨p, hp, h1, h2⟩ := hc
  obtain ⟨h3, h4⟩ := h p hp
  have h3 := Nat.eq_of_beq_eq_true h3
  have : c = p.1 := by omega
  rw [this]; exact h4

theorem cls_inner {neg : Bool} {ranges : List (Nat × Nat)} (h : inner (.cls neg ranges) = true) {c : Rune}
    (hc : (inRanges ranges c != neg) = true) : blank c = false := by
  simp only [inner, Bool.and_eq_true, Bool.not_eq_true', List.all_eq_true] at h
  rw [h.1] at hc
  exact singleton_mem h.2 (by simpa using hc)

theorem lit_inner {rs : List Rune} (h : inner (.lit rs) = true) : ∀ c ∈ rs, blank c = false := by
  simpa [inner] using h

mutual
theorem steps_inner (h : Sim ok R) (hk : ∀ c, blank c = false → ok c) : ∀ (r : Re), inner r = true → Steps R (run r)
  | .noMatch, _, _, _, hs => by simpa [run] using Pairs.nil
  | .empty, _, _, _, hs => by simpa [run] using Pairs.one hs
  | .lit rs, hi, _, _, hs => by
    simpa [run] using steps_lits h rs (fun c hc => hk c (lit_inner hi c hc)) hs
  | .cls neg ranges, hi, _, _, hs => by
    simpa only [run] using h.one _ hs fun c hc => hk c (cls_inner hi hc)
  | .anyNotNL, hi, _, _, _ => by simp [inner] at hi
  | .any, hi, _, _, _ => by simp [inner] at hi
  | .beginLine, hi, _, _, _ => by simp [inner] at hi
  | .endLine, hi, _, _, _ => by simp [inner] at hi
  | .beginText, hi, _, _, _ => by simp [inner] at hi
  | .endText, hi, _, _, _ => by simp [inner] at hi
  | .wordB, hi, _, _, _ => by simp [inner] at hi
  | .noWordB, hi, _, _, _ => by simp [inner] at hi
  | .cap i r, hi, _, _, hs => by
    simp only [run]
    exact (steps_inner h hk r (by simpa [inner] using hi) (h.set _ hs)).map fun _ _ => h.set _
  | .star g r, hi, _, _, hs => by
    simp only [run]
    exact steps_starLoop h (fun h' => steps_inner h hk r (by simpa [inner] using hi) h') g hs
  | .plus g r, hi, _, _, hs => by
    simp only [run]
    exact steps_plusLoop h (fun h' => steps_inner h hk r (by simpa [inner] using hi) h') g _ _ hs (Nat.le_refl _) (Nat.le_refl _)
  | .quest g r, hi, _, _, hs => by
    have := steps_inner h hk r (by simpa [inner] using hi) hs
    simp only [run]
    split
    · exact this.append (.one hs)
    · exact .cons hs this
  | .rep mn mx g r, hi, _, _, hs => by
    simp only [run]
    exact steps_repLoop h (fun h' => steps_inner h hk r (by simpa [inner] using hi) h') mn mx g hs
  | .cat rs, hi, _, _, hs => by
    simp only [run]
    exact steps_innerCat h hk rs (by simpa [inner] using hi) hs
  | .alt rs, hi, _, _, hs => by
    simp only [run]
    exact steps_innerAlt h hk rs (by simpa [inner] using hi) hs
theorem steps_innerCat (h : Sim ok R) (hk : ∀ c, blank c = false → ok c) : ∀ (rs : List Re), innerList rs = true →
    Steps R (runCat rs)
  | [], _, _, _, hs => by simpa [runCat] using Pairs.one hs
  | r :: rs, hi, _, _, hs => by
    simp only [innerList, Bool.and_eq_true] at hi
    simp only [runCat]
    exact (steps_inner h hk r hi.1 hs).flatMap fun _ _ _ _ hab => steps_innerCat h hk rs hi.2 hab
theorem steps_innerAlt (h : Sim ok R) (hk : ∀ c, blank c = false → ok c) : ∀ (rs : List Re), innerList rs = true →
    Steps R (runAlt rs)
  | [], _, _, _, hs => by simpa [runAlt] using Pairs.nil
  | r :: rs, hi, _, _, hs => by
    simp only [innerList, Bool.and_eq_true] at hi
    simp only [runAlt]
    exact (steps_inner h hk r hi.1 hs).append (steps_innerAlt h hk rs hi.2 hs)
end

/-! ## At white space -/

/-- The text is at its end or at white space. -/
def Stuck (s : St) : Prop := ∀ c t, s.rest = c :: t → blank c.1 = true

theorem one_stuck {p : Rune → Bool} (hp : ∀ c, p c = true → blank c = false) {s : St} (hs : Stuck s) : one p s = [] := by
  unfold one
  split
  · rename_i r n t e
    have := hs _ _ e
    split
    · rename_i h
      rw [hp r h] at this
      simp at this
    · rfl
  · rfl

/-- The text ahead is the same. -/
def Same (s t : St) : Prop := t.rest = s.rest

theorem Stuck.same {s t : St} (h : Stuck s) (e : t.rest = s.rest) : Stuck t := by
  unfold Stuck at *
  rwa [e]

/-- On texts at their end or at white space nothing is read. -/
def Still (f : St → List St) : Prop := ∀ s, Stuck s → ∀ t ∈ f s, t.rest = s.rest

theorem still_plusLoop {f : St → List St} (hf : Still f) (g : Bool) : ∀ n, Still (plusLoop g f n)
  | 0, s, hs, t, ht => hf s hs t ht
  | n + 1, s, hs, t, ht => by
    simp only [plusLoop, List.mem_flatMap] at ht
    obtain ⟨u, hu, ht⟩ := ht
    have e := hf s hs u hu
    rw [if_neg (by rw [e]; omega)] at ht
    simp at ht
    rw [ht, e]

theorem still_starLoop {f : St → List St} (hf : Still f) (g : Bool) : Still (starLoop g f) := by
  intro s hs t ht
  have := still_plusLoop hf g s.rest.length s hs t
  unfold starLoop at ht
  split at ht
  · rcases List.mem_append.1 ht with ht | ht
    · exact this ht
    · simp at ht; rw [ht]
  · rcases List.mem_cons.1 ht with rfl | ht
    · rfl
    · exact this ht

theorem still_times {f : St → List St} (hf : Still f) : ∀ n, Still (times f n)
  | 0, s, hs, t, ht => by simp [times] at ht; rw [ht]
  | n + 1, s, hs, t, ht => by
    simp only [times, List.mem_flatMap] at ht
    obtain ⟨u, hu, ht⟩ := ht
    have e := hf s hs u hu
    rw [still_times hf n u (hs.same e) t ht, e]

theorem still_upTo {f : St → List St} (hf : Still f) (g : Bool) : ∀ n, Still (upTo g f n)
  | 0, s, hs, t, ht => by simp [upTo] at ht; rw [ht]
  | n + 1, s, hs, t, ht => by
    have key : ∀ t ∈ (f s).flatMap (upTo g f n), t.rest = s.rest := by
      intro t ht
      simp only [List.mem_flatMap] at ht
      obtain ⟨u, hu, ht⟩ := ht
      have e := hf s hs u hu
      rw [still_upTo hf g n u (hs.same e) t ht, e]
    simp only [upTo] at ht
    split at ht
    · rcases List.mem_append.1 ht with ht | ht
      · exact key t ht
      · simp at ht; rw [ht]
    · rcases List.mem_cons.1 ht with rfl | ht
      · rfl
      · exact key t ht

theorem still_repLoop {f : St → List St} (hf : Still f) (mn : Nat) (mx : Option Nat) (g : Bool) :
    Still (repLoop mn mx g f) := by
  intro s hs t ht
  unfold repLoop at ht
  split at ht
  · simp only [List.mem_flatMap] at ht
    obtain ⟨u, hu, ht⟩ := ht
    have e := still_times hf _ s hs u hu
    rw [still_upTo hf g _ u (hs.same e) t ht, e]
  · split at ht
    · exact still_starLoop hf g s hs t ht
    · simp only [List.mem_flatMap] at ht
      obtain ⟨u, hu, ht⟩ := ht
      have e := still_times hf _ s hs u hu
      rw [still_plusLoop hf g _ u (hs.same e) t ht, e]

theorem still_lits : ∀ (rs : List Rune), (∀ c ∈ rs, blank c = false) → Still (lits rs)
  | [], _, s, _, t, ht => by simp [lits] at ht; rw [ht]
  | r :: rs, h, s, hs, t, ht => by
    simp only [lits] at ht
    rw [one_stuck (fun c hc => h c (by simp at hc; simp [hc])) hs] at ht
    simp at ht

mutual
theorem still_inner : ∀ (r : Re), inner r = true → Still (run r)
  | .noMatch, _, s, hs, t, ht => by simp [run] at ht
  | .empty, _, s, hs, t, ht => by simp [run] at ht; rw [ht]
  | .lit rs, hi, s, hs, t, ht => still_lits rs (lit_inner hi) s hs t (by simpa [run] using ht)
  | .cls neg ranges, hi, s, hs, t, ht => by
    simp only [run] at ht
    rw [one_stuck (fun c hc => cls_inner hi hc) hs] at ht
    simp at ht
  | .anyNotNL, hi, _, _, _, _ => by simp [inner] at hi
  | .any, hi, _, _, _, _ => by simp [inner] at hi
  | .beginLine, hi, _, _, _, _ => by simp [inner] at hi
  | .endLine, hi, _, _, _, _ => by simp [inner] at hi
  | .beginText, hi, _, _, _, _ => by simp [inner] at hi
  | .endText, hi, _, _, _, _ => by simp [inner] at hi
  | .wordB, hi, _, _, _, _ => by simp [inner] at hi
  | .noWordB, hi, _, _, _, _ => by simp [inner] at hi
  | .cap i r, hi, s, hs, t, ht => by
    simp only [run, List.mem_map] at ht
    obtain ⟨u, hu, rfl⟩ := ht
    exact still_inner r (by simpa [inner] using hi) (setCap (2 * i) s) (hs.same rfl) u hu
  | .star g r, hi, s, hs, t, ht => by
    simp only [run] at ht
    exact still_starLoop (still_inner r (by simpa [inner] using hi)) g s hs t ht
  | .plus g r, hi, s, hs, t, ht => by
    simp only [run] at ht
    exact still_plusLoop (still_inner r (by simpa [inner] using hi)) g _ s hs t ht
  | .quest g r, hi, s, hs, t, ht => by
    simp only [run] at ht
    rcases quest_mem ht with rfl | ht
    · rfl
    · exact still_inner r (by simpa [inner] using hi) s hs t ht
  | .rep mn mx g r, hi, s, hs, t, ht => by
    simp only [run] at ht
    exact still_repLoop (still_inner r (by simpa [inner] using hi)) mn mx g s hs t ht
  | .cat rs, hi, s, hs, t, ht => by
    simp only [run] at ht
    exact still_innerCat rs (by simpa [inner] using hi) s hs t ht
  | .alt rs, hi, s, hs, t, ht => by
    simp only [run] at ht
    exact still_innerAlt rs (by simpa [inner] using hi) s hs t ht
theorem still_innerCat : ∀ (rs : List Re), innerList rs = true → Still (runCat rs)
  | [], _, s, hs, t, ht => by simp [runCat] at ht; rw [ht]
  | r :: rs, hi, s, hs, t, ht => by
    simp only [innerList, Bool.and_eq_true] at hi
    simp only [runCat, List.mem_flatMap] at ht
    obtain ⟨u, hu, ht⟩ := ht
    have e := still_inner r hi.1 s hs u hu
    rw [still_innerCat rs hi.2 u (hs.same e) t ht, e]
theorem still_innerAlt : ∀ (rs : List Re), innerList rs = true → Still (runAlt rs)
  | [], _, s, hs, t, ht => by simp [runAlt] at ht
  | r :: rs, hi, s, hs, t, ht => by
    simp only [innerList, Bool.and_eq_true] at hi
    simp only [runAlt, List.mem_append] at ht
    rcases ht with ht | ht
    · exact still_inner r hi.1 s hs t ht
    · exact still_innerAlt rs hi.2 s hs t ht
end

mutual
/-- What must read a character fails at white space. -/
theorem eats_stuck : ∀ (r : Re), inner r = true → eats r = true → ∀ {s : St}, Stuck s → run r s = []
  | .noMatch, _, _, s, hs => by simp [run]
  | .empty, _, he, _, _ => by simp [eats] at he
  | .lit rs, hi, he, s, hs => by
    cases rs with
    | nil => simp [eats] at he
    | cons r rs =>
      simp only [run, lits]
      rw [one_stuck (fun c hc => lit_inner hi c (by simp at hc; simp [hc])) hs]
      rfl
  | .cls neg ranges, hi, he, s, hs => by
    simp only [run]
    exact one_stuck (fun c hc => cls_inner hi hc) hs
  | .anyNotNL, hi, _, _, _ => by simp [inner] at hi
  | .any, hi, _, _, _ => by simp [inner] at hi
  | .beginLine, hi, _, _, _ => by simp [inner] at hi
  | .endLine, hi, _, _, _ => by simp [inner] at hi
  | .beginText, hi, _, _, _ => by simp [inner] at hi
  | .endText, hi, _, _, _ => by simp [inner] at hi
  | .wordB, hi, _, _, _ => by simp [inner] at hi
  | .noWordB, hi, _, _, _ => by simp [inner] at hi
  | .cap i r, hi, he, s, hs => by
    simp only [run]
    rw [eats_stuck r (by simpa [inner] using hi) (by simpa [eats] using he) (s := setCap (2 * i) s) (hs.same rfl)]
    rfl
  | .star _ _, _, he, _, _ => by simp [eats] at he
  | .quest _ _, _, he, _, _ => by simp [eats] at he
  | .rep _ _ _ _, _, he, _, _ => by simp [eats] at he
  | .plus g r, hi, he, s, hs => by
    have e := eats_stuck r (by simpa [inner] using hi) (by simpa [eats] using he) hs
    simp only [run]
    cases s.rest.length with
    | zero => simpa [plusLoop] using e
    | succ n => simp [plusLoop, e]
  | .cat rs, hi, he, s, hs => by
    simp only [run]
    exact eatsAny_stuck rs (by simpa [inner] using hi) (by simpa [eats] using he) hs
  | .alt rs, hi, he, s, hs => by
    simp only [run]
    exact eatsAll_stuck rs (by simpa [inner] using hi) (by simpa [eats] using he) hs
theorem eatsAny_stuck : ∀ (rs : List Re), innerList rs = true → eatsAny rs = true → ∀ {s : St}, Stuck s →
    runCat rs s = []
  | [], _, he, _, _ => by simp [eatsAny] at he
  | r :: rs, hi, he, s, hs => by
    simp only [innerList, Bool.and_eq_true] at hi
    simp only [eatsAny, Bool.or_eq_true] at he
    simp only [runCat]
    rcases he with he | he
    · rw [eats_stuck r hi.1 he hs]; rfl
    · rw [List.flatMap_eq_nil_iff]
      intro u hu
      exact eatsAny_stuck rs hi.2 he (hs.same (still_inner r hi.1 s hs u hu))
theorem eatsAll_stuck : ∀ (rs : List Re), innerList rs = true → eatsAll rs = true → ∀ {s : St}, Stuck s →
    runAlt rs s = []
  | [], _, _, _, _ => by simp [runAlt]
  | r :: rs, hi, he, s, hs => by
    simp only [innerList, Bool.and_eq_true] at hi
    simp only [eatsAll, Bool.and_eq_true] at he
    simp only [runAlt]
    rw [eats_stuck r hi.1 he.1 hs, eatsAll_stuck rs hi.2 he.2 hs]
    rfl
end

end Verif.Words
