import Verif.Proofs.LaidText

/-! The parts of a pattern that passes the quick check are regular expressions on their own. -/

namespace Verif.Hre.Laid

open Verif.Rx Verif.Spec Verif.Spec.Hre

/-- A complete text. -/
def Whole (bars : Bool) (x : Bytes) : Prop := ∃ l, walk true bars 0 .nothing (nums x) = some (0, l) ∧ Ready l

theorem whole_nil (bars : Bool) : Whole bars [] := ⟨.nothing, rfl, .inl rfl⟩

theorem done_iff {d : Nat} {l : Last} (h : done d l = true) : d = 0 ∧ Ready l := by
  cases d <;> cases l <;> simp [done, Ready] at h ⊢

theorem Le.ready {l l' : Last} (h : Le l l') (hr : Ready l) : Ready l' := by
  rcases h with rfl | ⟨_, rfl | rfl⟩
  · exact hr
  · exact .inr (.inl rfl)
  · exact .inr (.inr rfl)

theorem laid_carets {bars : Bool} {y : Bytes} : ∀ (n : Nat),
    laidFrom bars false 0 .nothing (List.replicate n 0x5E ++ y) = true → laidFrom bars false 0 .nothing y = true
  | 0, h => h
  | n + 1, h => laid_carets n (by simpa [List.replicate_succ, laidFrom, step, fresh] using h)

/-- A lookaround is read to its end. -/
theorem laid_look {bars : Bool} {y : Bytes} : ∀ {look : Bytes} {d : Nat} {l : Last}, 0x7D ∉ look →
    laidFrom bars true d l (look ++ 0x7D :: y) = true →
    ∃ d' l', walk true true d l (nums look) = some (d', l') ∧ done d' l' = true ∧ laidFrom bars false 0 .nothing y = true
  | [], d, l, _, h => by
    simp only [List.nil_append, laidFrom] at h
    simp at h
    exact ⟨d, l, rfl, h.1, h.2⟩
  | c :: look, d, l, hm, h => by
    simp only [List.mem_cons, not_or] at hm
    simp only [List.cons_append, laidFrom] at h
    split at h
    · simp at h
    · rw [if_neg (by simp [Ne.symm hm.1])] at h
      simp only [Bool.or_true] at h
      split at h
      · simp at h
      · rename_i d1 l1 hs
        obtain ⟨d', l', h1, h2, h3⟩ := laid_look hm.2 h
        exact ⟨d', l', (walk_step hs _).trans h1, h2, h3⟩

/-- Lookarounds end, and none is inside another one. -/
theorem laid_closes {bars : Bool} : ∀ {x : Bytes} {d : Nat} {l : Last}, laidFrom bars true d l x = true →
    ∃ look y, x = look ++ 0x7D :: y ∧ 0x7B ∉ look
  | [], d, l, h => by simp [laidFrom] at h
  | c :: x, d, l, h => by
    simp only [laidFrom] at h
    split at h
    · simp at h
    · rename_i hc
      split at h
      · rename_i hc2
        simp at hc2
        exact ⟨[], x, by simp [hc2], by simp⟩
      · split at h
        · simp at h
        · obtain ⟨look, y, rfl, h2⟩ := laid_closes h
          exact ⟨c :: look, y, rfl, by simp [h2, Ne.symm hc]⟩

theorem split_first {c : UInt8} : ∀ {x : Bytes}, c ∈ x → ∃ a b, x = a ++ c :: b ∧ c ∉ a
  | [], h => by simp at h
  | d :: x, h => by
    by_cases hd : d = c
    · exact ⟨[], x, by simp [hd], by simp⟩
    · obtain ⟨a, b, rfl, h2⟩ := split_first (c := c) (x := x) (by simpa [Ne.symm hd] using h)
      exact ⟨d :: a, b, rfl, by simp [h2, Ne.symm hd]⟩

/-- The core is read to its end. -/
theorem laid_core {bars : Bool} {y : Bytes} (hy : ∀ look z, y = look ++ 0x7D :: z → 0x7B ∈ look) :
    ∀ {core : Bytes} {d : Nat} {l : Last}, Clean core → laidFrom bars false d l (core ++ y) = true →
    ∃ d' l', walk true bars d l (nums core) = some (d', l') ∧ laidFrom bars false d' l' y = true
  | [], d, l, _, h => ⟨d, l, rfl, h⟩
  | c :: core, d, l, hc, h => by
    simp only [List.cons_append, laidFrom] at h
    split at h
    · rename_i hb
      subst hb
      simp only [Bool.not_false, Bool.true_and] at h
      split at h
      · simp only [Bool.and_eq_true, bne_iff_ne, ne_eq] at h
        obtain ⟨d', l', h1, h2⟩ := laid_core hy hc.tail h.2
        refine ⟨d', l', ?_, h2⟩
        have hr : Ready l := by cases l <;> simp [Ready] at h ⊢
        have hs : step true bars d l (0x7B : UInt8).toNat = some (d, .brace) := by
          rw [step_ready hr]
          rfl
        exact (walk_step hs _).trans h1
      · rename_i hh
        simp only [Bool.and_eq_true] at h
        exfalso
        have hn : 0x7D ∉ core := by
          intro hm
          obtain ⟨a, b, rfl, ha⟩ := split_first hm
          refine hc [] a b ?_ ha rfl
          rintro rfl
          simp at hh
        obtain ⟨look, z, e, hl⟩ := laid_closes h.2
        rcases List.append_eq_append_iff.1 e with ⟨m, rfl, e2⟩ | ⟨m, e1, e2⟩
        · exact hl (by simp [hy m z e2])
        · cases m with
          | nil => exact absurd (hy [] z (by simpa using e2.symm)) (by simp)
          | cons q m =>
            simp only [List.cons_append, List.cons.injEq] at e2
            exact hn (by rw [e1, ← e2.1]; simp)
    · simp only [Bool.and_false, Bool.false_eq_true, if_false, Bool.or_false] at h
      split at h
      · simp at h
      · rename_i d1 l1 hs
        obtain ⟨d', l', h1, h2⟩ := laid_core hy hc.tail h
        exact ⟨d', l', (walk_step hs _).trans h1, h2⟩

theorem laid_dollars {bars : Bool} : ∀ {n : Nat} {d : Nat} {l : Last},
    laidFrom bars false d l (List.replicate n 0x24) = true → d = 0 ∧ Ready l
  | 0, d, l, h => done_iff (by simpa [laidFrom] using h)
  | n + 1, d, l, h => by
    rw [List.replicate_succ, laidFrom] at h
    simp only [Bool.and_false, Bool.false_eq_true, if_false, Bool.or_false] at h
    rw [if_neg (by decide)] at h
    split at h
    · simp at h
    · rename_i d1 l1 hs
      have hr : Ready l := by cases l <;> simp [step, Ready] at hs ⊢
      rw [step_ready hr] at hs
      have : d1 = d := by
        have h24 : (0x24 : UInt8).toNat = 0x24 := rfl
        rw [h24] at hs
        simp [fresh] at hs
        exact hs.1.symm
      subst this
      exact ⟨(laid_dollars h).1, hr⟩

theorem laid_end {bars : Bool} {look : Bytes} {n d : Nat} {l : Last} (hl : 0x7D ∉ look)
    (h : laidFrom bars false d l (braced look ++ List.replicate n 0x24) = true) : d = 0 ∧ Ready l ∧ Whole true look := by
  by_cases h0 : look = []
  · subst h0
    obtain ⟨h1, h2⟩ := laid_dollars (show laidFrom bars false d l (List.replicate n 0x24) = true by simpa [braced] using h)
    exact ⟨h1, h2, whole_nil _⟩
  · rw [braced, if_neg h0] at h
    simp only [List.cons_append, List.nil_append, List.append_assoc, laidFrom, if_true] at h
    rw [if_neg (by
      cases look with
      | nil => exact absurd rfl h0
      | cons a look => simp at hl ⊢; exact fun e => hl.1 e.symm)] at h
    simp only [Bool.not_false, Bool.true_and, Bool.and_eq_true] at h
    obtain ⟨d', l', h1, h2, h3⟩ := laid_look hl h.2
    obtain ⟨rfl, hr⟩ := done_iff h2
    obtain ⟨rfl, hr'⟩ := done_iff h.1
    exact ⟨rfl, hr', l', h1, hr⟩

theorem laid_begin {bars : Bool} {look y : Bytes} (hl : 0x7D ∉ look)
    (h : laidFrom bars false 0 .nothing (braced look ++ y) = true) :
    Whole true look ∧ laidFrom bars false 0 .nothing y = true := by
  by_cases h0 : look = []
  · subst h0
    exact ⟨whole_nil _, by simpa [braced] using h⟩
  · rw [braced, if_neg h0] at h
    simp only [List.cons_append, List.nil_append, List.append_assoc, laidFrom, if_true] at h
    rw [if_neg (by
      cases look with
      | nil => exact absurd rfl h0
      | cons a look => simp at hl ⊢; exact fun e => hl.1 e.symm)] at h
    simp only [Bool.not_false, Bool.true_and, Bool.and_eq_true] at h
    obtain ⟨d', l', h1, h2, h3⟩ := laid_look hl h.2
    obtain ⟨rfl, hr⟩ := done_iff h2
    exact ⟨⟨l', h1, hr⟩, h3⟩

/-- The lookarounds and the core are complete. -/
theorem laid_pieces {bars : Bool} {x : Bytes} {p : Pattern} (sh : Shape x p) (hc : Clean sh.core)
    (h : laidFrom bars false 0 .nothing x = true) :
    Whole true sh.lookB ∧ Whole bars sh.core ∧ Whole true sh.lookA := by
  rw [sh.text] at h
  obtain ⟨h1, h2⟩ := laid_begin sh.noB (laid_carets _ h)
  obtain ⟨d, l, h3, h4⟩ := laid_core (by
    intro look z e
    unfold braced at e
    split at e
    · have : (0x7D : UInt8) ∈ List.replicate sh.na (0x24 : UInt8) := by
        rw [show List.replicate sh.na (0x24 : UInt8) = look ++ 0x7D :: z by simpa using e]
        simp
      simp at this
    · cases look with
      | nil => simp at e
      | cons a look => simp only [List.cons_append, List.cons.injEq] at e; simp [← e.1]) hc h2
  obtain ⟨rfl, hr, h5⟩ := laid_end sh.noA h4
  exact ⟨h1, ⟨l, h3, hr⟩, h5⟩

theorem whole_edges {bars : Bool} {x : Bytes} (h : Whole bars x) (hv : ValidUtf8 (expandEdges x)) :
    (∃ re, compile (expandEdges x) = .ok re) ∧ (bars = false → NoBar (expandEdges x)) := by
  obtain ⟨l, h1, h2⟩ := h
  obtain ⟨l', h3, h4⟩ := walk_mono h1 (.inl rfl)
  exact compiles hv (walk_expandEdges h3) (h4.ready h2)

theorem whole_look {x : Bytes} (h : Whole true x) (hv : ValidUtf8 (expandEdges (posLook x))) :
    ∃ re, compile (expandEdges (posLook x)) = .ok re := by
  unfold posLook at *
  split
  · exact ⟨.empty, rfl⟩
  · rename_i hx
    rw [if_neg hx] at hv
    obtain ⟨l, h1, h2⟩ := h
    obtain ⟨l', h3, h4⟩ := walk_noCapture h1 (.inl rfl)
    exact (compiles hv (walk_expandEdges h3) (h4.ready h2)).1

theorem whole_neg {e : Bytes} (h : Whole true (0x7E :: e)) (hv : ValidUtf8 (noCapture e)) :
    ∃ re, compile (noCapture e) = .ok re := by
  obtain ⟨l, h1, h2⟩ := h
  have hs : step true true 0 .nothing (0x7E : UInt8).toNat = some (0, .nothing) := rfl
  have h1 : walk true true 0 .nothing (nums e) = some (0, l) := (walk_step hs _).symm.trans h1
  obtain ⟨l', h3, h4⟩ := walk_noCapture h1 (.inl rfl)
  exact (compiles hv h3 (h4.ready h2)).1

theorem compile_valid {x : Bytes} {re : Re} (h : compile x = .ok re) : ValidUtf8 x := by
  unfold compile at h
  split at h
  · assumption
  · simp at h

theorem valid_paren {a y : Bytes} (h : ValidUtf8 (paren a ++ y)) : ValidUtf8 a ∧ ValidUtf8 y := by
  have h0 := (valid_ascii (c := 0x28) (by decide) (a := []) (b := a ++ 0x29 :: y) (by simpa [paren] using h)).2
  exact valid_ascii (by decide) h0

/-- A pattern that passes the quick check: its parts are regular expressions on their own, and there is no bar outside
of groups, or there are no lookarounds and no edges. -/
theorem laid_compiles {x : Bytes} {p : Pattern} (sh : Shape x p) (hc : Clean sh.core) (h : laid x = true) :
    (∃ rb, compile (expandEdges (posLook sh.lookB)) = .ok rb) ∧ (∃ rc, compile (expandEdges sh.core) = .ok rc) ∧
    (∃ ra, compile (expandEdges (posLook sh.lookA)) = .ok ra) ∧
    (∀ e, (sh.lookA = 0x7E :: e ∧ sh.na = 0) ∨ (sh.lookB = 0x7E :: e ∧ sh.nb = 0) → ∃ re, compile (noCapture e) = .ok re) ∧
    (NoBar (expandEdges sh.core) ∨ (sh.nb = 0 ∧ sh.lookB = [] ∧ sh.lookA = [] ∧ sh.na = 0)) := by
  have hv := compile_valid sh.re
  have hv2 := valid_paren (valid_paren hv).2
  have hv3 := valid_ascii (c := 0x28) (by decide) (a := expandEdges sh.core)
    (b := expandEdges (posLook sh.lookA) ++ 0x29 :: paren (expandEdges (List.replicate sh.na 0x24)))
    (by simpa [paren] using hv2.2)
  have hv4 := valid_ascii (by decide) hv3.2
  have hneg : Whole true sh.lookB → Whole true sh.lookA →
      ∀ e, (sh.lookA = 0x7E :: e ∧ sh.na = 0) ∨ (sh.lookB = 0x7E :: e ∧ sh.nb = 0) → ∃ re, compile (noCapture e) = .ok re := by
    rintro h1 h2 e (⟨h3, h4⟩ | ⟨h3, h4⟩)
    · have hA := sh.negA
      rw [NegOf, if_pos ⟨by rw [h3]; rfl, h4⟩] at hA
      obtain ⟨re, hre, _⟩ := hA
      rw [h3] at h2 hre
      have := valid_ascii (c := 0x5E) (by decide) (a := []) (b := paren (noCapture e)) (by simpa using compile_valid hre)
      exact whole_neg h2 (valid_paren (y := []) (by simpa using this.2)).1
    · have hB := sh.negB
      rw [NegOf, if_pos ⟨by rw [h3]; rfl, h4⟩] at hB
      obtain ⟨re, hre, _⟩ := hB
      rw [h3] at h1 hre
      exact whole_neg h1 (valid_paren (compile_valid hre)).1
  unfold laid at h
  rw [Bool.or_eq_true, Bool.and_eq_true] at h
  rcases h with h | ⟨h0, h⟩
  · obtain ⟨h1, h2, h3⟩ := laid_pieces sh hc h
    have h4 := whole_edges h2 hv3.1
    exact ⟨whole_look h1 hv2.1, h4.1, whole_look h3 hv4.1, hneg h1 h3, .inl (h4.2 rfl)⟩
  · obtain ⟨h1, h2, h3⟩ := laid_pieces sh hc h
    have h4 := whole_edges h2 hv3.1
    refine ⟨whole_look h1 hv2.1, h4.1, whole_look h3 hv4.1, hneg h1 h3, .inr ?_⟩
    simp only [List.all_eq_true, Bool.and_eq_true, bne_iff_ne, ne_eq] at h0
    have no : ∀ c ∈ x, c ≠ 0x7B ∧ c ≠ 0x5E ∧ c ≠ 0x24 := fun c hc => ⟨(h0 c hc).1.1, (h0 c hc).1.2, (h0 c hc).2⟩
    rw [sh.text] at no
    have br : ∀ look : Bytes, look ≠ [] → (0x7B : UInt8) ∈ braced look := by
      intro look hl
      rw [braced, if_neg hl]
      simp
    refine ⟨?_, ?_, ?_, ?_⟩
    · apply Classical.byContradiction
      intro hn
      exact (no 0x5E (by simp [hn])).2.1 rfl
    · apply Classical.byContradiction
      intro hn
      exact (no 0x7B (by simp [br _ hn])).1 rfl
    · apply Classical.byContradiction
      intro hn
      exact (no 0x7B (by simp [br _ hn])).1 rfl
    · apply Classical.byContradiction
      intro hn
      exact (no 0x24 (by simp [hn])).2.2 rfl

end Verif.Hre.Laid
