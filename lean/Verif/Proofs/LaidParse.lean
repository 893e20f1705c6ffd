import Verif.Proofs.Laid
import Verif.Proofs.Scan

/-! Texts that pass the quick check are regular expressions. -/

namespace Verif.Hre.Laid

open Verif.Rx Verif.Spec Verif.Spec.Hre

/-- All characters of a text. -/
def walk (strict bars : Bool) : Nat → Last → List Nat → Option (Nat × Last)
  | d, l, [] => some (d, l)
  | d, l, c :: t =>
    match step strict bars d l c with
    | none => none
    | some (d', l') => walk strict bars d' l' t

theorem walk_cons {strict bars : Bool} {d : Nat} {l : Last} {c : Nat} {t : List Nat} {x : Nat × Last}
    (h : walk strict bars d l (c :: t) = some x) :
    ∃ d' l', step strict bars d l c = some (d', l') ∧ walk strict bars d' l' t = some x := by
  rw [walk] at h
  split at h
  · simp at h
  · rename_i d' l' hs
    exact ⟨d', l', hs, h⟩

theorem walk_step {strict bars : Bool} {d d' : Nat} {l l' : Last} {c : Nat} (h : step strict bars d l c = some (d', l'))
    (t : List Nat) : walk strict bars d l (c :: t) = walk strict bars d' l' t := by
  rw [walk, h]

theorem walk_append {strict bars : Bool} {a b : List Nat} : ∀ {d : Nat} {l : Last} {x : Nat × Last},
    walk strict bars d l (a ++ b) = some x ↔
      ∃ d' l', walk strict bars d l a = some (d', l') ∧ walk strict bars d' l' b = some x := by
  induction a with
  | nil => intro d l x; simp [walk, and_assoc]
  | cons c a ih =>
    intro d l x
    simp only [List.cons_append, walk]
    cases hs : step strict bars d l c with
    | none => simp
    | some y => obtain ⟨d', l'⟩ := y; simp only [ih]

/-- Reading is under way: the last character began nothing. -/
def Ready (l : Last) : Prop := l = .nothing ∨ l = .item ∨ l = .opened

/-- What a parser can continue with. -/
def Fits (d : Nat) (l : Last) (st : PSt) : Prop :=
  st.stack.length = d ∧ (l = .item → st.lastRep = false ∧ st.cur.cat ≠ [])

theorem lexRepeat_close (t : List Rune) : lexRepeat (0x7D :: t) = none := rfl

theorem escape_s : escapeTok 0x73 = .ok (.re (.cls false spaceRanges)) := rfl

/-- The special characters. -/
def special : List Nat := [0x28, 0x29, 0x7C, 0x3F, 0x2A, 0x2B, 0x7B, 0x5C, 0x5E, 0x24, 0x7E, 0x5B, 0x2E, 0x7D]

theorem lex_cons {c : Rune} {t : List Rune} {tok : Tok} {n : Nat} {ts : List Tok} (h1 : lexOne c t = .ok (tok, n))
    (h2 : lexFrom n t = .ok ts) : lexFrom 0 (c :: t) = .ok (tok :: ts) := by
  rw [lexFrom, h1]
  simp [Go.bind, h2]

/-- Tokens are read and parsed from the given state on. -/
def Runs (bars : Bool) (d : Nat) (st : PSt) (rs : List Rune) : Prop :=
  ∃ ts st', lexFrom 0 rs = .ok ts ∧ psteps st ts = .ok st' ∧ st'.stack = [] ∧ (bars = false → barless d ts = true)

theorem Runs.cons {bars : Bool} {d d' : Nat} {st st1 : PSt} {c : Rune} {t u : List Rune} {tok : Tok} {n : Nat}
    (h1 : lexOne c t = .ok (tok, n)) (hu : lexFrom n t = lexFrom 0 u) (h2 : pstep st tok = .ok st1)
    (hb : ∀ ts, bars = false → barless d' ts = true → barless d (tok :: ts) = true) (h : Runs bars d' st1 u) :
    Runs bars d st (c :: t) := by
  obtain ⟨ts, st', k1, k2, k3, k4⟩ := h
  refine ⟨tok :: ts, st', lex_cons h1 (hu.trans k1), ?_, k3, fun hbar => hb ts hbar (k4 hbar)⟩
  rw [psteps, h2]
  exact k2

theorem step_ready {strict bars : Bool} {d : Nat} {l : Last} (h : Ready l) (c : Nat) :
    step strict bars d l c = fresh strict bars d l c := by
  rcases h with rfl | rfl | rfl <;> rfl

theorem Fits.push {d : Nat} {l l' : Last} {st : PSt} (h : Fits d l st) (r : Re) : Fits d l' (st.push r) :=
  ⟨h.1, fun _ => ⟨rfl, by simp [PSt.push]⟩⟩

theorem Fits.repeat {d : Nat} {st : PSt} (h : Fits d .item st) (f : Re → Re) :
    ∃ st', st.repeat f = .ok st' ∧ Fits d .nothing st' := by
  obtain ⟨h1, h2⟩ := h
  obtain ⟨h2, h3⟩ := h2 rfl
  obtain ⟨⟨c, as, cat⟩, stack, ncap, lr⟩ := st
  simp only at h2 h3
  subst h2
  cases cat with
  | nil => exact absurd rfl h3
  | cons r rs => exact ⟨_, rfl, h1, by simp⟩

/-- After a repetition comes no `?`. -/
theorem lazyMark_none {bars : Bool} {d : Nat} {t : List Nat} {x : Nat × Last}
    (h : walk false bars d .nothing t = some x) : lazyMark t = false := by
  cases t with
  | nil => rfl
  | cons c t =>
    obtain ⟨d', l', hs, _⟩ := walk_cons h
    rw [step_ready (.inl rfl)] at hs
    by_cases hc : c = 0x3F
    · subst hc; simp [fresh] at hs
    · simp [lazyMark, hc]

theorem walk_opened {strict bars : Bool} {d : Nat} {c : Nat} {t : List Nat} (hc : c ≠ 0x3F) :
    walk strict bars d .opened (c :: t) = walk strict bars d .nothing (c :: t) := by
  simp only [walk, step, fresh, if_neg hc]
  rfl

theorem runs : ∀ (n : Nat) (rs : List Rune), rs.length ≤ n → ∀ (bars : Bool) (d : Nat) (l : Last) (st : PSt) (l' : Last),
    l = .nothing ∨ l = .item → walk false bars d l rs = some (0, l') → Ready l' → Fits d l st → Runs bars d st rs := by
  intro n
  induction n with
  | zero =>
    intro rs hn bars d l st l' _ h _ hf
    have : rs = [] := List.eq_nil_of_length_eq_zero (by omega)
    subst this
    simp only [walk, Option.some.injEq, Prod.mk.injEq] at h
    have h0 := hf.1
    rw [h.1] at h0
    exact ⟨[], st, rfl, rfl, List.eq_nil_of_length_eq_zero h0, fun _ => rfl⟩
  | succ n ih =>
    intro rs hn bars d l st l' hr h hr' hf
    cases rs with
    | nil =>
      simp only [walk, Option.some.injEq, Prod.mk.injEq] at h
      have h0 := hf.1
      rw [h.1] at h0
      exact ⟨[], st, rfl, rfl, List.eq_nil_of_length_eq_zero h0, fun _ => rfl⟩
    | cons c t =>
      have hlen : t.length ≤ n := by simpa using hn
      obtain ⟨d1, l1, hs, hw⟩ := walk_cons h
      rw [step_ready (hr.elim .inl fun h => .inr (.inl h))] at hs
      unfold fresh at hs
      by_cases c1 : c = 0x28
      · -- a group
        subst c1
        simp only [if_true, Bool.false_eq_true, if_false, Option.some.injEq, Prod.mk.injEq] at hs
        obtain ⟨rfl, rfl⟩ := hs
        cases t with
        | nil => simp [walk] at hw
        | cons e t =>
          by_cases he : e = 0x3F
          · subst he
            obtain ⟨d2, l2, hs2, hw2⟩ := walk_cons hw
            simp only [step, fresh] at hs2
            simp at hs2
            obtain ⟨rfl, rfl⟩ := hs2
            cases t with
            | nil => simp [walk] at hw2
            | cons e t =>
              obtain ⟨d3, l3, hs3, hw3⟩ := walk_cons hw2
              simp only [step] at hs3
              split at hs3
              · rename_i he
                subst he
                simp only [Option.some.injEq, Prod.mk.injEq] at hs3
                obtain ⟨rfl, rfl⟩ := hs3
                refine Runs.cons (tok := .openNC) (n := 2) (u := t) (by simp [lexOne]) rfl rfl (fun ts _ hb => hb)
                  (ih t (by simp at hlen; omega) bars _ .nothing _ l' (.inl rfl) hw3 hr' ⟨by simp [hf.1], by simp⟩)
              · simp at hs3
          · rw [walk_opened he] at hw
            refine Runs.cons (tok := .open) (n := 0) ?_ rfl rfl (fun ts _ hb => hb)
              (ih _ hlen bars _ .nothing _ l' (.inl rfl) hw hr' ⟨by simp [hf.1], by simp⟩)
            simp [lexOne, he]
      rw [if_neg c1] at hs
      by_cases c2 : c = 0x29
      · subst c2
        simp only [if_true] at hs
        split at hs
        · simp at hs
        rename_i hd
        simp only [Option.some.injEq, Prod.mk.injEq] at hs
        obtain ⟨rfl, rfl⟩ := hs
        obtain ⟨cur, stack, ncap, lr⟩ := st
        cases stack with
        | nil => exact absurd hf.1.symm hd
        | cons f fs =>
          refine Runs.cons (tok := .close) (n := 0) rfl rfl rfl (fun ts _ hb => hb)
            (ih t hlen bars _ .item _ l' (.inr rfl) hw hr' ⟨?_, fun _ => ⟨rfl, by simp [PSt.push]⟩⟩)
          have := hf.1
          simp only [List.length_cons] at this
          simp only [PSt.push]
          omega
      rw [if_neg c2] at hs
      by_cases c3 : c = 0x7C
      · subst c3
        simp only [if_true] at hs
        split at hs
        · rename_i hd
          simp only [Option.some.injEq, Prod.mk.injEq] at hs
          obtain ⟨rfl, rfl⟩ := hs
          refine Runs.cons (tok := .bar) (n := 0) rfl rfl rfl (fun ts hbar hb => ?_)
            (ih t hlen bars _ .nothing _ l' (.inl rfl) hw hr' ⟨hf.1, by simp⟩)
          simp only [hbar, Bool.false_or] at hd
          simp [barless, hb, hd]
        · simp at hs
      rw [if_neg c3] at hs
      by_cases c4 : c = 0x3F
      · subst c4
        simp only [if_true] at hs
        split at hs
        · rename_i hl
          subst hl
          simp only [Option.some.injEq, Prod.mk.injEq] at hs
          obtain ⟨rfl, rfl⟩ := hs
          obtain ⟨st', k1, k2⟩ := hf.repeat (.quest true)
          refine Runs.cons (tok := .quest true) (n := 0) ?_ rfl k1 (fun ts _ hb => hb)
            (ih t hlen bars _ .nothing _ l' (.inl rfl) hw hr' k2)
          simp [lexOne, lazyMark_none hw]
        · split at hs
          · rename_i h1 h2
            rcases hr with rfl | rfl <;> simp at h1 h2
          · simp at hs
      rw [if_neg c4] at hs
      by_cases c5 : c = 0x2A ∨ c = 0x2B
      · rw [if_pos (by simpa using c5)] at hs
        split at hs
        · rename_i hl
          subst hl
          simp only [Option.some.injEq, Prod.mk.injEq] at hs
          obtain ⟨rfl, rfl⟩ := hs
          rcases c5 with rfl | rfl
          · obtain ⟨st', k1, k2⟩ := hf.repeat (.star true)
            refine Runs.cons (tok := .star true) (n := 0) ?_ rfl k1 (fun ts _ hb => hb)
              (ih t hlen bars _ .nothing _ l' (.inl rfl) hw hr' k2)
            simp [lexOne, lazyMark_none hw]
          · obtain ⟨st', k1, k2⟩ := hf.repeat (.plus true)
            refine Runs.cons (tok := .plus true) (n := 0) ?_ rfl k1 (fun ts _ hb => hb)
              (ih t hlen bars _ .nothing _ l' (.inl rfl) hw hr' k2)
            simp [lexOne, lazyMark_none hw]
        · simp at hs
      rw [if_neg (by simpa using c5)] at hs
      rw [not_or] at c5
      by_cases c6 : c = 0x7B
      · subst c6
        simp only [if_true, Option.some.injEq, Prod.mk.injEq] at hs
        obtain ⟨rfl, rfl⟩ := hs
        cases t with
        | nil =>
          simp only [walk, Option.some.injEq, Prod.mk.injEq] at hw
          rw [← hw.2] at hr'
          simp [Ready] at hr'
        | cons e t =>
          obtain ⟨d2, l2, hs2, hw2⟩ := walk_cons hw
          simp only [step] at hs2
          split at hs2
          · rename_i he
            subst he
            simp only [Option.some.injEq, Prod.mk.injEq] at hs2
            obtain ⟨rfl, rfl⟩ := hs2
            have k := ih t (by simp at hlen; omega) bars _ .item ((st.push (.lit [0x7B])).push (.lit [0x7D])) l' (.inr rfl)
              hw2 hr' ⟨hf.1, fun _ => ⟨rfl, by simp [PSt.push]⟩⟩
            refine Runs.cons (tok := .lit 0x7B) (n := 0) (by simp [lexOne, lexRepeat_close]) rfl rfl (fun ts _ hb => hb) ?_
            exact Runs.cons (tok := .lit 0x7D) (n := 0) (by simp [lexOne]) rfl rfl (fun ts _ hb => hb) k
          · simp at hs2
      rw [if_neg c6] at hs
      by_cases c7 : c = 0x5C
      · subst c7
        simp only [if_true, Option.some.injEq, Prod.mk.injEq] at hs
        obtain ⟨rfl, rfl⟩ := hs
        cases t with
        | nil =>
          simp only [walk, Option.some.injEq, Prod.mk.injEq] at hw
          rw [← hw.2] at hr'
          simp [Ready] at hr'
        | cons e t =>
          obtain ⟨d2, l2, hs2, hw2⟩ := walk_cons hw
          simp only [step] at hs2
          split at hs2
          · rename_i he
            subst he
            simp only [Option.some.injEq, Prod.mk.injEq] at hs2
            obtain ⟨rfl, rfl⟩ := hs2
            refine Runs.cons (tok := .re (.cls false spaceRanges)) (n := 1) (u := t) ?_ rfl rfl (fun ts _ hb => hb)
              (ih t (by simp at hlen; omega) bars _ .item _ l' (.inr rfl) hw2 hr' (hf.push _))
            simp [lexOne, escape_s, Go.bind]
          · simp at hs2
      rw [if_neg c7] at hs
      have item : ∀ tok r, lexOne c t = .ok (tok, 0) → pstep st tok = .ok (st.push r) →
          (∀ ts, barless d ts = true → barless d (tok :: ts) = true) → d1 = d ∧ l1 = .item → Runs bars d st (c :: t) := by
        rintro tok r k1 k2 k3 ⟨rfl, rfl⟩
        exact Runs.cons (n := 0) k1 rfl k2 (fun ts _ hb => k3 ts hb) (ih t hlen bars _ .item _ l' (.inr rfl) hw hr' (hf.push _))
      by_cases c8 : c = 0x5E ∨ c = 0x24 ∨ c = 0x7E
      · rw [if_pos (by simpa [or_assoc] using c8)] at hs
        simp only [Bool.false_eq_true, if_false, Option.some.injEq, Prod.mk.injEq] at hs
        rcases c8 with rfl | rfl | rfl
        · exact item (.re .beginText) .beginText rfl rfl (fun _ h => h) ⟨hs.1.symm, hs.2.symm⟩
        · exact item (.re .endText) .endText rfl rfl (fun _ h => h) ⟨hs.1.symm, hs.2.symm⟩
        · exact item (.lit 0x7E) (.lit [0x7E]) rfl rfl (fun _ h => h) ⟨hs.1.symm, hs.2.symm⟩
      rw [if_neg (by simpa [or_assoc] using c8)] at hs
      simp only [not_or] at c8
      split at hs
      · simp at hs
      rename_i c9
      simp only [Bool.or_eq_true, decide_eq_true_eq, not_or] at c9
      simp only [Option.some.injEq, Prod.mk.injEq] at hs
      refine item (.lit c) (.lit [c]) ?_ rfl (fun _ h => h) ⟨hs.1.symm, hs.2.symm⟩
      simp [lexOne, c1, c2, c3, c4, c5, c6, c7, c8, c9]

/-- A text that is complete is a regular expression. -/
theorem parses {bars : Bool} {rs : List Rune} {l' : Last} (h : walk false bars 0 .nothing rs = some (0, l')) (hr : Ready l') :
    ∃ ts f k lr, Parses rs ts f k lr ∧ (bars = false → f.alts = []) := by
  obtain ⟨ts, ⟨f, stack, k, lr⟩, h1, h2, h3, h4⟩ := runs _ rs (Nat.le_refl _) bars 0 .nothing PSt.init l' (.inl rfl) h hr
    ⟨rfl, by simp⟩
  simp only at h3
  subst h3
  have hp : Parses rs ts f k lr := ⟨h1, h2⟩
  exact ⟨ts, f, k, lr, hp, fun hb => hp.no_alts (h4 hb)⟩

end Verif.Hre.Laid
