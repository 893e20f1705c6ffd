import Verif.Proofs.Hre
import Verif.Proofs.Subword

/-! Replacing matches: `Pattern.Replace` and `Rule.Replace`. -/

namespace Verif.Hre

open Verif.Rx Verif.Spec.Hre

theorem interpolateParts_cases (p : Pattern) (word : Bytes) (m : List Int) :
    ∀ (parts : List RPart) (k : Nat), (∃ t, interpolateParts p word m k parts = .ok t) ∨
      interpolateParts p word m k parts = .err .interpolate ∨ interpolateParts p word m k parts = .panic := by
  have hidx : ∀ {α : Type} (l : List α) (i : Nat), (∃ a, index l i = .ok a) ∨ index l i = .panic := by
    intro α l i
    unfold index
    cases h : l[i]? <;> simp
  intro parts
  induction parts with
  | nil => intro k; exact .inl ⟨[], rfl⟩
  | cons a parts ih =>
    intro k
    cases a with
    | plain t =>
      rw [interpolateParts]
      rcases ih k with ⟨u, h⟩ | h | h <;> simp [h]
    | toVar vals =>
      rw [interpolateParts]
      split
      · simp
      · rcases hidx p.usedVars k with ⟨fv, h1⟩ | h1
        · rw [h1]
          simp only [Go.bind_ok, captured]
          rcases hidx m ((k + 1) * 2) with ⟨x, h2⟩ | h2
          · rcases hidx m ((k + 1) * 2 + 1) with ⟨y, h3⟩ | h3
            · simp only [h2, h3, Go.bind_ok, Go.pure_eq]
              split
              · simp
              · split
                · simp
                · rename_i hv hn
                  rcases hidx vals (Int.tmod (indexOf (substr word x y) fv) vals.length).toNat with ⟨z, h4⟩ | h4
                  · rw [h4]
                    rcases ih (k + 1) with ⟨u, h⟩ | h | h <;> simp [h]
                  · rw [h4]; simp
            · simp [h2, h3]
          · simp [h2]
        · simp [h1]

/-- What interpolation gives for a match, if anything. -/
def outcome (rp : RPattern) (p : Pattern) (word : Bytes) (m : List Int) : Option Bytes :=
  match interpolate rp p word m with
  | .ok t => some t
  | _ => none

theorem replaceLoop_splice {p : Pattern} {rp : RPattern} {word : Bytes} :
    ∀ {ms : List (List Int)} {cur : Nat}, cur ≤ word.length → ProperMatches word cur ms →
      (∀ m ∈ ms, interpolate rp p word m ≠ .panic) →
      replaceLoop p rp word cur ms = .ok (splice word (outcome rp p word) cur ms) := by
  intro ms
  induction ms with
  | nil =>
    intro cur hc _ _
    simp only [replaceLoop, splice, slice_ok word hc (Nat.le_refl _)]
    rw [List.take_of_length_le (by simp)]
  | cons m ms ih =>
    intro cur hc hp hi
    obtain ⟨start, stop, groups, rfl, h1, h2, h3, _, _, h4⟩ := hp
    have h5 := ih h3 h4 (fun m hm => hi m (by simp [hm]))
    have h6 := hi _ (by simp : (start : Int) :: (stop : Int) :: groups ∈ _ :: ms)
    have hx := interpolateParts_cases p word ((start : Int) :: (stop : Int) :: groups) rp.parts 0
    simp only [replaceLoop, index, List.getElem?_cons_zero, List.getElem?_cons_succ, Go.bind_ok, Int.toNat_natCast,
      slice_ok word h1 (by omega : start ≤ word.length), splice, List.headD_cons, List.getD_cons_zero,
      List.getD_cons_succ]
    rcases hx with ⟨t, ht⟩ | ht | ht
    · simp [interpolate, ht, h5, outcome, between]
    · simp [interpolate, ht, h5, outcome, between, slice_ok word (Nat.le_of_lt h2) h3]
    · exact absurd ht h6

theorem replaceLoop_panic {p : Pattern} {rp : RPattern} {word : Bytes} :
    ∀ {ms : List (List Int)} {cur : Nat}, cur ≤ word.length → ProperMatches word cur ms →
      (∃ m ∈ ms, interpolate rp p word m = .panic) → replaceLoop p rp word cur ms = .panic := by
  intro ms
  induction ms with
  | nil => intro cur _ _ h; simp at h
  | cons m ms ih =>
    intro cur hc hp hi
    obtain ⟨start, stop, groups, rfl, h1, h2, h3, _, _, h4⟩ := hp
    have hx := interpolateParts_cases p word ((start : Int) :: (stop : Int) :: groups) rp.parts 0
    simp only [replaceLoop, index, List.getElem?_cons_zero, List.getElem?_cons_succ, Go.bind_ok, Int.toNat_natCast,
      slice_ok word h1 (by omega : start ≤ word.length)]
    by_cases hm : interpolate rp p word ((start : Int) :: (stop : Int) :: groups) = .panic
    · simp [hm]
    · have h5 := ih h3 h4 (by
        obtain ⟨m, hm1, hm2⟩ := hi
        rcases List.mem_cons.1 hm1 with rfl | hm1
        · exact absurd hm2 hm
        · exact ⟨m, hm1, hm2⟩)
      rcases hx with ⟨t, ht⟩ | ht | ht
      · simp [interpolate, ht, h5]
      · simp [interpolate, ht, h5, slice_ok word (Nat.le_of_lt h2) h3]
      · exact absurd ht hm

/-- The replacements of a rule: one for each match whose interpolation succeeds. -/
def replsFor (f : List Int → Option Bytes) (ms : List (List Int)) : List Repl :=
  ms.filterMap fun m => (f m).map fun t => ⟨(m.headD 0).toNat, (m.getD 1 0).toNat, t⟩

theorem replacementsLoop_eq {r : Rule} {word : Bytes} : ∀ {ms : List (List Int)} {cur : Nat},
    ProperMatches word cur ms → (∀ m ∈ ms, interpolate r.to r.pat word m ≠ .panic) →
    r.replacementsLoop word ms = .ok (replsFor (outcome r.to r.pat word) ms) := by
  intro ms
  induction ms with
  | nil => intro cur _ _; rfl
  | cons m ms ih =>
    intro cur hp hi
    obtain ⟨start, stop, groups, rfl, h1, h2, h3, _, _, h4⟩ := hp
    have h5 := ih h4 (fun m hm => hi m (by simp [hm]))
    have h6 := hi _ (by simp : (start : Int) :: (stop : Int) :: groups ∈ _ :: ms)
    have hx := interpolateParts_cases r.pat word ((start : Int) :: (stop : Int) :: groups) r.to.parts 0
    simp only [Rule.replacementsLoop, index, List.getElem?_cons_zero, List.getElem?_cons_succ, Go.bind_ok]
    rcases hx with ⟨t, ht⟩ | ht | ht
    · simp [interpolate, ht, h5, outcome, replsFor]
    · simp [interpolate, ht, h5, outcome, replsFor]
    · exact absurd ht h6

theorem replacementsLoop_panic {r : Rule} {word : Bytes} : ∀ {ms : List (List Int)} {cur : Nat},
    ProperMatches word cur ms → (∃ m ∈ ms, interpolate r.to r.pat word m = .panic) →
    r.replacementsLoop word ms = .panic := by
  intro ms
  induction ms with
  | nil => intro cur _ h; simp at h
  | cons m ms ih =>
    intro cur hp hi
    obtain ⟨start, stop, groups, rfl, h1, h2, h3, _, _, h4⟩ := hp
    have hx := interpolateParts_cases r.pat word ((start : Int) :: (stop : Int) :: groups) r.to.parts 0
    simp only [Rule.replacementsLoop, index, List.getElem?_cons_zero, List.getElem?_cons_succ, Go.bind_ok]
    by_cases hm : interpolate r.to r.pat word ((start : Int) :: (stop : Int) :: groups) = .panic
    · simp [hm]
    · have h5 := ih h4 (by
        obtain ⟨m, hm1, hm2⟩ := hi
        rcases List.mem_cons.1 hm1 with rfl | hm1
        · exact absurd hm2 hm
        · exact ⟨m, hm1, hm2⟩)
      rcases hx with ⟨t, ht⟩ | ht | ht
      · simp [interpolate, ht, h5]
      · simp [interpolate, ht, h5]
      · exact absurd ht hm

theorem drop_between (word : Bytes) {i j : Nat} (h : i ≤ j) :
    word.drop i = between word i j ++ word.drop j := by
  unfold between
  conv => lhs; rw [← List.take_append_drop (j - i) (word.drop i)]
  rw [List.drop_drop, show i + (j - i) = j by omega]

theorem between_split (word : Bytes) {i j k : Nat} (h : i ≤ j) (h2 : j ≤ k) :
    between word i k = between word i j ++ between word j k := by
  have h1 := drop_between word (i := i) (j := j) h
  have e : between word i k = (between word i j ++ word.drop j).take (k - i) := by rw [← h1]; rfl
  rw [e, List.take_append]
  unfold between
  congr 1
  · rw [List.take_take, Nat.min_eq_right (by omega)]
  · by_cases hl : j ≤ word.length
    · simp; congr 1; omega
    · simp [List.drop_eq_nil_of_le (by omega : word.length ≤ j)]

/-- Committing the replacements of a rule splices them in. -/
theorem commitLoop_splice {word : Bytes} {levels : List Int} (hl : levels.length = word.length) (nl : Int)
    (f : List Int → Option Bytes) : ∀ (ms : List (List Int)) (off lo : Nat), off ≤ lo → lo ≤ word.length →
      ProperMatches word lo ms →
      ∃ l, Replacer.commitLoop word levels nl off (replsFor f ms) =
        .ok (between word off lo ++ splice word f lo ms, l) := by
  intro ms
  induction ms with
  | nil =>
    intro off lo h1 h2 _
    simp only [replsFor, List.filterMap_nil, Replacer.commitLoop, splice, ← drop_between word h1]
    rw [slice_ok word (by omega) (Nat.le_refl _), slice_ok levels (by omega) (Nat.le_refl _)]
    rw [List.take_of_length_le (by simp)]
    exact ⟨_, rfl⟩
  | cons m ms ih =>
    intro off lo h1 h2 hp
    obtain ⟨start, stop, groups, rfl, k1, k2, k3, _, _, k4⟩ := hp
    cases hf : f ((start : Int) :: (stop : Int) :: groups) with
    | none =>
      obtain ⟨l, hl⟩ := ih off stop (by omega) k3 k4
      refine ⟨l, ?_⟩
      have : replsFor f (((start : Int) :: (stop : Int) :: groups) :: ms) = replsFor f ms := by
        simp [replsFor, hf]
      rw [this, hl]
      simp only [splice, List.headD_cons, List.getD_cons_zero, List.getD_cons_succ, Int.toNat_natCast, hf,
        Option.getD_none]
      rw [between_split word h1 (by omega : lo ≤ stop), between_split word k1 (Nat.le_of_lt k2)]
      simp
    | some t =>
      obtain ⟨l, hl'⟩ := ih stop stop (Nat.le_refl _) k3 k4
      have : replsFor f (((start : Int) :: (stop : Int) :: groups) :: ms) =
          ⟨start, stop, t⟩ :: replsFor f ms := by
        simp [replsFor, hf]
      rw [this]
      simp only [Replacer.commitLoop]
      rw [slice_ok word (by omega) (by omega), slice_ok levels (by omega) (by omega), hl']
      refine ⟨(levels.drop off).take (start - off) ++ List.replicate t.length nl ++ l, ?_⟩
      simp only [Go.bind_ok, Go.pure_eq, splice, List.headD_cons, List.getD_cons_zero, List.getD_cons_succ,
        Int.toNat_natCast, hf, Option.getD_some]
      have e : between word stop stop = [] := by simp [between]
      have e2 := between_split word h1 k1
      simp only [between] at e2
      simp [between, e2]

end Verif.Hre

namespace Verif
open Hre Spec.Hre

theorem Rule.replace_splice {r : Rule} {word : Bytes} {ms : List (List Int)}
    (hf : find r.pat word (-1) = .ok ms) (hp : ProperMatches word 0 ms)
    (hi : ∀ m ∈ ms, interpolate r.to r.pat word m ≠ .panic) :
    r.replace word = .ok (splice word (outcome r.to r.pat word) 0 ms) := by
  obtain ⟨l, hl⟩ := commitLoop_splice (word := word) (levels := List.replicate word.length 0) (by simp) 0
    (outcome r.to r.pat word) ms 0 0 (Nat.le_refl _) (Nat.zero_le _) hp
  simp only [Rule.replace, Rule.replacements, hf, Go.bind_ok, replacementsLoop_eq hp hi, Replacer.string,
    Replacer.commit, Replacer.replaceBy, Replacer.new, List.nil_append, hl, Go.pure_eq]
  simp [between]

/-- Both ways of replacing agree. -/
theorem replace_agree (r : Rule) (word : Bytes)
    (hp : ∀ ms, find r.pat word (-1) = .ok ms → ProperMatches word 0 ms) :
    Hre.replace r.pat word r.to (-1) = r.replace word := by
  cases hf : find r.pat word (-1) with
  | ok ms =>
    have h := hp ms hf
    by_cases hi : ∃ m ∈ ms, interpolate r.to r.pat word m = .panic
    · simp [Hre.replace, Rule.replace, Rule.replacements, hf, replaceLoop_panic (Nat.zero_le _) h hi,
        replacementsLoop_panic h hi]
    · have hi' : ∀ m ∈ ms, interpolate r.to r.pat word m ≠ .panic := fun m hm he => hi ⟨m, hm, he⟩
      rw [Rule.replace_splice hf h hi']
      simp [Hre.replace, hf, replaceLoop_splice (Nat.zero_le _) h hi']
  | err e => simp [Hre.replace, Rule.replace, Rule.replacements, hf]
  | panic => simp [Hre.replace, Rule.replace, Rule.replacements, hf]
  | hang => simp [Hre.replace, Rule.replace, Rule.replacements, hf]

end Verif
