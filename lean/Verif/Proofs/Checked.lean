import Verif.Proofs.FirmVars
import Verif.Proofs.Negative
import Verif.Proofs.VarMatch
import Verif.Spec.Procedure

/-! Rules which can be applied to every word. -/

namespace Verif.Hre

open Verif.Rx Verif.Spec.Hre Verif.Spec.Subword Verif.Spec.Procedure

theorem find_mem {p : Pattern} {word : Bytes} {n : Int} {ms : List (List Int)} (h : find p word n = .ok ms)
    {m : List Int} (hm : m ∈ ms) : ∃ o o', findStep p word o = .ok (some (o', some m)) :=
  (findLoop_mem h hm).elim fun o ⟨o', h⟩ => ⟨o, o', h.2⟩

/-- The group of a match. -/
theorem step_captured {p : Pattern} {word : Bytes} {o o' : Nat} {m : List Int}
    (h : findStep p word o = .ok (some (o', some m))) {k : Nat} {vals : List Bytes} (hk : k + 3 + 1 < numCap p.re)
    (hs : sure (k + 3) vals p.re = true) : ∃ x ∈ vals, captured word m (k + 1) = .ok x := by
  obtain ⟨u, v, s, h1, h2, h4, _, _, h5⟩ := (findStep_some h).found
  obtain ⟨_, _, rfl⟩ := h5 m rfl
  have hl : s.caps.length = 2 * (numCap p.re + 1) := run_start_length h2
  obtain ⟨a, l, c, e1, e2, e3, e4, e5⟩ : ∃ a l c, v = a ++ (l ++ c) ∧
      s.caps[2 * (k + 3)]? = some (some (width u + width a)) ∧
      s.caps[2 * (k + 3) + 1]? = some (some (width u + width a + width l)) ∧
      (∀ x ∈ l, x.1 ≠ runeError) ∧ encode (l.map Prod.fst) ∈ vals := by
    cases hre : p.re with
    | cat rs =>
      rw [hre] at hs h2 hk
      simp only [sure] at hs
      simp only [run] at h2
      exact sureCat_sound rs hs h2 (by simp only [start, List.length_replicate]; omega)
    | _ => rw [hre] at hs; simp [sure] at hs
  refine ⟨_, e5, ?_⟩
  have g : ∀ j y, s.caps[j + 6]? = some (some y) → j < 2 * (numCap p.re + 1) - 4 - 6 →
      (((coreStart (width u) s + o : Nat) : Int) :: ((coreStop (numCap p.re) s + o : Nat) : Int) ::
        ((((subs (width u) s).map (shift o)).drop 6).take (2 * (numCap p.re + 1) - 4 - 6)))[j + 2]? =
          some ((y + o : Nat) : Int) := by
    intro j y hy hj
    rw [List.getElem?_cons_succ, List.getElem?_cons_succ, List.getElem?_take, if_pos hj, List.getElem?_drop,
      List.getElem?_map, show 6 + j = (j + 4) + 2 by omega, subs_getElem (by omega),
      show j + 4 + 2 = j + 6 by omega, hy]
    simp only [Option.getD_some, toInt, Option.map_some, shift]
    rw [if_pos (by omega)]
    simp
  rw [captured_some (g (2 * k) _ (by rw [show 2 * k + 6 = 2 * (k + 3) by omega]; exact e2) (by omega) |> fun z => by
      rw [show (k + 1) * 2 = 2 * k + 2 by omega]; exact z)
    (g (2 * k + 1) _ (by rw [show 2 * k + 1 + 6 = 2 * (k + 3) + 1 by omega]; exact e3) (by omega) |> fun z => by
      rw [show (k + 1) * 2 + 1 = 2 * k + 1 + 2 by omega]; exact z)]
  rw [substr_nat, ← decode_between (w := word.drop o) (a := u ++ a) (l := l) (c := c) (by rw [h1, e1]; simp) e4,
    List.drop_drop, width_append]
  congr 3 <;> omega

theorem interpolateParts_safe {p : Pattern} {word : Bytes} {m : List Int} : ∀ (ps : List RPart) (k : Nat),
    (∀ vals ∈ toVars ps, vals ≠ []) →
    (∀ j, k ≤ j → j < k + (toVars ps).length → j < p.usedVars.length →
      ∃ x ∈ p.usedVars.getD j [], captured word m (j + 1) = .ok x) →
    interpolateParts p word m k ps ≠ .panic := by
  intro ps
  induction ps with
  | nil => intro k _ _; simp [interpolateParts]
  | cons a ps ih =>
    intro k hv hc
    cases a with
    | plain t =>
      rw [interpolateParts]
      have := ih k hv hc
      rcases interpolateParts_cases p word m ps k with ⟨u, h⟩ | h | h
      · simp [h]
      · simp [h]
      · exact absurd h this
    | toVar vals =>
      rw [interpolateParts]
      split
      · simp
      · rename_i hk
        have hk : k < p.usedVars.length := by omega
        simp only [toVars, List.mem_cons, List.length_cons] at hv hc
        obtain ⟨x, hx, hcap⟩ := hc k (Nat.le_refl _) (by omega) hk
        have hne : vals ≠ [] := hv vals (.inl rfl)
        have htl : 0 < vals.length := List.length_pos_iff.2 hne
        have hidx : index p.usedVars k = .ok (p.usedVars.getD k []) := by
          refine index_ok ?_
          rw [List.getD_eq_getElem?_getD, List.getElem?_eq_getElem hk]; rfl
        obtain ⟨x1, x2⟩ := indexOf_mem hx
        have hmod : (Int.tmod ((p.usedVars.getD k []).idxOf x : Int) (vals.length : Int)) =
            (((p.usedVars.getD k []).idxOf x % vals.length : Nat) : Int) := Int.ofNat_tmod _ _
        have hlt := Nat.mod_lt ((p.usedVars.getD k []).idxOf x) htl
        have hget : index vals ((p.usedVars.getD k []).idxOf x % vals.length) =
            .ok (vals.getD ((p.usedVars.getD k []).idxOf x % vals.length) []) := by
          refine index_ok ?_
          generalize (p.usedVars.getD k []).idxOf x % vals.length = y at hlt
          rw [List.getD_eq_getElem?_getD, List.getElem?_eq_getElem hlt]; rfl
        rw [hidx]
        simp only [Go.bind_ok]
        rw [hcap]
        simp only [Go.bind_ok, x1, hmod, Int.toNat_natCast]
        rw [if_neg (by omega), if_neg (by omega), hget]
        have := ih (k + 1) (fun v hv' => hv v (.inr hv')) (fun j h1 h2 h3 => hc j (by omega) (by omega) h3)
        rcases interpolateParts_cases p word m ps (k + 1) with ⟨u, h⟩ | h | h
        · simp [h]
        · simp [h]
        · exact absurd h this

theorem varsOk_safe {r : Rule} (h : varsOk r = true) {word : Bytes} {o o' : Nat} {m : List Int}
    (hs : findStep r.pat word o = .ok (some (o', some m))) : interpolate r.to r.pat word m ≠ .panic := by
  simp only [varsOk, Bool.and_eq_true, List.all_eq_true, List.mem_range, decide_eq_true_eq] at h
  obtain ⟨h1, h2⟩ := h
  refine interpolateParts_safe _ 0 (fun v hv => by simpa using h1 v hv) fun j _ hj hu => ?_
  obtain ⟨k1, k2⟩ := h2 j (by omega)
  exact step_captured hs k1 k2

theorem replsFor_proper {word : Bytes} (f : List Int → Option Bytes) : ∀ {ms : List (List Int)} {lo off : Nat},
    ProperMatches word lo ms → off ≤ lo → lo ≤ word.length → Proper off word.length (replsFor f ms) := by
  intro ms
  induction ms with
  | nil => intro lo off _ h1 h2; simp [replsFor, Proper]; omega
  | cons m ms ih =>
    intro lo off h h1 h2
    obtain ⟨a, b, g, rfl, l1, l2, l3, _, _, l4⟩ := h
    have e : replsFor f (((a : Int) :: (b : Int) :: g) :: ms) =
        (match f ((a : Int) :: (b : Int) :: g) with
          | some t => (⟨a, b, t⟩ : Repl) :: replsFor f ms
          | none => replsFor f ms) := by
      cases hf : f ((a : Int) :: (b : Int) :: g) with
      | none => simp [replsFor, hf]
      | some t => simp [replsFor, hf]
    rw [e]
    split
    · exact ⟨by simp only; omega, by simp only; omega, ih l4 (Nat.le_refl _) l3⟩
    · exact ih l4 (by omega) l3

/-- A rule which passes the checks can be applied to every word. -/
theorem checked_wellBehaved {r : Rule} (h : checked r = true) : WellBehaved r := by
  simp only [checked, Bool.and_eq_true] at h
  intro w
  obtain ⟨ms, h1, h2⟩ := find_firm h.1 w (-1)
  have h3 := replacementsLoop_eq (r := r) h2 fun m hm => by
    obtain ⟨o, o', hs⟩ := find_mem h1 hm
    exact varsOk_safe h.2 hs
  refine ⟨replsFor (outcome r.to r.pat w) ms, by simp only [Rule.replacements, h1, Go.bind_ok, h3],
    replsFor_proper _ h2 (Nat.le_refl _) (by omega)⟩

/-! ## NUL -/

/-- A NUL byte is a NUL character. -/
theorem decode_nonzero {w : Bytes} {l c : List (Rune × Nat)} (h : decode w = l ++ c) (hl : ∀ x ∈ l, x.1 ≠ 0) {p : Nat}
    (hp : p < width l) : w[p]? ≠ some 0 := by
  intro h0
  obtain ⟨hlt, h0⟩ := List.getElem?_eq_some_iff.1 h0
  have e : w = w.take p ++ 0 :: w.drop (p + 1) := by
    rw [← h0, ← List.drop_eq_getElem_cons hlt, List.take_append_drop]
  have hd := decode_split (w.take p) (c := 0) (by decide) (w.drop (p + 1))
  rw [← e, h] at hd
  have hw : width (decode (w.take p)) = p := by
    rw [show width (decode (w.take p)) = (w.take p).length from decode_width _]; simp; omega
  rcases List.append_eq_append_iff.1 hd with ⟨a, e1, e2⟩ | ⟨a, e1, e2⟩
  · rw [e1, width_append] at hw; omega
  · cases a with
    | nil => simp at e1; rw [← e1] at hw; omega
    | cons z a =>
      simp only [List.cons_append, List.cons.injEq] at e2
      refine hl z (by rw [e1]; simp) ?_
      rw [← e2.1]; rfl

theorem step_clear {p : Pattern} (ha : avoids p.re = true) {word : Bytes} {o o' : Nat} {m : List Int}
    (h : findStep p word o = .ok (some (o', some m))) {i : Nat} (h1 : (m.headD 0).toNat ≤ i)
    (h2 : i < (m.getD 1 0).toNat) : word[i]? ≠ some 0 := by
  obtain ⟨u, v, s, k1, k2, k4, _, _, k5⟩ := (findStep_some h).found
  obtain ⟨_, _, rfl⟩ := k5 m rfl
  simp only [List.headD_cons, List.getD_cons_succ, List.getD_cons_zero, Int.toNat_natCast] at h1 h2
  obtain ⟨a, b, e1, e2, _⟩ := coreStart_spec k2
  obtain ⟨c, d, f1, f2, _⟩ := coreStop_spec (k := numCap p.re) k2
  obtain ⟨l, l1, l2⟩ := run_clear p.re ha k2
  have l1 : v = l ++ s.rest := l1
  have hcd : l = c ++ d := by
    have : l ++ s.rest = (c ++ d) ++ s.rest := by rw [← l1, f1]
    exact List.append_cancel_right this
  have hi : o ≤ i := by omega
  have hd := decode_drop k1
  rw [l1] at hd
  have := decode_nonzero hd l2 (p := i - (o + width u)) (by rw [hcd, width_append]; omega)
  rw [List.drop_drop, List.getElem?_drop] at this
  rw [show o + width u + (i - (o + width u)) = i by omega] at this
  exact this

/-- The replacements of a rule are at its matches. -/
theorem replacementsLoop_mem {r : Rule} {word : Bytes} : ∀ {ms : List (List Int)} {rs : List Repl},
    r.replacementsLoop word ms = .ok rs → ∀ x ∈ rs, ∃ m ∈ ms, x.start = (m.headD 0).toNat ∧
      x.stop = (m.getD 1 0).toNat := by
  intro ms
  induction ms with
  | nil => intro rs h; simp [Rule.replacementsLoop] at h; subst h; simp
  | cons m ms ih =>
    intro rs h x hx
    simp only [Rule.replacementsLoop, Go.bind_eq_ok] at h
    obtain ⟨a, h1, b, h2, h⟩ := h
    have ha : m.headD 0 = a := by
      cases m with
      | nil => simp [index] at h1
      | cons y m => simpa [index] using h1
    have hb : m.getD 1 0 = b := by
      unfold index at h2
      rw [List.getD_eq_getElem?_getD]
      split at h2
      · rename_i hy; rw [hy]; simpa using h2
      · simp at h2
    split at h
    · rw [Go.bind_eq_ok] at h
      obtain ⟨rest, h3, h4⟩ := h
      simp at h4; subst h4
      rcases List.mem_cons.1 hx with rfl | hx
      · exact ⟨m, by simp, by rw [ha], by rw [hb]⟩
      · obtain ⟨m', hm, e⟩ := ih h3 x hx
        exact ⟨m', by simp [hm], e⟩
    · obtain ⟨m', hm, e⟩ := ih h x hx
      exact ⟨m', by simp [hm], e⟩
    · simp at h
    · simp at h

/-- A rule whose pattern does not match NUL characters leaves them alone. -/
theorem avoids_noNul {r : Rule} (h : avoids r.pat.re = true) : NoNul r := by
  intro w rs hr x hx p h1 h2
  simp only [Rule.replacements, Go.bind_eq_ok] at hr
  obtain ⟨ms, k1, k2⟩ := hr
  obtain ⟨m, hm, e1, e2⟩ := replacementsLoop_mem k2 x hx
  obtain ⟨o, o', hs⟩ := find_mem k1 hm
  exact step_clear h hs (by omega) (by omega)

end Verif.Hre
