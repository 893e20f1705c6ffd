import Verif.Proofs.WordPattern

/-! The matches of a rule in a text of two parts separated by a space. -/

namespace Verif.Words

open Verif.Rx Verif.Hre

/-! ## One round of `Find` -/

/-- The groups of a match as they are reported. -/
def groups (n o : Nat) (s : St) : List Int := ((s.caps.drop 6).take (2 * (n + 1) - 4 - 6)).map fun c => shift o (toInt c)

theorem groups_eq (n o pos : Nat) (s : St) :
    ((((subs pos s).map (shift o)).drop 6).take (2 * (n + 1) - 4 - 6)) = groups n o s := by
  simp [groups, subs, List.drop_drop, Function.comp_def, List.map_take]

/-- What one round of `Find` reports of a match. -/
def report (p : Pattern) (w : Bytes) (o pos : Nat) (s : St) : Nat × Option (List Int) :=
  (coreStop (numCap p.re) s + o,
    if hitsAhead p w (shift o (toInt ((s.caps[2 * (numCap p.re - 1)]?).getD none))) ||
      hitsBehind p w (shift o (toInt ((s.caps[5]?).getD none))) then none
    else some (((coreStart pos s + o : Nat) : Int) :: ((coreStop (numCap p.re) s + o : Nat) : Int) :: groups (numCap p.re) o s))

theorem findStep_report {p : Pattern} {w : Bytes} {o pos : Nat} {s : St}
    (h : searchFrom p.re (decode (w.drop o)) none 0 = some (pos, s)) (hk : 4 ≤ numCap p.re)
    (hne : coreStart pos s ≠ coreStop (numCap p.re) s) : findStep p w o = .ok (some (report p w o pos s)) := by
  obtain ⟨u, v, h1, h2, h3⟩ := searchFrom_some h
  have hl : (subs pos s).length = 2 * (numCap p.re + 1) := subs_length h3
  obtain ⟨k1, k2, k3⟩ := pickStartStop_subs (offset := o) h3 hk
  have hmap : (fun i : Int => if i ≠ -1 then i + (o : Int) else i) = shift o := by
    funext i; rfl
  unfold findStep
  simp only [findSubmatch, h, Option.map_some]
  simp only [hmap]
  rw [if_neg (by simp [hl]; omega), k1]
  simp only [Go.bind_ok]
  rw [if_neg (by omega), k2, k3]
  simp only [Go.bind_ok, Go.pure_eq]
  unfold report
  simp only [Int.toNat_natCast, List.length_map, hl, groups_eq]
  split <;> rfl

theorem search_of_step {p : Pattern} {w : Bytes} {o o' : Nat} {x : Option (List Int)}
    (h : findStep p w o = .ok (some (o', x))) :
    ∃ pos s, searchFrom p.re (decode (w.drop o)) none 0 = some (pos, s) ∧ 4 ≤ numCap p.re ∧
      coreStart pos s ≠ coreStop (numCap p.re) s ∧ (o', x) = report p w o pos s := by
  obtain ⟨pos, s, h1, h2, h3, _⟩ := findStep_search h
  obtain ⟨_, _, _, _, _, h4, _⟩ := (findStep_some h).found
  refine ⟨pos, s, h1, h4, h3, ?_⟩
  rw [findStep_report h1 h4 h3] at h
  simpa using h.symm

/-- Recorded offsets are inside the text. -/
theorem cap_le {p : Pattern} {w : Bytes} {o pos : Nat} {s : St} (ho : o ≤ w.length)
    (h : searchFrom p.re (decode (w.drop o)) none 0 = some (pos, s)) {i q : Nat} (hc : s.caps[i]? = some (some q)) :
    q + o ≤ w.length := by
  obtain ⟨u, v, h1, h2, h3⟩ := searchFrom_some h
  obtain ⟨a, b, e1, e2, _⟩ := run_start_cap h3 hc
  have := decode_width (w.drop o)
  rw [h1, e1] at this
  simp at this h2
  omega

theorem shift_getD_le {p : Pattern} {w : Bytes} {o pos : Nat} {s : St} (ho : o ≤ w.length)
    (h : searchFrom p.re (decode (w.drop o)) none 0 = some (pos, s)) (i : Nat) :
    shift o (toInt ((s.caps[i]?).getD none)) ≤ w.length ∧ -1 ≤ shift o (toInt ((s.caps[i]?).getD none)) := by
  rw [shift_toInt]
  cases hc : (s.caps[i]?).getD none with
  | none => simp only; omega
  | some q =>
    have := cap_le ho h (getD_some hc)
    simp only
    omega

theorem groups_bound {p : Pattern} {w : Bytes} {o pos : Nat} {s : St} (ho : o ≤ w.length)
    (h : searchFrom p.re (decode (w.drop o)) none 0 = some (pos, s)) (n : Nat) :
    ∀ i ∈ groups n o s, i ≤ w.length ∧ -1 ≤ i := by
  intro i hi
  simp only [groups, List.mem_map] at hi
  obtain ⟨c, hc, rfl⟩ := hi
  have hc := List.mem_of_mem_drop (List.mem_of_mem_take hc)
  obtain ⟨j, hj⟩ := List.mem_iff_getElem?.1 hc
  have := shift_getD_le ho h j
  rw [hj] at this
  simpa using this

theorem wordly_within {p : Pattern} (h : wordly p = true) : Within (numCap p.re) p.re ∧ aheadOk p = true ∧ behindOk p = true := by
  simp only [wordly, Bool.and_eq_true] at h
  exact ⟨within_sound h.1.1, h.1.2, h.2⟩

/-- What is found in the first part is found also if the text goes on. -/
theorem step_first {p : Pattern} (h : wordly p = true) {x : Bytes} (hx : Solid x) (y : Bytes) {o o' : Nat} (ho : o ≤ x.length)
    {m : Option (List Int)} (hs : findStep p x o = .ok (some (o', m))) : findStep p (both x y) o = .ok (some (o', m)) := by
  obtain ⟨pos, s, h1, h2, h3, h4⟩ := search_of_step hs
  obtain ⟨w1, w2, w3⟩ := wordly_within h
  rcases search_first w1 (Nat.le_refl _) (decode y) (decode (x.drop o)) (solid_decode (hx.drop o)) none 0 with
    ⟨pos', t, t', e1, e2, ha, hst⟩ | ⟨e1, _⟩
  · rw [h1] at e1
    simp only [Option.some.injEq, Prod.mk.injEq] at e1
    obtain ⟨rfl, rfl⟩ := e1
    rw [← decode_drop_both y ho] at e2
    have hc : coreStart pos t' = coreStart pos s := by
      simp only [coreStart, ha 5 (by omega)]
    have hg : groups (numCap p.re) o t' = groups (numCap p.re) o s := by
      unfold groups
      congr 1
      apply List.ext_getElem?
      intro i
      rw [List.getElem?_take, List.getElem?_take]
      split
      · rw [List.getElem?_drop, List.getElem?_drop, ha _ (by omega)]
      · rfl
    rw [findStep_report e2 h2 (by rw [hc, hst]; exact h3), h4]
    unfold report
    rw [hst, hc, hg, ha _ (Nat.le_refl _), ha 5 (by omega), hitsAhead_first w2 hx y (shift_getD_le ho h1 _).1,
      hitsBehind_first x y (shift_getD_le ho h1 _).1]
  · rw [h1] at e1
    simp at e1

/-- What is found in the second part, moved. -/
theorem step_moved {p : Pattern} (h : wordly p = true) (x y : Bytes) {o q d pos pos' : Nat} {s s' : St} (ho : o ≤ y.length)
    (h1 : searchFrom p.re (decode (y.drop o)) none 0 = some (pos, s))
    (h2 : searchFrom p.re (decode ((both x y).drop q)) none 0 = some (pos', s')) (hl : Late d s s')
    (hp : pos' = pos + d ∨ Marked 5 s) (hd : d + q = x.length + 1 + o) {o' : Nat} {m : Option (List Int)}
    (hs : findStep p y o = .ok (some (o', m))) :
    findStep p (both x y) q = .ok (some (x.length + 1 + o', m.map fun m => m.map (shift (x.length + 1)))) := by
  obtain ⟨pos₁, s₁, e1, h3, h4, h5⟩ := search_of_step hs
  rw [h1] at e1
  simp only [Option.some.injEq, Prod.mk.injEq] at e1
  obtain ⟨rfl, rfl⟩ := e1
  obtain ⟨w1, w2, w3⟩ := wordly_within h
  have hcap : ∀ i, 5 ≤ i → (s'.caps[i]?).getD none = ((s.caps[i]?).getD none).map (· + d) := by
    intro i hi
    rw [hl.2.2 i hi]
    cases s.caps[i]? <;> rfl
  have hstart : coreStart pos' s' = coreStart pos s + d := by
    simp only [coreStart, hcap 5 (Nat.le_refl _)]
    cases hc : (s.caps[5]?).getD none with
    | some a => rfl
    | none =>
      rcases hp with hp | ⟨a, ha⟩
      · simpa using hp
      · rw [ha] at hc; simp at hc
  have hstop : coreStop (numCap p.re) s' = coreStop (numCap p.re) s + d := by
    simp only [coreStop, hcap (2 * (numCap p.re - 1)) (by omega)]
    cases hc : (s.caps[2 * (numCap p.re - 1)]?).getD none with
    | some a => rfl
    | none => simpa using hl.1
  have hshift : ∀ c : Option Nat, shift q (toInt (c.map (· + d))) = shift (x.length + 1) (shift o (toInt c)) := by
    intro c
    cases c with
    | none => simp [shift, toInt]
    | some a =>
      simp only [Option.map_some, shift_toInt]
      unfold shift
      rw [if_pos (by omega)]
      omega
  have hg : groups (numCap p.re) q s' = (groups (numCap p.re) o s).map (shift (x.length + 1)) := by
    unfold groups
    rw [List.map_map]
    apply List.ext_getElem?
    intro i
    rw [List.getElem?_map, List.getElem?_map, List.getElem?_take, List.getElem?_take]
    split
    · rw [List.getElem?_drop, List.getElem?_drop, hl.2.2 _ (by omega)]
      cases s.caps[6 + i]? with
      | none => rfl
      | some c => simp [hshift]
    · rfl
  rw [findStep_report h2 h3 (by rw [hstart, hstop]; omega)]
  simp only [report, Prod.mk.injEq] at h5
  obtain ⟨rfl, rfl⟩ := h5
  unfold report
  rw [hstop, hstart, hg, hcap _ (by omega), hcap 5 (Nat.le_refl _), hshift, hshift,
    hitsAhead_second w2 x y (shift_getD_le ho h1 _).2, hitsBehind_second w3 x y (shift_getD_le ho h1 _).2]
  congr 3
  · omega
  · split
    · rfl
    · simp only [Option.map_some, List.map_cons, Option.some.injEq, List.cons.injEq, and_true]
      unfold shift
      rw [if_pos (by omega), if_pos (by omega)]
      omega

theorem late_refl (s : St) : Late 0 s s := ⟨rfl, rfl, fun i _ => by cases s.caps[i]? with | none => rfl | some c => cases c <;> rfl⟩

/-- A later round in the second part. -/
theorem step_second {p : Pattern} (h : wordly p = true) (x y : Bytes) {o o' : Nat} (ho : o ≤ y.length) {m : Option (List Int)}
    (hs : findStep p y o = .ok (some (o', m))) :
    findStep p (both x y) (x.length + 1 + o) = .ok (some (x.length + 1 + o', m.map fun m => m.map (shift (x.length + 1)))) := by
  obtain ⟨pos, s, e1, _⟩ := search_of_step hs
  exact step_moved h x y ho e1 (by rw [drop_both_late]; exact e1) (late_refl s) (.inl rfl) (by omega) hs

theorem step_second_none {p : Pattern} (x y : Bytes) {o : Nat} (hs : findStep p y o = .ok none) :
    findStep p (both x y) (x.length + 1 + o) = .ok none := by
  have := findStep_none hs
  unfold findStep findSubmatch
  rw [drop_both_late, this]
  rfl

/-- The round after the last match in the first part. -/
theorem step_between {p : Pattern} (h : wordly p = true) {x : Bytes} (hx : Solid x) (y : Bytes) {o : Nat} (ho : o ≤ x.length)
    (hn : o = x.length ∨ findStep p x o = .ok none) {r : Option (Nat × Option (List Int))} (hs : findStep p y 0 = .ok r)
    (hk : 2 ≤ numCap p.re) : findStep p (both x y) o =
      .ok (r.map fun r => (x.length + 1 + r.1, r.2.map fun m => m.map (shift (x.length + 1)))) := by
  obtain ⟨w1, w2, w3⟩ := wordly_within h
  have hno : searchFrom p.re (decode (x.drop o)) none 0 = none := by
    rcases hn with rfl | hn
    · rw [List.drop_length]
      simp only [decode_nil, searchFrom]
      rw [w1.stop (s := start p.re none 0 []) rfl]
      rfl
    · exact findStep_none hn
  have hwd : width (decode (x.drop o)) = x.length - o := by rw [decode_width]; simp
  rcases search_first w1 (Nat.le_refl _) (decode y) (decode (x.drop o)) (solid_decode (hx.drop o)) none 0 with
    ⟨pos', t, t', e1, _⟩ | ⟨_, prev, e⟩
  · rw [hno] at e1; simp at e1
  · rw [← decode_drop_both y ho, Nat.zero_add, hwd] at e
    rcases search_second w1 hk (decode y) prev (x.length - o) with ⟨f1, f2⟩ | ⟨pos, s, pos', s', f1, f2, hl, hp⟩
    · have hr : r = none := by
        cases r with
        | none => rfl
        | some r =>
          obtain ⟨pos, s, e1, _⟩ := search_of_step (o' := r.1) (x := r.2) hs
          rw [List.drop_zero, f1] at e1
          simp at e1
      subst hr
      unfold findStep findSubmatch
      rw [e, f2]
      rfl
    · cases r with
      | none =>
        have := findStep_none hs
        rw [List.drop_zero, f1] at this
        simp at this
      | some r =>
        exact step_moved h x y (Nat.zero_le _) (by rw [List.drop_zero]; exact f1) (by rw [e, f2]) hl hp (by omega) hs

/-! ## All rounds -/

/-- The rounds of `Find` from an offset on. -/
inductive Rounds (p : Pattern) (w : Bytes) : Nat → List (List Int) → Prop
  | done {o : Nat} (h : w.length ≤ o) : Rounds p w o []
  | none {o : Nat} (h : o < w.length) (s : findStep p w o = .ok none) : Rounds p w o []
  | veto {o o' : Nat} {ms : List (List Int)} (h : o < w.length) (s : findStep p w o = .ok (some (o', none)))
      (t : Rounds p w o' ms) : Rounds p w o ms
  | found {o o' : Nat} {m : List Int} {ms : List (List Int)} (h : o < w.length) (s : findStep p w o = .ok (some (o', some m)))
      (t : Rounds p w o' ms) : Rounds p w o (m :: ms)

theorem rounds_of_loop {p : Pattern} {w : Bytes} : ∀ (fuel o c : Nat) {ms : List (List Int)},
    findLoop p w (-1) fuel o c = .ok ms → Rounds p w o ms
  | 0, o, c, ms, h => by simp [findLoop] at h
  | fuel + 1, o, c, ms, h => by
    simp only [findLoop] at h
    split at h
    · rename_i ho
      rw [Go.bind_eq_ok] at h
      obtain ⟨r, hr, h⟩ := h
      cases r with
      | none =>
        simp at h
        subst h
        exact .none ho.1 hr
      | some r =>
        obtain ⟨o', r⟩ := r
        cases r with
        | none => exact .veto ho.1 hr (rounds_of_loop fuel o' c h)
        | some m =>
          simp only [Go.bind_eq_ok, Go.pure_eq, Go.ok.injEq] at h
          obtain ⟨ms', h, rfl⟩ := h
          exact .found ho.1 hr (rounds_of_loop fuel o' (c + 1) h)
    · rename_i ho
      simp at h
      subst h
      exact .done (by omega)

theorem Rounds.unique {p : Pattern} {w : Bytes} {o : Nat} {ms ms' : List (List Int)} (h : Rounds p w o ms)
    (h' : Rounds p w o ms') : ms' = ms := by
  induction h generalizing ms' with
  | done h =>
    cases h' with
    | done => rfl
    | none h2 => omega
    | veto h2 => omega
    | found h2 => omega
  | none h s =>
    cases h' with
    | done => rfl
    | none h2 => rfl
    | veto h2 s2 => rw [s] at s2; simp at s2
    | found h2 s2 => rw [s] at s2; simp at s2
  | veto h s t ih =>
    cases h' with
    | done => omega
    | none h2 s2 => rw [s] at s2; simp at s2
    | veto h2 s2 t2 =>
      rw [s] at s2
      simp at s2
      subst s2
      exact ih t2
    | found h2 s2 => rw [s] at s2; simp at s2
  | found h s t ih =>
    cases h' with
    | done => omega
    | none h2 s2 => rw [s] at s2; simp at s2
    | veto h2 s2 t2 => rw [s] at s2; simp at s2
    | found h2 s2 t2 =>
      rw [s] at s2
      simp at s2
      obtain ⟨rfl, rfl⟩ := s2
      rw [ih t2]

theorem rounds_second {p : Pattern} (h : wordly p = true) (x y : Bytes) {o : Nat} {ms : List (List Int)} (hr : Rounds p y o ms) :
    Rounds p (both x y) (x.length + 1 + o) (ms.map fun m => m.map (shift (x.length + 1))) := by
  induction hr with
  | done ho => exact .done (by simp; omega)
  | none ho s => exact .none (by simp; omega) (step_second_none x y s)
  | veto ho s t ih => exact .veto (by simp; omega) (step_second h x y (by omega) s) ih
  | found ho s t ih =>
    rw [List.map_cons]
    exact .found (by simp; omega) (step_second h x y (by omega) s) ih

/-- An offset found in the first part is inside it. -/
theorem step_bound {p : Pattern} {w : Bytes} {o o' : Nat} {m : Option (List Int)} (ho : o ≤ w.length)
    (hs : findStep p w o = .ok (some (o', m))) : o' ≤ w.length := by
  obtain ⟨pos, s, e1, _, _, e2⟩ := search_of_step hs
  simp only [report, Prod.mk.injEq] at e2
  obtain ⟨rfl, _⟩ := e2
  obtain ⟨u, v, h1, h2, h3⟩ := searchFrom_some e1
  obtain ⟨a, b, f1, f2, _⟩ := coreStop_spec (k := numCap p.re) h3
  have := decode_width (w.drop o)
  rw [h1, f1] at this
  simp at this h2
  omega

/-- The rounds from a place in the first part where nothing more is found there. -/
theorem rounds_between {p : Pattern} (h : wordly p = true) {x : Bytes} (hx : Solid x) (y : Bytes) {o : Nat} (ho : o ≤ x.length)
    (hn : o = x.length ∨ findStep p x o = .ok none) (hk : 2 ≤ numCap p.re) {ms : List (List Int)} (hy : Rounds p y 0 ms) :
    Rounds p (both x y) o (ms.map fun m => m.map (shift (x.length + 1))) := by
  have hlt : o < (both x y).length := by simp; omega
  cases hy with
  | done hl =>
    have e : y = [] := by simpa using hl
    subst e
    have hs : findStep p [] 0 = .ok none := by
      unfold findStep findSubmatch
      simp only [List.drop_nil, decode_nil, searchFrom]
      rw [(wordly_within h).1.stop (s := start p.re none 0 []) rfl]
      rfl
    exact .none hlt (step_between h hx [] ho hn hs hk)
  | none _ s => exact .none hlt (step_between h hx y ho hn s hk)
  | veto hl s t => exact .veto hlt (step_between h hx y ho hn s hk) (rounds_second h x y t)
  | found hl s t =>
    rw [List.map_cons]
    exact .found hlt (step_between h hx y ho hn s hk) (rounds_second h x y t)

theorem rounds_both {p : Pattern} (h : wordly p = true) (hk : 2 ≤ numCap p.re) {x : Bytes} (hx : Solid x) (y : Bytes) {ms' : List (List Int)}
    (hy : Rounds p y 0 ms') {o : Nat} {ms : List (List Int)} (hr : Rounds p x o ms) (ho : o ≤ x.length) :
    Rounds p (both x y) o (ms ++ ms'.map fun m => m.map (shift (x.length + 1))) := by
  induction hr with
  | done hl => exact rounds_between h hx y ho (.inl (by omega)) hk hy
  | none hl s => exact rounds_between h hx y ho (.inr s) hk hy
  | veto hl s t ih => exact .veto (by simp; omega) (step_first h hx y ho s) (ih (step_bound ho s))
  | found hl s t ih =>
    rw [List.cons_append]
    exact .found (by simp; omega) (step_first h hx y ho s) (ih (step_bound ho s))

/-- What is reported of matches. -/
def Good (w : Bytes) (m : List Int) : Prop :=
  ∃ (a b : Nat) (g : List Int), m = (a : Int) :: (b : Int) :: g ∧ ∀ i ∈ m, i ≤ w.length ∧ -1 ≤ i

theorem rounds_good {p : Pattern} {w : Bytes} {o : Nat} {ms : List (List Int)} (h : Rounds p w o ms) :
    ∀ m ∈ ms, Good w m := by
  induction h with
  | done => simp
  | none => simp
  | veto _ _ _ ih => exact ih
  | @found o o' m ms hl s t ih =>
    intro m' hm
    rcases List.mem_cons.1 hm with rfl | hm
    · obtain ⟨pos, st, e1, _, _, e2⟩ := search_of_step s
      have hb := step_bound (by omega) s
      obtain ⟨u, v, h1, h2, h3⟩ := searchFrom_some e1
      obtain ⟨a, b, f1, f2, _⟩ := coreStart_spec h3
      have hw := decode_width (w.drop o)
      rw [h1, f1] at hw
      simp at hw h2
      simp only [report, Prod.mk.injEq] at e2
      obtain ⟨rfl, e2⟩ := e2
      split at e2
      · simp at e2
      · simp only [Option.some.injEq] at e2
        refine ⟨_, _, _, e2, ?_⟩
        rw [e2]
        intro i hi
        rcases List.mem_cons.1 hi with rfl | hi
        · omega
        rcases List.mem_cons.1 hi with rfl | hi
        · omega
        exact groups_bound (by omega) e1 _ i hi
    · exact ih m' hm

/-! ## Replacements -/

theorem captured_first {x : Bytes} (y : Bytes) {m : List Int} (h : ∀ i ∈ m, i ≤ x.length ∧ -1 ≤ i) (n : Nat) :
    captured (both x y) m n = captured x m n := by
  unfold captured index
  cases m[n * 2]? with
  | none => rfl
  | some a =>
    cases hb : m[n * 2 + 1]? with
    | none => rfl
    | some b =>
      simp only [Go.bind_ok, Go.pure_eq]
      rw [substr_first y a (h b (List.mem_of_getElem? hb)).1]

theorem captured_second (x : Bytes) {y : Bytes} {m : List Int} (h : ∀ i ∈ m, i ≤ y.length ∧ -1 ≤ i) (n : Nat) :
    captured (both x y) (m.map (shift (x.length + 1))) n = captured y m n := by
  unfold captured index
  rw [List.getElem?_map, List.getElem?_map]
  cases ha : m[n * 2]? with
  | none => rfl
  | some a =>
    cases hb : m[n * 2 + 1]? with
    | none => rfl
    | some b =>
      simp only [Option.map_some, Go.bind_ok, Go.pure_eq]
      have h1 := (h a (List.mem_of_getElem? ha)).2
      have h2 := (h b (List.mem_of_getElem? hb)).2
      congr 1
      unfold shift
      by_cases e1 : a = -1
      · subst e1
        rw [substr_neg y _ (by omega), if_neg (by simp), substr_neg _ _ (by omega)]
      · by_cases e2 : b = -1
        · subst e2
          rw [substr_neg' y _ (by omega), if_neg (c := (-1 : Int) ≠ -1) (by simp), substr_neg' _ _ (by omega)]
        · rw [if_pos e1, if_pos e2, substr_second x y (by omega) (by omega)]

theorem interpolateParts_congr {p : Pattern} {w w' : Bytes} {m m' : List Int} (h : ∀ n, captured w m n = captured w' m' n) :
    ∀ (ps : List RPart) (k : Nat), interpolateParts p w m k ps = interpolateParts p w' m' k ps
  | [], k => rfl
  | .plain t :: ps, k => by simp only [interpolateParts, interpolateParts_congr h ps]
  | .toVar vals :: ps, k => by simp only [interpolateParts, interpolateParts_congr h ps, h]

theorem replacementsLoop_append (r : Rule) (w : Bytes) : ∀ (a b : List (List Int)) {x y : List Repl},
    r.replacementsLoop w a = .ok x → r.replacementsLoop w b = .ok y → r.replacementsLoop w (a ++ b) = .ok (x ++ y)
  | [], b, x, y, hx, hy => by
    simp [Rule.replacementsLoop] at hx
    subst hx
    exact hy
  | m :: a, b, x, y, hx, hy => by
    simp only [List.cons_append, Rule.replacementsLoop, Go.bind_eq_ok] at hx ⊢
    obtain ⟨s, hs, t, ht, hx⟩ := hx
    refine ⟨s, hs, t, ht, ?_⟩
    split at hx
    · rw [Go.bind_eq_ok] at hx
      obtain ⟨z, hz, hx⟩ := hx
      simp only [Go.pure_eq, Go.ok.injEq] at hx
      subst hx
      rw [replacementsLoop_append r w a b hz hy]
      rfl
    · exact replacementsLoop_append r w a b hx hy
    · simp at hx
    · simp at hx

theorem replacementsLoop_first (r : Rule) {x : Bytes} (y : Bytes) : ∀ (ms : List (List Int)), (∀ m ∈ ms, Good x m) →
    r.replacementsLoop (both x y) ms = r.replacementsLoop x ms
  | [], _ => rfl
  | m :: ms, h => by
    obtain ⟨_, _, _, _, hg⟩ := h m (by simp)
    have e : interpolate r.to r.pat (both x y) m = interpolate r.to r.pat x m :=
      interpolateParts_congr (captured_first y hg) _ _
    simp only [Rule.replacementsLoop, e, replacementsLoop_first r y ms fun m hm => h m (by simp [hm])]

/-- A replacement at another place. -/
def move (d : Nat) (r : Repl) : Repl := ⟨d + r.start, d + r.stop, r.word⟩

theorem replacementsLoop_second (r : Rule) (x : Bytes) {y : Bytes} : ∀ (ms : List (List Int)), (∀ m ∈ ms, Good y m) →
    ∀ {rs : List Repl}, r.replacementsLoop y ms = .ok rs →
    r.replacementsLoop (both x y) (ms.map fun m => m.map (shift (x.length + 1))) = .ok (rs.map (move (x.length + 1)))
  | [], _, rs, h => by
    simp [Rule.replacementsLoop] at h ⊢
    subst h
    rfl
  | m :: ms, h, rs, hr => by
    obtain ⟨a, b, g, em, hg⟩ := h m (by simp)
    have e : interpolate r.to r.pat (both x y) (m.map (shift (x.length + 1))) = interpolate r.to r.pat y m :=
      interpolateParts_congr (captured_second x hg) _ _
    have ih := fun {rs} => replacementsLoop_second r x ms (fun m hm => h m (by simp [hm])) (rs := rs)
    have i0 : index m 0 = .ok (a : Int) := by rw [em]; rfl
    have i1 : index m 1 = .ok (b : Int) := by rw [em]; rfl
    have sh : ∀ c : Nat, shift (x.length + 1) (c : Int) = ((x.length + 1 + c : Nat) : Int) := by
      intro c
      unfold shift
      rw [if_pos (by omega)]
      omega
    have j0 : index (m.map (shift (x.length + 1))) 0 = .ok ((x.length + 1 + a : Nat) : Int) := by
      rw [← sh, em]; rfl
    have j1 : index (m.map (shift (x.length + 1))) 1 = .ok ((x.length + 1 + b : Nat) : Int) := by
      rw [← sh, em]; rfl
    simp only [List.map_cons, Rule.replacementsLoop, i0, i1, j0, j1, Go.bind_ok, e, Int.toNat_natCast] at hr ⊢
    split at hr
    · rename_i t ht
      rw [Go.bind_eq_ok] at hr
      obtain ⟨z, hz, hr⟩ := hr
      simp only [Go.pure_eq, Go.ok.injEq] at hr
      subst hr
      rw [ih hz]
      rfl
    · exact ih hr
    · simp at hr
    · simp at hr

/-- The replacements of a rule in a text of two parts are those in the parts. -/
theorem replacements_both {r : Rule} (h : wordly r.pat = true) (hk : 2 ≤ numCap r.pat.re) {x : Bytes} (hx : Solid x) {y : Bytes} {a b c : List Repl}
    (ha : r.replacements x = .ok a) (hb : r.replacements y = .ok b) (hc : r.replacements (both x y) = .ok c) :
    c = a ++ b.map (move (x.length + 1)) := by
  simp only [Rule.replacements, Go.bind_eq_ok] at ha hb hc
  obtain ⟨ma, ha, ha'⟩ := ha
  obtain ⟨mb, hb, hb'⟩ := hb
  obtain ⟨mc, hc, hc'⟩ := hc
  have ra := rounds_of_loop _ _ _ ha
  have rb := rounds_of_loop _ _ _ hb
  have rc := rounds_of_loop _ _ _ hc
  have e := (rounds_both h hk hx y rb ra (Nat.zero_le _)).unique rc
  subst e
  rw [← replacementsLoop_first r y ma (rounds_good ra)] at ha'
  have := replacementsLoop_append r _ _ _ ha' (replacementsLoop_second r x mb (rounds_good rb) hb')
  rw [hc'] at this
  simpa using this

end Verif.Words
