import Verif.Spec.Groups
import Verif.Proofs.ExprLook

/-! How the matcher treats the groups of an expression. -/

namespace Verif.Spec.Expr

open Verif.Rx Verif.Spec

/-- The group numbered `n`, counted from 0. -/
def capture (n : Nat) (f : St → List St) (s : St) : List St := (f (setCap (2 * (n + 1)) s)).map (setCap (2 * (n + 1) + 1))

/-- The matcher on an expression before which `n` groups begin. -/
def runE : Nat → Expr → St → List St
  | _, .nothing, s => [s]
  | _, .char c, s => one (· == c) s
  | _, .any, s => one (· != 0x0A) s
  | _, .oneOf ranges, s => one (fun r => inRanges ranges r) s
  | n, .var _ vals, s => capture n (fun s => vals.flatMap fun v => lits v s) s
  | n, .seq a b, s => (runE n a s).flatMap (runE (n + groups a) b)
  | n, .or a b, s => runE n a s ++ runE (n + groups a) b s
  | n, .group true a, s => capture n (runE (n + 1) a) s
  | n, .group false a, s => runE n a s
  | n, .opt g a, s => if g then runE n a s ++ [s] else s :: runE n a s
  | n, .many g a, s => starLoop g (runE n a) s
  | n, .more g a, s => plusLoop g (runE n a) s.rest.length s

/-- The items an expression appends. -/
structure ItemsN (e : Expr) (st st' : PSt) (rs : List Re) : Prop where
  cap : st'.cur.cap = st.cur.cap
  alts : st'.cur.alts = st.cur.alts
  cat : st'.cur.cat = rs.reverse ++ st.cur.cat
  stack : st'.stack = st.stack
  ncap : st'.ncap = st.ncap + groups e
  run : ∀ k s, runCat (rs.map (shiftCap k)) s = runE (st.ncap + k) e s
  atom : isAtom e = true → st'.lastRep = false ∧ ∃ r, rs = [r]

/-- The alternatives an expression appends in an empty group. -/
structure AltsN (e : Expr) (st st' : PSt) (a : Re) (as : List Re) : Prop where
  cap : st'.cur.cap = st.cur.cap
  alts : st'.cur.alts = as ++ st.cur.alts
  cat : mkCat st'.cur.cat = a
  stack : st'.stack = st.stack
  ncap : st'.ncap = st.ncap + groups e
  run : ∀ k s, runAlt ((a :: as).reverse.map (shiftCap k)) s = runE (st.ncap + k) e s

theorem runCat_one (r : Re) (s : St) : runCat [r] s = run r s := by
  simp [runCat]

theorem ItemsN.toAlts {e : Expr} {st st' : PSt} {rs : List Re} (h : ItemsN e st st' rs) (h0 : st.cur.cat = []) :
    AltsN e st st' (mkCat rs.reverse) [] where
  cap := h.cap
  alts := by simp [h.alts]
  cat := by rw [h.cat, h0, List.append_nil]
  stack := h.stack
  ncap := h.ncap
  run k s := by
    have := h.run k s
    simp only [List.reverse_cons, List.reverse_nil, List.nil_append, List.map_cons, List.map_nil, runAlt, List.append_nil,
      shiftCap_mkCat, run_mkCat, List.map_reverse, List.reverse_reverse, this]

theorem itemsN_push {e : Expr} {st : PSt} {r : Re} (hg : groups e = 0) (h : ∀ k s, run (shiftCap k r) s = runE (st.ncap + k) e s) :
    ItemsN e st (st.push r) [r] where
  cap := rfl
  alts := rfl
  cat := rfl
  stack := rfl
  ncap := by rw [hg]; rfl
  run k s := by rw [List.map_cons, List.map_nil, runCat_one, h k s]
  atom _ := ⟨rfl, _, rfl⟩

theorem itemsN_repeat {e a : Expr} {st st' : PSt} {rs : List Re} (h : ItemsN a st st' rs) (ha : isAtom a = true)
    (he : isAtom e = false) (hg : groups e = groups a) {f : Re → Re}
    (hf : ∀ r k, (∀ s, run (shiftCap k r) s = runE (st.ncap + k) a s) → ∀ s, run (shiftCap k (f r)) s = runE (st.ncap + k) e s) :
    ∃ st'' rs', st'.repeat f = .ok st'' ∧ ItemsN e st st'' rs' := by
  obtain ⟨h1, r, rfl⟩ := h.atom ha
  have hc : st'.cur.cat = r :: st.cur.cat := h.cat
  refine ⟨{ st' with cur := { st'.cur with cat := f r :: st.cur.cat }, lastRep := true }, [f r],
    by simp only [PSt.repeat, h1, hc], h.cap, h.alts, rfl, h.stack, ?_, fun k s => ?_, by simp [he]⟩
  · rw [hg]; exact h.ncap
  · rw [List.map_cons, List.map_nil, runCat_one]
    refine hf r k (fun s => ?_) s
    have := h.run k s
    rwa [List.map_cons, List.map_nil, runCat_one] at this

theorem parse_groups : ∀ (e : Expr), Raw e →
    (isOr e = false → ∀ st, ∃ st' rs, psteps st (toks e) = .ok st' ∧ ItemsN e st st' rs) ∧
    (∀ st, st.cur.cat = [] → ∃ st' a as, psteps st (toks e) = .ok st' ∧ AltsN e st st' a as) := by
  have up : ∀ e : Expr, (∀ st, ∃ st' rs, psteps st (toks e) = .ok st' ∧ ItemsN e st st' rs) →
      (isOr e = false → ∀ st, ∃ st' rs, psteps st (toks e) = .ok st' ∧ ItemsN e st st' rs) ∧
      (∀ st, st.cur.cat = [] → ∃ st' a as, psteps st (toks e) = .ok st' ∧ AltsN e st st' a as) := by
    intro e h
    refine ⟨fun _ => h, fun st h0 => ?_⟩
    obtain ⟨st', rs, h1, h2⟩ := h st
    exact ⟨st', _, _, h1, h2.toAlts h0⟩
  intro e
  induction e with
  | nothing =>
    intro _
    exact up _ fun st => ⟨st, [], rfl, rfl, rfl, rfl, rfl, rfl, fun k s => by simp [runCat, runE], by simp [isAtom]⟩
  | char c =>
    refine fun _ => up _ fun st => ⟨_, _, rfl, itemsN_push rfl fun k s => ?_⟩
    rw [shiftCap, run, lits, runE]
    · simp [lits]
    all_goals simp
  | any => exact fun _ => up _ fun st => ⟨_, _, rfl, itemsN_push rfl fun k s => by rw [shiftCap, run, runE]; all_goals simp⟩
  | oneOf r => exact fun _ => up _ fun st => ⟨_, _, rfl, itemsN_push rfl fun k s => by rw [shiftCap, run, runE]; all_goals simp⟩
  | var n v => exact fun h => h.elim
  | seq a b iha ihb =>
    rintro ⟨ha, hb, oa, ob⟩
    refine up _ fun st => ?_
    obtain ⟨s1, r1, h1, i1⟩ := (iha ha).1 oa st
    obtain ⟨s2, r2, h2, i2⟩ := (ihb hb).1 ob s1
    refine ⟨s2, r1 ++ r2, by rw [toks, psteps_append, h1]; exact h2, i2.cap.trans i1.cap, i2.alts.trans i1.alts, ?_,
      i2.stack.trans i1.stack, ?_, fun k s => ?_, by simp [isAtom]⟩
    · rw [i2.cat, i1.cat]; simp
    · rw [i2.ncap, i1.ncap, groups]; omega
    · rw [List.map_append, Verif.Hre.runCat_append, i1.run k s, runE]
      refine congrArg (List.flatMap · _) (funext fun s' => ?_)
      rw [i2.run k s', i1.ncap, show st.ncap + groups a + k = st.ncap + k + groups a by omega]
  | or a b iha ihb =>
    rintro ⟨ha, hb⟩
    refine ⟨by simp [isOr], fun st h0 => ?_⟩
    obtain ⟨s1, r1, as1, h1, i1⟩ := (iha ha).2 st h0
    obtain ⟨s2, r2, as2, h2, i2⟩ := (ihb hb).2
      { s1 with cur := ⟨s1.cur.cap, mkCat s1.cur.cat :: s1.cur.alts, []⟩, lastRep := false } rfl
    refine ⟨s2, r2, as2 ++ r1 :: as1, ?_, i2.cap.trans i1.cap, ?_, i2.cat, i2.stack.trans i1.stack, ?_, fun k s => ?_⟩
    · rw [toks, psteps_append, h1]
      simp only [Go.bind, psteps, pstep]
      exact h2
    · rw [i2.alts]
      simp [i1.alts, i1.cat]
    · rw [i2.ncap, groups]
      show s1.ncap + _ = _
      rw [i1.ncap]; omega
    · have : (r2 :: (as2 ++ r1 :: as1)).reverse = (r1 :: as1).reverse ++ (r2 :: as2).reverse := by simp
      rw [this, List.map_append, runAlt_append, i1.run k s, i2.run k s, runE]
      show _ ++ runE (s1.ncap + k) b s = _
      rw [i1.ncap, show st.ncap + groups a + k = st.ncap + k + groups a by omega]
  | group c a ih =>
    intro ha
    refine up _ fun st => ?_
    have key : ∀ s0 : PSt, s0.cur.cat = [] → s0.cur.alts = [] → s0.stack = st.cur :: st.stack →
        ∃ s1 : Frame, psteps s0 (toks a ++ [.close]) = .ok (PSt.push ⟨st.cur, st.stack, s0.ncap + groups a, false⟩ s1.close) ∧
          s1.cap = s0.cur.cap ∧ ∀ k s, run (shiftCap k s1.body) s = runE (s0.ncap + k) a s := by
      intro s0 h0 h1 h2
      obtain ⟨s1, r1, as1, k1, i1⟩ := (ih ha).2 s0 h0
      refine ⟨s1.cur, ?_, i1.cap, fun k s => ?_⟩
      · rw [psteps_append, k1]
        simp only [Go.bind, psteps, pstep, i1.stack, h2, i1.ncap]
      · have hb : s1.cur.body = mkAlt (r1 :: as1) := by
          rw [Frame.body, i1.cat, i1.alts, h1, List.append_nil]
        rw [hb, shiftCap_mkAlt, List.map_cons, run_mkAlt, ← List.map_cons, ← List.map_reverse, i1.run k s]
    cases c
    · obtain ⟨s1, h1, h2, h3⟩ := key ⟨⟨none, [], []⟩, st.cur :: st.stack, st.ncap, false⟩ rfl rfl rfl
      refine ⟨PSt.push ⟨st.cur, st.stack, st.ncap + groups a, false⟩ s1.close, [s1.close], ?_, ?_⟩
      · simp only [toks, psteps, pstep, Bool.false_eq_true, if_false, Go.bind]
        exact h1
      · refine ⟨rfl, rfl, rfl, rfl, ?_, fun k s => ?_, fun _ => ⟨rfl, _, rfl⟩⟩
        · simp [PSt.push, groups]
        · have h2 : s1.cap = none := h2
          rw [List.map_cons, List.map_nil, runCat_one, Frame.close, h2]
          exact h3 k s
    · obtain ⟨s1, h1, h2, h3⟩ := key ⟨⟨some (st.ncap + 1), [], []⟩, st.cur :: st.stack, st.ncap + 1, false⟩ rfl rfl rfl
      refine ⟨PSt.push ⟨st.cur, st.stack, st.ncap + 1 + groups a, false⟩ s1.close, [s1.close], ?_, ?_⟩
      · simp only [toks, psteps, pstep, if_true, Go.bind]
        exact h1
      · refine ⟨rfl, rfl, rfl, rfl, ?_, fun k s => ?_, fun _ => ⟨rfl, _, rfl⟩⟩
        · simp only [PSt.push, groups, if_true]; omega
        · have h2 : s1.cap = some (st.ncap + 1) := h2
          rw [List.map_cons, List.map_nil, runCat_one, Frame.close, h2]
          simp only [shiftCap, run, runE, capture]
          rw [h3 k, show st.ncap + 1 + k = st.ncap + k + 1 by omega]
  | opt g a ih =>
    rintro ⟨ha, hat⟩
    refine up _ fun st => ?_
    obtain ⟨s1, r1, h1, i1⟩ := (ih ha).1 (by cases a <;> simp_all [isAtom, isOr]) st
    obtain ⟨s2, r2, h2, i2⟩ := itemsN_repeat (e := .opt g a) (f := .quest g) i1 hat rfl rfl fun r k hr s => by
      simp only [shiftCap, run, runE, hr]
    refine ⟨s2, r2, ?_, i2⟩
    rw [toks, psteps_append, h1]
    simp only [Go.bind, psteps, pstep, h2]
  | many g a ih =>
    rintro ⟨ha, hat⟩
    refine up _ fun st => ?_
    obtain ⟨s1, r1, h1, i1⟩ := (ih ha).1 (by cases a <;> simp_all [isAtom, isOr]) st
    obtain ⟨s2, r2, h2, i2⟩ := itemsN_repeat (e := .many g a) (f := .star g) i1 hat rfl rfl fun r k hr s => by
      simp only [shiftCap, run, runE, funext hr]
    refine ⟨s2, r2, ?_, i2⟩
    rw [toks, psteps_append, h1]
    simp only [Go.bind, psteps, pstep, h2]
  | more g a ih =>
    rintro ⟨ha, hat⟩
    refine up _ fun st => ?_
    obtain ⟨s1, r1, h1, i1⟩ := (ih ha).1 (by cases a <;> simp_all [isAtom, isOr]) st
    obtain ⟨s2, r2, h2, i2⟩ := itemsN_repeat (e := .more g a) (f := .plus g) i1 hat rfl rfl fun r k hr s => by
      simp only [shiftCap, run, runE, funext hr]
    refine ⟨s2, r2, ?_, i2⟩
    rw [toks, psteps_append, h1]
    simp only [Go.bind, psteps, pstep, h2]

/-! ## Vars -/

theorem groups_chars (v : List Rune) : groups (chars v) = 0 := by
  induction v with
  | nil => rfl
  | cons c v ih => simp [chars, groups, ih]

theorem groups_these : ∀ vs : List (List Rune), groups (oneOfThese vs) = 0
  | [] => rfl
  | [v] => groups_chars v
  | v :: w :: vs => by simp [oneOfThese, groups, groups_chars, groups_these (w :: vs)]

theorem groups_core : ∀ e : Expr, groups (core e) = groups e
  | .nothing | .any | .char _ | .oneOf _ => rfl
  | .var n v => by simp [core, groups, groups_these]
  | .seq a b => by simp [core, groups, groups_core a, groups_core b]
  | .or a b => by simp [core, groups, groups_core a, groups_core b]
  | .group c a => by simp [core, groups, groups_core a]
  | .opt g a => by simp [core, groups, groups_core a]
  | .many g a => by simp [core, groups, groups_core a]
  | .more g a => by simp [core, groups, groups_core a]

theorem runE_chars (n : Nat) (v : List Rune) (s : St) : runE n (chars v) s = lits v s := by
  induction v generalizing n s with
  | nil => rfl
  | cons c v ih =>
    simp only [chars, runE, lits]
    exact congrArg (List.flatMap · _) (funext fun s' => ih _ s')

theorem runE_these : ∀ {vs : List (List Rune)} (n : Nat) (s : St), vs ≠ [] →
    runE n (oneOfThese vs) s = vs.flatMap fun v => lits v s
  | [], _, _, h => absurd rfl h
  | [v], n, s, _ => by simp [oneOfThese, runE_chars]
  | v :: w :: vs, n, s, _ => by
    simp only [oneOfThese, runE, runE_chars, runE_these (vs := w :: vs) _ s (by simp)]
    simp

theorem runE_core {vars : List (Bytes × List Bytes)} : ∀ {e : Expr}, Fit vars e → ∀ n, runE n (core e) = runE n e
  | .nothing, _, _ | .any, _, _ | .char _, _, _ | .oneOf _, _, _ => rfl
  | .var m v, h, n => by
    funext s
    simp only [core, runE]
    congr 1
    funext s
    exact runE_these _ s h.2.2.1
  | .seq a b, h, n => by funext s; simp only [core, runE, runE_core h.1, runE_core h.2.1, groups_core]
  | .or a b, h, n => by funext s; simp only [core, runE, runE_core h.1, runE_core h.2, groups_core]
  | .group true a, h, n => by funext s; simp only [core, runE, runE_core (e := a) h]
  | .group false a, h, n => by funext s; simp only [core, runE, runE_core (e := a) h]
  | .opt g a, h, n => by funext s; simp only [core, runE, runE_core h.1]
  | .many g a, h, n => by funext s; simp only [core, runE, runE_core h.1]
  | .more g a, h, n => by funext s; simp only [core, runE, runE_core h.1]

/-- What the text of an expression is compiled to. -/
theorem compile_groups {vars : List (Bytes × List Bytes)} {e : Expr} (h : Fit vars e) {r : Re}
    (hr : compile (encode (text (core e))) = .ok r) : numCap r = groups e ∧ ∀ k s, run (shiftCap k r) s = runE k e s := by
  have hw := raw_core h
  have hf := fine_text hw
  have hv : ∀ r ∈ text (core e), validRune r = true := fun r hr => (hf r hr).1
  obtain ⟨st, a, as, hp, hi⟩ := (parse_groups (core e) hw).2 PSt.init rfl
  have hlex : lexFrom 0 (text (core e)) = .ok (toks (core e)) := by
    have := lex_text (x := []) hw (.inr (by simp))
    simpa [lexFrom, Go.bind] using this
  have hpar : Parses (text (core e)) (toks (core e)) st.cur st.ncap st.lastRep := by
    refine ⟨hlex, ?_⟩
    rw [hp]
    have := hi.stack
    obtain ⟨cur, stack, n, l⟩ := st
    simp only [PSt.init] at this
    subst this
    rfl
  rw [compile, if_pos ⟨_, hv, rfl⟩, runes_encode hv, parseRunes_iff.2 ⟨_, _, _, _, hpar, rfl⟩] at hr
  cases hr
  constructor
  · rw [hpar.numCap, hi.ncap, groups_core]
    simp [PSt.init]
  · intro k s
    have hb : st.cur.body = mkAlt (a :: as) := by
      rw [Frame.body, hi.cat, hi.alts, PSt.init, List.append_nil]
    rw [hb, shiftCap_mkAlt, List.map_cons, run_mkAlt, ← List.map_cons, ← List.map_reverse, hi.run k s, runE_core h]
    simp [PSt.init]

end Verif.Spec.Expr
