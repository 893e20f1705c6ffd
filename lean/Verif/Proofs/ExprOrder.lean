import Verif.Spec.Expr
import Verif.Proofs.RegexpParse

/-! The order in which the matcher tries the texts of an expression. -/

namespace Verif.Spec.Expr

open Verif.Rx Verif.Spec

/-- A text with the widths of its characters. -/
abbrev Chars := List (Rune × Nat)

/-- What is left after one character. -/
def oneR (p : Rune → Bool) : Chars → List Chars
  | [] => []
  | (r, _) :: t => if p r then [t] else []

def litsR : List Rune → Chars → List Chars
  | [], x => [x]
  | r :: rs, x => (oneR (· == r) x).flatMap (litsR rs)

def loopR (g : Bool) (f : Chars → List Chars) : Nat → Chars → List Chars
  | 0, x => f x
  | n + 1, x => (f x).flatMap fun y =>
    if y.length < x.length then if g then loopR g f n y ++ [y] else y :: loopR g f n y else [y]

/-- What is left after the texts of an expression, in the order of preference. -/
def rests : Expr → Chars → List Chars
  | .nothing, x => [x]
  | .char c, x => oneR (· == c) x
  | .any, x => oneR (· != 0x0A) x
  | .oneOf ranges, x => oneR (inRanges ranges) x
  | .var _ vals, x => vals.flatMap fun v => litsR v x
  | .seq a b, x => (rests a x).flatMap (rests b)
  | .or a b, x => rests a x ++ rests b x
  | .group _ a, x => rests a x
  | .opt g a, x => if g then rests a x ++ [x] else x :: rests a x
  | .many g a, x => if g then loopR g (rests a) x.length x ++ [x] else x :: loopR g (rests a) x.length x
  | .more g a, x => loopR g (rests a) x.length x

/-- The matcher leaves the same, in the same order. -/
def Ord (f : St → List St) (g : Chars → List Chars) : Prop := ∀ s, (f s).map St.rest = g s.rest

theorem Ord.flatMap {f h : St → List St} {g k : Chars → List Chars} (h1 : Ord f g) (h2 : Ord h k) :
    Ord (fun s => (f s).flatMap h) (fun x => (g x).flatMap k) := by
  intro s
  show _ = (g s.rest).flatMap k
  rw [List.map_flatMap, ← h1 s, List.flatMap_map]
  exact congrArg (List.flatMap · (f s)) (funext fun s' => h2 s')

theorem ord_one {p q : Rune → Bool} (h : ∀ r, p r = q r) : Ord (one p) (oneR q) := by
  intro s
  unfold one oneR
  rcases s with ⟨_, _, rest, _⟩
  cases rest with
  | nil => rfl
  | cons a t =>
    obtain ⟨r, n⟩ := a
    simp only [h r]
    by_cases hq : q r = true <;> simp [hq]

theorem ord_loop {g : Bool} {f : St → List St} {k : Chars → List Chars} (h : Ord f k) :
    ∀ n, Ord (plusLoop g f n) (loopR g k n)
  | 0 => h
  | n + 1 => by
    intro s
    simp only [plusLoop, loopR]
    rw [List.map_flatMap, ← h s, List.flatMap_map]
    refine congrArg (List.flatMap · (f s)) (funext fun s' => ?_)
    have ih := ord_loop (g := g) h n s'
    by_cases hl : s'.rest.length < s.rest.length
    · cases g <;> simp [hl, ih]
    · simp [hl]

theorem ord_star {g : Bool} {f : St → List St} {k : Chars → List Chars} (h : Ord f k) :
    Ord (starLoop g f) (fun x => if g then loopR g k x.length x ++ [x] else x :: loopR g k x.length x) := by
  intro s
  have := ord_loop (g := g) h s.rest.length s
  unfold starLoop
  cases g <;> simp [this]

theorem ord_plus {g : Bool} {f : St → List St} {k : Chars → List Chars} (h : Ord f k) :
    Ord (fun s => plusLoop g f s.rest.length s) (fun x => loopR g k x.length x) :=
  fun s => ord_loop h s.rest.length s

theorem ord_quest {g : Bool} {f : St → List St} {k : Chars → List Chars} (h : Ord f k) :
    Ord (fun s => if g then f s ++ [s] else s :: f s) (fun x => if g then k x ++ [x] else x :: k x) := by
  intro s
  cases g <;> simp [h s]

theorem ord_cap {i : Nat} {r : Re} {k : Chars → List Chars} (h : Ord (run r) k) : Ord (run (.cap i r)) k := by
  intro s
  rw [run, List.map_map]
  exact h (setCap (2 * i) s)

theorem run_mkCat (l : List Re) (s : St) : run (mkCat l) s = runCat l.reverse s := by
  match l with
  | [] => simp [mkCat, run, runCat]
  | [r] =>
    simp only [mkCat, List.reverse_cons, List.reverse_nil, List.nil_append, runCat]
    simp
  | a :: b :: l => simp only [mkCat, run]

theorem run_mkAlt {a : Re} {l : List Re} (s : St) : run (mkAlt (a :: l)) s = runAlt (a :: l).reverse s := by
  match l with
  | [] => simp [mkAlt, runAlt]
  | b :: l => simp only [mkAlt, run]

theorem runAlt_append (x y : List Re) (s : St) : runAlt (x ++ y) s = runAlt x s ++ runAlt y s := by
  induction x with
  | nil => simp [runAlt]
  | cons r x ih => simp [runAlt, ih]

end Verif.Spec.Expr
