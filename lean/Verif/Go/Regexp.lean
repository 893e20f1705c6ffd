import Verif.Go.Utf8

/-!
# `regexp` and `regexp/syntax`: syntax trees and matching

A syntax tree as produced by `syntax.Parse`, and a matcher with Go's leftmost-first semantics: the
results of a sub-expression are listed in order of preference, exactly as a backtracking matcher would
try them.  Case folding, flags and POSIX/Unicode classes are not modelled.
-/

namespace Verif.Rx

/-- `syntax.Regexp` (the operators of `syntax.Op`).  A class is a list of inclusive ranges with a
negation flag; `rep` is `OpRepeat` with `Max == -1` as `none`. -/
inductive Re
  | noMatch
  | empty
  | lit (rs : List Rune)
  | cls (neg : Bool) (ranges : List (Nat × Nat))
  | anyNotNL
  | any
  | beginLine
  | endLine
  | beginText
  | endText
  | wordB
  | noWordB
  | cap (i : Nat) (r : Re)
  | star (greedy : Bool) (r : Re)
  | plus (greedy : Bool) (r : Re)
  | quest (greedy : Bool) (r : Re)
  | rep (min : Nat) (max : Option Nat) (greedy : Bool) (r : Re)
  | cat (rs : List Re)
  | alt (rs : List Re)
  deriving Repr

/-- Membership in a list of ranges. -/
def inRanges (ranges : List (Nat × Nat)) (r : Rune) : Bool :=
  ranges.any (fun p => p.1 ≤ r && r ≤ p.2)

/-- Word characters of `\b`. -/
def isWord (r : Rune) : Bool :=
  (0x30 ≤ r && r ≤ 0x39) || (0x41 ≤ r && r ≤ 0x5A) || r == 0x5F || (0x61 ≤ r && r ≤ 0x7A)

/-- A position in the text: the previous rune, the byte offset, the remaining runes with their widths,
and the capture offsets recorded so far. -/
structure St where
  prev : Option Rune
  pos : Nat
  rest : List (Rune × Nat)
  caps : List (Option Nat)
  deriving DecidableEq, Repr

/-- Consume one rune satisfying `p`. -/
def one (p : Rune → Bool) (s : St) : List St :=
  match s.rest with
  | (r, n) :: t => if p r then [{ s with prev := some r, pos := s.pos + n, rest := t }] else []
  | [] => []

/-- Consume a literal. -/
def lits : List Rune → St → List St
  | [], s => [s]
  | r :: rs, s => (one (· == r) s).flatMap (lits rs)

/-- `\b` holds at the position. -/
def atWordB (s : St) : Bool :=
  (s.prev.elim false isWord) != (s.rest.head?.elim false (fun p => isWord p.1))

/-- Zero-width condition. -/
def check (b : Bool) (s : St) : List St := if b then [s] else []

/-- One or more iterations of `f`.  An iteration that consumed nothing is the last one (Go compiles
loops so that an empty iteration cannot be repeated). -/
def plusLoop (greedy : Bool) (f : St → List St) : Nat → St → List St
  | 0, s => f s
  | fuel + 1, s => (f s).flatMap fun s' =>
    if s'.rest.length < s.rest.length then
      if greedy then plusLoop greedy f fuel s' ++ [s'] else s' :: plusLoop greedy f fuel s'
    else [s']

/-- Exactly `n` iterations. -/
def times (f : St → List St) : Nat → St → List St
  | 0, s => [s]
  | n + 1, s => (f s).flatMap (times f n)

/-- Up to `n` iterations, nested like `(x(x)?)?`. -/
def upTo (greedy : Bool) (f : St → List St) : Nat → St → List St
  | 0, s => [s]
  | n + 1, s =>
    if greedy then (f s).flatMap (upTo greedy f n) ++ [s] else s :: (f s).flatMap (upTo greedy f n)

/-- Zero or more iterations, `(x+)?`. -/
def starLoop (greedy : Bool) (f : St → List St) (s : St) : List St :=
  if greedy then plusLoop greedy f s.rest.length s ++ [s] else s :: plusLoop greedy f s.rest.length s

/-- `x{min,max}` as `syntax.Regexp.Simplify` expands it. -/
def repLoop (min : Nat) (max : Option Nat) (greedy : Bool) (f : St → List St) (s : St) : List St :=
  match max with
  | some m => (times f min s).flatMap (upTo greedy f (m - min))
  | none =>
    match min with
    | 0 => starLoop greedy f s
    | k + 1 => (times f k s).flatMap fun s' => plusLoop greedy f s'.rest.length s'

/-- Record a capture offset. -/
def setCap (i : Nat) (s : St) : St := { s with caps := s.caps.set i (some s.pos) }

mutual
/-- All ways to match `r` from a position, in order of preference. -/
def run : Re → St → List St
  | .noMatch, _ => []
  | .empty, s => [s]
  | .lit rs, s => lits rs s
  | .cls neg ranges, s => one (fun r => inRanges ranges r != neg) s
  | .anyNotNL, s => one (· != 0x0A) s
  | .any, s => one (fun _ => true) s
  | .beginLine, s => check (s.prev.elim true (· == 0x0A)) s
  | .endLine, s => check (s.rest.head?.elim true (·.1 == 0x0A)) s
  | .beginText, s => check s.prev.isNone s
  | .endText, s => check s.rest.isEmpty s
  | .wordB, s => check (atWordB s) s
  | .noWordB, s => check (!atWordB s) s
  | .cap i r, s => (run r (setCap (2 * i) s)).map (setCap (2 * i + 1))
  | .star g r, s => starLoop g (run r) s
  | .plus g r, s => plusLoop g (run r) s.rest.length s
  | .quest g r, s => if g then run r s ++ [s] else s :: run r s
  | .rep min max g r, s => repLoop min max g (run r) s
  | .cat rs, s => runCat rs s
  | .alt rs, s => runAlt rs s
/-- Matching a concatenation. -/
def runCat : List Re → St → List St
  | [], s => [s]
  | r :: rs, s => (run r s).flatMap (runCat rs)
/-- Matching an alternation. -/
def runAlt : List Re → St → List St
  | [], _ => []
  | r :: rs, s => run r s ++ runAlt rs s
end

mutual
/-- The number of capturing groups (the largest capture index). -/
def numCap : Re → Nat
  | .cap i r => Nat.max i (numCap r)
  | .star _ r | .plus _ r | .quest _ r | .rep _ _ _ r => numCap r
  | .cat rs | .alt rs => numCapList rs
  | _ => 0
def numCapList : List Re → Nat
  | [] => 0
  | r :: rs => Nat.max (numCap r) (numCapList rs)
end

/-- The state before trying a match at a position: no captures. -/
def start (r : Re) (prev : Option Rune) (pos : Nat) (rest : List (Rune × Nat)) : St :=
  ⟨prev, pos, rest, List.replicate (2 * (numCap r + 1)) none⟩

/-- The leftmost match at or after a position: where it starts and the preferred final state. -/
def searchFrom (r : Re) : List (Rune × Nat) → Option Rune → Nat → Option (Nat × St)
  | [], prev, pos => (run r (start r prev pos [])).head?.map (pos, ·)
  | (c, n) :: t, prev, pos =>
    match run r (start r prev pos ((c, n) :: t)) with
    | s :: _ => some (pos, s)
    | [] => searchFrom r t (some c) (pos + n)

/-- An offset as a Go `int`, -1 for an unset group. -/
def toInt : Option Nat → Int
  | some n => n
  | none => -1

/-- The submatch offsets of a match: the whole match first. -/
def subs (startPos : Nat) (s : St) : List Int :=
  (startPos : Int) :: (s.pos : Int) :: (s.caps.drop 2).map toInt

/-- `Regexp.FindStringSubmatchIndex`. -/
def findSubmatch (r : Re) (w : Bytes) : Option (List Int) :=
  (searchFrom r (decode w) none 0).map fun (p, s) => subs p s

/-- `Regexp.MatchString`. -/
def matchString (r : Re) (w : Bytes) : Bool := (searchFrom r (decode w) none 0).isSome

/-- Successive non-overlapping matches from a position (`Regexp.FindAllStringSubmatchIndex`).  The
expressions it is used with never match the empty string; an empty match would end the search here. -/
def findAllFrom (r : Re) : Nat → Option Rune → Nat → List (Rune × Nat) → List (List Int)
  | 0, _, _, _ => []
  | fuel + 1, prev, pos, rest =>
    match searchFrom r rest prev pos with
    | none => []
    | some (p, s) =>
      subs p s :: (if s.rest.length < rest.length then findAllFrom r fuel s.prev s.pos s.rest else [])

/-- `Regexp.FindAllStringSubmatchIndex(w, -1)`. -/
def findAll (r : Re) (w : Bytes) : List (List Int) :=
  findAllFrom r (w.length + 1) none 0 (decode w)

/-- Splicing replacements of the given matches into `w`, from byte offset `off`. -/
def spliceMatches (f : Bytes → Bytes) (w : Bytes) : Nat → List (List Int) → Bytes
  | off, [] => w.drop off
  | off, m :: ms =>
    let a := (m.headD 0).toNat
    let b := (m.getD 1 0).toNat
    (w.drop off).take (a - off) ++ f ((w.drop a).take (b - a)) ++ spliceMatches f w b ms

/-- `Regexp.ReplaceAllStringFunc`. -/
def replaceAllFunc (r : Re) (w : Bytes) (f : Bytes → Bytes) : Bytes :=
  spliceMatches f w 0 (findAll r w)

end Verif.Rx
