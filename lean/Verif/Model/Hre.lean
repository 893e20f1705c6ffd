import Verif.Go.Strings
import Verif.Go.RegexpParse
import Verif.Model.Subword

/-!
# Model of `pkg/hre`: patterns, replacement patterns, and `Rule` (rule.go)

Maps are association lists; a list of macros is the order in which one `range` over the map visits it.
-/

namespace Verif.Hre

open Verif.Rx

/-! ## util.go -/

/-- pkg/hre/util.go:10-17 `indexOf`. -/
def indexOf (val : Bytes) : List Bytes → Int
  | [] => -1
  | v :: vs => if v = val then 0 else
    let i := indexOf val vs
    if i < 0 then -1 else i + 1

/-- pkg/hre/util.go:21-38 `substr`, with a slice expression that may panic. -/
def substrGo (s : Bytes) (start stop : Int) : Go Bytes :=
  if start < 0 ∨ stop < 0 then .ok []
  else
    let n := s.length
    if start ≥ n then .ok []
    else
      let stop := if stop > n then (n : Int) else stop
      if stop - start > 0 then slice s start.toNat stop.toNat else .ok []

/-- The value of `substrGo`, which never panics (`Verif.Props.C56_substr`). -/
def substr (s : Bytes) (start stop : Int) : Bytes :=
  if start < 0 ∨ stop < 0 then []
  else if start ≥ s.length then []
  else
    let stop := if stop > s.length then (s.length : Int) else stop
    if stop - start > 0 then (s.drop start.toNat).take (stop.toNat - start.toNat) else []

/-- pkg/hre/util.go:41-44 `captured`. -/
def captured (s : Bytes) (m : List Int) (n : Nat) : Go Bytes := do
  let a ← index m (n * 2)
  let b ← index m (n * 2 + 1)
  return substr s a b

/-- pkg/hre/util.go:47-49 `noCapture`. -/
def noCapture (expr : Bytes) : Bytes := replaceAll [0x28] [0x28, 0x3F, 0x3A] expr

/-- pkg/hre/util.go:100 `reSpace`, `\s`. -/
def reSpace : Re := .cls false spaceRanges
/-- pkg/hre/util.go:101 `reGroup`, `\(\?(:|P<.+?>)`. -/
def reGroup : Re :=
  .cat [.lit [0x28], .lit [0x3F],
    .cap 1 (.alt [.lit [0x3A], .cat [.lit [0x50], .lit [0x3C], .plus false .anyNotNL, .lit [0x3E]]])]
/-- pkg/hre/util.go:102 `reMeta`, `/`. -/
def reMeta : Re := .lit [0x2F]
/-- pkg/hre/util.go:103 `reQuoted`, `\\.`. -/
def reQuoted : Re := .cat [.lit [0x5C], .anyNotNL]

/-- pkg/hre/util.go:106-128 `regexpLetters`. -/
def regexpLetters (reExpr : Bytes) : Bytes :=
  let letters := replaceAllFunc reSpace reExpr (fun _ => [])
  let letters := replaceAllFunc reGroup letters (fun _ => [])
  let letters := replaceAllFunc reMeta letters (fun _ => [])
  let letters := replaceAllFunc reQuoted letters (fun _ => [])
  let letters := quoteMeta letters
  replaceAllFunc reQuoted letters (fun _ => [])

/-- pkg/hre/util.go:130-136 `splitLetters`. -/
def splitLetters (word : Bytes) : List Rune := runes word

/-! ## macro.go and var.go -/

/-- pkg/hre/macro.go:8-21 `expandMacros`. -/
def expandMacros (expr : Bytes) (macros : List (Bytes × Bytes)) : Bytes := replacePairs macros expr

/-- pkg/hre/var.go:12 `reVar`, `<(.+?)>`. -/
def reVar : Re := .cat [.lit [0x3C], .cap 1 (.plus false .anyNotNL), .lit [0x3E]]

/-- pkg/hre/var.go:38-43 `getVar`: the values of a var, none if it is not defined. -/
def getVar (expr : Bytes) (vars : List (Bytes × List Bytes)) : List Bytes :=
  (vars.lookup (trim (fun c => c == 0x3C || c == 0x3E) expr)).getD []

/-- pkg/hre/var.go:25-32: `(a|b|c)`. -/
def varGroup (vals : List Bytes) : Bytes := [0x28] ++ join [0x7C] (vals.map quoteMeta) ++ [0x29]

/-- The text of a submatch list's whole match. -/
def matchText (w : Bytes) (m : List Int) : Bytes := substr w (m.headD 0) (m.getD 1 0)

/-- pkg/hre/var.go:15-35 `expandVars`. -/
def expandVars (expr : Bytes) (vars : List (Bytes × List Bytes)) : Bytes × List (List Bytes) :=
  (replaceAllFunc reVar expr (fun v => varGroup (getVar v vars)),
    (findAll reVar expr).map fun m => getVar (matchText expr m) vars)

/-! ## width.go -/

mutual
/-- pkg/hre/width.go:8-96 `RegexpMaxWidth`. -/
def maxWidth : Re → Int
  | .noMatch | .empty => 0
  | .lit rs => rs.length
  | .cls _ _ | .anyNotNL | .any => 1
  | .beginLine | .endLine | .beginText | .endText | .wordB | .noWordB => 0
  | .cap _ r => maxWidth r
  | .star _ _ | .plus _ _ => -1
  | .quest _ r => maxWidth r
  | .rep _ none _ _ => -1
  | .rep _ (some m) _ r => m * maxWidth r
  | .cat rs => maxWidthCat rs 0
  | .alt rs => maxWidthAlt rs 0
/-- pkg/hre/width.go:59-73, the loop over the items of a concatenation. -/
def maxWidthCat : List Re → Int → Int
  | [], total => total
  | r :: rs, total =>
    let n := maxWidth r
    if n = -1 then -1 else maxWidthCat rs (total + n)
/-- pkg/hre/width.go:75-91, the loop over alternatives. -/
def maxWidthAlt : List Re → Int → Int
  | [], mx => mx
  | r :: rs, mx =>
    let n := maxWidth r
    if n = -1 then -1 else maxWidthAlt rs (if n > mx then n else mx)
end

/-! ## assertions.go -/

/-- `[^}]+` -/
def notBraces : Re := .plus true (.cls true [(0x7D, 0x7D)])
/-- pkg/hre/assertions.go:11 `reLeftEdge`, `\^+`. -/
def reLeftEdge : Re := .plus true (.lit [0x5E])
/-- pkg/hre/assertions.go:14 `reRightEdge`, `\$+`. -/
def reRightEdge : Re := .plus true (.lit [0x24])
/-- pkg/hre/assertions.go:18-27 `reZeroWidth`, `\{([^}]+)\}`. -/
def reZeroWidth : Re := .cat [.lit [0x7B], .cap 1 notBraces, .lit [0x7D]]
/-- pkg/hre/assertions.go:32-45 `reLookahead`, `(?:\{([^}]+)\})?(\$*)$`. -/
def reLookahead : Re :=
  .cat [.quest true (.cat [.lit [0x7B], .cap 1 notBraces, .lit [0x7D]]),
    .cap 2 (.star true (.lit [0x24])), .endText]
/-- pkg/hre/assertions.go:50-63 `reLookbehind`, `^(\^*)(?:\{([^}]+)\})?`. -/
def reLookbehind : Re :=
  .cat [.beginText, .cap 1 (.star true (.lit [0x5E])),
    .quest true (.cat [.lit [0x7B], .cap 2 notBraces, .lit [0x7D]])]

/-- pkg/hre/assertions.go:78-119 `dissolveLookaround`; `format` is the `fmt.Sprintf` with the format
string.  The result `none` stands for `ok == false`.  Expressions outside the modelled subset of
regular expressions end the computation. -/
def dissolveLookaround (format : Bytes → Bytes) (lookExpr : Bytes) (hasEdge : Bool) :
    Go (Option (Bytes × Bytes × Int)) :=
  match lookExpr with
  | [] => .ok (some ([], [], 0))
  | c :: rest =>
    if c = 0x7E then
      if hasEdge then .ok (some ([], [], 0))
      else
        match compile (format rest) with
        | .ok re => .ok (some ([], format rest, maxWidth re))
        | .err .unmodelled => .err .unmodelled
        | .err _ => .ok none
        | .panic => .panic
        | .hang => .hang
    else if hasEdge then .ok none
    else .ok (some (lookExpr, [], 0))

/-- `.^^` -/
def neverExpr : Bytes := [0x2E, 0x5E, 0x5E]

/-- `(x)` -/
def paren (x : Bytes) : Bytes := [0x28] ++ x ++ [0x29]

/-- pkg/hre/assertions.go:123-156 `expandLookahead`. -/
def expandLookahead (expr : Bytes) : Go (Bytes × Bytes × Int) := do
  let m := (findSubmatch reLookahead expr).getD []
  let start ← index m 0
  let otherExpr := expr.take start.toNat
  let edgeExpr ← captured expr m 2
  let lookExpr ← captured expr m 1
  let edgeExpr := noCapture edgeExpr
  let lookExpr := noCapture lookExpr
  match ← dissolveLookaround (fun e => [0x5E] ++ paren e) lookExpr (!edgeExpr.isEmpty) with
  | none => return (neverExpr, [], 0)
  | some (lookExpr, negAExpr, negAWidth) =>
    return (otherExpr ++ paren lookExpr ++ paren edgeExpr, negAExpr, negAWidth)

/-- pkg/hre/assertions.go:159-192 `expandLookbehind`. -/
def expandLookbehind (expr : Bytes) : Go (Bytes × Bytes × Int) := do
  let m := (findSubmatch reLookbehind expr).getD []
  let stop ← index m 1
  let otherExpr := expr.drop stop.toNat
  let edgeExpr ← captured expr m 1
  let lookExpr ← captured expr m 2
  let edgeExpr := noCapture edgeExpr
  let lookExpr := noCapture lookExpr
  match ← dissolveLookaround (fun e => paren e ++ [0x24]) lookExpr (!edgeExpr.isEmpty) with
  | none => return (neverExpr, [], 0)
  | some (lookExpr, negBExpr, negBWidth) =>
    return (paren edgeExpr ++ paren lookExpr ++ otherExpr, negBExpr, negBWidth)

/-- The result of `expandLookaround`. -/
structure Expanded where
  pos : Bytes
  negA : Bytes
  negB : Bytes
  negAWidth : Int
  negBWidth : Int
  deriving DecidableEq, Repr

/-- pkg/hre/assertions.go:66-76 `expandLookaround` with 194-199 `mustNoZeroWidth`. -/
def expandLookaround (expr : Bytes) : Go Expanded := do
  let (posExpr, negAExpr, negAWidth) ← expandLookahead expr
  let (posExpr, negBExpr, negBWidth) ← expandLookbehind posExpr
  if matchString reZeroWidth posExpr then .err .hre
  else return ⟨posExpr, negAExpr, negBExpr, negAWidth, negBWidth⟩

/-- `(?:^|\s+|{})` -/
def leftEdgeExpr : Bytes := str "(?:^|\\s+|{})"
/-- `(?:$|\s+|{})` -/
def rightEdgeExpr : Bytes := str "(?:$|\\s+|{})"

/-- pkg/hre/assertions.go:201-219 `expandEdges`. -/
def expandEdges (expr : Bytes) : Bytes :=
  let expr := replaceAllFunc reLeftEdge expr
    (fun e => if e = [0x5E] then leftEdgeExpr else [0x5E])
  replaceAllFunc reRightEdge expr
    (fun e => if e = [0x24] then rightEdgeExpr else [0x24])

/-! ## pattern.go -/

/-- pkg/hre/pattern.go:37-52 `Pattern`; `letters` is the set of letters in ascending order, as
`Letters()` returns it. -/
structure Pattern where
  expr : Bytes
  re : Re
  negA : Option Re
  negB : Option Re
  negAWidth : Int
  negBWidth : Int
  letters : List Rune
  usedVars : List (List Bytes)
  deriving Repr

/-- Insert into an ascending list without duplicates. -/
def insertRune (r : Rune) : List Rune → List Rune
  | [] => [r]
  | x :: xs => if r < x then r :: x :: xs else if r = x then x :: xs else x :: insertRune r xs

/-- The set of runes of a list in ascending order (pkg/hre/pattern.go:88-91 and 127-136). -/
def sortRunes (rs : List Rune) : List Rune := rs.foldr insertRune []

/-- A compile error is reported with its cause (`errors.Wrapf`). -/
def compileOpt (expr : Bytes) : Go (Option Re) :=
  if expr.isEmpty then .ok none else do
    let r ← compile expr
    return some r

/-- pkg/hre/pattern.go:61-121 `NewPattern`. -/
def newPattern (expr : Bytes) (macros : List (Bytes × Bytes)) (vars : List (Bytes × List Bytes)) :
    Go Pattern :=
  if expr.isEmpty then .err .hre else do
    let reExpr := expandMacros expr macros
    let (reExpr, usedVars) := expandVars reExpr vars
    let e ← expandLookaround reExpr
    let reExpr := expandEdges e.pos
    let letters := sortRunes (splitLetters (regexpLetters (reExpr ++ e.negA ++ e.negB)))
    let re ← compile reExpr
    let negA ← compileOpt e.negA
    let negB ← compileOpt e.negB
    return ⟨expr, re, negA, negB, e.negAWidth, e.negBWidth, letters, usedVars⟩

/-- pkg/hre/pattern.go:162-174 `pickStartStop`. -/
def pickStartStop (m : List Int) : Go (Int × Int) := do
  let m5 ← index m 5
  let m0 ← index m 0
  let m4 ← index m (m.length - 4)
  let m1 ← index m 1
  return (if m5 = -1 then m0 else m5, if m4 = -1 then m1 else m4)

/-- pkg/hre/pattern.go:222-236: whether the negative lookahead hits; `at_` is `m[lenM-4]`. -/
def hitsAhead (p : Pattern) (word : Bytes) (at_ : Int) : Bool :=
  match p.negA with
  | none => false
  | some re =>
    matchString re
      (substr word at_ (if p.negAWidth = -1 then (word.length : Int) else at_ + p.negAWidth))

/-- pkg/hre/pattern.go:238-252: whether the negative lookbehind hits; `at_` is `m[5]`. -/
def hitsBehind (p : Pattern) (word : Bytes) (at_ : Int) : Bool :=
  match p.negB with
  | none => false
  | some re =>
    matchString re (substr word (if p.negBWidth = -1 then 0 else at_ - p.negBWidth) at_)

/-- pkg/hre/pattern.go:185-260, the body of the loop of `Find` at an offset below the length: `none`
for `break`, otherwise the next offset and the match to be reported, if any. -/
def findStep (p : Pattern) (word : Bytes) (offset : Nat) : Go (Option (Nat × Option (List Int))) :=
  match findSubmatch p.re (word.drop offset) with
  | none => .ok none
  | some m₀ =>
    let m : List Int := m₀.map fun i : Int => if i ≠ -1 then i + (offset : Int) else i
    if m.length < 10 then .panic
    else do
      let (start, stop) ← pickStartStop m
      if stop - start = 0 then .panic
      else
        let ahead ← index m (m.length - 4)
        let behind ← index m 5
        if hitsAhead p word ahead || hitsBehind p word behind then
          return some (stop.toNat, none)
        else
          return some (stop.toNat, some (start :: stop :: (m.drop 6).take (m.length - 4 - 6)))

/-- pkg/hre/pattern.go:184-261, the loop of `Find` with at most `fuel` iterations: running out of them
is reported as `hang`. -/
def findLoop (p : Pattern) (word : Bytes) (n : Int) : Nat → Nat → Nat → Go (List (List Int))
  | 0, _, _ => .hang
  | fuel + 1, offset, count =>
    if offset < word.length ∧ (n < 0 ∨ (count : Int) < n) then do
      match ← findStep p word offset with
      | none => return []
      | some (offset', none) => findLoop p word n fuel offset' count
      | some (offset', some m) => do
        let ms ← findLoop p word n fuel offset' (count + 1)
        return m :: ms
    else .ok []

/-- pkg/hre/pattern.go:178-264 `Find`.  The loop is in one of `len(word)+1` offsets with at most `n`
matches found, so a longer run repeats a state and never ends. -/
def find (p : Pattern) (word : Bytes) (n : Int) : Go (List (List Int)) :=
  findLoop p word n ((word.length + 1) * (n.toNat + 1) + 1) 0 0

/-! ## rpattern.go -/

/-- pkg/hre/rpattern.go:41-47 `rPart`: plain text, or a var with its values. -/
inductive RPart
  | plain (lit : Bytes)
  | toVar (vals : List Bytes)
  deriving DecidableEq, Repr

/-- pkg/hre/rpattern.go:18-25 `RPattern`. -/
structure RPattern where
  expr : Bytes
  parts : List RPart
  letters : List Rune
  deriving DecidableEq, Repr

/-- A plain part unless it is empty (pkg/hre/rpattern.go:68-71 and 82-85). -/
def plainPart (t : Bytes) : List RPart := if t.isEmpty then [] else [.plain t]

/-- pkg/hre/rpattern.go:63-85, the loop over the matches of `reVar`, with the remaining text. -/
def rParts (expr : Bytes) (vars : List (Bytes × List Bytes)) : Nat → List (List Int) → List RPart
  | offset, [] => plainPart (expr.drop offset)
  | offset, m :: ms =>
    let a := (m.headD 0).toNat
    let b := (m.getD 1 0).toNat
    plainPart ((expr.drop offset).take (a - offset)) ++
      .toVar (getVar (matchText expr m) vars) :: rParts expr vars b ms

/-- pkg/hre/rpattern.go:52-94 `NewRPattern`. -/
def newRPattern (expr : Bytes) (macros : List (Bytes × Bytes)) (vars : List (Bytes × List Bytes)) :
    RPattern :=
  let e := expandMacros expr macros
  ⟨expr, rParts e vars 0 (findAll reVar e), sortRunes (splitLetters (regexpLetters expr))⟩

/-- pkg/hre/rpattern.go:99-134 `Interpolate`: the loop over the parts.  `i % len(part.usedVar)` is
Go's truncated remainder, a division by zero panics. -/
def interpolateParts (p : Pattern) (word : Bytes) (m : List Int) : Nat → List RPart → Go Bytes
  | _, [] => .ok []
  | k, .plain t :: ps => do
    let rest ← interpolateParts p word m k ps
    return t ++ rest
  | k, .toVar vals :: ps => do
    if (k : Int) > (p.usedVars.length : Int) - 1 then .err .interpolate
    else
      let fromVar ← index p.usedVars k
      let fromVal ← captured word m (k + 1)
      let i := indexOf fromVal fromVar
      if vals.length = 0 then .panic
      else
        let i := i.tmod vals.length
        if i < 0 then .panic
        else
          let toVal ← index vals i.toNat
          let rest ← interpolateParts p word m (k + 1) ps
          return toVal ++ rest

/-- pkg/hre/rpattern.go:99-134 `Interpolate`. -/
def interpolate (rp : RPattern) (p : Pattern) (word : Bytes) (m : List Int) : Go Bytes :=
  interpolateParts p word m 0 rp.parts

/-- pkg/hre/pattern.go:271-285, the loop of `Replace` over the matches. -/
def replaceLoop (p : Pattern) (rp : RPattern) (word : Bytes) : Nat → List (List Int) → Go Bytes
  | cur, [] => slice word cur word.length
  | cur, m :: ms => do
    let start := (← index m 0).toNat
    let stop := (← index m 1).toNat
    let before ← slice word cur start
    let repl ← match interpolate rp p word m with
      | .err .interpolate => slice word start stop
      | x => x
    let rest ← replaceLoop p rp word stop ms
    return before ++ repl ++ rest

/-- pkg/hre/pattern.go:267-288 `Replace`. -/
def replace (p : Pattern) (word : Bytes) (rp : RPattern) (n : Int) : Go Bytes := do
  let ms ← find p word n
  replaceLoop p rp word 0 ms

end Verif.Hre

namespace Verif

open Hre

/-- rule.go:11-15 `Rule`. -/
structure Rule where
  id : Nat
  pat : Pattern
  to : RPattern
  deriving Repr

/-- rule.go:33-44, the loop of `replacements`. -/
def Rule.replacementsLoop (r : Rule) (word : Bytes) : List (List Int) → Go (List Repl)
  | [] => .ok []
  | m :: ms => do
    let start ← index m 0
    let stop ← index m 1
    match interpolate r.to r.pat word m with
    | .ok repl => do
      let rest ← r.replacementsLoop word ms
      return ⟨start.toNat, stop.toNat, repl⟩ :: rest
    | .err _ => r.replacementsLoop word ms
    | .panic => .panic
    | .hang => .hang

/-- rule.go:30-47 `replacements`. -/
def Rule.replacements (r : Rule) (word : Bytes) : Go (List Repl) := do
  let ms ← find r.pat word (-1)
  r.replacementsLoop word ms

/-- rule.go:22-27 `Rule.Replace`. -/
def Rule.replace (r : Rule) (word : Bytes) : Go Bytes := do
  let repls ← r.replacements word
  let (s, _) ← ((Replacer.new word 0 0).replaceBy repls).string
  return s

end Verif
