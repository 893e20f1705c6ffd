import Verif.Go.Utf8

/-!
# Model of `internal/subword`
-/

namespace Verif

/-- `subword.Subword` (subword.go:8-11). -/
structure Subword where
  word : Bytes
  level : Int
  deriving DecidableEq, Repr

/-- `subword.Replacement` (replace.go:9-13).  The offsets are `int` in Go; every caller passes match
offsets or string indices, which are non-negative. -/
structure Repl where
  start : Nat
  stop : Nat
  word : Bytes
  deriving DecidableEq, Repr

/-- `subword.Replacer` (replace.go:26-36). -/
structure Replacer where
  word : Bytes
  repls : List Repl
  levels : List Int
  nextLevel : Int
  deriving DecidableEq, Repr

namespace Replacer

/-- `NewReplacer` (replace.go:39-48). -/
def new (word : Bytes) (prevLevel nextLevel : Int) : Replacer :=
  ⟨word, [], List.replicate word.length prevLevel, nextLevel⟩

/-- `Replacer.ReplaceBy` (replace.go:56-58); `Replace` (51-53) is the case of one replacement. -/
def replaceBy (r : Replacer) (repls : List Repl) : Replacer := { r with repls := r.repls ++ repls }

/-- The loop of `commit` (replace.go:65-85) from a given `offset`: the bytes and levels appended to
the buffers.  A slice expression out of range panics. -/
def commitLoop (word : Bytes) (levels : List Int) (nextLevel : Int) : Nat → List Repl →
    Go (Bytes × List Int)
  | offset, [] => do
    let w ← slice word offset word.length
    let l ← slice levels offset levels.length
    return (w, l)
  | offset, repl :: repls => do
    let w ← slice word offset repl.start
    let l ← slice levels offset repl.start
    let (w', l') ← commitLoop word levels nextLevel repl.stop repls
    return (w ++ repl.word ++ w', l ++ List.replicate repl.word.length nextLevel ++ l')

/-- `Replacer.commit` (replace.go:61-90). -/
def commit (r : Replacer) : Go Replacer := do
  let (w, l) ← commitLoop r.word r.levels r.nextLevel 0 r.repls
  return { r with word := w, levels := l, repls := [] }

/-- `Replacer.String` (replace.go:93-96): the replaced word and the committed replacer. -/
def string (r : Replacer) : Go (Bytes × Replacer) := do
  let r ← r.commit
  return (r.word, r)

/-- The loop of `Subwords` (replace.go:113-121): `level` and `buf` are the loop variables. -/
def subwordsLoop (levels : List Int) (level : Int) (buf : Bytes) : List (Nat × Rune) →
    Go (List Subword)
  | [] => .ok [⟨buf, level⟩]
  | (i, ch) :: rest => do
    let l ← index levels i
    if l ≠ level then
      let t ← subwordsLoop levels l (encodeRune ch) rest
      return ⟨buf, level⟩ :: t
    else subwordsLoop levels level (buf ++ encodeRune ch) rest

/-- `Replacer.Subwords` (replace.go:100-124): the subwords and the committed replacer. -/
def subwords (r : Replacer) : Go (List Subword × Replacer) := do
  let r ← r.commit
  match r.levels with
  | [] => return ([], r)
  | level :: _ => do
    let t ← subwordsLoop r.levels level [] (rangeStr r.word)
    return (t, r)

end Replacer

namespace Builder

/-- `Builder.String` (builder.go:16-22). -/
def string (sws : List Subword) : Bytes := sws.flatMap (·.word)

/-- The loop of `Builder.Subwords` (builder.go:48-60), with the final flush (62-63). -/
def mergeLoop (mergingLevel : Int) (buf : Bytes) : List Subword → List Subword
  | [] => [⟨buf, mergingLevel⟩]
  | sw :: rest =>
    if sw.level ≠ mergingLevel ∧ mergingLevel ≠ -1 then
      ⟨buf, mergingLevel⟩ :: mergeLoop sw.level sw.word rest
    else mergeLoop sw.level (buf ++ sw.word) rest

/-- `Builder.Subwords` (builder.go:36-66).  `Write` and `Reset` (25-32) are list append and the empty
list; the slices are never shared after `Subwords` returned a fresh one. -/
def subwords (sws : List Subword) : List Subword :=
  match sws with
  | [] => []
  | _ => mergeLoop (-1) [] sws

end Builder
end Verif
