/-!
# Outcomes of Go functions, byte strings and runes

Trusted reading of the Go language: a Go `string` is an immutable byte sequence, a `rune` is a
code point.  A call may return, return an error, panic or run forever.
-/

namespace Verif

/-- A Go `string` (or `[]byte`): a sequence of bytes. -/
abbrev Bytes := List UInt8

/-- A Go `rune`.  All runes in this code base come from decoding UTF-8 or from literals, so they
are non-negative. -/
macro "Rune" : term => `(Nat)

/-- The error values the modelled code distinguishes (the texts of messages are not modelled). -/
inductive Err
  /-- `hangulize.ErrSpecNotFound` (errors.go:6) -/
  | specNotFound
  /-- `hangulize.ErrTranslitNotImported` (errors.go:13) -/
  | translitNotImported
  /-- `hangulize.ErrTranslit` (errors.go:9) -/
  | translit
  /-- `hangulize.ErrInvalidSpec` or any of its causes (spec.go) -/
  | invalidSpec
  /-- an error reported by the HSL parser (pkg/hsl) -/
  | hsl
  /-- an error reported by the HRE compiler (pkg/hre) -/
  | hre
  /-- a syntax error reported by `regexp/syntax` -/
  | regexpSyntax
  /-- regular expression syntax outside the modelled subset: nothing is claimed about it -/
  | unmodelled
  /-- an error of `RPattern.Interpolate` (pkg/hre/rpattern.go:99-134) -/
  | interpolate
  deriving DecidableEq, Repr

/-- The outcome of a Go call with an `error` result: it returns a value, returns an error, panics
or never returns. -/
inductive Go (α : Type)
  | ok (a : α)
  | err (e : Err)
  | panic
  | hang
  deriving DecidableEq, Repr

namespace Go

/-- Sequencing: everything but `ok` stops the computation. -/
def bind {α β : Type} (x : Go α) (f : α → Go β) : Go β :=
  match x with
  | .ok a => f a
  | .err e => .err e
  | .panic => .panic
  | .hang => .hang

instance : Monad Go where
  pure := .ok
  bind := Go.bind

@[simp] theorem pure_eq {α : Type} (a : α) : (pure a : Go α) = .ok a := rfl
@[simp] theorem bind_ok {α β : Type} (a : α) (f : α → Go β) : (Go.ok a >>= f) = f a := rfl
@[simp] theorem bind_err {α β : Type} (e : Err) (f : α → Go β) : (Go.err e >>= f) = .err e := rfl
@[simp] theorem bind_panic {α β : Type} (f : α → Go β) : ((Go.panic : Go α) >>= f) = .panic := rfl
@[simp] theorem bind_hang {α β : Type} (f : α → Go β) : ((Go.hang : Go α) >>= f) = .hang := rfl

theorem bind_eq_ok {α β : Type} {x : Go α} {f : α → Go β} {b : β} :
    (x >>= f) = .ok b ↔ ∃ a, x = .ok a ∧ f a = .ok b := by
  cases x <;> simp

end Go

/-- Go slicing `s[i:j]` on a slice or string with non-negative indices: panics unless
`i ≤ j ≤ len(s)`. -/
def slice {α : Type} (s : List α) (i j : Nat) : Go (List α) :=
  if i ≤ j ∧ j ≤ s.length then .ok ((s.drop i).take (j - i)) else .panic

/-- Go indexing `s[i]`. -/
def index {α : Type} (s : List α) (i : Nat) : Go α :=
  match s[i]? with
  | some a => .ok a
  | none => .panic

/-- `strings.HasPrefix(s, p)`. -/
def hasPrefix (s p : Bytes) : Bool := p.isPrefixOf s

/-- A Go string literal whose UTF-8 bytes are given by a Lean string. -/
def str (s : String) : Bytes := s.toUTF8.data.toList

end Verif
