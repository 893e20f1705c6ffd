import Verif.Model.Hre

/-! A quick check of the text of a pattern: its lookarounds and its core are regular expressions on their own. -/

namespace Verif.Hre.Laid

/-- What was read last: nothing that can be repeated, an item, `(`, `(?`, `\` or `{`. -/
inductive Last
  | nothing
  | item
  | opened
  | quest
  | esc
  | brace
  deriving DecidableEq

/-- One character of a regular expression of literals, groups, bars, repetitions, `\s`, `{}` and assertions, where
the last one began nothing.  The number counts open groups.  `strict` texts have no groups `(?:`, and nothing is
repeated after an assertion. -/
def fresh (strict bars : Bool) (d : Nat) (l : Last) (c : Nat) : Option (Nat × Last) :=
  if c = 0x28 then some (d + 1, if strict then .nothing else .opened)
  else if c = 0x29 then if d = 0 then none else some (d - 1, .item)
  else if c = 0x7C then if bars || d != 0 then some (d, .nothing) else none
  else if c = 0x3F then if l = .item then some (d, .nothing) else if l = .opened then some (d, .quest) else none
  else if c = 0x2A || c = 0x2B then if l = .item then some (d, .nothing) else none
  else if c = 0x7B then some (d, .brace)
  else if c = 0x5C then some (d, .esc)
  else if c = 0x5E || c = 0x24 || c = 0x7E then some (d, if strict then .nothing else .item)
  else if c = 0x5B || c = 0x2E || c = 0x7D then none
  else some (d, .item)

/-- One character. -/
def step (strict bars : Bool) (d : Nat) (l : Last) (c : Nat) : Option (Nat × Last) :=
  match l with
  | .quest => if c = 0x3A then some (d, .nothing) else none
  | .esc => if c = 0x73 then some (d, .item) else none
  | .brace => if c = 0x7D then some (d, .item) else none
  | l => fresh strict bars d l c

/-- Nothing is missing. -/
def done : Nat → Last → Bool
  | 0, .nothing | 0, .item | 0, .opened => true
  | _, _ => false

/-- The text of a pattern, inside a lookaround or not: the texts of the lookarounds and the core are complete, and the
core has bars outside of groups only if they are allowed. -/
def laidFrom (bars : Bool) : Bool → Nat → Last → Bytes → Bool
  | look, d, l, [] => !look && done d l
  | look, d, l, c :: t =>
    if c = 0x7B then
      !look && if t.head? = some 0x7D then l != .quest && l != .esc && l != .brace && laidFrom bars false d .brace t
        else done d l && laidFrom bars true 0 .nothing t
    else if c = 0x7D && look then done d l && laidFrom bars false 0 .nothing t
    else
      match step true (bars || look) d l c.toNat with
      | none => false
      | some (d', l') => laidFrom bars look d' l' t

/-- The text of a pattern: there are bars outside of groups only without lookarounds and edges. -/
def laid (x : Bytes) : Bool :=
  laidFrom false false 0 .nothing x ||
    (x.all fun c => c != 0x7B && c != 0x5E && c != 0x24) && laidFrom true false 0 .nothing x

end Verif.Hre.Laid
