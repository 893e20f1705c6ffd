import Verif.Go.Regexp
import Verif.Proofs.Utf8

/-!
# `syntax.Parse` with the `Perl` flags

The expression is split into tokens, which a stack machine turns into a syntax tree (Go's parser is a
stack machine as well).  Go's parser also factors common prefixes of alternatives, merges literals and
classes and squashes repetitions; this changes the shape of the tree, not what it matches.  Inline
flags, POSIX and Unicode classes, `\Q..\E`, hexadecimal and octal escapes give `Err.unmodelled`.
-/

namespace Verif.Rx

/-- Tokens of a regular expression. -/
inductive Tok
  | lit (r : Rune)
  | re (r : Re)
  | open
  | openNC
  | close
  | bar
  | star (greedy : Bool)
  | plus (greedy : Bool)
  | quest (greedy : Bool)
  | rep (min : Nat) (max : Option Nat) (greedy : Bool)
  deriving Repr

/-- ASCII letters and digits (`isalnum` of regexp/syntax). -/
def isAlnum (r : Rune) : Bool :=
  (0x30 ≤ r && r ≤ 0x39) || (0x41 ≤ r && r ≤ 0x5A) || (0x61 ≤ r && r ≤ 0x7A)

def digitRanges : List (Nat × Nat) := [(0x30, 0x39)]
def spaceRanges : List (Nat × Nat) := [(0x09, 0x0A), (0x0C, 0x0D), (0x20, 0x20)]
def wordRanges : List (Nat × Nat) := [(0x30, 0x39), (0x41, 0x5A), (0x5F, 0x5F), (0x61, 0x7A)]

/-- The complement of one of the sorted lists above. -/
def complement (lo : Nat) : List (Nat × Nat) → List (Nat × Nat)
  | [] => [(lo, 0x10FFFF)]
  | (a, b) :: t => if lo < a then (lo, a - 1) :: complement (b + 1) t else complement (b + 1) t

/-- `\d \D \s \S \w \W`. -/
def perlClass (c : Rune) : Option (Bool × List (Nat × Nat)) :=
  if c = 0x64 then some (false, digitRanges)
  else if c = 0x44 then some (true, digitRanges)
  else if c = 0x73 then some (false, spaceRanges)
  else if c = 0x53 then some (true, spaceRanges)
  else if c = 0x77 then some (false, wordRanges)
  else if c = 0x57 then some (true, wordRanges)
  else none

/-- A single-rune escape `\c` (`parser.escape`). -/
def escapeRune (c : Rune) : Go Rune :=
  if c < 0x80 && !isAlnum c then .ok c
  else if c = 0x61 then .ok 0x07
  else if c = 0x66 then .ok 0x0C
  else if c = 0x6E then .ok 0x0A
  else if c = 0x72 then .ok 0x0D
  else if c = 0x74 then .ok 0x09
  else if c = 0x76 then .ok 0x0B
  else if c = 0x78 || (0x30 ≤ c && c ≤ 0x37) then .err .unmodelled
  else .err .regexpSyntax

/-- The token of `\c` outside a class. -/
def escapeTok (c : Rune) : Go Tok :=
  match perlClass c with
  | some (neg, rs) => .ok (.re (.cls neg rs))
  | none =>
    if c = 0x41 then .ok (.re .beginText)
    else if c = 0x62 then .ok (.re .wordB)
    else if c = 0x42 then .ok (.re .noWordB)
    else if c = 0x7A then .ok (.re .endText)
    else if c = 0x51 || c = 0x70 || c = 0x50 then .err .unmodelled
    else (escapeRune c).bind fun r => .ok (.lit r)

/-- One character of a class: `(rune, runes consumed)` (`parser.parseClassChar`). -/
def classChar : List Rune → Go (Rune × Nat)
  | [] => .err .regexpSyntax
  | c :: t =>
    if c = 0x5C then
      match t with
      | [] => .err .regexpSyntax
      | d :: _ => (escapeRune d).bind fun r => .ok (r, 2)
    else .ok (c, 1)

/-- `[:` with something after it: a POSIX class. -/
def startsPosix : List Rune → Bool
  | a :: b :: _ :: _ => a == 0x5B && b == 0x3A
  | _ => false

/-- `\d \D \s \S \w \W` in a class. -/
def perlItem : List Rune → Option (Go (List (Nat × Nat)))
  | c :: d :: _ =>
    if c = 0x5C then
      if d = 0x70 || d = 0x50 then some (.err .unmodelled)
      else (perlClass d).map fun (neg, rs) => .ok (if neg then complement 0 rs else rs)
    else none
  | _ => none

/-- A character or a range of a class, given its first character and the `n` runes that took. -/
def rangeItem (lo n : Nat) : List Rune → Go (List (Nat × Nat) × Nat)
  | c :: d :: t =>
    if c = 0x2D ∧ d ≠ 0x5D then
      (classChar (d :: t)).bind fun (hi, k) =>
        if hi < lo then .err .regexpSyntax else .ok ([(lo, hi)], n + 1 + k)
    else .ok ([(lo, lo)], n)
  | _ => .ok ([(lo, lo)], n)

/-- One item of a class: its ranges and the number of runes consumed. -/
def classItem (s : List Rune) : Go (List (Nat × Nat) × Nat) :=
  if startsPosix s then .err .unmodelled
  else
    match perlItem s with
    | some g => g.bind fun rs => .ok (rs, 2)
    | none => (classChar s).bind fun (lo, n) => rangeItem lo n (s.drop n)

/-- The items of a class up to the closing bracket; the first argument counts runes to be skipped.
Returns the ranges and the number of runes consumed, the bracket included. -/
def classItems : Nat → Bool → List Rune → Go (List (Nat × Nat) × Nat)
  | _, _, [] => .err .regexpSyntax
  | k + 1, first, _ :: t => (classItems k first t).bind fun (rs, n) => .ok (rs, n + 1)
  | 0, first, c :: t =>
    if c = 0x5D && !first then .ok ([], 1)
    else (classItem (c :: t)).bind fun (r, n) =>
      (classItems (n - 1) false t).bind fun (rs, m) => .ok (r ++ rs, m + 1)

/-- The class after `[`: token and runes consumed. -/
def lexClass (s : List Rune) : Go (Tok × Nat) :=
  if s.head? = some 0x5E then
    (classItems 0 true s.tail).bind fun (rs, n) => .ok (.re (.cls true rs), n + 1)
  else (classItems 0 true s).bind fun (rs, n) => .ok (.re (.cls false rs), n)

/-- A decimal number: value, runes consumed (`parser.parseInt`, no leading zeros). -/
def lexInt (s : List Rune) : Option (Nat × Nat) :=
  let ds := s.takeWhile fun c => 0x30 ≤ c && c ≤ 0x39
  if ds.isEmpty || (ds.head? == some 0x30 && ds.length != 1) then none
  else some (ds.foldl (fun a c => a * 10 + (c - 0x30)) 0, ds.length)

/-- `{n}`, `{n,}` or `{n,m}` after the opening brace: minimum, maximum and runes consumed
(`parser.repeat`); `none` if the brace is a literal. -/
def lexRepeat (s : List Rune) : Option (Nat × Option Nat × Nat) :=
  match lexInt s with
  | none => none
  | some (mn, n) =>
    let c := (s.drop n).head?
    if c = some 0x7D then some (mn, some mn, n + 1)
    else if c = some 0x2C then
      let t := s.drop (n + 1)
      if t.head? = some 0x7D then some (mn, none, n + 2)
      else
        match lexInt t with
        | none => none
        | some (mx, k) =>
          if (t.drop k).head? = some 0x7D then some (mn, some mx, n + 1 + k + 1) else none
    else none

/-- A repetition operator is lazy if a `?` follows. -/
def lazyMark (t : List Rune) : Bool := t.head? == some 0x3F

/-- A group name up to `>`: runes consumed. -/
def lexName (t : List Rune) : Go Nat :=
  let name := t.takeWhile (· != 0x3E)
  if name.isEmpty || !name.all isWord || name.length = t.length then .err .regexpSyntax
  else .ok (name.length + 1)

/-- One token starting with `c`, and how many further runes it takes. -/
def lexOne (c : Rune) (t : List Rune) : Go (Tok × Nat) :=
  if c = 0x28 then
    if t.take 2 = [0x3F, 0x3A] then .ok (.openNC, 2)
    else if t.take 3 = [0x3F, 0x50, 0x3C] then (lexName (t.drop 3)).bind fun n => .ok (.open, 3 + n)
    else if t.head? = some 0x3F then .err .unmodelled
    else .ok (.open, 0)
  else if c = 0x29 then .ok (.close, 0)
  else if c = 0x7C then .ok (.bar, 0)
  else if c = 0x5E then .ok (.re .beginText, 0)
  else if c = 0x24 then .ok (.re .endText, 0)
  else if c = 0x2E then .ok (.re .anyNotNL, 0)
  else if c = 0x2A then .ok (.star !(lazyMark t), (lazyMark t).toNat)
  else if c = 0x2B then .ok (.plus !(lazyMark t), (lazyMark t).toNat)
  else if c = 0x3F then .ok (.quest !(lazyMark t), (lazyMark t).toNat)
  else if c = 0x5B then lexClass t
  else if c = 0x7B then
    match lexRepeat t with
    | none => .ok (.lit c, 0)
    | some (mn, mx, n) =>
      if mn > 1000 || mx.elim false (fun m => m > 1000 || m < mn) then .err .regexpSyntax
      else .ok (.rep mn mx !(lazyMark (t.drop n)), n + (lazyMark (t.drop n)).toNat)
  else if c = 0x5C then
    match t with
    | [] => .err .regexpSyntax
    | d :: _ => (escapeTok d).bind fun tok => .ok (tok, 1)
  else .ok (.lit c, 0)

/-- The tokens of an expression; the first argument counts runes to be skipped. -/
def lexFrom : Nat → List Rune → Go (List Tok)
  | _, [] => .ok []
  | k + 1, _ :: t => lexFrom k t
  | 0, c :: t => (lexOne c t).bind fun (tok, n) => (lexFrom n t).bind fun ts => .ok (tok :: ts)

/-- A group being parsed: its capture index, the finished alternatives and the current concatenation
(both reversed). -/
structure Frame where
  cap : Option Nat
  alts : List Re
  cat : List Re
  deriving Repr

/-- Parser state: the group being parsed, the enclosing groups, the number of groups so far, and
whether the last token was a repetition. -/
structure PSt where
  cur : Frame
  stack : List Frame
  ncap : Nat
  lastRep : Bool
  deriving Repr

/-- A concatenation of reversed items. -/
def mkCat : List Re → Re
  | [] => .empty
  | [r] => r
  | rs => .cat rs.reverse

/-- An alternation of reversed items. -/
def mkAlt : List Re → Re
  | [r] => r
  | rs => .alt rs.reverse

/-- The expression of a finished group. -/
def Frame.body (f : Frame) : Re := mkAlt (mkCat f.cat :: f.alts)

/-- The item a finished group becomes. -/
def Frame.close (f : Frame) : Re :=
  match f.cap with
  | some i => .cap i f.body
  | none => f.body

/-- Append an item to the current concatenation. -/
def PSt.push (st : PSt) (r : Re) : PSt :=
  { st with cur := { st.cur with cat := r :: st.cur.cat }, lastRep := false }

/-- Apply a repetition to the last item: an error without one or directly after another one. -/
def PSt.repeat (st : PSt) (f : Re → Re) : Go PSt :=
  match st.lastRep, st.cur.cat with
  | false, r :: rs => .ok { st with cur := { st.cur with cat := f r :: rs }, lastRep := true }
  | _, _ => .err .regexpSyntax

/-- One token. -/
def pstep (st : PSt) : Tok → Go PSt
  | .lit r => .ok (st.push (.lit [r]))
  | .re r => .ok (st.push r)
  | .open => .ok ⟨⟨some (st.ncap + 1), [], []⟩, st.cur :: st.stack, st.ncap + 1, false⟩
  | .openNC => .ok ⟨⟨none, [], []⟩, st.cur :: st.stack, st.ncap, false⟩
  | .bar => .ok { st with cur := ⟨st.cur.cap, mkCat st.cur.cat :: st.cur.alts, []⟩, lastRep := false }
  | .close =>
    match st.stack with
    | [] => .err .regexpSyntax
    | f :: fs => .ok (PSt.push ⟨f, fs, st.ncap, false⟩ st.cur.close)
  | .star g => st.repeat (.star g)
  | .plus g => st.repeat (.plus g)
  | .quest g => st.repeat (.quest g)
  | .rep mn mx g => st.repeat (.rep mn mx g)

/-- All tokens. -/
def psteps : PSt → List Tok → Go PSt
  | st, [] => .ok st
  | st, t :: ts => (pstep st t).bind fun st' => psteps st' ts

/-- `syntax.Parse(expr, syntax.Perl)` on the runes of the expression. -/
def parseRunes (rs : List Rune) : Go Re :=
  (lexFrom 0 rs).bind fun toks =>
    (psteps ⟨⟨none, [], []⟩, [], 0, false⟩ toks).bind fun st =>
      match st.stack with
      | [] => .ok st.cur.body
      | _ => .err .regexpSyntax

/-- `regexp.Compile(expr)`: the expression must be valid UTF-8. -/
def compile (expr : Bytes) : Go Re :=
  if ValidUtf8 expr then parseRunes (runes expr) else .err .regexpSyntax

/-- `regexp.QuoteMeta`: the special bytes. -/
def isMeta (c : UInt8) : Bool :=
  [0x5C, 0x2E, 0x2B, 0x2A, 0x3F, 0x28, 0x29, 0x7C, 0x5B, 0x5D, 0x7B, 0x7D, 0x5E, 0x24].contains c

/-- `regexp.QuoteMeta`. -/
def quoteMeta (s : Bytes) : Bytes := s.flatMap fun c => if isMeta c then [0x5C, c] else [c]

end Verif.Rx
