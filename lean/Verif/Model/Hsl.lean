import Verif.Go.Unicode

/-!
# Model of `pkg/hsl`

The lexer works on the runes of the source (`bufio.Reader.ReadRune` yields U+FFFD for invalid bytes).
The tokens are listed lazily in Go; here the list of tokens ends the run with `panics` or `hangs` where
the lexer would panic or loop, and the parser meets them in the same order.
-/

namespace Verif.Hsl

open Unicode

/-! ## lexer.go -/

/-- pkg/hsl/tokens.go:10-40, with the two ways in which `Scan` does not return. -/
inductive Token
  | illegal
  | eof
  | space
  | comment
  | newline
  | string (lit : List Rune)
  | colon
  | comma
  | equal
  | arrow
  | panics
  | hangs
  deriving DecidableEq, Repr

/-- pkg/hsl/lexer.go:70-72 `isSpace`. -/
def isBlank (ch : Rune) : Bool := ch != 0x0A && isSpace ch

/-- pkg/hsl/lexer.go:131-133 `isInitialLetter`. -/
def isInitial (ch : Rune) : Bool := ch == 0x5F || Unicode.isLetter ch

/-- pkg/hsl/lexer.go:135-137 `isLetter`. -/
def isLetter (ch : Rune) : Bool := isInitial ch || isDigit ch

/-- pkg/hsl/lexer.go:57-66 `readWhile`: reading stops at a rune that fails the test and at a NUL. -/
def readWhile (test : Rune → Bool) (s : List Rune) : List Rune :=
  s.takeWhile fun ch => ch != 0 && test ch

/-- pkg/hsl/lexer.go:88-127 `scanComment` after its first `#`: the number of runes it reads.  The text
of comments is never used.  In a line (`true`) everything up to and including the newline (or NUL) is
read, between lines blanks and a further `#`. -/
def commentLen : Bool → List Rune → Nat
  | _, [] => 0
  | true, ch :: t => if ch != 0x0A && ch != 0 then commentLen true t + 1 else commentLen false t + 1
  | false, ch :: t =>
    if isBlank ch then commentLen false t + 1
    else if ch == 0x23 then commentLen true t + 1
    else 0

/-- pkg/hsl/lexer.go:143-177 `scanQuotedString` after its opening quote: the text and the number of
runes read.  At the end of the source `read` returns NUL forever: the loop does not end (`none`). -/
def quoted : Bool → List Rune → Option (List Rune × Nat)
  | _, [] => none
  | escaped, ch :: t =>
    if ch = 0x22 then
      if escaped then (quoted false t).map fun (s, n) => (ch :: s, n + 1)
      else some ([], 1)
    else if ch = 0x5C then (quoted true t).map fun (s, n) => (s, n + 1)
    else if escaped then (quoted escaped t).map fun (s, n) => (s, n + 1)
    else (quoted escaped t).map fun (s, n) => (ch :: s, n + 1)

/-- pkg/hsl/lexer.go:193-236 `Scan` at the rune `ch`: the token and the number of further runes read.
(`scanSpace` 74-76, `scanString` 139-141, `scanArrow` 181-190.) -/
def scan (ch : Rune) (t : List Rune) : Token × Nat :=
  if ch = 0 then (.eof, 0)
  else if ch = 0x0A then (.newline, 0)
  else if isSpace ch then (.space, (readWhile isBlank t).length)
  else if isInitial ch then (.string (ch :: readWhile isLetter t), (readWhile isLetter t).length)
  else if ch = 0x22 then
    match quoted false t with
    | some (s, n) => (.string s, n)
    | none => (.hangs, t.length)
  else if ch = 0x23 then (.comment, commentLen true t)
  else if ch = 0x3A then (.colon, 0)
  else if ch = 0x2C then (.comma, 0)
  else if ch = 0x3D then (.equal, 0)
  else if ch = 0x2D then
    if t.head? = some 0x3E then (.arrow, 1) else (.panics, 0)
  else (.illegal, 0)

/-- Newlines among runes. -/
def newlines (s : List Rune) : Nat := s.count 0x0A

/-- The tokens of a source with the line number after each of them (pkg/hsl/parser.go:19-24 `scan`,
lexer.go:26-53).  The first argument counts the runes of the last token still to be skipped. -/
def tokensFrom : Nat → Nat → List Rune → List (Token × Nat)
  | _, _, [] => []
  | k + 1, line, _ :: t => tokensFrom k line t
  | 0, line, ch :: t =>
    let tk := scan ch t
    let line' := line + newlines (ch :: t.take tk.2)
    (tk.1, line') :: tokensFrom tk.2 line' t

/-- The tokens of a source. -/
def tokens (src : Bytes) : List (Token × Nat) := tokensFrom 0 1 (runes src)

/-! ## structures.go -/

/-- pkg/hsl/structures.go:41-45 `Pair`. -/
structure Pair where
  left : Bytes
  right : List Bytes
  line : Nat
  deriving DecidableEq, Repr

/-- `*DictSection` or `*ListSection`. -/
inductive Kind
  | dict
  | list
  deriving DecidableEq, Repr

/-- pkg/hsl/structures.go:81-84 `ListSection` and 107-110 `DictSection`.  The pairs of a dictionary are
kept in the order in which they were added; Go visits them in an unspecified order. -/
structure Section where
  kind : Kind
  pairs : List Pair
  line : Nat
  deriving DecidableEq, Repr

/-- pkg/hsl/structures.go:8 `HSL`. -/
abbrev Doc := List (Bytes × Section)

/-- pkg/hsl/structures.go:97-100 and 132-140 `addPair`; `none` is the error of a duplicated key. -/
def Section.addPair (s : Section) (p : Pair) : Option Section :=
  match s.kind with
  | .list => some { s with pairs := s.pairs ++ [p] }
  | .dict => if s.pairs.any (·.left = p.left) then none else some { s with pairs := s.pairs ++ [p] }

/-- pkg/hsl/structures.go:143-151 `Map`. -/
def Section.map (s : Section) : List (Bytes × List Bytes) := s.pairs.map fun p => (p.left, p.right)

/-- pkg/hsl/structures.go:155-170 `Injective`; `none` is the error. -/
def Section.injective (s : Section) : Option (List (Bytes × Bytes)) :=
  if s.pairs.all (·.right.length = 1) then some (s.pairs.map fun p => (p.left, p.right.headD []))
  else none

/-- pkg/hsl/structures.go:191-199 `All`. -/
def Section.all (s : Section) (left : Bytes) : List Bytes := (s.map.lookup left).getD []

/-- pkg/hsl/structures.go:174-188 `One`. -/
def Section.one (s : Section) (left : Bytes) : Bytes := (s.all left).headD []

/-! ## parser.go -/

/-- pkg/hsl/parser.go:28-34, the variables of `parse`. -/
structure State where
  doc : Doc
  lastString : Bytes
  sectionName : Bytes
  sectionLine : Nat
  deriving DecidableEq, Repr

/-- Replace or add the section of a name in the map. -/
def setSection (name : Bytes) (s : Section) : Doc → Doc
  | [] => [(name, s)]
  | (n, s') :: d => if n = name then (n, s) :: d else (n, s') :: setSection name s d

/-- pkg/hsl/parser.go:77-104: adding the parsed pair; a duplicated key panics. -/
def State.addPair (st : State) (kind : Kind) (line : Nat) (values : List Bytes) : Option State :=
  let sec := (st.doc.lookup st.sectionName).getD ⟨kind, [], st.sectionLine⟩
  (sec.addPair ⟨st.lastString, values, line⟩).map fun sec' =>
    { st with doc := setSection st.sectionName sec' st.doc }

/-- The values being read by `parseValues`: the kind of the delimiter, its line, the values so far. -/
structure Pending where
  kind : Kind
  line : Nat
  values : List Bytes
  deriving DecidableEq, Repr

/-- One token of `parse` (pkg/hsl/parser.go:27-111) or, if a pair is pending, of `parseValues`
(pkg/hsl/parser.go:113-145). -/
inductive Step
  | cont (st : State) (p : Option Pending)
  | stop (r : Go Doc)

/-- `parseValues` is over: add the pair and continue in `parse`. -/
def finish (st : State) (p : Pending) : Step :=
  match st.addPair p.kind p.line p.values with
  | some st' => .cont st' none
  | none => .stop .panic

/-- One token. -/
def step (st : State) : Option Pending → Token × Nat → Step
  | _, (.panics, _) => .stop .panic
  | _, (.hangs, _) => .stop .hang
  | _, (.illegal, _) => .stop (.err .hsl)
  | none, (.eof, _) => .stop (.ok st.doc)
  | none, (.string s, _) => .cont { st with lastString := encode s } none
  | none, (.colon, line) => .cont { st with sectionName := st.lastString, sectionLine := line } none
  | none, (.equal, line) =>
    if st.sectionName = [] then .stop (.err .hsl) else .cont st (some ⟨.dict, line, []⟩)
  | none, (.arrow, line) =>
    if st.sectionName = [] then .stop (.err .hsl) else .cont st (some ⟨.list, line, []⟩)
  | none, _ => .cont st none
  | some p, (.eof, _) => finish st p
  | some p, (.newline, _) => finish st p
  | some p, (.string s, _) => .cont st (some { p with values := p.values ++ [encode s] })
  | some p, _ => .cont st (some p)

/-- The loop over the tokens; at the end of the source `Scan` returns EOF again and again. -/
def parseLoop : State → Option Pending → List (Token × Nat) → Go Doc
  | st, none, [] => .ok st.doc
  | st, some p, [] =>
    match st.addPair p.kind p.line p.values with
    | some st' => .ok st'.doc
    | none => .panic
  | st, p, t :: ts =>
    match step st p t with
    | .stop r => r
    | .cont st' p' => parseLoop st' p' ts

/-- pkg/hsl/hsl.go:38-41 `Parse`. -/
def parse (src : Bytes) : Go Doc := parseLoop ⟨[], [], [], 0⟩ none (tokens src)

end Verif.Hsl
