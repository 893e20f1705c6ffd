import Verif.Model.Api

/-!
# Model of `pkg/tracefmt` and `cmd/hangulize`

Not modelled: cobra, flags, the texts printed by `test`, and the file system, which is a function giving the contents
of files.
-/

namespace Verif.Cli

/-! ## pkg/tracefmt/tracefmt.go -/

/-- A `hangulize.Trace` as it is printed: the step, the word, why, and the text of the rule. -/
structure Line where
  step : Bytes
  word : Bytes
  why : Bytes
  rule : Option Bytes
  deriving DecidableEq, Repr

/-- The names of the steps (trace.go:46-94). -/
def stepName : TStep → Bytes
  | .input => str "Input"
  | .transliterate => str "Transliterate"
  | .normalize => str "Normalize"
  | .rewrite => str "Rewrite"
  | .transcribe => str "Transcribe"
  | .syllabify => str "Syllabify"
  | .localize => str "Localize"

/-- rule.go:17-19 `Rule.String`. -/
def ruleString (r : Rule) : Bytes := str "\"" ++ r.pat.expr ++ str "\" -> \"" ++ r.to.expr ++ str "\""

/-- A trace as it is printed. -/
def lineOf (t : Trace) : Line := ⟨stepName t.step, t.word, t.why, t.rule.map ruleString⟩

/-- `strings.Repeat(" ", n)`: panics on a negative count. -/
def repeatSpace (n : Int) : Go Bytes := if n < 0 then .panic else .ok (List.replicate n.toNat 0x20)

/-- pkg/tracefmt/tracefmt.go:21-43, the loop.  `width` is `runewidth.StringWidth`. -/
def fprintLoop (width : Bytes → Nat) : Bytes → Int → List Line → Go Bytes
  | _, _, [] => .ok []
  | step, columns, t :: ts => do
    let header := if step ≠ t.step then str "[" ++ t.step ++ str "]\n" else []
    let w : Int := width t.word
    let columns := if columns < w then w / 8 * 8 + 8 else columns
    let pad ← repeatSpace (columns - w)
    let note := match t.rule with
      | some r => str " | " ++ r
      | none => if t.why ≠ [] then str " | (" ++ t.why ++ str ")" else []
    let rest ← fprintLoop width t.step columns ts
    return header ++ str "  " ++ t.word ++ pad ++ note ++ str "\n" ++ rest

/-- pkg/tracefmt/tracefmt.go:17-44 `FprintTraces`. -/
def fprintTraces (width : Bytes → Nat) (ts : List Line) : Go Bytes := fprintLoop width [] 0 ts

/-! ## cmd/hangulize/main.go -/

/-- The bytes of the characters of a string, as decoded by `range`. -/
def pieces : List Nat → Bytes → List Bytes
  | [], _ => []
  | n :: ns, s => s.take n :: pieces ns (s.drop n)

/-- Whether the bytes of one character are white space. -/
def isSpacePiece (s : Bytes) : Bool := (runes s).all Unicode.isSpace

/-- `strings.TrimSpace`.  (Go decodes the last characters backwards; as UTF-8 is self-synchronizing, white space is
found at the same places.) -/
def trimSpace (s : Bytes) : Bytes :=
  (((pieces ((decode s).map (·.2)) s).dropWhile isSpacePiece).reverse.dropWhile isSpacePiece).reverse.flatten

/-- cmd/hangulize/main.go:85-92: the lines read from the standard input, `ReadString` failing at the end; the first
argument is what was read of the current line. -/
def stdinLines : Bytes → Bytes → List Bytes
  | _, [] => []
  | buf, b :: rest => if b = 0x0A then trimSpace (buf ++ [b]) :: stdinLines [] rest else stdinLines (buf ++ [b]) rest

/-- cmd/hangulize/main.go:82-101 `readWords`: what is sent to the channel, one after another. -/
def readWords (args : List Bytes) (stdin : Bytes) : List Bytes :=
  (if args.length = 1 then stdinLines [] stdin else (args.drop 1).filter fun w => decide (w ≠ [])) ++ [[]]

/-- What the main goroutine is doing: waiting for a word, working on one, or the process is over, by returning or
`os.Exit`, by a panic, or the main goroutine runs forever. -/
inductive Main
  | waiting
  | working (word : Bytes)
  | exited (code : Nat)
  | crashed
  | stuck
  deriving DecidableEq, Repr

/-- The two goroutines: what the reader has still to send, whether it is blocked sending the first of it, the main
goroutine, and what was written to the standard output, line by line, and to the standard error. -/
structure Proc where
  todo : List Bytes
  sending : Bool
  main : Main
  out : List Bytes
  err : Bytes
  deriving DecidableEq, Repr

/-- What is needed of the hangulizer: `Hangulize`, the traces it emits (none unless verbose), their widths, and how
errors are printed. -/
structure Env where
  hangulize : Bytes → Go WordErr
  traces : Bytes → List Line
  width : Bytes → Nat
  errText : Err → Bytes

/-- The hangulizer of a command: cmd/hangulize/main.go:42-43 and 64-70. -/
def Env.ofSpec (sp : Spec) (translits : Registry) (verbose : Bool) (width : Bytes → Nat) (errText : Err → Bytes) : Env where
  hangulize w := wordErr (forward sp translits w (if verbose then some ⟨[], []⟩ else none)).1
  traces w := ((forward sp translits w (if verbose then some ⟨[], []⟩ else none)).2.map fun st => st.log.map lineOf).getD []
  width := width
  errText := errText

/-- cmd/hangulize/main.go:54-78: the main goroutine got a word. -/
def Env.handle (e : Env) (p : Proc) (word : Bytes) : Proc :=
  if word = [] then { p with main := .exited 0 }
  else match e.hangulize word with
    | .ok (result, none) =>
      match fprintTraces e.width (e.traces word) with
      | .ok text => { p with main := .waiting, out := p.out ++ [result], err := p.err ++ text }
      | .hang => { p with main := .stuck }
      | _ => { p with main := .crashed }
    | .ok (_, some er) => { p with main := .exited 1, err := p.err ++ e.errText er }
    | .hang => { p with main := .stuck }
    | _ => { p with main := .crashed }

/-- One step of one of the goroutines, as long as the process is running: the reader gets to its next send
operation, the channel, which has no buffer, passes a word, or the main goroutine handles a word. -/
inductive Env.Step (e : Env) : Proc → Proc → Prop
  | read {p : Proc} : p.main = .waiting ∨ (∃ w, p.main = .working w) → p.todo ≠ [] → p.sending = false →
    e.Step p { p with sending := true }
  | pass {p : Proc} {w : Bytes} {ws : List Bytes} : p.main = .waiting → p.todo = w :: ws → p.sending = true →
    e.Step p { p with todo := ws, sending := false, main := .working w }
  | work {p : Proc} {w : Bytes} : p.main = .working w → e.Step p (e.handle p w)

/-- Any number of steps in any order. -/
inductive Env.Steps (e : Env) : Proc → Proc → Prop
  | refl (p : Proc) : e.Steps p p
  | tail {p q r : Proc} : e.Steps p q → e.Step q r → e.Steps p r

/-- cmd/hangulize/main.go:48-52: the start of `hangulizeStream`. -/
def start (args : List Bytes) (stdin : Bytes) : Proc := ⟨readWords args stdin, false, .waiting, [], []⟩

/-! ## cmd/hangulize/cover.go -/

/-- cmd/hangulize/cover.go:13-17 `cov`. -/
structure Cov where
  name : Bytes
  step : TStep
  ruleID : Nat
  deriving DecidableEq, Repr

/-- cmd/hangulize/cover.go:20-23 `cover`; the maps to true are lists without repetition. -/
structure Cover where
  covered : List Cov
  names : List Bytes
  deriving DecidableEq, Repr

/-- Insert into a set. -/
def insertNew {α : Type} [DecidableEq α] (x : α) (l : List α) : List α := if x ∈ l then l else l ++ [x]

/-- cmd/hangulize/cover.go:31-37 `Visit`. -/
def Cover.visit (c : Cover) (name : Bytes) : Cover := { c with names := insertNew name c.names }

/-- cmd/hangulize/cover.go:40-47 `Cover`. -/
def Cover.cover (c : Cover) (name : Bytes) (step : TStep) (ruleID : Nat) : Cover :=
  Cover.visit { c with covered := insertNew ⟨name, step, ruleID⟩ c.covered } name

/-- The lines read by `bufio.Scanner` (cmd/hangulize/cover.go:124-129), each without a final `\r`: lines of 64 KiB
end the scan.  The first argument is the line read so far. -/
def scanLines : Bytes → Bytes → List Bytes
  | buf, [] => if buf = [] ∨ 65535 < buf.length then [] else [buf]
  | buf, b :: rest =>
    if b = 0x0A then if 65535 < buf.length then [] else buf :: scanLines [] rest else scanLines (buf ++ [b]) rest

/-- `bufio.ScanLines` drops a `\r` at the end. -/
def dropCR (line : Bytes) : Bytes := if line.getLast? = some 0x0D then line.dropLast else line

/-- A loop collecting a result for every element. -/
def forEach {α β : Type} (f : α → Go β) : List α → Go (List β)
  | [] => .ok []
  | a :: as => do
    let b ← f a
    let bs ← forEach f as
    return b :: bs

/-- A line of a profile: the name, the line number, the column and whether the rule is covered. -/
structure Block where
  name : Bytes
  line : Nat
  col : Nat
  covered : Bool
  deriving DecidableEq, Repr

/-- cmd/hangulize/cover.go:132-137 and 141-146: the lines for the rules of a section.  A section which does not exist
is a nil interface: calling `Pairs` panics. -/
def sectionBlocks (c : Cover) (name : Bytes) (cols : List Nat) (doc : Hsl.Doc) (step : TStep) (section_ : Bytes)
    (rules : List Rule) : Go (List Block) :=
  match doc.lookup section_ with
  | none => .panic
  | some sec => rules |> forEach fun r => do
      let pair ← index sec.pairs r.id
      let col ← if pair.line = 0 then .panic else index cols (pair.line - 1)
      return ⟨name, pair.line, col, c.covered.contains ⟨name, step, r.id⟩⟩

/-- cmd/hangulize/cover.go:100-147: the lines for a file.  An error of `ParseSpec` is ignored, and the nil spec
dereferenced. -/
def fileBlocks (o : Ord) (c : Cover) (name src : Bytes) : Go (List Block) := do
  let doc ← Hsl.parse src
  let spec ← match parseSpec o src with
    | .ok spec => .ok spec
    | .hang => .hang
    | _ => .panic
  let cols := (scanLines [] src).map fun l => (dropCR l).length + 1
  let rewrite ← sectionBlocks c name cols doc .rewrite (str "rewrite") spec.rewrite
  let transcribe ← sectionBlocks c name cols doc .transcribe (str "transcribe") spec.transcribe
  return rewrite ++ transcribe

/-- cmd/hangulize/cover.go:100-105: a file which cannot be opened is an error. -/
def nameBlocks (o : Ord) (files : Files) (c : Cover) (name : Bytes) : Go (List Block) :=
  match files name with
  | none => .err .unmodelled
  | some src => fileBlocks o c name src

/-- cmd/hangulize/cover.go:93-149 `WriteProfile`: the lines after the first one; `files` gives the contents of the
files. -/
def writeProfile (o : Ord) (files : Files) (c : Cover) : Go (List Block) := do
  let blocks ← forEach (nameBlocks o files c) c.names
  return blocks.flatten

/-- cmd/hangulize/cover.go:67-79: the number of rules in a file. -/
def nameTotal (o : Ord) (files : Files) (name : Bytes) : Go Nat :=
  match files name with
  | none => .panic
  | some src =>
    match parseSpec o src with
    | .ok spec => .ok (spec.rewrite.length + spec.transcribe.length)
    | .hang => .hang
    | _ => .panic

/-- cmd/hangulize/cover.go:59-83 `Coverage`: the number of covered rules and of all rules. -/
def coverage (o : Ord) (files : Files) (c : Cover) : Go (Nat × Nat) := do
  let totals ← forEach (nameTotal o files) c.names
  return (c.covered.length, totals.sum)

/-! ## cmd/hangulize/test.go -/

/-- The flags: whether coverage is asked for, and whether a profile is, and can be written. -/
structure Flags where
  cover : Bool
  profile : Option Bool
  deriving DecidableEq, Repr

/-- cmd/hangulize/test.go:79-83: what the traces cover. -/
def coverTraces (name : Bytes) (c : Cover) (ts : List Trace) : Cover :=
  ts.foldl (fun c t => match t.rule with
    | some r => c.cover name t.step r.id
    | none => c) c

/-- cmd/hangulize/test.go:67-101, the loop over the examples of a spec; no translit is registered.  The traces of
earlier examples are kept (62, 72), and covered again. -/
def runExamples (withCover : Bool) (name : Bytes) (spec : Spec) : List (Bytes × Bytes) → List Trace → Bool → Cover →
    Go (Bool × Cover)
  | [], _, failed, c => .ok (failed, c)
  | (word, expected) :: rest, traces, failed, c => do
    let r := forward spec [] word (if withCover then some ⟨traces, []⟩ else none)
    let result ← wordErr r.1
    let traces := (r.2.map (·.log)).getD []
    let c := if withCover then coverTraces name c traces else c
    runExamples withCover name spec rest traces (failed || decide (result.1 ≠ expected)) c

/-- cmd/hangulize/test.go:42-102, the loop over the files.  Errors are returned. -/
def runFiles (o : Ord) (files : Files) (withCover : Bool) : List Bytes → Bool → Cover → Go (Bool × Cover)
  | [], failed, c => .ok (failed, c)
  | name :: names, failed, c =>
    match files name with
    | none => .err .unmodelled
    | some src => do
      let spec ← parseSpec o src
      let c := if withCover then c.visit name else c
      let (failed, c) ← runExamples withCover name spec spec.test [] failed c
      runFiles o files withCover names failed c

/-- How the process ends: its exit status and what it knows about coverage. -/
structure Report where
  code : Nat
  cover : Cover
  profile : List Block
  coverage : Option (Nat × Nat)
  deriving DecidableEq, Repr

/-- cmd/hangulize/test.go:109-126: the profile, nothing after an error. -/
def profileOf (o : Ord) (files : Files) (c : Cover) : Option Bool → Go (Option (List Block))
  | none => .ok (some [])
  | some _ =>
    match writeProfile o files c with
    | .ok bs => .ok (some bs)
    | .err _ => .ok none
    | .panic => .panic
    | .hang => .hang

/-- cmd/hangulize/test.go:30-135 and main.go:15-20: the command.  The second order is the one of the maps when the
files are parsed again. -/
def test (o o' : Ord) (files : Files) (flags : Flags) (args : List Bytes) : Go Report := do
  let withCover := flags.cover || flags.profile.isSome
  match runFiles o files withCover args false ⟨[], []⟩ with
  | .err _ => return ⟨1, ⟨[], []⟩, [], none⟩
  | .panic => .panic
  | .hang => .hang
  | .ok (failed, c) =>
    if failed then return ⟨1, c, [], none⟩
    else if flags.profile = some false then return ⟨1, c, [], none⟩
    else
      let profile ← profileOf o' files c flags.profile
      match profile with
      | none => return ⟨1, c, [], none⟩
      | some bs =>
        if withCover then do
          let cov ← coverage o' files c
          return ⟨0, c, bs, some cov⟩
        else return ⟨0, c, bs, none⟩

end Verif.Cli
