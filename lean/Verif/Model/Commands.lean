import Verif.Model.Cli
import Verif.Model.Standard

/-!
# Model of the commands of `cmd/hangulize`

Not modelled: cobra, and how files are opened; a file which cannot be opened has no contents.
-/

namespace Verif.Cli

/-! ## cmd/hangulize/ls.go -/

/-- The verb `%-8s` of `fmt`, with any width: blanks follow up to a width which is counted in characters. -/
def padTo (width : Nat) (s : Bytes) : Bytes := s ++ List.replicate (width - (runes s).length) 0x20

/-- cmd/hangulize/ls.go:20, the template. -/
def template (a b c d : Bytes) : Bytes :=
  padTo 8 a ++ str " " ++ padTo 8 b ++ str " " ++ padTo 24 c ++ str " " ++ padTo 24 d ++ str "\n"

/-- cmd/hangulize/ls.go:24-31: the line of a spec; there is none for a nil spec. -/
def specLine : Option Spec → Go Bytes
  | some spec => .ok (template spec.lang.id spec.config.stage spec.lang.english spec.lang.korean)
  | none => .panic

/-- cmd/hangulize/ls.go:38-43: the bundled specs, ignoring errors. -/
def bundledSpecs (files : Files) (o : Ord) : List Bytes → Cache → Go (List (Option Spec))
  | [], _ => .ok []
  | lang :: langs, cache => do
    let (r, cache) ← loadSpec files o lang cache
    let rest ← bundledSpecs files o langs cache
    return (match r with | .inl spec => some spec | .inr _ => none) :: rest

/-- cmd/hangulize/ls.go:44-58: the specs of the files which can be opened and parsed. -/
def givenSpecs (disk : Files) (o : Ord) : List Bytes → Go (List (Option Spec))
  | [] => .ok []
  | name :: names =>
    match disk name with
    | none => givenSpecs disk o names
    | some src =>
      match parseSpec o src with
      | .ok spec => do
        let rest ← givenSpecs disk o names
        return some spec :: rest
      | .err _ => givenSpecs disk o names
      | .panic => .panic
      | .hang => .hang

/-- cmd/hangulize/ls.go:35-61 `listSpecs`. -/
def listSpecs (files disk : Files) (o : Ord) (langs args : List Bytes) : Go (List (Option Spec)) :=
  if args.length = 0 then bundledSpecs files o langs [] else givenSpecs disk o args

/-- cmd/hangulize/ls.go:19-32: what the command prints. -/
def ls (files disk : Files) (o : Ord) (langs args : List Bytes) : Go Bytes := do
  let specs ← listSpecs files disk o langs args
  let lines ← forEach specLine specs
  return template (str "LANG") (str "STAGE") (str "ENG") (str "KOR") ++ lines.flatten

/-! ## cmd/hangulize/main.go, dev.go -/

/-- What is needed of the machine a command runs on: the flag `verbose`, widths and texts of errors. -/
structure Setting where
  verbose : Bool
  width : Bytes → Nat
  errText : Err → Bytes

/-- cmd/hangulize/main.go:33-45: the command without a subcommand, which ends with status 1 and a text, or runs `hangulizeStream`;
`translits` are those which `translit.Install` registers. -/
def root (files : Files) (o : Ord) (translits : Registry) (s : Setting) (args : List Bytes) (stdin : Bytes) :
    Go (Bytes ⊕ (Env × Proc)) := do
  let lang := args.headD []
  let (r, _) ← loadSpec files o lang []
  match r with
  | .inr _ => return .inl (str "Lang not supported: " ++ lang ++ str "\n")
  | .inl spec => return .inr (.ofSpec spec translits s.verbose s.width s.errText, start args stdin)

/-- cmd/hangulize/dev.go:18-39 and main.go:16-19: the command `dev`; no translit is registered, and `noFile` is the text of the error for a
file which cannot be opened. -/
def dev (disk : Files) (o : Ord) (s : Setting) (noFile : Bytes) (name stdin : Bytes) : Go (Bytes ⊕ (Env × Proc)) :=
  match disk name with
  | none => .ok (.inl noFile)
  | some src =>
    match parseSpec o src with
    | .ok spec => .ok (.inr (.ofSpec spec [] s.verbose s.width s.errText, start [name] stdin))
    | .err e => .ok (.inl (s.errText e))
    | .panic => .panic
    | .hang => .hang

end Verif.Cli
