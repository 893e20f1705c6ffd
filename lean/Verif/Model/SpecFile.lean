import Verif.Model.Hre
import Verif.Model.Hsl
import Verif.Model.Script

/-!
# Model of spec.go

`ParseSpec` ranges over maps several times; Go leaves the order of each of these loops open.  `Ord`
gives the order chosen by each loop, as a permutation of the pairs of the map.
-/

namespace Verif

open Hre Hsl Unicode

/-- spec.go:217-224 `Language`. -/
structure Language where
  id : Bytes
  codes : Bytes × Bytes
  english : Bytes
  korean : Bytes
  script : Bytes
  translit : List Bytes
  deriving DecidableEq, Repr

/-- spec.go:256-259 `Config`. -/
structure Config where
  authors : List Bytes
  stage : Bytes
  deriving DecidableEq, Repr

/-- spec.go:18-45 `Spec`.  Sets of runes are lists; `normPairs` are the arguments of the
`strings.Replacer`. -/
structure Spec where
  lang : Language
  config : Config
  macros : List (Bytes × Bytes)
  vars : List (Bytes × List Bytes)
  normalize : List (Bytes × List Bytes)
  rewrite : List Rule
  transcribe : List Rule
  test : List (Bytes × Bytes)
  source : Bytes
  script : Script
  puncts : List Rune
  normPairs : List (Bytes × Bytes)
  normLetters : List Rune
  deriving Repr

/-- The sections with rules. -/
inductive RuleSection
  | rewrite
  | transcribe
  deriving DecidableEq, Repr

/-- The two sides of a rule. -/
inductive Side
  | left
  | right
  deriving DecidableEq, Repr

/-- The iteration orders: of the macros in `expandMacros` for each side of each rule (by section and
position), and of the normalize section (spec.go:169). -/
structure Ord where
  macros : RuleSection → Nat → Side → List (Bytes × Bytes) → List (Bytes × Bytes)
  norm : List (Bytes × List Bytes) → List (Bytes × List Bytes)

/-- An iteration visits every pair exactly once. -/
def Ord.Ok (o : Ord) : Prop :=
  (∀ s i d l, (o.macros s i d l).Perm l) ∧ ∀ l, (o.norm l).Perm l

/-- The order in which the pairs were written. -/
def Ord.written : Ord := ⟨fun _ _ _ l => l, fun l => l⟩

/-- A type assertion `sec.(*hsl.DictSection)` or `sec.(*hsl.ListSection)` on a section of the
document: panics on the other kind. -/
def assertKind (d : Doc) (name : Bytes) (k : Kind) : Go (Option Section) :=
  match d.lookup name with
  | none => .ok none
  | some s => if s.kind = k then .ok (some s) else .panic

/-- What `ParseSpec` takes from a section, or the zero value if it is missing
(`if sec, ok := h[name]; ok`). -/
def fromSection {α : Type} (d : Doc) (name : Bytes) (k : Kind) (zero : α) (f : Section → Go α) : Go α :=
  (assertKind d name k).bind fun sec =>
    match sec with
    | some s => f s
    | none => .ok zero

/-- spec.go:230-250 `newLanguage`. -/
def newLanguage (dict : Section) : Go Language :=
  match dict.all (str "codes") with
  | [c0, c1] => .ok {
      id := dict.one (str "id")
      codes := (c0, c1)
      english := dict.one (str "english")
      korean := dict.one (str "korean")
      script := dict.one (str "script")
      translit := dict.all (str "translit") }
  | _ => .err .invalidSpec

/-- spec.go:261-267 `newConfig`. -/
def newConfig (dict : Section) : Config :=
  ⟨dict.all (str "authors"), dict.one (str "stage")⟩

/-- spec.go:272-301 `newRules`; the rule's position is its ID. -/
def newRulesLoop (o : Nat → Side → List (Bytes × Bytes) → List (Bytes × Bytes))
    (macros : List (Bytes × Bytes)) (vars : List (Bytes × List Bytes)) : Nat → List Pair → Go (List Rule)
  | _, [] => .ok []
  | i, p :: ps => do
    let pat ← newPattern p.left (o i .left macros) vars
    if pat.negAWidth = -1 ∨ pat.negBWidth = -1 then .err .invalidSpec
    else
      let r0 ← index p.right 0
      let to := newRPattern r0 (o i .right macros) vars
      let rest ← newRulesLoop o macros vars (i + 1) ps
      return ⟨i, pat, to⟩ :: rest

/-- spec.go:311-326 `collectFrom`: the punctuation of a rule's pattern that is no rewriting hint. -/
def collectFrom (rletters : List Rune) (r : Rule) : List Rune :=
  r.pat.letters.filter fun c => isPunct c && !rletters.contains c

/-- spec.go:328-335, the loop over the rewriting rules; also returns the letters of their RPatterns. -/
def collectRewrite : List Rune → List Rule → List Rune × List Rune
  | rletters, [] => ([], rletters)
  | rletters, r :: rs =>
    let rletters := rletters ++ r.to.letters
    let (ps, rl) := collectRewrite rletters rs
    (collectFrom rletters r ++ ps, rl)

/-- spec.go:307-342 `collectPuncts`. -/
def collectPuncts (rewrite transcribe : List Rule) : List Rune :=
  let (ps, rletters) := collectRewrite [] rewrite
  ps ++ transcribe.flatMap (collectFrom rletters)

/-- spec.go:167-173: the arguments of `strings.NewReplacer`. -/
def normArgs (normalize : List (Bytes × List Bytes)) : List (Bytes × Bytes) :=
  normalize.flatMap fun (to, froms) => froms.map fun frm => (frm, to)

/-- spec.go:176-185: the letters of a `to`.  `utf8.DecodeRuneInString(to)` always decodes the same first
rune, so only that one is marked. -/
def lettersOf (to : Bytes) : List Rune :=
  match to with
  | [] => []
  | b :: t => [(decodeRune b t).1]

/-- spec.go:146-157, the loop over the test section; a pair without a right side panics. -/
def testPairs : List Pair → Go (List (Bytes × Bytes))
  | [] => .ok []
  | p :: ps => do
    let r ← index p.right 0
    let rest ← testPairs ps
    return (p.left, r) :: rest

/-- spec.go:57-211 `ParseSpec`.  The source text is taken as a whole (Go copies what the HSL parser
has read). -/
def parseSpec (o : Ord) (src : Bytes) : Go Spec := do
  let h ← Hsl.parse src
  let lang ← fromSection h (str "lang") .dict ⟨[], ([], []), [], [], [], []⟩ newLanguage
  let config ← fromSection h (str "config") .dict ⟨[], []⟩ fun sec => .ok (newConfig sec)
  let macros ← fromSection h (str "macros") .dict [] fun sec =>
    match sec.injective with
    | some m => .ok m
    | none => .err .invalidSpec
  let vars ← fromSection h (str "vars") .dict [] fun sec => .ok sec.map
  let normalize ← fromSection h (str "normalize") .dict [] fun sec => .ok sec.map
  let rewritePairs ← fromSection h (str "rewrite") .list [] fun sec => .ok sec.pairs
  let rewrite ← newRulesLoop (o.macros .rewrite) macros vars 0 rewritePairs
  let transcribePairs ← fromSection h (str "transcribe") .list [] fun sec => .ok sec.pairs
  let transcribe ← newRulesLoop (o.macros .transcribe) macros vars 0 transcribePairs
  let test ← fromSection h (str "test") .list [] fun sec => testPairs sec.pairs
  match getScript lang.script with
  | none => .err .invalidSpec
  | some script =>
    return {
      lang, config, macros, vars, normalize, rewrite, transcribe, test
      source := src
      script
      puncts := collectPuncts rewrite transcribe
      normPairs := normArgs (o.norm normalize)
      normLetters := normalize.flatMap fun (to, _) => lettersOf to }

end Verif
