import Verif.Model.Wasm

/-! Vocabulary for statements about the JavaScript API (C69–C72). -/

namespace Verif.Spec.Wasm

open Verif.Js Verif.Wasm

/-- A well-formed JavaScript string of some characters: characters outside of the Basic Multilingual Plane are written as
surrogate pairs. -/
inductive Spells : Str → List Rune → Prop
  | nil : Spells [] []
  | basic {u : Nat} {s : Str} {rs : List Rune} (h : u < 0xD800 ∨ 0xE000 ≤ u ∧ u < 0x10000) (rest : Spells s rs) :
      Spells (u :: s) (u :: rs)
  | pair {u v : Nat} {s : Str} {rs : List Rune} (hu : 0xD800 ≤ u ∧ u < 0xDC00) (hv : 0xDC00 ≤ v ∧ v < 0xE000)
      (rest : Spells s rs) : Spells (u :: v :: s) ((0x10000 + (u - 0xD800) * 0x400 + (v - 0xDC00)) :: rs)

/-- A JavaScript value which is the text of a Go string; a byte order mark at the start is dropped. -/
def Says (v : Value) (s : Bytes) : Prop :=
  ∃ u, v = .string u ∧ Spells u (if (runes s).head? = some 0xFEFF then (runes s).tail else runes s)

/-- How the Promises of translit functions are settled: resolved or rejected with a value, depending on the function and
its argument. -/
abbrev Answers := Nat → Value → Value ⊕ Value

/-- The translit which a function of the page is. -/
def translitOf (answers : Answers) (scheme : Bytes) (fn : Nat) : Translit :=
  ⟨scheme, fun word =>
    match answers fn (ofText word) with
    | .inl v => .ok v.text
    | .inr _ => .err .translit⟩

/-- The translits a page has registered, the first ones first: of several ones for a scheme the first one counts. -/
def registered (answers : Answers) : List Event → Registry
  | [] => []
  | .useTranslit (scheme :: .func fn :: _) :: es => (scheme.text, translitOf answers scheme.text fn) :: registered answers es
  | _ :: es => registered answers es

/-- A call of `hangulize`. -/
def IsCall : Event → Bool
  | .hangulize .. => true
  | _ => false

/-- The orders of iteration in an event are possible ones. -/
def EventOk : Event → Prop
  | .hangulize o visit _ => o.Ok ∧ ∀ l, (visit l).Perm l
  | _ => True

/-- The Promises of translit functions are settled as told. -/
def Faithful (files : Files) (start : Page) (answers : Answers) (evs : List Event) : Prop :=
  ∀ before ask r after p a, evs = before ++ .settle ask r :: after → run files start before = .ok p →
    p.asks[ask]? = some a → r = answers a.fn a.arg

/-- The Promise of a call of a translit function has been settled. -/
def Settled (files : Files) (start : Page) (evs : List Event) (ask : Nat) : Prop :=
  ∃ before r after p, evs = before ++ .settle ask r :: after ∧ run files start before = .ok p ∧ ask < p.asks.length

/-- Whether the Promise of a call of `hangulize` is still pending. -/
def Pending (t : Task) (ask : Nat) : Prop := ∃ spec ts scheme todo w, t.status = .waiting spec ts scheme todo w ask

/-- How the Promise of a call of `hangulize` is settled, and what the tracing function is given: as in Go, for a spec of the
language. -/
inductive Finished (files : Files) (translits : Registry) (lang word : Bytes) (tr : Tracer) : Status → List Trace → Prop
  | unknown (h : files lang = none) : Finished files translits lang word tr (.rejected .specNotFound) []
  | resolved {src : Bytes} {o : Ord} {sp : Spec} {out : Bytes} {tr' : Tracer} (found : files lang = some src) (ho : o.Ok)
      (parsed : parseSpec o src = .ok sp) (h : forward sp translits word tr = (.ok out, tr')) :
      Finished files translits lang word tr (.resolved (ofText out)) (logOf tr')
  | rejected {src : Bytes} {o : Ord} {sp : Spec} {e : Err} {tr' : Tracer} (found : files lang = some src) (ho : o.Ok)
      (parsed : parseSpec o src = .ok sp) (h : forward sp translits word tr = (.err e, tr')) :
      Finished files translits lang word tr (.rejected e) (logOf tr')

/-- The tracer of a call with some further arguments. -/
def tracerFor : List Value → Tracer
  | [] => none
  | .undefined :: _ => none
  | _ => some ⟨[], []⟩

/-- An event as the documentation asks for it: schemes and words of any kind, translits and tracing functions are functions, and
Promises are rejected with objects. -/
def Documented : Event → Prop
  | .useTranslit args => ∃ scheme fn rest, args = scheme :: .func fn :: rest
  | .hangulize o visit args => (o.Ok ∧ ∀ l, (visit l).Perm l) ∧
      ∃ lang word rest, args = lang :: word :: rest ∧ (rest = [] ∨ ∃ r, rest = .undefined :: r ∨ ∃ fn, rest = .func fn :: r)
  | .settle _ r => ∀ v, r = .inr v → ∃ fields, v = .object fields

/-- Reading a field of a field of a value. -/
def path : Value → List String → Go Value
  | v, [] => .ok v
  | v, name :: names => do
    let v ← v.get (decodeText (str name))
    path v names

/-- A JavaScript array whose items are described one by one. -/
inductive Lists {α : Type} (Item : Value → α → Prop) : List Value → List α → Prop
  | nil : Lists Item [] []
  | cons {v : Value} {vs : List Value} {x : α} {xs : List α} (h : Item v x) (rest : Lists Item vs xs) :
      Lists Item (v :: vs) (x :: xs)

/-- A JavaScript object which tells what a spec is. -/
structure Describes (v : Value) (sp : Spec) : Prop where
  lang : ∀ f s, (f, s) ∈ [("id", sp.lang.id), ("code2", sp.lang.codes.1), ("code3", sp.lang.codes.2),
    ("english", sp.lang.english), ("korean", sp.lang.korean), ("script", sp.lang.script)] →
    ∃ x, path v ["lang", f] = .ok x ∧ Says x s
  translit : ∃ xs, path v ["lang", "translit"] = .ok (.array xs) ∧ Lists Says xs sp.lang.translit
  authors : ∃ xs, path v ["config", "authors"] = .ok (.array xs) ∧ Lists Says xs sp.config.authors
  stage : ∃ x, path v ["config", "stage"] = .ok x ∧ Says x sp.config.stage
  test : ∃ xs, path v ["test"] = .ok (.array xs) ∧ Lists (fun x exm =>
    (∃ y, path x ["word"] = .ok y ∧ Says y exm.1) ∧ ∃ y, path x ["result"] = .ok y ∧ Says y exm.2) xs sp.test
  source : ∃ x, path v ["source"] = .ok x ∧ Says x sp.source

/-- A JavaScript object which tells what a trace is, as far as its texts are UTF-8. -/
structure Tells (v : Value) (t : Trace) (step : Bytes) : Prop where
  step : ∃ x, path v ["step"] = .ok x ∧ Says x step
  word : ValidUtf8 t.word → ∃ x, path v ["word"] = .ok x ∧ Says x t.word
  why : ValidUtf8 t.why → ∃ x, path v ["why"] = .ok x ∧ Says x t.why
  noRule : t.rule = none → path v ["rule"] = .ok .null
  rule : ∀ r, t.rule = some r → path v ["rule", "id"] = .ok (.number r.id) ∧
    (ValidUtf8 r.pat.expr → ∃ x, path v ["rule", "from"] = .ok x ∧ Says x r.pat.expr) ∧
    (ValidUtf8 r.to.expr → ∃ x, path v ["rule", "to"] = .ok x ∧ Says x r.to.expr)

/-- A text which JavaScript gives back as it got it. -/
def Plain (s : Bytes) : Prop := ValidUtf8 s ∧ (runes s).head? ≠ some 0xFEFF

/-- The page has registered its workers for the standard schemes. -/
def Workers (l : Libraries) (answers : Answers) (translits : Registry) : Prop :=
  ∀ t ∈ standard l, ∃ fn, translits.lookup t.scheme = some (translitOf answers t.scheme fn) ∧
    ∀ word v, workerTranslit l t.scheme word = .ok v → answers fn word = .inl v

end Verif.Spec.Wasm
