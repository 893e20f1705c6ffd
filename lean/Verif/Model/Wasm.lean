import Verif.Model.Api
import Verif.Model.Cli
import Verif.Model.Standard
import Verif.Go.Js

/-!
# Model of `cmd/hangulize.wasm`, `cmd/*.translit.wasm` and of how the web page uses them

A page is the state of the WebAssembly module.  JavaScript runs one event at a time, and the Go code reacting to an event
runs until all goroutines wait (web/src/hangulize/wasm_exec.js:526-543), so that an execution is a sequence of events.
The goroutines of `hangulize` wait only for the Promises of translit functions.

Not modelled: JavaScript functions which throw or return no Promise, tracing functions which call back into the module,
and objects with a method `then` of their own.  A panic ends the Go program, and with it the module.
-/

namespace Verif.Wasm

open Verif.Js

/-! ## cmd/hangulize.wasm/encode.go -/

/-- encode.go:21-29: the language of a spec. -/
def jsLang (s : Spec) : Value := .object [
  (decodeText (str "id"), ofText s.lang.id),
  (decodeText (str "code2"), ofText s.lang.codes.1),
  (decodeText (str "code3"), ofText s.lang.codes.2),
  (decodeText (str "english"), ofText s.lang.english),
  (decodeText (str "korean"), ofText s.lang.korean),
  (decodeText (str "script"), ofText s.lang.script),
  (decodeText (str "translit"), .array (s.lang.translit.map ofText))]

/-- encode.go:35-38: the configuration of a spec. -/
def jsConfig (s : Spec) : Value := .object [
  (decodeText (str "authors"), .array (s.config.authors.map ofText)),
  (decodeText (str "stage"), ofText s.config.stage)]

/-- encode.go:42-45: an example. -/
def jsExample (exm : Bytes × Bytes) : Value := .object [
  (decodeText (str "word"), ofText exm.1),
  (decodeText (str "result"), ofText exm.2)]

/-- encode.go:15-54 `jsSpec`.  The fields are set in the order of a Go map; JavaScript code which lists the fields is
not covered. -/
def jsSpec (s : Spec) : Value := .object [
  (decodeText (str "lang"), jsLang s),
  (decodeText (str "config"), jsConfig s),
  (decodeText (str "test"), .array (s.test.map jsExample)),
  (decodeText (str "source"), ofText s.source)]

/-- encode.go:57-64 `jsSpecs`: the error of `LoadSpec` is ignored, and a nil spec dereferenced. -/
def jsSpecs (files : Files) (o : Ord) : List Bytes → Cache → Go (List (Str × Value) × Cache)
  | [], specs => .ok ([], specs)
  | lang :: langs, specs => do
    let (r, specs) ← loadSpec files o lang specs
    match r with
    | .inr _ => .panic
    | .inl spec =>
      let (fields, specs) ← jsSpecs files o langs specs
      return ((decodeText lang, jsSpec spec) :: fields, specs)

/-- encode.go:70-76: the rule of a trace. -/
def jsRule (r : Rule) : Value := .object [
  (decodeText (str "id"), .number r.id),
  (decodeText (str "from"), ofText r.pat.expr),
  (decodeText (str "to"), ofText r.to.expr)]

/-- encode.go:67-84 `jsTrace`. -/
def jsTrace (t : Trace) : Value := .object [
  (decodeText (str "step"), ofText (Cli.stepName t.step)),
  (decodeText (str "word"), ofText t.word),
  (decodeText (str "why"), ofText t.why),
  (decodeText (str "rule"), (t.rule.map jsRule).getD .null)]

/-! ## cmd/hangulize.wasm/hangulize.go, translit.go -/

/-- A call of a translit function (translit.go:46): the function and its argument.  Its Promise is known by the number of
the call. -/
structure Ask where
  fn : Nat
  arg : Value

/-- How a goroutine of `hangulize` is (hangulize.go:33-58): it waits for the Promise of a translit (translit.go:48-53), or
it has settled the Promise it works for.  The Error it rejects with is known by the Go error. -/
inductive Status
  | waiting (spec : Spec) (translits : List (Bytes × Value)) (scheme : Bytes) (todo : List Bytes) (prevWord : Bytes)
      (ask : Nat)
  | resolved (v : Value)
  | rejected (e : Err)

/-- A goroutine of `hangulize`: the tracing function, what was passed to it, and how the goroutine is. -/
structure Task where
  traceFn : Value
  log : List Trace
  status : Status

/-- The state of the module: the default registry (all of whose translits are JavaScript functions), the cached specs, the
calls of translit functions so far, and the goroutines. -/
structure Page where
  registry : List (Bytes × Value)
  specs : Cache
  asks : List Ask
  tasks : List Task

/-- The state before `main`. -/
def Page.init : Page := ⟨[], [], [], []⟩

/-- What happens on a page.  The orders in which Go visits maps are part of it. -/
inductive Event
  | useTranslit (args : List Value)
  | hangulize (o : Ord) (visit : List (Bytes × Value) → List (Bytes × Value)) (args : List Value)
  /-- The Promise of a translit function is resolved or rejected. -/
  | settle (ask : Nat) (r : Value ⊕ Value)

/-- translit.go:27-37 `Add`, with promise translits. -/
def addTranslit (r : List (Bytes × Value)) (scheme : Bytes) (fn : Value) : List (Bytes × Value) × Bool :=
  match r.lookup scheme with
  | some _ => (r, false)
  | none => (mapSet r scheme fn, true)

/-- cmd/hangulize.wasm/hangulize.go:41-43: the registry of the new hangulizer. -/
def importTranslits (ts : List (Bytes × Value)) : List (Bytes × Value) :=
  ts.foldl (fun r t => (addTranslit r t.1 t.2).1) []

/-- cmd/hangulize.wasm/hangulize.go:45-49: the tracing function is invoked. -/
def invokeTrace (traceFn : Value) (before after : List Trace) : Go Unit :=
  if before.length = after.length then .ok () else
    match traceFn with
    | .func _ => .ok ()
    | _ => .panic

/-- The tracer of a goroutine. -/
def tracerOf (traceFn : Value) (log : List Trace) (prevWord : Bytes) : Tracer :=
  match traceFn with
  | .undefined => none
  | _ => some ⟨log, prevWord⟩

/-- procedure.go:54-71 and 34-46 with promise translits: the goroutine goes on until it calls the next translit function
or settles its Promise. -/
def proceed (spec : Spec) (translits : List (Bytes × Value)) (todo : List Bytes) (word : Bytes) (tr : Tracer) (asks : List Ask) :
    Go (Status × Tracer × List Ask) :=
  match todo with
  | [] =>
    match afterTranslit spec word tr with
    | .ok (word, tr) => .ok (.resolved (ofText word), tr, asks)
    | .err e => .ok (.rejected e, tr, asks)
    | .panic => .panic
    | .hang => .hang
  | scheme :: todo =>
    match translits.lookup scheme with
    | none => .ok (.rejected .translitNotImported, tr, asks)
    | some (.func fn) =>
      .ok (.waiting spec translits scheme todo ((tr.map (·.prevWord)).getD []) asks.length, tr, asks ++ [⟨fn, ofText word⟩])
    | some _ => .panic

/-- The events of a tracer. -/
def logOf (tr : Tracer) : List Trace := (tr.map (·.log)).getD []

/-- hangulize.go:33-58: the goroutine of a call up to where it waits. -/
def startTask (spec : Spec) (translits : List (Bytes × Value)) (word : Bytes) (traceFn : Value) (asks : List Ask) :
    Go (Task × List Ask) := do
  let tr := (tracerOf traceFn [] []).trace { step := .input, word }
  let (status, tr, asks) ← proceed spec translits spec.lang.translit word tr asks
  let _ ← invokeTrace traceFn [] (logOf tr)
  return (⟨traceFn, logOf tr, status⟩, asks)

/-- translit.go:34-53 and procedure.go:61-68: the goroutine waiting for a Promise, which is settled. -/
def settleTask (t : Task) (r : Value ⊕ Value) (asks : List Ask) : Go (Task × List Ask) :=
  match t.status with
  | .waiting spec translits scheme todo prevWord _ =>
    match r with
    | .inl v => do
      let word := v.text
      let tr := (tracerOf t.traceFn t.log prevWord).trace { step := .transliterate, word, why := scheme }
      let (status, tr, asks) ← proceed spec translits todo word tr asks
      let _ ← invokeTrace t.traceFn t.log (logOf tr)
      return (⟨t.traceFn, logOf tr, status⟩, asks)
    | .inr v => do
      let _ ← v.get (decodeText (str "message"))
      return ({ t with status := .rejected .translit }, asks)
  | _ => .ok (t, asks)

/-- Whether a goroutine waits for a Promise. -/
def Task.waitsFor (t : Task) (ask : Nat) : Bool :=
  match t.status with
  | .waiting _ _ _ _ _ a => a == ask
  | _ => false

/-- One event.  A Promise which no goroutine waits for has been settled before, and is not settled again. -/
def step (files : Files) (p : Page) : Event → Go Page
  -- cmd/hangulize.wasm/translit.go:59-63
  | .useTranslit args => do
    let scheme ← index args 0
    let fn ← index args 1
    return { p with registry := (addTranslit p.registry scheme.text fn).1 }
  -- cmd/hangulize.wasm/hangulize.go:14-62
  | .hangulize o visit args => do
    let lang ← index args 0
    let word ← index args 1
    let traceFn := (args[2]?).getD .undefined
    let (r, specs) ← loadSpec files o lang.text p.specs
    match r with
    | .inr e => return { p with specs, tasks := p.tasks ++ [⟨traceFn, [], .rejected e⟩] }
    | .inl spec =>
      let (task, asks) ← startTask spec (importTranslits (visit p.registry)) word.text traceFn p.asks
      return { p with specs, asks, tasks := p.tasks ++ [task] }
  -- cmd/hangulize.wasm/translit.go:34-46
  | .settle ask r =>
    match p.tasks.findIdx? (·.waitsFor ask) with
    | none => .ok p
    | some i =>
      match p.tasks[i]? with
      | none => .ok p
      | some t => do
        let (t, asks) ← settleTask t r p.asks
        return { p with asks, tasks := p.tasks.set i t }

/-- A sequence of events. -/
def run (files : Files) : Page → List Event → Go Page
  | p, [] => .ok p
  | p, e :: es => do
    let p ← step files p e
    run files p es

/-- cmd/hangulize.wasm/main.go:13-20: the value of `hangulize.specs`, and the module when it is ready. -/
def main (files : Files) (o : Ord) (langs : List Bytes) : Go (Value × Page) := do
  let (fields, specs) ← jsSpecs files o langs []
  return (.object fields, { Page.init with specs })

/-! ## cmd/cyrillic.translit.wasm, cmd/furigana.translit.wasm, cmd/pinyin.translit.wasm -/

/-- What the functions `translit` return for the results of a translit: an Error is returned, not thrown. -/
def jsResult : Go Bytes → Go Value
  | .ok s => .ok (ofText s)
  | .err _ => .ok (.object [])
  | .panic => .panic
  | .hang => .hang

/-- cmd/cyrillic.translit.wasm/main.go:14-23 and 27-30: an unknown scheme gives a nil interface, whose method panics. -/
def cyrillicModule (l : Libraries) (args : List Value) : Go Value := do
  let scheme ← index args 0
  let word ← index args 1
  match ((cyrillics l).map fun t => (t.scheme, t)).lookup scheme.text with
  | none => .panic
  | some t => jsResult (t.transliterate word.text)

/-- cmd/furigana.translit.wasm/main.go:11-19, cmd/pinyin.translit.wasm/main.go:11-19. -/
def singleModule (t : Translit) (args : List Value) : Go Value := do
  let word ← index args 1
  jsResult (t.transliterate word.text)

/-- web/src/hangulize/translit.worker.ts:22-24 `normalizeMethod`: the part of a scheme before square brackets at its end, for
schemes without newlines. -/
def normalizeMethod (scheme : Bytes) : Bytes :=
  let name := scheme.takeWhile (· != 0x5B)
  let params := scheme.dropWhile (· != 0x5B)
  if params.length ≥ 3 ∧ params.getLast? = some 0x5D then name else scheme

/-- web/src/hangulize/translit.worker.ts:11-15, 28-51 and useHangulize.ts:73-87: the function the page registers for a scheme,
in a worker with the WebAssembly module of the scheme.  An unknown one throws an Error. -/
def workerTranslit (l : Libraries) (scheme : Bytes) (word : Value) : Go Value :=
  if normalizeMethod scheme = str "cyrillic" then cyrillicModule l [ofText scheme, word]
  else if normalizeMethod scheme = str "furigana" then singleModule (furigana l) [ofText scheme, word]
  else if normalizeMethod scheme = str "pinyin" then singleModule (pinyin l) [ofText scheme, word]
  else .err .translit

end Verif.Wasm
