import Verif.Model.Wasm

/-!
# Model of how the page starts its workers (`spawnWorkers` of useHangulize.ts, hangulize.worker.ts, translit.worker.ts, runWebAssembly.ts)

A worker handles its messages one at a time, in the order in which they were posted.  What awaits a Promise goes on in the order of
the `await`s, when the Promise is resolved, and before the next message; after an `await` for a resolved Promise nothing else comes between.
So a call is delayed until the module is loaded, and runs at once afterwards.  A module need not be loaded ever.  Comlink forwards a call as
a message.  Methods with the name of a property which every JavaScript object has, such as `constructor`, are not covered.
-/

namespace Verif.Workers

open Verif.Wasm (normalizeMethod)

/-! ## hangulize.worker.ts -/

/-- The calls of the worker for hangulize. -/
inductive Call
  | useTranslit (method : Bytes)
  | hangulize (lang word : Bytes)
  | getVersion
  | getSpecs
  deriving DecidableEq, Repr

/-- The worker for hangulize: the messages which were posted, whether the module is loaded, the calls which await it, and those which have
gone on. -/
structure Main where
  inbox : List Call
  loaded : Bool
  waiting : List Call
  ran : List Call
  deriving DecidableEq, Repr

/-- The worker handles its next message (hangulize.worker.ts:34-53). -/
def Main.deliver (w : Main) : Option Main :=
  match w.inbox with
  | [] => none
  | c :: rest => some (if w.loaded then { w with inbox := rest, ran := w.ran ++ [c] } else { w with inbox := rest, waiting := w.waiting ++ [c] })

/-- The module is loaded (runWebAssembly.ts:13-23). -/
def Main.load (w : Main) : Option Main :=
  if w.loaded then none else some { w with loaded := true, waiting := [], ran := w.ran ++ w.waiting }

/-! ## translit.worker.ts -/

/-- translit.worker.ts:11-15 `urls`. -/
def urls : List Bytes := [str "cyrillic", str "furigana", str "pinyin"]

/-- The calls of a worker for translits. -/
inductive TCall
  | load (method : Bytes)
  | transliterate (method word : Bytes)
  deriving DecidableEq, Repr

/-- A worker for translits: the module of which the loading has begun, if `ready` is not null, and the number of calls which threw an Error. -/
structure Side where
  inbox : List TCall
  module_ : Option Bytes
  loaded : Bool
  waiting : List (Bytes × Bytes)
  ran : List (Bytes × Bytes)
  thrown : Nat
  deriving DecidableEq, Repr

/-- translit.worker.ts:26-50: the worker handles its next message. -/
def Side.deliver (w : Side) : Option Side :=
  match w.inbox with
  | [] => none
  | .load method :: rest =>
    let w := { w with inbox := rest }
    some (if w.module_.isSome then { w with thrown := w.thrown + 1 }
      else if normalizeMethod method ∈ urls then { w with module_ := some (normalizeMethod method) }
      else { w with thrown := w.thrown + 1 })
  | .transliterate method word :: rest =>
    let w := { w with inbox := rest }
    some (if w.module_.isNone then { w with thrown := w.thrown + 1 }
      else if w.loaded then { w with ran := w.ran ++ [(method, word)] }
      else { w with waiting := w.waiting ++ [(method, word)] })

/-- Its module is loaded. -/
def Side.load (w : Side) : Option Side :=
  if w.module_.isNone || w.loaded then none else some { w with loaded := true, waiting := [], ran := w.ran ++ w.waiting }

/-! ## useHangulize.ts -/

/-- The workers of the page; those for translits by their names. -/
structure Workers where
  main : Main
  sides : List (Bytes × Side)
  deriving DecidableEq, Repr

/-- useHangulize.ts:73-87: what is done for a method. -/
def Workers.register (s : Workers) (method : Bytes) : Workers :=
  let sides := if (s.sides.lookup (normalizeMethod method)).isSome then s.sides
    else s.sides ++ [(normalizeMethod method, ⟨[.load method], none, false, [], [], 0⟩)]
  ⟨{ s.main with inbox := s.main.inbox ++ [.useTranslit method] }, sides⟩

/-- useHangulize.ts:64-90 `spawnWorkers`. -/
def spawn (methods : List Bytes) : Workers := methods.foldl Workers.register ⟨⟨[], false, [], []⟩, []⟩

/-- The worker with a name is changed. -/
def update (name : Bytes) (f : Side → Option Side) : List (Bytes × Side) → Option (List (Bytes × Side))
  | [] => none
  | (n, w) :: sides => if n = name then (f w).map fun w => (n, w) :: sides else (update name f sides).map fun sides => (n, w) :: sides

/-- What may happen: the page calls the worker for hangulize, this one calls the function for a method which was given to it, a worker
handles a message, or its module is loaded. -/
inductive Event
  | call (c : Call)
  | ask (method word : Bytes)
  | deliver
  | load
  | deliverSide (name : Bytes)
  | loadSide (name : Bytes)

/-- What an event does; nothing if it cannot happen. -/
def Workers.step (s : Workers) : Event → Option Workers
  -- useHangulize.ts:102-109, 169
  | .call (.useTranslit _) => none
  | .call c => some { s with main := { s.main with inbox := s.main.inbox ++ [c] } }
  -- useHangulize.ts:83-85
  | .ask method word =>
    if Call.useTranslit method ∈ s.main.ran then
      (update (normalizeMethod method) (fun w => some { w with inbox := w.inbox ++ [.transliterate method word] }) s.sides).map
        fun sides => { s with sides }
    else none
  | .deliver => s.main.deliver.map fun main => { s with main }
  | .load => s.main.load.map fun main => { s with main }
  | .deliverSide name => (update name Side.deliver s.sides).map fun sides => { s with sides }
  | .loadSide name => (update name Side.load s.sides).map fun sides => { s with sides }

/-- A sequence of events. -/
def Workers.steps (s : Workers) : List Event → Option Workers
  | [] => some s
  | e :: es => (s.step e).bind fun s => s.steps es

end Verif.Workers
