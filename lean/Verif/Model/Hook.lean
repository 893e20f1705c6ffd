import Verif.Go.Js

/-!
# Model of `useHangulize` (web/src/hangulize/useHangulize.ts)

React is modelled as far as the hook needs it: setting a state takes effect with the next rendering, an effect runs after the
rendering in which one of its dependencies changed, with the states of this rendering, and before the next rendering.  An
asynchronous function runs until it waits.  Waiting functions go on in any order.  Which inputs are valid is given; it is the same
for the specs of `manifest.json` and of the module (C71, C74).  The version is left out.
-/

namespace Verif.Hook

open Verif.Js (Str)

/-- web/src/hangulize/useHangulize.ts:59-62 `HangulizeInput`. -/
structure Input where
  lang : Str
  word : Str
  deriving DecidableEq, Repr

/-- useHangulize.ts:10-15 `HangulizeState`. -/
inductive Phase
  | initializing
  | idle
  | processing
  | delayed
  deriving DecidableEq, Repr

/-- useHangulize.ts:93-96, 114: the states of the hook.  `specs` and `input` are objects, which are compared by their identity. -/
structure View where
  specs : Nat
  input : Nat
  phase : Phase
  result : Str
  deriving DecidableEq, Repr

/-- Where a call of `hangulizeEffect` waits: for 50 ms (line 154), for the job which was processed before (line 163), for its own
job (line 176), or nowhere. -/
inductive Stage
  | sleeping
  | queued (job : Nat)
  | running (job : Nat)
  | done
  deriving DecidableEq, Repr

/-- A call of `hangulizeEffect` for an input. -/
structure Task where
  input : Nat
  stage : Stage
  deriving DecidableEq, Repr

/-- useHangulize.ts:167-174: a job of the worker; the answer to a failed one is the empty text. -/
structure Job where
  input : Nat
  answer : Option Str
  deriving DecidableEq, Repr

/-- The hook: the objects of inputs so far, the states to be rendered next and those rendered last, the dependencies with which the
effect ran last, the refs `target`, `processing` and `delayTimer`, the timers which are neither over nor cleared, and how many there
were so far. -/
structure Hook where
  inputs : List Input
  next : View
  shown : View
  ran : Option (Nat × Nat)
  target : Option Nat
  processing : Option Nat
  timer : Option Nat
  timers : List Nat
  count : Nat
  tasks : List Task
  jobs : List Job
  deriving DecidableEq, Repr

/-- useHangulize.ts:92-117: the first rendering. -/
def init : Hook where
  inputs := [⟨[], []⟩]
  next := ⟨0, 0, .initializing, []⟩
  shown := ⟨0, 0, .initializing, []⟩
  ran := none
  target := none
  processing := none
  timer := none
  timers := []
  count := 0
  tasks := []
  jobs := []

/-- What may happen: the user types something, the specs of the worker arrive, React renders or runs the effect, a call of
`hangulizeEffect` has slept, the worker answers, a call goes on after the Promise it waits for, or a timer is over. -/
inductive Event
  | input (x : Input)
  | specs
  | render
  | effect
  | wake (task : Nat)
  | answer (job : Nat) (result : Str)
  | resume (task : Nat)
  | fire (timer : Nat)
  deriving DecidableEq, Repr

/-- Whether the effect is to run: its dependencies (line 188) are new. -/
def Hook.due (h : Hook) : Bool := decide (h.ran ≠ some (h.shown.specs, h.shown.input))

/-- useHangulize.ts:125-128, 184-185: no timer any more. -/
def Hook.clear (h : Hook) : Hook :=
  { h with timer := none, timers := match h.timer with | some t => h.timers.filter (· ≠ t) | none => h.timers }

/-- useHangulize.ts:144-150: a timer unless there is one. -/
def Hook.delay (h : Hook) : Hook :=
  match h.timer with
  | some _ => h
  | none => { h with next := { h.next with phase := .processing }, timer := some h.count, timers := h.timers ++ [h.count], count := h.count + 1 }

/-- useHangulize.ts:167-176: start the job for an input; the call then waits at the stage which is returned. -/
def Hook.start (h : Hook) (i : Nat) : Hook × Stage :=
  ({ h with jobs := h.jobs ++ [⟨i, none⟩], processing := some h.jobs.length }, .running h.jobs.length)

/-- useHangulize.ts:162-164: wait for the job which is processed. -/
def Hook.wait (h : Hook) (i : Nat) : Hook × Stage :=
  match h.processing with
  | some j => (h, .queued j)
  | none => h.start i

/-- useHangulize.ts:119-164: the effect up to the place where it waits, with the states of the last rendering. -/
def Hook.effect (valid : Input → Bool) (h : Hook) : Hook :=
  let v := h.shown
  let h := { h with ran := some (v.specs, v.input) }
  if (h.inputs[v.input]?.map valid).getD false = false then
    { h with next := { h.next with result := [], phase := .idle } }.clear
  else if v.phase = .initializing then h
  else if h.target = some v.input then h
  else
    let h := { h with target := some v.input }.delay
    let (h, stage) := if v.result ≠ [] then (h, .sleeping) else h.wait v.input
    { h with tasks := h.tasks ++ [⟨v.input, stage⟩] }

/-- A call of `hangulizeEffect` waits somewhere else. -/
def Hook.move (h : Hook) (k : Nat) (i : Nat) (stage : Stage) : Hook := { h with tasks := h.tasks.set k ⟨i, stage⟩ }

/-- The answer to a job, if there is one. -/
def Hook.answerOf (h : Hook) (job : Nat) : Option Str := h.jobs[job]?.bind Job.answer

/-- What an event does; nothing if it cannot happen. -/
def Hook.step (valid : Input → Bool) (h : Hook) : Event → Option Hook
  | .input x => some { h with inputs := h.inputs ++ [x], next := { h.next with input := h.inputs.length } }
  | .specs => some { h with next := { h.next with specs := h.next.specs + 1 } }
  | .render => if h.due || decide (h.next = h.shown) then none else some { h with shown := h.next }
  | .effect => if h.due then some (h.effect valid) else none
  | .wake k =>
    match h.tasks[k]? with
    | some ⟨i, .sleeping⟩ =>
      -- useHangulize.ts:157
      if h.target ≠ some i then some (h.move k i .done)
      else
        let (h, stage) := h.wait i
        some (h.move k i stage)
    | _ => none
  | .answer j r =>
    match h.jobs[j]? with
    | some ⟨i, none⟩ => some { h with jobs := h.jobs.set j ⟨i, some r⟩ }
    | _ => none
  | .resume k =>
    match h.tasks[k]? with
    | some ⟨i, .queued j⟩ =>
      if (h.answerOf j).isSome then
        let (h, stage) := h.start i
        some (h.move k i stage)
      else none
    | some ⟨i, .running j⟩ =>
      match h.answerOf j with
      | some r =>
        -- useHangulize.ts:177-185
        if h.target ≠ some i then some (h.move k i .done)
        else some ({ h with next := { h.next with result := r, phase := .idle } }.clear.move k i .done)
      | none => none
    | _ => none
  | .fire t => if t ∈ h.timers then some { h with timers := h.timers.filter (· ≠ t), next := { h.next with phase := .delayed } } else none

/-- A sequence of events. -/
def Hook.steps (valid : Input → Bool) (h : Hook) : List Event → Option Hook
  | [] => some h
  | e :: es => (h.step valid e).bind fun h => h.steps valid es

end Verif.Hook
