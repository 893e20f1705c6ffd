import Verif.Model.Procedure

/-!
# Model of hangulize.go, translit.go, specs.go and translit/translit.go

Maps are references in Go, so the translit registries live in a heap and are addressed by numbers.
Specs are never written after they were parsed, so a pointer to one is modelled as the spec itself; a caller
writing to the fields of a spec is not covered.  Tracing functions are modelled as numbers, and what is passed
to them is logged.
-/

namespace Verif

/-! ## Maps -/

/-- `m[k] = v`. -/
def mapSet {α : Type} (m : List (Bytes × α)) (k : Bytes) (v : α) : List (Bytes × α) :=
  (k, v) :: m.filter fun p => p.1 ≠ k

/-- `delete(m, k)`. -/
def mapDelete {α : Type} (m : List (Bytes × α)) (k : Bytes) : List (Bytes × α) :=
  m.filter fun p => p.1 ≠ k

/-! ## translit.go -/

/-- translit.go:15 `translitRegistry`. -/
abbrev Registry := List (Bytes × Translit)

/-- translit.go:27-37 `Add`. -/
def Registry.add (r : Registry) (t : Translit) : Registry × Bool :=
  match r.lookup t.scheme with
  | some _ => (r, false)
  | none => (mapSet r t.scheme t, true)

/-- translit.go:40-46 `Remove`. -/
def Registry.remove (r : Registry) (scheme : Bytes) : Registry × Bool :=
  match r.lookup scheme with
  | some _ => (mapDelete r scheme, true)
  | none => (r, false)

/-- translit.go:18-24 `Detach`: the contents of the new map. -/
def Registry.detach (r : Registry) : Registry := r.foldr (fun p copied => mapSet copied p.1 p.2) []

/-! ## specs.go -/

/-- The embedded files (specs.go:15-16): the text of `specs/<lang>.hsl`, if there is one.  `ReadFile` reports a
missing file or a malformed path as `fs.ErrNotExist`, and nothing else. -/
abbrev Files := Bytes → Option Bytes

/-- specs.go:38 `specs`. -/
abbrev Cache := List (Bytes × Spec)

/-- specs.go:42-68 `LoadSpec`: the spec or the error, and the cache afterwards.  The orders of iteration over
maps while parsing are given. -/
def loadSpec (files : Files) (o : Ord) (lang : Bytes) (specs : Cache) : Go ((Spec ⊕ Err) × Cache) :=
  match specs.lookup lang with
  | some spec => .ok (.inl spec, specs)
  | none =>
    match files lang with
    | none => .ok (.inr .specNotFound, specs)
    | some hsl =>
      match parseSpec o hsl with
      | .ok spec => .ok (.inl spec, mapSet specs lang spec)
      | .err _ => .panic
      | .panic => .panic
      | .hang => .hang

/-- Strings in the order of their bytes. -/
def bytesLe : Bytes → Bytes → Bool
  | [], _ => true
  | _ :: _, [] => false
  | a :: s, b :: t => a < b || (a == b && bytesLe s t)

/-- Insertion into a sorted list. -/
def insertString (s : Bytes) : List Bytes → List Bytes
  | [] => [s]
  | t :: ts => if bytesLe s t then s :: t :: ts else t :: insertString s ts

/-- `sort.Strings`.  Equal strings cannot be told apart, so the result does not depend on how one sorts. -/
def sortStrings (l : List Bytes) : List Bytes := l.foldr insertString []

/-- specs.go:13 `ext`. -/
def ext : Bytes := str ".hsl"

/-- specs.go:20-35 `ListLangs`, given the names of the entries of the embedded directory, of which reading does not
fail. -/
def listLangs (entries : List Bytes) : List Bytes :=
  sortStrings ((entries.filter fun e => ext.isSuffixOf e).map fun e => e.take (e.length - ext.length))

/-! ## hangulize.go -/

/-- hangulize.go:41-45 `hangulizer`: the registry is an address. -/
structure Obj where
  spec : Spec
  registry : Nat
  traceFunc : Option Nat

/-- Everything the library remembers: the maps, of which the first one is `defaultTranslitRegistry`
(translit.go:49), which of them were returned to the user, the hangulizers made by `New`, the cached specs, and
what was passed to the tracing functions. -/
structure World where
  maps : List Registry
  given : List Nat
  objs : List Obj
  specs : Cache
  log : List (Nat × Trace)

/-- The state at the start. -/
def World.init : World := ⟨[[]], [], [], [], []⟩

/-- The contents of a map. -/
def World.map (w : World) (a : Nat) : Registry := w.maps[a]?.getD []

/-- Two results, as Go functions return them: a word and an error. -/
abbrev WordErr := Bytes × Option Err

/-- The results of `forward` (procedure.go:26-47): an error comes with the empty word. -/
def wordErr : Go Bytes → Go WordErr
  | .ok w => .ok (w, none)
  | .err e => .ok ([], some e)
  | .panic => .panic
  | .hang => .hang

/-- The calls a program may make.  `who` is a hangulizer, or none for the functions of the package; writes by the
user go to maps returned by `Translits`. -/
inductive Call
  | loadSpec (o : Ord) (lang : Bytes)
  | unloadSpec (lang : Bytes)
  | hangulize (o : Ord) (lang word : Bytes)
  | new (spec : Spec)
  | useTranslit (who : Option Nat) (t : Translit)
  | unuseTranslit (who : Option Nat) (scheme : Bytes)
  | translits (who : Option Nat)
  | trace (h : Nat) (fn : Option Nat)
  | run (h : Nat) (word : Bytes)
  | userSet (map : Nat) (key : Bytes) (t : Translit)
  | userDelete (map : Nat) (key : Bytes)

/-- What a call returns. -/
inductive Res
  | unit
  | spec (r : Spec ⊕ Err)
  | word (r : WordErr)
  | obj (h : Nat)
  | bool (b : Bool)
  | map (addr : Nat)

/-- The address of the registry of a hangulizer, or of the default one. -/
def World.registry (w : World) : Option Nat → Option Nat
  | none => some 0
  | some h => w.objs[h]?.map (·.registry)

/-- One call.  Calls on hangulizers or maps that do not exist do nothing: a program cannot make them. -/
def call (files : Files) (w : World) : Call → Go (World × Res)
  -- specs.go:42-68
  | .loadSpec o lang => do
    let (r, specs) ← loadSpec files o lang w.specs
    return ({ w with specs }, .spec r)
  -- specs.go:71-73
  | .unloadSpec lang => .ok ({ w with specs := mapDelete w.specs lang }, .unit)
  -- hangulize.go:9-17
  | .hangulize o lang word => do
    let (r, specs) ← loadSpec files o lang w.specs
    match r with
    | .inr e => return ({ w with specs }, .word (word, some e))
    | .inl spec =>
      let r ← wordErr (forward spec (w.map 0).detach word none).1
      return ({ w with specs }, .word r)
  -- hangulize.go:48-50
  | .new spec =>
    .ok ({ w with maps := w.maps ++ [[]], objs := w.objs ++ [⟨spec, w.maps.length, none⟩] }, .obj w.objs.length)
  -- hangulize.go:63-65, translit.go:57-59
  | .useTranslit who t =>
    match w.registry who with
    | none => .ok (w, .unit)
    | some a =>
      let (r, b) := (w.map a).add t
      .ok ({ w with maps := w.maps.set a r }, .bool b)
  -- hangulize.go:68-70, translit.go:62-64
  | .unuseTranslit who scheme =>
    match w.registry who with
    | none => .ok (w, .unit)
    | some a =>
      let (r, b) := (w.map a).remove scheme
      .ok ({ w with maps := w.maps.set a r }, .bool b)
  -- hangulize.go:58-60, translit.go:52-54
  | .translits who =>
    match w.registry who with
    | none => .ok (w, .unit)
    | some a =>
      .ok ({ w with maps := w.maps ++ [(w.map a).detach], given := w.given ++ [w.maps.length] }, .map w.maps.length)
  -- hangulize.go:73-75
  | .trace h fn =>
    match w.objs[h]? with
    | none => .ok (w, .unit)
    | some obj => .ok ({ w with objs := w.objs.set h { obj with traceFunc := fn } }, .unit)
  -- hangulize.go:78-81
  | .run h word =>
    match w.objs[h]? with
    | none => .ok (w, .unit)
    | some obj => do
      let (r, tr) := forward obj.spec (w.map obj.registry).detach word (obj.traceFunc.map fun _ => ⟨[], []⟩)
      let log := match obj.traceFunc, tr with
        | some fn, some st => st.log.map fun e => (fn, e)
        | _, _ => []
      let r ← wordErr r
      return ({ w with log := w.log ++ log }, .word r)
  | .userSet a key t =>
    if a ∈ w.given then .ok ({ w with maps := w.maps.set a (mapSet (w.map a) key t) }, .unit) else .ok (w, .unit)
  | .userDelete a key =>
    if a ∈ w.given then .ok ({ w with maps := w.maps.set a (mapDelete (w.map a) key) }, .unit) else .ok (w, .unit)

/-- A sequence of calls, with what they return. -/
def calls (files : Files) : World → List Call → Go (World × List Res)
  | w, [] => .ok (w, [])
  | w, c :: cs => do
    let (w, r) ← call files w c
    let (w, rs) ← calls files w cs
    return (w, r :: rs)

/-! ## translit/translit.go -/

/-- translit/translit.go:33-35: the loop removing what was added. -/
def uninstall : Registry → List Translit → Registry
  | r, [] => r
  | r, t :: ts => uninstall (r.remove t.scheme).1 ts

/-- translit/translit.go:31-39, the loop of `Install`; `done` are the translits added so far. -/
def installLoop : Registry → List Translit → List Translit → Registry × Bool
  | r, _, [] => (r, true)
  | r, done, t :: ts =>
    match r.add t with
    | (r', true) => installLoop r' (done ++ [t]) ts
    | (r', false) => (uninstall r' done, false)

/-- translit/translit.go:18-40 `Install` on a registry, with the standard translits. -/
def install (ts : List Translit) (r : Registry) : Registry × Bool := installLoop r [] ts

/-! ## Goroutines

The map `specs` is read and written without a lock.  A goroutine is the list of its calls of `LoadSpec` and
`UnloadSpec` (`Hangulize` first calls `LoadSpec`, and then does not touch `specs`), or it has read the map without
finding the language, has parsed the spec, and is about to store it. -/

/-- A call touching `specs`. -/
inductive SpecCall
  | load (lang : Bytes)
  | unload (lang : Bytes)
  deriving DecidableEq

/-- Where a goroutine is. -/
inductive Pc
  | at (todo : List SpecCall)
  /-- before specs.go:66 -/
  | store (lang : Bytes) (spec : Spec) (todo : List SpecCall)

/-- A goroutine with the results of its calls of `LoadSpec`. -/
structure Thread where
  pc : Pc
  results : List (Bytes × (Spec ⊕ Err))

/-- The access to `specs` a goroutine makes next: a read or a write. -/
inductive Access
  | read
  | write
  deriving DecidableEq

/-- The next access of a goroutine. -/
def Thread.next (t : Thread) : Option Access :=
  match t.pc with
  | .at [] => none
  | .at (.load _ :: _) => some .read
  | .at (.unload _ :: _) => some .write
  | .store .. => some .write

/-- One access by a goroutine, and what it does up to the next access. -/
def Thread.step (files : Files) (o : Ord) (t : Thread) (specs : Cache) : Go (Thread × Cache) :=
  match t.pc with
  | .at [] => .ok (t, specs)
  | .at (.unload lang :: todo) => .ok (⟨.at todo, t.results⟩, mapDelete specs lang)
  | .store lang spec todo => .ok (⟨.at todo, t.results ++ [(lang, .inl spec)]⟩, mapSet specs lang spec)
  | .at (.load lang :: todo) =>
    match specs.lookup lang with
    | some spec => .ok (⟨.at todo, t.results ++ [(lang, .inl spec)]⟩, specs)
    | none =>
      match files lang with
      | none => .ok (⟨.at todo, t.results ++ [(lang, .inr .specNotFound)]⟩, specs)
      | some hsl =>
        match parseSpec o hsl with
        | .ok spec => .ok (⟨.store lang spec todo, t.results⟩, specs)
        | .err _ => .panic
        | .panic => .panic
        | .hang => .hang

/-- All goroutines and the map. -/
structure Machine where
  specs : Cache
  threads : List Thread

/-- Any goroutine may go next. -/
inductive Step (files : Files) : Machine → Machine → Prop
  | mk {c : Machine} (i : Nat) {t t' : Thread} {o : Ord} {specs' : Cache} (ho : o.Ok) (hi : c.threads[i]? = some t)
      (hs : t.step files o c.specs = .ok (t', specs')) : Step files c ⟨specs', c.threads.set i t'⟩

/-- What can be reached. -/
inductive Reach (files : Files) : Machine → Machine → Prop
  | refl (c : Machine) : Reach files c c
  | step {a b c : Machine} (h : Reach files a b) (s : Step files b c) : Reach files a c

/-- Two goroutines are about to access the map, one of them to write it. -/
def Machine.Race (c : Machine) : Prop :=
  ∃ (i j : Nat) (t u : Thread), i ≠ j ∧ c.threads[i]? = some t ∧ c.threads[j]? = some u ∧ t.next = some .write ∧ u.next ≠ none

end Verif
