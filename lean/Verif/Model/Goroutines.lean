import Verif.Model.Standard

/-!
# Model of goroutines which share the library (hangulize.go, specs.go, translit.go, translit/translit.go, furigana.go:30-37)

Three variables of the library are shared by all goroutines, and none of them is locked: the map `specs`, the map
`defaultTranslitRegistry`, and the pointer `kagome` of `furigana.T`, of which the value is the same whenever it is not nil.  A step of a
goroutine is at most one access to one of them, with what is computed up to the next one.  An iteration over a map is one access.  Of the uses of the
tokenizer within one call only the first one counts.  Any translit with the scheme of `furigana.T` is taken for it.
-/

namespace Verif.Goroutines

/-- What is shared: the cached specs, the default registry, and whether `furigana.T` has a tokenizer. -/
structure Memory where
  specs : Cache
  registry : Registry
  kagome : Bool

/-- The calls of a goroutine.  `run` is `Hangulize` of a hangulizer with translits of its own, which no other goroutine uses. -/
inductive Call
  | load (lang : Bytes)
  | unload (lang : Bytes)
  | hangulize (lang word : Bytes)
  | run (spec : Spec) (translits : Registry) (word : Bytes)
  | install (ts : List Translit)
  | unuse (scheme : Bytes)

/-- `UseTranslit` does what `Install` would do with one translit. -/
abbrev Call.use (t : Translit) : Call := .install [t]

/-- What a call returns. -/
inductive Res
  | unit
  | spec (r : Spec ⊕ Err)
  | word (r : WordErr)
  | bool (b : Bool)

/-- Where a goroutine is within its call. -/
inductive Pc
  /-- before its first access -/
  | start
  /-- before specs.go:66 -/
  | store (spec : Spec)
  /-- before translit.go:20, with the spec which was loaded -/
  | detach (spec : Spec)
  /-- before furigana.go:31 -/
  | check (r : WordErr)
  /-- before furigana.go:34 -/
  | make (r : WordErr)
  /-- before translit.go:30, with what was added and what is to be added -/
  | look (done : List Translit) (t : Translit) (rest : List Translit)
  /-- before translit.go:35 -/
  | add (done : List Translit) (t : Translit) (rest : List Translit)
  /-- before translit.go:41, with the schemes to be removed afterwards; `last` is what is returned then, or else what the removal returns -/
  | find (scheme : Bytes) (rest : List Bytes) (last : Option Bool)
  /-- before translit.go:43 -/
  | delete (scheme : Bytes) (rest : List Bytes) (last : Option Bool)

/-- A goroutine: where it is in the first one of its calls, and what the calls before returned. -/
structure Thread where
  pc : Pc
  todo : List Call
  results : List Res

/-- A shared variable. -/
inductive Loc
  | specs
  | registry
  | kagome
  deriving DecidableEq

/-- The next access of a goroutine to a shared variable. -/
def Thread.next (t : Thread) : Option (Loc × Access) :=
  match t.pc, t.todo with
  | .start, .load _ :: _ => some (.specs, .read)
  | .start, .hangulize _ _ :: _ => some (.specs, .read)
  | .start, .unload _ :: _ => some (.specs, .write)
  | .start, _ => none
  | .store _, _ => some (.specs, .write)
  | .detach _, _ => some (.registry, .read)
  | .check _, _ => some (.kagome, .read)
  | .make _, _ => some (.kagome, .write)
  | .look .., _ => some (.registry, .read)
  | .add .., _ => some (.registry, .write)
  | .find .., _ => some (.registry, .read)
  | .delete .., _ => some (.registry, .write)

/-- The call returns. -/
def Thread.ret (t : Thread) (r : Res) : Thread := ⟨.start, t.todo.tail, t.results ++ [r]⟩

/-- It goes on. -/
def Thread.goto (t : Thread) (pc : Pc) : Thread := { t with pc }

/-- procedure.go:54-71: whether transliterating comes to `furigana.T`. -/
def tokenizes (translits : Registry) : List Bytes → Bytes → Bool
  | [], _ => false
  | s :: ss, word =>
    match translits.lookup s with
    | none => false
    | some t =>
      t.scheme == str "furigana" ||
        match t.transliterate word with
        | .ok word => tokenizes translits ss word
        | _ => false

/-- hangulize.go:78-81 with a copy of the translits, up to the first use of the tokenizer. -/
def Thread.forward (t : Thread) (spec : Spec) (translits : Registry) (word : Bytes) : Go Thread := do
  let r ← wordErr (Verif.forward spec translits word none).1
  return if tokenizes translits spec.lang.translit word then t.goto (.check r) else t.ret (.word r)

/-- translit/translit.go:31-39, the next turn of the loop. -/
def Thread.installing (t : Thread) (done : List Translit) : List Translit → Thread
  | [] => t.ret (.bool true)
  | x :: rest => t.goto (.look done x rest)

/-- translit/translit.go:33-36 and `Remove`: the next removal, or the end. -/
def Thread.removing (t : Thread) (b : Bool) : List Bytes → Thread
  | [] => t.ret (.bool b)
  | s :: rest => t.goto (.find s rest (some b))

/-- The word which is hangulized, if the call of `LoadSpec` is the one in `Hangulize`. -/
def Thread.loaded (t : Thread) (r : Spec ⊕ Err) : Thread :=
  match t.todo, r with
  | .hangulize _ word :: _, .inr e => t.ret (.word (word, some e))
  | .hangulize _ _ :: _, .inl spec => t.goto (.detach spec)
  | _, r => t.ret (.spec r)

/-- The language of a call. -/
def Thread.lang (t : Thread) : Bytes :=
  match t.todo with
  | .load lang :: _ => lang
  | .hangulize lang _ :: _ => lang
  | _ => []

/-- specs.go:42-63, the access to the map and what follows. -/
def Thread.load (files : Files) (o : Ord) (t : Thread) (specs : Cache) : Go Thread :=
  match specs.lookup t.lang with
  | some spec => .ok (t.loaded (.inl spec))
  | none =>
    match files t.lang with
    | none => .ok (t.loaded (.inr .specNotFound))
    | some hsl =>
      match parseSpec o hsl with
      | .ok spec => .ok (t.goto (.store spec))
      | .err _ => .panic
      | .panic => .panic
      | .hang => .hang

/-- One step of a goroutine. -/
def Thread.step (files : Files) (o : Ord) (t : Thread) (m : Memory) : Go (Thread × Memory) :=
  match t.pc, t.todo with
  | .start, [] => .ok (t, m)
  | .start, .load _ :: _ => do return (← t.load files o m.specs, m)
  | .start, .hangulize _ _ :: _ => do return (← t.load files o m.specs, m)
  -- specs.go:71-73
  | .start, .unload lang :: _ => .ok (t.ret .unit, { m with specs := mapDelete m.specs lang })
  | .start, .run spec translits word :: _ => do return (← t.forward spec translits word, m)
  | .start, .install ts :: _ => .ok (t.installing [] ts, m)
  | .start, .unuse scheme :: _ => .ok (t.goto (.find scheme [] none), m)
  -- specs.go:66-67
  | .store spec, _ => .ok (t.loaded (.inl spec), { m with specs := mapSet m.specs t.lang spec })
  -- hangulize.go:15-16, 78-81
  | .detach spec, .hangulize _ word :: _ => do return (← t.forward spec m.registry.detach word, m)
  | .detach _, _ => .ok (t, m)
  -- furigana.go:31-36
  | .check r, _ => .ok (if m.kagome then t.ret (.word r) else t.goto (.make r), m)
  | .make r, _ => .ok (t.ret (.word r), { m with kagome := true })
  -- translit.go:30-33
  | .look done x rest, _ =>
    match m.registry.lookup x.scheme with
    | some _ => .ok (t.removing false (done.map (·.scheme)), m)
    | none => .ok (t.goto (.add done x rest), m)
  -- translit.go:35-36
  | .add done x rest, _ => .ok (t.installing (done ++ [x]) rest, { m with registry := mapSet m.registry x.scheme x })
  -- translit.go:41-45
  | .find s rest last, _ =>
    match m.registry.lookup s with
    | some _ => .ok (t.goto (.delete s rest last), m)
    | none => .ok (t.removing (last.getD false) rest, m)
  | .delete s rest last, _ => .ok (t.removing (last.getD true) rest, { m with registry := mapDelete m.registry s })

/-- All goroutines and the shared variables. -/
structure Machine where
  memory : Memory
  threads : List Thread

/-- Any goroutine may go next. -/
inductive Step (files : Files) : Machine → Machine → Prop
  | mk {c : Machine} (i : Nat) {t t' : Thread} {o : Ord} {m : Memory} (ho : o.Ok) (hi : c.threads[i]? = some t)
      (hs : t.step files o c.memory = .ok (t', m)) : Step files c ⟨m, c.threads.set i t'⟩

/-- What can be reached. -/
inductive Reach (files : Files) : Machine → Machine → Prop
  | refl (c : Machine) : Reach files c c
  | step {a b c : Machine} (h : Reach files a b) (s : Step files b c) : Reach files a c

/-- Two goroutines are about to access one variable, one of them to write it. -/
def Machine.Race (c : Machine) : Prop :=
  ∃ (i j : Nat) (t u : Thread) (x : Loc) (a : Access), i ≠ j ∧ c.threads[i]? = some t ∧ c.threads[j]? = some u ∧
    t.next = some (x, .write) ∧ u.next = some (x, a)

end Verif.Goroutines
