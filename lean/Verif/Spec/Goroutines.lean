import Verif.Model.Goroutines

/-! # What goroutines may do together -/

namespace Verif.Spec.Goroutines

open Verif.Goroutines

/-- Translits are registered by their schemes. -/
def Consistent (r : Registry) : Prop := ∀ x ∈ r, x.2.scheme = x.1

/-- Calls which need nothing new: specs which are cached or do not exist, and the tokenizer only if it has been made. -/
def Calm (files : Files) (m : Memory) : Verif.Goroutines.Call → Prop
  | .load lang => (m.specs.lookup lang).isSome = true ∨ files lang = none
  | .hangulize lang _ => (m.specs.lookup lang = none ∧ files lang = none) ∨
    ∃ sp, m.specs.lookup lang = some sp ∧ (m.kagome = true ∨ str "furigana" ∉ sp.lang.translit)
  | .run sp translits _ => Consistent translits ∧ (m.kagome = true ∨ str "furigana" ∉ sp.lang.translit)
  | _ => False

/-- The library as a program with one goroutine finds it. -/
def world (m : Memory) : World := { World.init with maps := [m.registry], specs := m.specs }

/-- What a call returns to a program with one goroutine. -/
def Alone (files : Files) (m : Memory) : Verif.Goroutines.Call → Verif.Goroutines.Res → Prop
  | .load lang, .spec r => ∃ o w, o.Ok ∧ Verif.call files (world m) (.loadSpec o lang) = .ok (w, .spec r)
  | .hangulize lang word, .word r => ∃ o w, o.Ok ∧ Verif.call files (world m) (.hangulize o lang word) = .ok (w, .word r)
  | .run sp translits word, .word r => wordErr (hangulize sp translits word) = .ok r
  | _, _ => False

/-- A goroutine at its start. -/
def routine (calls : List Verif.Goroutines.Call) : Verif.Goroutines.Thread := ⟨.start, calls, []⟩

/-- A call which returned a spec, or a word without an error. -/
def Succeeded : Verif.Goroutines.Call → Verif.Goroutines.Res → Prop
  | .load _, .spec (.inl _) => True
  | .hangulize _ _, .word (_, none) => True
  | .run _ translits _, .word (_, none) => Consistent translits
  | _, _ => False

/-- A call which uses what another one uses: the same spec and translits. -/
inductive Covers : Verif.Goroutines.Call → Verif.Goroutines.Call → Prop
  | load (lang : Bytes) : Covers (.load lang) (.load lang)
  | hangulize (lang word word' : Bytes) : Covers (.hangulize lang word) (.hangulize lang word')
  | spec (lang word : Bytes) : Covers (.hangulize lang word) (.load lang)
  | run (sp : Spec) (translits : Registry) (word word' : Bytes) : Covers (.run sp translits word) (.run sp translits word')

/-- The shared variables are as a program with one goroutine has them. -/
def Has (m : Memory) (w : World) : Prop := m.specs = w.specs ∧ m.registry = w.map 0

/-- What a call does, and what it returns, in a program with one goroutine. -/
def Does (files : Files) (m m' : Memory) : Verif.Goroutines.Call → Verif.Goroutines.Res → Prop
  | .load lang, .spec r => ∃ o w, o.Ok ∧ Verif.call files (world m) (.loadSpec o lang) = .ok (w, .spec r) ∧ Has m' w
  | .unload lang, .unit => ∃ w, Verif.call files (world m) (.unloadSpec lang) = .ok (w, .unit) ∧ Has m' w
  | .hangulize lang word, .word r => ∃ o w, o.Ok ∧ Verif.call files (world m) (.hangulize o lang word) = .ok (w, .word r) ∧ Has m' w
  | .run sp translits word, .word r => wordErr (hangulize sp translits word) = .ok r ∧ Has m' (world m)
  | .install ts, .bool b => install ts m.registry = (m'.registry, b) ∧ m'.specs = m.specs
  | .unuse scheme, .bool b => ∃ w, Verif.call files (world m) (.unuseTranslit none scheme) = .ok (w, .bool b) ∧ Has m' w
  | _, _ => False

/-- Calls one after another. -/
inductive Serially (files : Files) (m : Memory) : List Verif.Goroutines.Call → List Verif.Goroutines.Res → Memory → Prop
  | nil : Serially files m [] [] m
  | snoc {cs : List Verif.Goroutines.Call} {rs : List Verif.Goroutines.Res} {m₁ m₂ : Memory} {c : Verif.Goroutines.Call}
      {r : Verif.Goroutines.Res} (h : Serially files m cs rs m₁) (hc : Does files m₁ m₂ c r) :
      Serially files m (cs ++ [c]) (rs ++ [r]) m₂

end Verif.Spec.Goroutines
