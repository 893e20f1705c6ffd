import Verif.Model.Search

/-! # Typing Hangul and searching -/

namespace Verif.Spec.Search

open Verif.Js Verif.Search

/-! ## A keyboard with two sets

Initial consonants, vowels and final consonants are numbered as in Unicode; 0 is no final consonant. -/

/-- The code of a syllable. -/
def syllable (c v k : Nat) : Nat := 0xAC00 + (c * 21 + v) * 28 + k

/-- The letters of the initial consonants. -/
def consonant : List Nat :=
  [0x3131, 0x3132, 0x3134, 0x3137, 0x3138, 0x3139, 0x3141, 0x3142, 0x3143, 0x3145, 0x3146, 0x3147, 0x3148, 0x3149, 0x314A, 0x314B, 0x314C,
    0x314D, 0x314E]

/-- The letters of the final consonants. -/
def final : List Nat :=
  [0, 0x3131, 0x3132, 0x3133, 0x3134, 0x3135, 0x3136, 0x3137, 0x3139, 0x313A, 0x313B, 0x313C, 0x313D, 0x313E, 0x313F, 0x3140, 0x3141, 0x3142,
    0x3144, 0x3145, 0x3146, 0x3147, 0x3148, 0x314A, 0x314B, 0x314C, 0x314D, 0x314E]

/-- The vowels which have a key. -/
def vowelKeys : List Nat := [0, 1, 2, 3, 4, 5, 6, 7, 8, 12, 13, 17, 18, 20]

/-- The final consonant for a key, if there is any. -/
def finalOf (c : Nat) : Option Nat :=
  [(0, 1), (1, 2), (2, 4), (3, 7), (5, 8), (6, 16), (7, 17), (9, 19), (10, 20), (11, 21), (12, 22), (14, 23), (15, 24), (16, 25), (17, 26),
    (18, 27)].lookup c

/-- Two vowels in one letter. -/
def joinVowels (v w : Nat) : Option Nat :=
  [((8, 0), 9), ((8, 1), 10), ((8, 20), 11), ((13, 4), 14), ((13, 5), 15), ((13, 20), 16), ((18, 20), 19)].lookup (v, w)

/-- A final consonant and the key of another one in one letter. -/
def joinFinals (k c : Nat) : Option Nat :=
  [((1, 9), 3), ((4, 12), 5), ((4, 18), 6), ((8, 0), 9), ((8, 6), 10), ((8, 7), 11), ((8, 9), 12), ((8, 16), 13), ((8, 17), 14), ((8, 18), 15),
    ((17, 9), 18)].lookup (k, c)

/-- A final consonant without its last consonant, which is to become an initial one. -/
def splitFinal (k : Nat) : Nat × Nat :=
  match (List.range 28).findSome? fun k' => (List.range 19).findSome? fun c => if joinFinals k' c = some k then some (k', c) else none with
  | some x => x
  | none => (0, ((List.range 19).find? fun c => finalOf c = some k).getD 0)

/-- A key. -/
inductive Key
  | consonant (c : Nat)
  | vowel (v : Nat)
  | other (u : Nat)

/-- The letter on a key. -/
def Key.letter : Key → Nat
  | .consonant c => Search.consonant.getD c 0
  | .vowel v => 0x314F + v
  | .other u => u

/-- A unit which is no Hangul. -/
def unhangul (u : Nat) : Prop := ¬ (0x3131 ≤ u ∧ u ≤ 0x3163) ∧ ¬ (0xAC00 ≤ u ∧ u ≤ 0xD7A3)

/-- A key of the keyboard. -/
def Key.Real : Key → Prop
  | .consonant c => c < 19
  | .vowel v => v ∈ vowelKeys
  | .other u => unhangul u

/-- What is being composed. -/
inductive Part
  | none
  | consonant (c : Nat)
  | pair (k : Nat)
  | vowel (v : Nat)
  | open (c v : Nat)
  | closed (c v k : Nat)

/-- What is shown of it. -/
def Part.text : Part → Str
  | .none => []
  | .consonant c => [Search.consonant.getD c 0]
  | .pair k => [final.getD k 0]
  | .vowel v => [0x314F + v]
  | .open c v => [syllable c v 0]
  | .closed c v k => [syllable c v k]

/-- The text in front, and what is being composed. -/
structure Input where
  done : Str
  part : Part

/-- The text. -/
def Input.text (i : Input) : Str := i.done ++ i.part.text

/-- Composing something else. -/
def Input.next (i : Input) (p : Part) : Input := ⟨i.text, p⟩

/-- A key is pressed; some input methods join consonants without a vowel (`joins`). -/
def Input.press (joins : Bool) (i : Input) : Key → Input
  | .consonant c =>
    match i.part with
    | .consonant b =>
      match (if joins then finalOf b else Option.none).bind fun k => joinFinals k c with
      | some k => ⟨i.done, .pair k⟩
      | Option.none => i.next (.consonant c)
    | .open b v =>
      match finalOf c with
      | some k => ⟨i.done, .closed b v k⟩
      | Option.none => i.next (.consonant c)
    | .closed b v k =>
      match joinFinals k c with
      | some k => ⟨i.done, .closed b v k⟩
      | Option.none => i.next (.consonant c)
    | _ => i.next (.consonant c)
  | .vowel v =>
    match i.part with
    | .consonant c => ⟨i.done, .open c v⟩
    | .pair k => ⟨i.done ++ [final.getD (splitFinal k).1 0], .open (splitFinal k).2 v⟩
    | .vowel w =>
      match joinVowels w v with
      | some x => ⟨i.done, .vowel x⟩
      | Option.none => i.next (.vowel v)
    | .open c w =>
      match joinVowels w v with
      | some x => ⟨i.done, .open c x⟩
      | Option.none => i.next (.vowel v)
    | .closed c w k => ⟨i.done ++ [syllable c w (splitFinal k).1], .open (splitFinal k).2 v⟩
    | _ => i.next (.vowel v)
  | .other u => ⟨i.text ++ [u], .none⟩

/-- The text after keys were pressed. -/
def composed (joins : Bool) (keys : List Key) : Str := (keys.foldl (Input.press joins) ⟨[], .none⟩).text

/-! ## Names -/

/-- A name of syllables and text which is no Hangul. -/
def Written (name : Str) : Prop := ∀ u ∈ name, 0xAC00 ≤ u ∧ u ≤ 0xD7A3 ∨ unhangul u

/-- The key for the beginning of a syllable, or for other text. -/
def initial (u : Nat) : Key := if 0xAC00 ≤ u ∧ u ≤ 0xD7A3 then .consonant ((u - 0xAC00) / 588) else .other u

/-! ## Searching -/

/-- Small letters instead of `A` to `Z`. -/
def lower (u : Nat) : Nat := if 0x41 ≤ u ∧ u ≤ 0x5A then u + 0x20 else u

/-- A search which finds at least what begins with the query, in capital or small letters. -/
def Finds (engine : List Opt → Str → List Opt) : Prop :=
  ∀ opts query o, query ≠ [] → o ∈ opts → (∃ f ∈ o.keys, query.map lower <+: f.map lower) → o ∈ engine opts query

/-- The list has been rendered with its options, and the effects have run. -/
def Ready (s : Select) : Prop := s.due = false ∧ s.shown = s.next

end Verif.Spec.Search
