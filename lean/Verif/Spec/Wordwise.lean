import Verif.Spec.Words
import Verif.Spec.Reference

/-! Vocabulary for statements about texts of several words. -/

namespace Verif.Spec.Words

open Verif.Spec.Reference

/-- A text without white space. -/
def Word (w : Bytes) : Prop := ValidUtf8 w ∧ ∀ c ∈ runes w, Unicode.isSpace c = false

/-- Transliteration goes word by word. -/
def Wordwise (translits : List (Bytes × Translit)) (schemes : List Bytes) : Prop :=
  ∀ {a b a' b' : Bytes} {evs evs' : List Trace}, Word a → Transliterated translits schemes a evs a' →
    Transliterated translits schemes b evs' b' →
    Word a' ∧ ∃ evs, Transliterated translits schemes (a ++ 0x20 :: b) evs (a' ++ 0x20 :: b')

/-- What is between spaces. -/
def cut : Bytes → List Bytes
  | [] => [[]]
  | b :: t => if b = 0x20 then [] :: cut t else
    match cut t with
    | [] => [[b]]
    | x :: xs => (b :: x) :: xs

/-- What is between spaces and not empty. -/
def fields (w : Bytes) : List Bytes := (cut w).filter (· ≠ [])

/-- White space of ASCII which regular expressions know: tab, line feed, form feed, carriage return and space. -/
def whites : List UInt8 := [0x09, 0x0A, 0x0C, 0x0D, 0x20]

/-- The same byte, or both are white space. -/
def Kindred (a b : UInt8) : Prop := a = b ∨ (a ∈ whites ∧ b ∈ whites)

/-- What is between white space. -/
def cutWhite : Bytes → List Bytes
  | [] => [[]]
  | b :: t => if b ∈ whites then [] :: cutWhite t else
    match cutWhite t with
    | [] => [[b]]
    | x :: xs => (b :: x) :: xs

end Verif.Spec.Words
