import Verif.Model.Hre
import Verif.Spec.Regex

/-! Negative lookarounds whose window is large enough for their texts. -/

namespace Verif.Hre.Narrow

open Verif.Rx Verif.Spec

mutual
/-- All texts consist of characters with the property. -/
def within (P : Rune → Bool) : Re → Bool
  | .lit rs => rs.all P
  | .cls neg ranges => !neg && ranges.all fun p => decide (p.1 = p.2) && P p.1
  | .anyNotNL | .any => false
  | .cap _ r | .star _ r | .plus _ r | .quest _ r | .rep _ _ _ r => within P r
  | .cat rs | .alt rs => withinList P rs
  | _ => true
def withinList (P : Rune → Bool) : List Re → Bool
  | [] => true
  | r :: rs => within P r && withinList P rs
end

theorem withinList_iff {P : Rune → Bool} {rs : List Re} : withinList P rs = true ↔ ∀ r ∈ rs, within P r = true := by
  induction rs with
  | nil => simp [withinList]
  | cons r rs ih => simp [withinList, ih]

theorem within_lang {P : Rune → Bool} {re : Re} {u : List Rune} (h : Lang re u) (hw : within P re = true) :
    ∀ c ∈ u, P c = true := by
  induction h with
  | empty => simp
  | lit rs => simpa [within] using hw
  | @cls neg ranges c hc =>
    simp only [within, Bool.and_eq_true, Bool.not_eq_true', List.all_eq_true, decide_eq_true_eq] at hw
    obtain ⟨p, h1, h2, h3⟩ := hc.2 hw.1
    have := hw.2 p h1
    intro d hd
    have e : d = p.1 := by simp at hd; omega
    rw [e]; exact this.2
  | anyNotNL => simp [within] at hw
  | any => simp [within] at hw
  | cap _ ih => exact ih (by simpa [within] using hw)
  | star us _ ih | plus us _ _ ih | rep us _ _ _ ih =>
    intro c hc
    obtain ⟨u, h1, h2⟩ := List.mem_flatten.1 hc
    exact ih u h1 (by simpa [within] using hw) c h2
  | quest _ ih => exact ih (by simpa [within] using hw)
  | skip => simp
  | nil => simp
  | cons _ _ ih1 ih2 =>
    simp only [within, withinList, Bool.and_eq_true] at hw
    intro c hc
    rcases List.mem_append.1 hc with hc | hc
    · exact ih1 hw.1 c hc
    · exact ih2 (by simpa [within] using hw.2) c hc
  | alt hr _ ih =>
    simp only [within, withinList_iff] at hw
    exact ih (hw _ hr)

/-- A character of one byte, or the letter `ü`. -/
def slim (c : Rune) : Bool := decide (c < 0x80) || decide (c = 0xFC)

/-- The expression of a negative lookaround: no assertions in it, and only slim characters. -/
def slimLook : Re → Bool
  | .cat [.beginText, .cap _ re] | .cat [.cap _ re, .endText] => Plain re && within slim re
  | _ => false

/-- A pattern with slim negative lookarounds and a lookbehind of at most one character. -/
def narrow (p : Pattern) : Bool := p.negA.all slimLook && p.negB.all slimLook && decide (p.negBWidth ≤ 1)

end Verif.Hre.Narrow
