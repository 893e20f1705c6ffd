import Verif.Go.Unicode

/-! Hiragana and katakana, in the words of the Unicode charts. -/

namespace Verif.Spec.Kana

/-- The katakana for a hiragana: the letters ぁ to ゖ and the iteration marks ゝ and ゞ have one. -/
def katakana (c : Rune) : Rune := if (0x3041 ≤ c ∧ c ≤ 0x3096) ∨ c = 0x309D ∨ c = 0x309E then c + 0x60 else c

/-- The digraph ゟ, read yori. -/
def yori : Rune := 0x309F

/-- The digraph ヿ, read koto. -/
def koto : Rune := 0x30FF

end Verif.Spec.Kana
