import Verif.Go.Basic
import Verif.Model.Standard
import Verif.Spec.Translit

/-! How large results are. -/

namespace Verif.Spec.Growth

/-- The results of a function are at most proportional to the texts they are made from. -/
def Linear (f : Bytes → Go Bytes) : Prop :=
  ∃ k, ∀ w out, f w = .ok out → out.length ≤ k * (w.length + 1)

/-- The number of bytes and tokens which a tokenizer says for a text. -/
def spoken (ts : List Furigana.Token) : Nat := ((Translit.real ts).map fun t => (Translit.pronunciation t).length + 1).sum

/-- Libraries of which the results are at most proportional to the texts: normalization, tokens with their pronunciations, and
the pinyin of characters, of which the longest has `n` letters. -/
def Moderate (l : Libraries) : Prop :=
  ∃ n, (∀ w, (l.nfc w).length ≤ n * (w.length + 1)) ∧ (∀ w, spoken (l.tokenize w) ≤ n * (w.length + 1)) ∧
    ∀ c, ∀ p ∈ l.pinyin c, p.length ≤ n

end Verif.Spec.Growth
