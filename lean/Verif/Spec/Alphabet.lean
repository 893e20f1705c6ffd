import Verif.Spec.Reference
import Verif.Spec.Jamo

/-!
# The letters of results
-/

namespace Verif.Spec.Alphabet

open Verif.Spec.Jamo Verif.Spec.Procedure Verif.Spec.Reference

/-- The letters which may be written for a word, given with its letters after normalization: syllables, apostrophes
and spaces, letters of the word which have no meaning for the spec, and punctuation replacing Japanese punctuation. -/
inductive Written (sp : Spec) (letters : List Rune) : Rune → Prop
  | syllable {c : Rune} (h : IsSyllable c) : Written sp letters c
  | apostrophe : Written sp letters '\''.toNat
  | space : Written sp letters ' '.toNat
  | kept {c : Rune} (h : c ∈ letters) (meaningless : ¬ Meaningful sp c) (visible : c ≠ zwsp) : Written sp letters c
  | punctuation {c d : Rune} {before after : Bool} (kana : sp.script = Script.hrkt) (h : d ∈ letters)
      (meaningless : ¬ Meaningful sp d) (known : (d, before, c, after) ∈ japanese) : Written sp letters c

end Verif.Spec.Alphabet
