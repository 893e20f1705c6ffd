import Verif.Go.Regexp

/-!
# The language of a regular expression

What it means for a text to match, without any order of preference, without captures and without a
position in a text.  Expressions with `^`, `$`, `\b` and `\B` have no language.
-/

namespace Verif.Spec

open Verif.Rx

/-- The text `u` is matched by the expression. -/
inductive Lang : Re → List Rune → Prop
  | empty : Lang .empty []
  | lit (rs : List Rune) : Lang (.lit rs) rs
  | cls {neg : Bool} {ranges : List (Nat × Nat)} {c : Rune}
      (h : (∃ p ∈ ranges, p.1 ≤ c ∧ c ≤ p.2) ↔ neg = false) : Lang (.cls neg ranges) [c]
  | anyNotNL {c : Rune} (h : c ≠ 0x0A) : Lang .anyNotNL [c]
  | any (c : Rune) : Lang .any [c]
  | cap {i : Nat} {r : Re} {u : List Rune} (h : Lang r u) : Lang (.cap i r) u
  | star {g : Bool} {r : Re} (us : List (List Rune)) (h : ∀ u ∈ us, Lang r u) : Lang (.star g r) us.flatten
  | plus {g : Bool} {r : Re} (us : List (List Rune)) (h0 : us ≠ []) (h : ∀ u ∈ us, Lang r u) :
      Lang (.plus g r) us.flatten
  | quest {g : Bool} {r : Re} {u : List Rune} (h : Lang r u) : Lang (.quest g r) u
  | skip {g : Bool} {r : Re} : Lang (.quest g r) []
  | rep {mn : Nat} {mx : Option Nat} {g : Bool} {r : Re} (us : List (List Rune)) (h0 : mn ≤ us.length)
      (h1 : ∀ m, mx = some m → us.length ≤ m) (h : ∀ u ∈ us, Lang r u) : Lang (.rep mn mx g r) us.flatten
  | nil : Lang (.cat []) []
  | cons {r : Re} {rs : List Re} {u v : List Rune} (h : Lang r u) (hs : Lang (.cat rs) v) :
      Lang (.cat (r :: rs)) (u ++ v)
  | alt {r : Re} {rs : List Re} {u : List Rune} (hr : r ∈ rs) (h : Lang r u) : Lang (.alt rs) u

mutual
/-- No assertions, and the bounds of repetitions are in order. -/
def Plain : Re → Bool
  | .beginLine | .endLine | .beginText | .endText | .wordB | .noWordB => false
  | .cap _ r | .star _ r | .plus _ r | .quest _ r => Plain r
  | .rep mn mx _ r => Plain r && mx.all (fun m => decide (mn ≤ m))
  | .cat rs | .alt rs => PlainList rs
  | _ => true
def PlainList : List Re → Bool
  | [] => true
  | r :: rs => Plain r && PlainList rs
end

/-- The characters of a word from byte offset `i` on begin with a text that matches. -/
def FollowedBy (re : Re) (word : Bytes) (i : Nat) : Prop := ∃ u, u <+: runes (word.drop i) ∧ Lang re u

/-- The characters of a word up to byte offset `i` end with a text that matches. -/
def PrecededBy (re : Re) (word : Bytes) (i : Nat) : Prop := ∃ u, u <:+ runes (word.take i) ∧ Lang re u

end Verif.Spec
