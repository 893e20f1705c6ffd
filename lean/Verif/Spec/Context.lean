import Verif.Spec.Leftmost

/-!
# Matching in a context

What it means for a piece of a text to match, given the text before it and the text after it: a language
for all expressions, with `^`, `$`, `\b` and `\B`.
-/

namespace Verif.Spec

open Verif.Rx

/-- A letter of a word of `\b`. -/
def WordChar (c : Rune) : Prop :=
  (0x30 ≤ c ∧ c ≤ 0x39) ∨ (0x41 ≤ c ∧ c ≤ 0x5A) ∨ c = 0x5F ∨ (0x61 ≤ c ∧ c ≤ 0x7A)

/-- Between the texts is the beginning or the end of a word. -/
def WordEnd (before after : List Rune) : Prop :=
  ¬ ((∃ c, before.getLast? = some c ∧ WordChar c) ↔ (∃ c, after.head? = some c ∧ WordChar c))

/-- The text `u` is matched by the expression where it stands, after `b` and before `a`. -/
inductive Match : Re → List Rune → List Rune → List Rune → Prop
  | empty {b a : List Rune} : Match .empty b [] a
  | lit {b a : List Rune} (rs : List Rune) : Match (.lit rs) b rs a
  | cls {b a : List Rune} {neg : Bool} {ranges : List (Nat × Nat)} {c : Rune}
      (h : (∃ p ∈ ranges, p.1 ≤ c ∧ c ≤ p.2) ↔ neg = false) : Match (.cls neg ranges) b [c] a
  | anyNotNL {b a : List Rune} {c : Rune} (h : c ≠ 0x0A) : Match .anyNotNL b [c] a
  | any {b a : List Rune} (c : Rune) : Match .any b [c] a
  | beginText {a : List Rune} : Match .beginText [] [] a
  | endText {b : List Rune} : Match .endText b [] []
  | beginLine {b a : List Rune} (h : ∀ c, b.getLast? = some c → c = 0x0A) : Match .beginLine b [] a
  | endLine {b a : List Rune} (h : ∀ c, a.head? = some c → c = 0x0A) : Match .endLine b [] a
  | wordB {b a : List Rune} (h : WordEnd b a) : Match .wordB b [] a
  | noWordB {b a : List Rune} (h : ¬ WordEnd b a) : Match .noWordB b [] a
  | cap {i : Nat} {r : Re} {b u a : List Rune} (h : Match r b u a) : Match (.cap i r) b u a
  | star {g : Bool} {r : Re} {b a : List Rune} (us : List (List Rune))
      (h : ∀ xs u ys, us = xs ++ u :: ys → Match r (b ++ xs.flatten) u (ys.flatten ++ a)) :
      Match (.star g r) b us.flatten a
  | plus {g : Bool} {r : Re} {b a : List Rune} (us : List (List Rune)) (h0 : us ≠ [])
      (h : ∀ xs u ys, us = xs ++ u :: ys → Match r (b ++ xs.flatten) u (ys.flatten ++ a)) :
      Match (.plus g r) b us.flatten a
  | quest {g : Bool} {r : Re} {b u a : List Rune} (h : Match r b u a) : Match (.quest g r) b u a
  | skip {g : Bool} {r : Re} {b a : List Rune} : Match (.quest g r) b [] a
  | rep {mn : Nat} {mx : Option Nat} {g : Bool} {r : Re} {b a : List Rune} (us : List (List Rune))
      (h0 : mn ≤ us.length) (h1 : ∀ m, mx = some m → us.length ≤ m)
      (h : ∀ xs u ys, us = xs ++ u :: ys → Match r (b ++ xs.flatten) u (ys.flatten ++ a)) :
      Match (.rep mn mx g r) b us.flatten a
  | nil {b a : List Rune} : Match (.cat []) b [] a
  | cons {r : Re} {rs : List Re} {b u v a : List Rune} (h : Match r b u (v ++ a)) (hs : Match (.cat rs) (b ++ u) v a) :
      Match (.cat (r :: rs)) b (u ++ v) a
  | alt {r : Re} {rs : List Re} {b u a : List Rune} (hr : r ∈ rs) (h : Match r b u a) : Match (.alt rs) b u a

mutual
/-- No assertions about what comes before. -/
def Forward : Re → Bool
  | .beginLine | .beginText | .wordB | .noWordB => false
  | .cap _ r | .star _ r | .plus _ r | .quest _ r | .rep _ _ _ r => Forward r
  | .cat rs | .alt rs => ForwardList rs
  | _ => true
def ForwardList : List Re → Bool
  | [] => true
  | r :: rs => Forward r && ForwardList rs
end

/-- A blank of `\s`. -/
def Blank (c : Rune) : Prop := c ∈ [0x09, 0x0A, 0x0C, 0x0D, 0x20]

/-- `n` carets: nothing for none; for one the beginning of the text, blanks, or `{}`; for more the
beginning of the text. -/
def LeftEdge (n : Nat) (before u : List Rune) : Prop :=
  (n = 0 ∧ u = []) ∨ (1 ≤ n ∧ before = [] ∧ u = []) ∨
    (n = 1 ∧ ((u ≠ [] ∧ ∀ c ∈ u, Blank c) ∨ u = [0x7B, 0x7D]))

/-- `n` dollars: nothing for none; for one the end of the text, blanks, or `{}`; for more the end of the
text. -/
def RightEdge (n : Nat) (u after : List Rune) : Prop :=
  (n = 0 ∧ u = []) ∨ (1 ≤ n ∧ after = [] ∧ u = []) ∨
    (n = 1 ∧ ((u ≠ [] ∧ ∀ c ∈ u, Blank c) ∨ u = [0x7B, 0x7D]))

/-- The characters of a piece of text. -/
def chars (l : List (Rune × Nat)) : List Rune := l.map Prod.fst

/-- In the word from byte offset `o` on, taken for a whole text, begins at `i` a left edge of `nb` carets,
then a text of `behind`, at `j` one of `core` that ends at `k`, then one of `ahead` and a right edge of
`na` dollars. -/
def OccursFrom (nb : Nat) (behind core ahead : Re) (na : Nat) (word : Bytes) (o i j k : Nat) : Prop :=
  ∃ w e x y z f t, decode (word.drop o) = w ++ (e ++ (x ++ (y ++ (z ++ (f ++ t))))) ∧
    i = o + bytes w ∧ j = i + bytes e + bytes x ∧ k = j + bytes y ∧
    LeftEdge nb (chars w) (chars e) ∧
    Match behind (chars (w ++ e)) (chars x) (chars (y ++ z ++ f ++ t)) ∧
    Match core (chars (w ++ e ++ x)) (chars y) (chars (z ++ f ++ t)) ∧
    Match ahead (chars (w ++ e ++ x ++ y)) (chars z) (chars (f ++ t)) ∧
    RightEdge na (chars f) (chars t)

/-- The next `w` bytes of the word from `i` on, all of them for a width of -1. -/
def windowAhead (word : Bytes) (i : Nat) (w : Int) : Bytes :=
  if w = -1 then word.drop i else (word.drop i).take w.toNat

/-- The last `w` bytes of the word before `i`, all of them for a width of -1, and none where there are
less. -/
def windowBehind (word : Bytes) (i : Nat) (w : Int) : Bytes :=
  if w = -1 then word.take i else if w ≤ i then (word.take i).drop (i - w.toNat) else []

/-- From `lo` on the leftmost occurrence is taken, then the leftmost one from where its core ended, and so
on to the end of a word of `len` bytes; each search takes its beginning for the beginning of a text.  An
occurrence is reported unless there is a veto against it. -/
inductive Scan (occ : Nat → Nat → Nat → Nat → Prop) (veto : Nat → Nat → Prop) (len : Nat) : Nat → List (List Int) → Prop
  | done {lo : Nat} (h : Nothing (occ lo) lo len) : Scan occ veto len lo []
  | found {lo i j k : Nat} {groups : List Int} {ms : List (List Int)} (h : occ lo i j k) (hl : lo ≤ i)
      (hj : j < k) (hn : Nothing (occ lo) lo i) (hv : ¬ veto j k) (hs : Scan occ veto len k ms) :
      Scan occ veto len lo (((j : Int) :: (k : Int) :: groups) :: ms)
  | vetoed {lo i j k : Nat} {ms : List (List Int)} (h : occ lo i j k) (hl : lo ≤ i)
      (hj : j < k) (hn : Nothing (occ lo) lo i) (hv : veto j k) (hs : Scan occ veto len k ms) :
      Scan occ veto len lo ms

end Verif.Spec
