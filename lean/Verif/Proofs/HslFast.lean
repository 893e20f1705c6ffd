import Verif.Model.Hsl
import Verif.Proofs.HslComment

/-! Lexing without looking up ASCII characters in tables, which is what the kernel can compute for whole files. -/

namespace Verif.Hsl

open Unicode

/-- Membership in a table, skipping the lookup below 0x80. -/
def fastSpace (ch : Rune) : Bool :=
  if ch < 0x80 then (0x09 ≤ ch && ch ≤ 0x0D) || ch == 0x20 else isSpace ch

def fastInitial (ch : Rune) : Bool :=
  if ch < 0x80 then (0x61 ≤ ch && ch ≤ 0x7A) || (0x41 ≤ ch && ch ≤ 0x5A) || ch == 0x5F else isInitial ch

def fastLetter (ch : Rune) : Bool :=
  if ch < 0x80 then (0x61 ≤ ch && ch ≤ 0x7A) || (0x41 ≤ ch && ch ≤ 0x5A) || ch == 0x5F || (0x30 ≤ ch && ch ≤ 0x39)
  else isLetter ch

theorem fastSpace_eq (ch : Rune) : isSpace ch = fastSpace ch := by
  unfold fastSpace
  split
  · rename_i h
    have : ∀ x < 0x80, isSpace x = ((decide (0x09 ≤ x) && decide (x ≤ 0x0D)) || x == 0x20) := by decide +kernel
    exact this ch h
  · rfl

theorem fastInitial_eq (ch : Rune) : isInitial ch = fastInitial ch := by
  unfold fastInitial
  split
  · rename_i h
    have : ∀ x < 0x80, isInitial x = ((decide (0x61 ≤ x) && decide (x ≤ 0x7A)) ||
        (decide (0x41 ≤ x) && decide (x ≤ 0x5A)) || x == 0x5F) := by decide +kernel
    exact this ch h
  · rfl

theorem fastLetter_eq (ch : Rune) : isLetter ch = fastLetter ch := by
  unfold fastLetter
  split
  · rename_i h
    have : ∀ x < 0x80, isLetter x = ((decide (0x61 ≤ x) && decide (x ≤ 0x7A)) ||
        (decide (0x41 ≤ x) && decide (x ≤ 0x5A)) || x == 0x5F || (decide (0x30 ≤ x) && decide (x ≤ 0x39))) := by
      decide +kernel
    exact this ch h
  · rfl

def fastBlank (ch : Rune) : Bool := ch != 0x0A && fastSpace ch

theorem fastBlank_eq (ch : Rune) : isBlank ch = fastBlank ch := by simp [isBlank, fastBlank, fastSpace_eq]

def fastComment : Bool → List Rune → Nat
  | _, [] => 0
  | true, ch :: t => if ch != 0x0A && ch != 0 then fastComment true t + 1 else fastComment false t + 1
  | false, ch :: t =>
    if fastBlank ch then fastComment false t + 1
    else if ch == 0x23 then fastComment true t + 1
    else 0

theorem fastComment_eq : ∀ (b : Bool) (t : List Rune), commentLen b t = fastComment b t
  | _, [] => by simp [commentLen, fastComment]
  | true, ch :: t => by simp only [commentLen, fastComment, fastComment_eq _ t]
  | false, ch :: t => by simp only [commentLen, fastComment, fastComment_eq _ t, fastBlank_eq]

def fastScan (ch : Rune) (t : List Rune) : Token × Nat :=
  if ch = 0 then (.eof, 0)
  else if ch = 0x0A then (.newline, 0)
  else if fastSpace ch then (.space, (readWhile fastBlank t).length)
  else if fastInitial ch then (.string (ch :: readWhile fastLetter t), (readWhile fastLetter t).length)
  else if ch = 0x22 then
    match quoted false t with
    | some (s, n) => (.string s, n)
    | none => (.hangs, t.length)
  else if ch = 0x23 then (.comment, fastComment true t)
  else if ch = 0x3A then (.colon, 0)
  else if ch = 0x2C then (.comma, 0)
  else if ch = 0x3D then (.equal, 0)
  else if ch = 0x2D then
    if t.head? = some 0x3E then (.arrow, 1) else (.panics, 0)
  else (.illegal, 0)

theorem fastScan_eq (ch : Rune) (t : List Rune) : scan ch t = fastScan ch t := by
  have h1 : isBlank = fastBlank := funext fastBlank_eq
  have h2 : isLetter = fastLetter := funext fastLetter_eq
  simp only [scan, fastScan, h1, h2, fastSpace_eq, fastInitial_eq, fastComment_eq]
  rfl

/-- The tokens without lines, blanks and comments; the first argument counts the characters of the last token still
to be skipped. -/
def fastSigs : Nat → List Rune → List Token
  | _, [] => []
  | k + 1, _ :: t => fastSigs k t
  | 0, ch :: t =>
    let tk := fastScan ch t
    match significant tk.1 with
    | true => tk.1 :: fastSigs tk.2 t
    | false => fastSigs tk.2 t

theorem fastSigs_drop : ∀ (k : Nat) (s : List Rune), fastSigs k s = fastSigs 0 (s.drop k)
  | 0, s => by simp
  | k + 1, [] => by simp [fastSigs]
  | k + 1, _ :: t => by simp only [fastSigs, List.drop_succ_cons]; exact fastSigs_drop k t

theorem fastSigs_eq (s : List Rune) : sigs s = fastSigs 0 s := by
  suffices ∀ (n : Nat) (s : List Rune), s.length ≤ n → sigs s = fastSigs 0 s from this _ s (Nat.le_refl _)
  intro n
  induction n with
  | zero =>
    intro s hs
    have : s = [] := by simpa using hs
    subst this
    rfl
  | succ n ih =>
    intro s hs
    cases s with
    | nil => rfl
    | cons ch t =>
      rw [sigs_cons, fastSigs, fastScan_eq, ih _ (by simp at hs ⊢; omega), ← fastSigs_drop]
      cases h : significant (fastScan ch t).1 <;> simp

end Verif.Hsl
