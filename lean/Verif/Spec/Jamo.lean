import Verif.Go.Utf8

/-!
# Specification of Hangul composition

Stated over Unicode code points only; it does not mention the composer.
-/

namespace Verif.Spec.Jamo

/-- The composed syllable with the given lead, medial and tail number (Unicode chapter 3.12). -/
def syllable (l : Fin 19) (m : Fin 21) (t : Fin 28) : Rune := 0xAC00 + (l * 21 + m) * 28 + t

/-- The 19 leads as stand-alone letters. -/
def leadLetters : List Rune :=
  -- ㄱㄲㄴㄷㄸㄹㅁㅂㅃㅅㅆㅇㅈㅉㅊㅋㅌㅍㅎ
  [0x3131, 0x3132, 0x3134, 0x3137, 0x3138, 0x3139, 0x3141, 0x3142, 0x3143, 0x3145, 0x3146, 
   0x3147, 0x3148, 0x3149, 0x314a, 0x314b, 0x314c, 0x314d, 0x314e]

/-- The 21 medials as stand-alone letters. -/
def medialLetters : List Rune :=
  -- ㅏㅐㅑㅒㅓㅔㅕㅖㅗㅘㅙㅚㅛㅜㅝㅞㅟㅠㅡㅢㅣ
  [0x314f, 0x3150, 0x3151, 0x3152, 0x3153, 0x3154, 0x3155, 0x3156, 0x3157, 0x3158, 0x3159, 
   0x315a, 0x315b, 0x315c, 0x315d, 0x315e, 0x315f, 0x3160, 0x3161, 0x3162, 0x3163]

/-- The 27 tails as stand-alone letters. -/
def tailLetters : List Rune :=
  -- ㄱㄲㄳㄴㄵㄶㄷㄹㄺㄻㄼㄽㄾㄿㅀㅁㅂㅄㅅㅆㅇㅈㅊㅋㅌㅍㅎ
  [0x3131, 0x3132, 0x3133, 0x3134, 0x3135, 0x3136, 0x3137, 0x3139, 0x313a, 0x313b, 0x313c, 
   0x313d, 0x313e, 0x313f, 0x3140, 0x3141, 0x3142, 0x3144, 0x3145, 0x3146, 0x3147, 0x3148, 
   0x314a, 0x314b, 0x314c, 0x314d, 0x314e]

/-- Code point of the `i`-th letter of a list. -/
def letter (cs : List Rune) (i : Nat) : Rune := cs.getD i 0

/-- The spelling of a syllable used by hangulize specs: lead, medial, and the tail after a hyphen. -/
def spell (l : Fin 19) (m : Fin 21) (t : Fin 28) : List Rune :=
  [letter leadLetters l, letter medialLetters m] ++
    (if t.val = 0 then [] else ['-'.toNat, letter tailLetters (t - 1)])

/-- A composed modern Hangul syllable. -/
def IsSyllable (r : Rune) : Prop := 0xAC00 ≤ r ∧ r ≤ 0xD7A3

/-- A stand-alone Jamo (Hangul Compatibility Jamo block without the filler U+3164). -/
def IsJamo (r : Rune) : Prop := 0x3131 ≤ r ∧ r ≤ 0x318E ∧ r ≠ 0x3164

/-- A consonant letter: what is not in the two vowel ranges. -/
def isVowel (r : Rune) : Bool := (0x314F ≤ r && r ≤ 0x3163) || (0x3187 ≤ r && r ≤ 0x318E)

instance (r : Rune) : Decidable (IsSyllable r) := by unfold IsSyllable; infer_instance
instance (r : Rune) : Decidable (IsJamo r) := by unfold IsJamo; infer_instance

/-! ## Grouping -/

/-- What a Jamo contributes to a syllable block. -/
inductive Place | lead | medial | tail
  deriving DecidableEq, Repr

/-- Order of the places in a block. -/
def Place.rank : Place → Nat
  | .lead => 0
  | .medial => 1
  | .tail => 2

/-- The input seen as a sequence of letters: a Jamo at a place, a composed syllable (lead, medial and
tail number), or something else. -/
inductive Tok
  | jamo (p : Place) (r : Rune)
  | syl (l m t : Nat)
  | other (r : Rune)
  deriving DecidableEq, Repr

/-- Reading letters: hyphens are dropped and mark a consonant that follows as a tail. -/
def tokens : Bool → List Rune → List Tok
  | _, [] => []
  | h, r :: rs =>
    if r = '-'.toNat then tokens true rs
    else
      (if IsSyllable r then
        .syl ((r - 0xAC00) / 588) ((r - 0xAC00) % 588 / 28) ((r - 0xAC00) % 28)
      else if IsJamo r then .jamo (if isVowel r then .medial else if h then .tail else .lead) r
      else .other r) :: tokens false rs

/-- The last place a token fills; `none` for characters outside Hangul. -/
def Tok.last : Tok → Option Place
  | .jamo p _ => some p
  | .syl _ _ t => some (if t = 0 then .medial else .tail)
  | .other _ => none

/-- `b` continues the block that `a` belongs to: it is a Jamo whose place comes strictly later. -/
def continues (a b : Tok) : Bool :=
  match a.last, b with
  | some p, .jamo q _ => p.rank < q.rank
  | _, _ => false

/-- Position of a letter in a list of letters. -/
def posOf (cs : List Rune) (r : Rune) : Option Nat := cs.idxOf? r

/-- Lead number of a block: ieung if there is none; `none` for an obsolete letter. -/
def blockLead : List Tok → Option Nat
  | .jamo .lead r :: _ => posOf leadLetters r
  | .syl l _ _ :: _ => some l
  | _ => some 11

/-- Medial number of a block: eu if there is none. -/
def blockMedial : List Tok → Option Nat
  | [] => some 18
  | .jamo .medial r :: _ => posOf medialLetters r
  | .syl _ m _ :: _ => some m
  | _ :: ts => blockMedial ts

/-- Tail number of a block: 0 if there is none. -/
def blockTail : List Tok → Option Nat
  | [] => some 0
  | .jamo .tail r :: _ => (posOf tailLetters r).map (· + 1)
  | .syl _ _ (t + 1) :: _ => some (t + 1)
  | _ :: ts => blockTail ts

/-- What one block is written as: itself if it is not Hangul, otherwise one syllable (or U+FFFD if an
obsolete or misplaced letter is involved). -/
def blockRune : List Tok → Rune
  | [.other r] => r
  | b =>
    match blockLead b, blockMedial b, blockTail b with
    | some l, some m, some t => 0xAC00 + (l * 21 + m) * 28 + t
    | _, _, _ => 0xFFFD

/-- The composition of a text: split it into maximal blocks and write each block as one character. -/
def compose (rs : List Rune) : List Rune := ((tokens false rs).splitBy continues).map blockRune

end Verif.Spec.Jamo
