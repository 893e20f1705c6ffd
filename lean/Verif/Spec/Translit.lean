import Verif.Model.Furigana

/-!
# What the translits are expected to write

The tables list letters one by one; nothing here is computed from code points.
-/

namespace Verif.Spec.Translit

open Furigana (Token)

/-- The letters of a string. -/
def letters (s : String) : List Rune := s.toList.map Char.toNat

/-! ## Voicing -/

/-- Unvoiced letters with their voiced forms. -/
def voicing : List (Rune × Rune) :=
  (letters "うかきくけこさしすせそたちつてとはひふへほゝ").zip
    (letters "ゔがぎぐげござじずぜぞだぢづでどばびぶべぼゞ") ++
  (letters "ウカキクケコサシスセソタチツテトハヒフヘホワヰヱヲヽ").zip
    (letters "ヴガギグゲゴザジズゼゾダヂヅデドバビブベボヷヸヹヺヾ")

/-- Unvoiced letters with their half-voiced forms. -/
def halfVoicing : List (Rune × Rune) :=
  (letters "はひふへほハヒフヘホ").zip (letters "ぱぴぷぺぽパピプペポ")

/-- The voiced form of a letter. -/
def voice (c : Rune) : Rune := (voicing.lookup c).getD c

/-- The unvoiced form of a letter. -/
def unvoice (c : Rune) : Rune := (((voicing ++ halfVoicing).map fun p => (p.2, p.1)).lookup c).getD c

/-- The block of hiragana. -/
def Hiragana (c : Rune) : Prop := 0x3040 ≤ c ∧ c ≤ 0x309F

/-- The block of katakana. -/
def Katakana (c : Rune) : Prop := 0x30A0 ≤ c ∧ c ≤ 0x30FF

instance (c : Rune) : Decidable (Hiragana c) := inferInstanceAs (Decidable (_ ∧ _))
instance (c : Rune) : Decidable (Katakana c) := inferInstanceAs (Decidable (_ ∧ _))

/-- What is written for a letter after the letter `prev`, if there is one. -/
def resolve (prev : Option Rune) (c : Rune) : Rune :=
  match prev with
  | none => c
  | some p =>
    if Hiragana p ∧ c = 'ゝ'.toNat ∨ Katakana p ∧ c = 'ヽ'.toNat then unvoice p
    else if Hiragana p ∧ c = 'ゞ'.toNat ∨ Katakana p ∧ c = 'ヾ'.toNat then voice p
    else c

/-! ## Long vowels -/

/-- The vowels. -/
inductive Vowel
  | a
  | i
  | u
  | e
  | o
  deriving DecidableEq, Repr

/-- The katakana by vowels. -/
def rows : List (Vowel × List Rune) :=
  [(.a, letters "ァアカガサザタダナハバパマャヤラヮワ"),
   (.i, letters "ィイキギシジチヂニヒビピミリヰヸ"),
   (.u, letters "ゥウクグスズツヅヌフブプムュユルヴ"),
   (.e, letters "ェエケゲセゼテデネヘベペメレヱヹ"),
   (.o, letters "ォオコゴソゾトドノホボポモョヨロヲヺ")]

/-- The vowel of a katakana. -/
def vowelOf (c : Rune) : Option Vowel := (rows.find? fun r => r.2.contains c).map (·.1)

/-- The letters which are nothing but a vowel. -/
def vowelLetters : List (Rune × Vowel) :=
  (letters "ァアィイゥウェエォオ").zip [.a, .a, .i, .i, .u, .u, .e, .e, .o, .o]

/-- The letter `c` prolongs the letter `p`: it is a vowel, namely the one of `p`, or an I after an E, or a U after
an O. -/
def prolongs (p c : Rune) : Bool :=
  match vowelLetters.lookup c, vowelOf p with
  | some v, some w => v == w || (v == .i && w == .e) || (v == .u && w == .o)
  | _, _ => false

/-- Letters prolonging another one which are left alone nevertheless. -/
def leftAlone (p c : Rune) : Bool :=
  (c == 'イ'.toNat && (vowelOf p == some .e || (letters "チヂ").contains p)) ||
  (c == 'ィ'.toNat && (letters "テデ").contains p) || (c == 'ゥ'.toNat && (letters "トド").contains p)

/-- The letter `c` at position `k` is written as a long-vowel mark after the offset `off`. -/
def Merged (off : Nat) (l : List Rune) (k : Nat) (c : Rune) : Prop :=
  off ≤ k ∧ ∃ j p, k = j + 1 ∧ l[j]? = some p ∧ prolongs p c = true ∧ leftAlone p c = false

/-- `out` is `text` with some letters prolonging their predecessor in `text` written as a long-vowel mark. -/
def Prolonged (text out : List Rune) : Prop :=
  out.length = text.length ∧
  ∀ i c, text[i]? = some c → out[i]? = some c ∨
    out[i]? = some 'ー'.toNat ∧ ∃ j p, i = j + 1 ∧ text[j]? = some p ∧ prolongs p c = true

/-! ## Tokens -/

/-- A feature of a token. -/
def feature (t : Token) (k : Nat) : Bytes := (t.features[k]?).getD []

/-- A known token with a pronunciation. -/
def Complete (t : Token) : Prop := t.cls = .known → 9 ≤ t.features.length

instance (t : Token) : Decidable (Complete t) := inferInstanceAs (Decidable (_ → _))

/-- How a token is pronounced: the particles は and へ as they are written, other known words as the dictionary
says, unknown words as they are written. -/
def pronunciation (t : Token) : Bytes :=
  if t.cls = .known then
    if feature t 0 = str "助詞" ∧ feature t 6 = str "は" then str "ハ"
    else if feature t 0 = str "助詞" ∧ feature t 6 = str "へ" then str "ヘ"
    else feature t 8
  else t.surface

/-- A token which is merged into the previous morpheme. -/
def Auxiliary (t : Token) : Prop := t.cls = .known ∧ feature t 0 = str "助動詞"

/-- A part of a person's name. -/
def Name (t : Token) : Prop :=
  t.cls = .known ∧ feature t 2 = str "人名" ∧
  feature t 0 ∉ [str "フィラー", str "記号", str "助動詞", str "助詞"]

instance (t : Token) : Decidable (Auxiliary t) := inferInstanceAs (Decidable (_ ∧ _))
instance (t : Token) : Decidable (Name t) := inferInstanceAs (Decidable (_ ∧ _ ∧ _))

/-- The tokens with a meaning. -/
def real (ts : List Token) : List Token := ts.filter fun t => t.cls ≠ .dummy

/-- The text for a morpheme, made of a token and the auxiliary ones after it: the pronunciation of the token, letter
by letter if the dictionary knows it, then the one of the auxiliaries with marks for prolonged vowels. -/
def Morpheme (t : Token) (aux : List Token) (text : Bytes) : Prop :=
  ∃ head tail : List Rune, text = encode (head ++ tail) ∧ head.length = (runes (pronunciation t)).length ∧
    (t.cls = .known → head = runes (pronunciation t)) ∧
    ∃ mid, Prolonged (runes (pronunciation t)) head ∧ mid = aux.flatMap (fun a => runes (pronunciation a)) ∧
      Prolonged (head ++ mid) (head ++ tail)

/-- `out` is what is said for the tokens `ts` after the morpheme starting with `prev`: morphemes one after another,
with a space between two parts of names. -/
inductive Said : Option Token → List Token → Bytes → Prop
  | nil (prev : Option Token) : Said prev [] []
  | cons {prev : Option Token} {t : Token} {aux rest : List Token} {text out : Bytes} :
    (∀ a ∈ aux, Auxiliary a) → (∀ r ∈ rest.head?, ¬ Auxiliary r) → Morpheme t aux text → Said (some t) rest out →
    Said prev (t :: aux ++ rest) ((if Name t ∧ ∃ p ∈ prev, Name p then [0x20] else []) ++ text ++ out)

/-! ## Pinyin -/

/-- A part of a word: a letter with pinyin, or letters without. -/
inductive Segment
  | hanzi (c : Rune)
  | plain (run : List Rune)
  deriving DecidableEq, Repr

/-- The letters of a part. -/
def Segment.letters : Segment → List Rune
  | .hanzi c => [c]
  | .plain run => run

/-- What is written for a part. -/
def Segment.text (dict : Rune → List Bytes) : Segment → Bytes
  | .hanzi c => (dict c).headD []
  | .plain run => encode run

/-- A letter has pinyin, or some letters all have none. -/
def Segment.Right (dict : Rune → List Bytes) : Segment → Prop
  | .hanzi c => dict c ≠ []
  | .plain run => run ≠ [] ∧ ∀ c ∈ run, dict c = []

/-- Runs of letters without pinyin are not split. -/
def Unbroken (segs : List Segment) : Prop :=
  ∀ pre post r r', segs ≠ pre ++ .plain r :: .plain r' :: post

end Verif.Spec.Translit
