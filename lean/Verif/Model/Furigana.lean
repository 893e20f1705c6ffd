import Verif.Go.Unicode
import Verif.Go.Utf8

/-!
# Model of `translit/furigana`

The normalization into NFC and the tokenizer are not modelled: the typewriter gets any list of tokens.
-/

namespace Verif.Furigana

/-! ## repeat.go -/

/-- A rune. -/
abbrev ch (c : Char) : Rune := c.toNat

/-- translit/furigana/repeat.go:35-37 `in`. -/
def within (c min max : Rune) : Bool := min ≤ c && c ≤ max

/-- translit/furigana/repeat.go:39-45 `isHiragana`. -/
def isHiragana (c : Rune) : Bool := within c 0x3040 0x309F

/-- translit/furigana/repeat.go:47-53 `isKatakana`. -/
def isKatakana (c : Rune) : Bool := within c 0x30A0 0x30FF

/-- translit/furigana/repeat.go:56-85 `toSeion`. -/
def toSeion (c : Rune) : Rune :=
  if c = ch 'ゔ' ∨ c = ch 'ヴ' then c - 78
  else if c = ch 'ゞ' ∨ c = ch 'ヾ' then c - 1
  else if c % 2 = 0 && (within c (ch 'か') (ch 'ぢ') || within c (ch 'カ') (ch 'ヂ')) then c - 1
  else if c % 2 = 1 && (within c (ch 'つ') (ch 'ど') || within c (ch 'ツ') (ch 'ド')) then c - 1
  else if c % 3 = 1 && (within c (ch 'は') (ch 'ぽ') || within c (ch 'ハ') (ch 'ポ')) then c - 1
  else if c % 3 = 2 && (within c (ch 'は') (ch 'ぽ') || within c (ch 'ハ') (ch 'ポ')) then c - 2
  else if within c (ch 'ヷ') (ch 'ヺ') then c - 8
  else c

/-- translit/furigana/repeat.go:88-114 `toDakuon`. -/
def toDakuon (c : Rune) : Rune :=
  if c = ch 'う' ∨ c = ch 'ウ' then c + 78
  else if c = ch 'ゝ' ∨ c = ch 'ヽ' then c + 1
  else if c % 2 = 1 && (within c (ch 'か') (ch 'ぢ') || within c (ch 'カ') (ch 'ヂ')) then c + 1
  else if c % 2 = 0 && (within c (ch 'つ') (ch 'ど') || within c (ch 'ツ') (ch 'ド')) then c + 1
  else if c % 3 = 0 && (within c (ch 'は') (ch 'ぽ') || within c (ch 'ハ') (ch 'ポ')) then c + 1
  else if within c (ch 'ワ') (ch 'ヲ') then c + 8
  else c

/-- translit/furigana/repeat.go:12-26: the letter written for a letter after `lastCh`. -/
def repeated (lastCh c : Rune) : Rune :=
  if isHiragana lastCh then
    if c = ch 'ゝ' then toSeion lastCh else if c = ch 'ゞ' then toDakuon lastCh else c
  else if isKatakana lastCh then
    if c = ch 'ヽ' then toSeion lastCh else if c = ch 'ヾ' then toDakuon lastCh else c
  else c

/-- translit/furigana/repeat.go:11-30, the loop. -/
def repeatLoop : Rune → List Rune → List Rune
  | _, [] => []
  | lastCh, c :: rest => repeated lastCh c :: repeatLoop (repeated lastCh c) rest

/-- translit/furigana/repeat.go:6-33 `repeatKana`. -/
def repeatKana (word : Bytes) : Bytes := encode (repeatLoop 0 (runes word))

/-! ## longvowel.go -/

/-- translit/furigana/longvowel.go:8-19 `longVowelRels`. -/
def longVowelRels : List (Char × String) :=
  [('ァ', "ァアカガサザタダナハバパマャヤラヮワ"),
   ('ア', "ァアカガサザタダナハバパマャヤラヮワ"),
   ('ィ', "ィイェエキギケゲシジセゼチヂニネヒビピヘベペミメリレヰヱヸヹ"),
   ('イ', "ィイキギシジニヒビピミリヰヸ"),
   ('ゥ', "ゥウォオクグコゴスズソゾツヅヌノフブプホボポムモュユョヨルロヲヴヺ"),
   ('ウ', "ゥウォオクグコゴスズソゾツヅトドヌノフブプホボポムモュユョヨルロヲヴヺ"),
   ('ェ', "ェエケゲセゼテデネヘベペメレヱヹ"),
   ('エ', "ェエケゲセゼテデネヘベペメレヱヹ"),
   ('ォ', "ォオコゴソゾトドノホボポモョヨロヲヺ"),
   ('オ', "ォオコゴソゾトドノホボポモョヨロヲヺ")]

/-- translit/furigana/longvowel.go:30-39: whether a letter is a long vowel after `prevCh`. -/
def isLongVowel (prevCh c : Rune) : Bool :=
  match longVowelRels.find? fun p => p.1.toNat = c with
  | none => false
  | some (_, prior) => (prior.toList.map Char.toNat).contains prevCh

/-- translit/furigana/longvowel.go:27-49, the loop. -/
def mergeLoop (offset : Nat) : Nat → Rune → List Rune → List Rune
  | _, _, [] => []
  | i, prevCh, c :: rest =>
    (if offset ≤ i && isLongVowel prevCh c then ch 'ー' else c) :: mergeLoop offset (i + 1) c rest

/-- translit/furigana/longvowel.go:23-52 `mergeLongVowels`; the only offsets passed are 0 and a length. -/
def mergeLongVowels (word : Bytes) (offset : Nat) : Bytes := encode (mergeLoop offset 0 0 (runes word))

/-! ## typewriter.go -/

/-- translit/furigana/typewriter.go:13-22. -/
inductive Category
  | illegal
  | metaCat
  | morpheme
  | auxiliary
  | properNoun
  | personName
  | unknown
  deriving DecidableEq, Repr

/-- `kagome.TokenClass`. -/
inductive Class
  | dummy
  | known
  | unknown
  | user
  deriving DecidableEq, Repr

/-- What is used of `kagome.Token`. -/
structure Token where
  cls : Class
  surface : Bytes
  features : List Bytes
  deriving DecidableEq, Repr

/-- `strings.TrimSpace(s) == ""`. -/
def blank (s : Bytes) : Bool := (runes s).all Unicode.isSpace

/-- translit/furigana/typewriter.go:145-204 `interpretToken`; panics if a feature is missing. -/
def interpretToken (tok : Token) : Go (Bytes × Category) :=
  if tok.cls = .known then do
    let fs := tok.features
    let partOfSpeech ← index fs 0
    let subClass1 ← index fs 1
    let subClass2 ← index fs 2
    let rootForm ← index fs 6
    let pronunciation ← index fs 8
    if partOfSpeech = str "フィラー" ∨ partOfSpeech = str "記号" then return (pronunciation, .metaCat)
    else if partOfSpeech = str "助動詞" then return (pronunciation, .auxiliary)
    else if partOfSpeech = str "助詞" then
      return (if rootForm = str "は" then str "ハ" else if rootForm = str "へ" then str "ヘ" else pronunciation, .morpheme)
    else if subClass2 = str "人名" then return (pronunciation, .personName)
    else if subClass1 = str "固有名詞" then return (pronunciation, .properNoun)
    else return (pronunciation, .morpheme)
  else .ok (tok.surface, if blank tok.surface then .metaCat else .unknown)

/-- translit/furigana/typewriter.go:25-30 `typewriter`; `pos` is `cur + 1`. -/
structure Typewriter where
  tokens : List Token
  result : Bytes
  pos : Nat
  lastCat : Category
  deriving DecidableEq, Repr

/-- translit/furigana/typewriter.go:33-35 `newTypewriter`. -/
def newTypewriter (tokens : List Token) : Typewriter := ⟨tokens, [], 0, .illegal⟩

/-- translit/furigana/typewriter.go:127-137, the loop of `read` over the remaining tokens: the token, and `cur + 1`
afterwards. -/
def readLoop : List Token → Nat → Option Token × Nat
  | [], pos => (none, pos + 1)
  | tok :: rest, pos => if tok.cls = .dummy then readLoop rest (pos + 1) else (some tok, pos + 1)

/-- translit/furigana/typewriter.go:123-138 `read`. -/
def read (tokens : List Token) (pos : Nat) : Option Token × Nat := readLoop (tokens.drop pos) pos

/-- translit/furigana/typewriter.go:101-114, the loop over the following auxiliary morphemes, with at most `fuel`
rounds; `unread` (140-142) decrements `cur`. -/
def auxiliaryLoop (tokens : List Token) : Nat → Nat → Bytes → Go (Bytes × Nat)
  | 0, _, _ => .hang
  | fuel + 1, pos, buf =>
    match read tokens pos with
    | (none, pos) => .ok (buf, pos)
    | (some tok, pos) => do
      let (s, cat) ← interpretToken tok
      if cat = .auxiliary then auxiliaryLoop tokens fuel pos (buf ++ s) else return (buf, pos - 1)

/-- translit/furigana/typewriter.go:61-121 `scanMorpheme`: the separator, the text, and the state afterwards. -/
def scanMorpheme (tokens : List Token) (pos : Nat) (lastCat : Category) : Go (Bytes × Bytes × Nat × Category) :=
  match read tokens pos with
  | (none, pos) => .ok ([], [], pos, lastCat)
  | (some tok, pos) => do
    let (s, cat) ← interpretToken tok
    let s := if cat = .unknown then mergeLongVowels s 0 else s
    let sep : Bytes := if lastCat = .metaCat ∨ lastCat = .illegal then []
      else if cat = .personName ∧ lastCat = .personName then [0x20] else []
    let (s', pos) ← auxiliaryLoop tokens (tokens.length + 1) pos s
    return (sep, mergeLongVowels s' (runes s).length, pos, cat)

/-- translit/furigana/typewriter.go:46-54, the loop of `Typewrite`, with at most `fuel` rounds. -/
def typewriteLoop (tokens : List Token) : Nat → Nat → Category → Go (Bytes × Nat × Category)
  | 0, _, _ => .hang
  | fuel + 1, pos, lastCat => do
    let (sep, s, pos, lastCat) ← scanMorpheme tokens pos lastCat
    if s = [] then return ([], pos, lastCat)
    else
      let (rest, pos, lastCat) ← typewriteLoop tokens fuel pos lastCat
      return (sep ++ s ++ rest, pos, lastCat)

/-- translit/furigana/typewriter.go:38-58 `Typewrite`: the text and the typewriter afterwards. -/
def typewrite (t : Typewriter) : Go (Bytes × Typewriter) :=
  if t.pos ≠ 0 then .ok (t.result, t)
  else do
    let (result, pos, lastCat) ← typewriteLoop t.tokens (t.tokens.length + 1) t.pos t.lastCat
    return (result, { t with result, pos, lastCat })

end Verif.Furigana
