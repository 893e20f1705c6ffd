import Verif.Spec.Procedure

/-!
# What `Hangulize` computes

The steps of the procedure as relations on tagged text, without replacers, builders, masks and records.
-/

namespace Verif.Spec.Reference

open Verif.Spec.Subword Verif.Spec.Procedure

/-- The bytes of a tagged text. -/
def text (t : Tagged) : Bytes := t.map (·.1)

/-- The letters of a tagged text; a letter has the level of its first byte. -/
def letters (t : Tagged) : LChars := (rangeStr (text t)).map fun p => (p.2, (t[p.1]?.map (·.2)).getD 0)

/-- The pieces of a tagged text: the maximal runs of letters of one level. -/
def pieces (t : Tagged) : List Subword := chunks (letters t)

/-- The maximal runs of bytes of one level. -/
def blocks : Tagged → List Subword
  | [] => []
  | (b, l) :: t =>
    match blocks t with
    | [] => [⟨[b], l⟩]
    | s :: rest => if l = s.level then ⟨b :: s.word, l⟩ :: rest else ⟨[b], l⟩ :: s :: rest

/-- Neighbours of one level joined. -/
def joined (sws : List Subword) : List Subword := blocks (tagged sws)

/-- Rules applied one after another to a text of which they see `view`: replaced text gets the level `lvl`.  The words
are the texts after each rule. -/
inductive Applied (lvl : Int) (view : Tagged → Bytes) : List Rule → Tagged → List Bytes → Tagged → Prop
  | done (t : Tagged) : Applied lvl view [] t [] t
  | rule {r : Rule} {rules : List Rule} {t t' : Tagged} {words : List Bytes} (rs : List Repl)
      (seen : r.replacements (view t) = .ok rs) (inside : Inside t.length 0 rs)
      (rest : Applied lvl view rules (splice (at_ lvl) t 0 rs) words t') :
    Applied lvl view (r :: rules) t (text (splice (at_ lvl) t 0 rs) :: words) t'

/-- A piece is rewritten: its pieces, and its texts after each rule. -/
def Rewritten (rules : List Rule) (p : Subword) (words : Option (List Bytes)) (out : List Subword) : Prop :=
  ∃ ws t, words = some ws ∧ Applied 1 text rules (at_ p.level p.word) ws t ∧ out = pieces t

/-- A piece is transcribed, unless it is meaningless; transcribed text is hidden from later rules. -/
def Transcribed (rules : List Rule) (p : Subword) (words : Option (List Bytes)) (out : List Subword) : Prop :=
  (p.level = 0 ∧ words = none ∧ out = [p]) ∨
  (p.level ≠ 0 ∧ ∃ ws t, words = some ws ∧ Applied 2 hidden rules (at_ p.level p.word) ws t ∧ out = pieces t)

/-- All pieces, from left to right. -/
inductive Each (R : Subword → Option (List Bytes) → List Subword → Prop) :
    List Subword → List (Option (List Bytes)) → List Subword → Prop
  | nil : Each R [] [] []
  | cons {p : Subword} {words : Option (List Bytes)} {out : List Subword} {ps : List Subword}
      {rows : List (Option (List Bytes))} {outs : List Subword} (one : R p words out) (rest : Each R ps rows outs) :
    Each R (p :: ps) (words :: rows) (out ++ outs)

/-- What was rewritten or is meaningful but was not transcribed is left out, white space becomes one space. -/
def cleaned (sws : List Subword) : List Subword :=
  sws.flatMap fun sw =>
    if sw.level ≠ 1 then [sw]
    else if ∃ c ∈ runes sw.word, Unicode.isSpace c = true then [⟨[' '.toNat.toUInt8], 1⟩] else []

/-- Runs of meaningful text are composed to syllables, meaningless text stays as it is. -/
inductive Composed : List Subword → Bytes → Prop
  | run {sws : List Subword} (h : ∀ s ∈ sws, s.level ≠ 0) : Composed sws (Jamo.composeHangul (sws.flatMap (·.word)))
  | split {a b : List Subword} {s : Subword} {x y : Bytes} (left : Composed a x) (h : s.level = 0) (right : Composed b y) :
    Composed (a ++ s :: b) (x ++ s.word ++ y)

/-- The letters after localization. -/
noncomputable def localized (sc : Script) (cs : List Rune) : List Rune :=
  if sc = .hrkt then (japanesePieces none cs).flatten else cs.filter (· ≠ zwsp)

/-- The letters after normalization; those introduced by the spec itself are exempt. -/
def normalized (sp : Spec) (cs : List Rune) : List Rune :=
  cs.map fun c => if sp.script.is c = true ∧ c ∉ sp.normLetters then sp.script.normalize c else c

/-- Letters of the script, punctuation known to the rules and white space are meaningful. -/
def Meaningful (sp : Spec) (c : Rune) : Prop :=
  sp.script.is c = true ∨ c ∈ sp.puncts ∨ Unicode.isSpace c = true

instance (sp : Spec) (c : Rune) : Decidable (Meaningful sp c) := by unfold Meaningful; infer_instance

/-- The events of a step: the text of all pieces after each rule.  NUL characters are shown as dots.  There are none when
no piece has been worked on. -/
def events (step : TStep) (rules : List Rule) (ps : List Subword) (rows : List (Option (List Bytes))) : List Trace :=
  if ∀ row ∈ rows, row = none then [] else
    rules.mapIdx fun k r =>
      { step, rule := some r,
        word := ((List.zipWith (fun (p : Subword) (row : Option (List Bytes)) =>
          match row with | none => p.word | some ws => ws.getD k []) ps rows).flatten).map fun b => if b = 0 then 0x2E else b }

/-- Transliteration: the translits in the given order. -/
inductive Transliterated (translits : List (Bytes × Translit)) : List Bytes → Bytes → List Trace → Bytes → Prop
  | done (w : Bytes) : Transliterated translits [] w [] w
  | scheme {s : Bytes} {t : Translit} {ss : List Bytes} {w w' out : Bytes} {evs : List Trace}
      (found : translits.lookup s = some t) (ok : t.transliterate w = .ok w')
      (rest : Transliterated translits ss w' evs out) :
    Transliterated translits (s :: ss) w ({ step := .transliterate, word := w', why := t.scheme } :: evs) out

/-- The whole procedure with its events. -/
def Hangulized (sp : Spec) (translits : List (Bytes × Translit)) (word : Bytes) (evs : List Trace) (out : Bytes) : Prop :=
  ∃ (w : Bytes) (evs1 : List Trace) (rows rows' : List (Option (List Bytes))) (rewritten transcribed : List Subword)
    (composed : Bytes),
    Transliterated translits sp.lang.translit word evs1 w ∧
    let w1 := replacePairs sp.normPairs w
    let w2 := encode (normalized sp (runes w1))
    let ps := chunks ((runes w2).map fun c => (c, if Meaningful sp c then 1 else 0))
    Each (Rewritten sp.rewrite) ps rows rewritten ∧
    let ps' := joined rewritten
    Each (Transcribed sp.transcribe) ps' rows' transcribed ∧
    Composed (joined (cleaned (joined transcribed))) composed ∧
    out = encode (localized sp.script (runes composed)) ∧
    evs = { step := .input, word } :: evs1 ++ { step := .normalize, word := w1 } ::
      { step := .normalize, word := w2, why := sp.lang.script } :: events .rewrite sp.rewrite ps rows ++
      events .transcribe sp.transcribe ps' rows' ++
      [{ step := .syllabify, word := composed }, { step := .localize, word := out, why := sp.lang.script }]

/-- The events of which the word is not that of the event before. -/
def changed : Bytes → List Trace → List Trace
  | _, [] => []
  | prev, e :: evs => if e.word = prev then changed prev evs else e :: changed e.word evs

end Verif.Spec.Reference
