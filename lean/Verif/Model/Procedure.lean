import Verif.Model.Jamo
import Verif.Model.SpecFile

/-!
# Model of procedure.go, trace.go, space.go, and of `hangulizer.Hangulize`

A tracing function is modelled as a log of the events passed to it; it is assumed to return.
-/

namespace Verif

open Unicode

/-! ## trace.go -/

/-- The values of `Trace.Step` (trace.go:46-95). -/
inductive TStep
  | input
  | transliterate
  | normalize
  | rewrite
  | transcribe
  | syllabify
  | localize
  deriving DecidableEq, Repr

/-- trace.go:10-15 `Trace`. -/
structure Trace where
  step : TStep
  word : Bytes
  why : Bytes := []
  rule : Option Rule := none

/-- trace.go:18-21 `tracer`: the log of events passed to the tracing function, and the last word. -/
structure TracerSt where
  log : List Trace
  prevWord : Bytes

/-- A `*tracer`, nil without a tracing function (trace.go:24-29 `newTracer`). -/
abbrev Tracer := Option TracerSt

/-- trace.go:32-42 `trace`. -/
def Tracer.trace (r : Tracer) (t : Trace) : Tracer :=
  match r with
  | none => none
  | some st => if st.prevWord = t.word then some st else some ⟨st.log ++ [t], t.word⟩

/-- trace.go:111-117 `subwordsTracerRecord`. -/
structure TRecord where
  rule : Rule
  subwords : List (Option Bytes)

/-- trace.go:98-103 `subwordsTracer.records`. -/
abbrev TRecords := List (Option TRecord)

/-- trace.go:120-135 `RecordSubword`: `n` is the number of subwords; nothing is recorded without a
tracer. -/
def recordSubword (tr : Tracer) (n : Nat) (recs : TRecords) (i : Nat) (word : Bytes) (rule : Rule) :
    TRecords :=
  match tr with
  | none => recs
  | some _ =>
    let recs := recs ++ List.replicate (rule.id + 1 - recs.length) none
    let rec_ := ((recs[rule.id]?).getD none).getD ⟨rule, List.replicate n none⟩
    recs.set rule.id (some { rec_ with subwords := rec_.subwords.set i (some word) })

/-- trace.go:149-155: the subwords updated by a record. -/
def applyRecord : List Bytes → List (Option Bytes) → List Bytes
  | ws, [] => ws
  | [], _ :: _ => []
  | w :: ws, o :: os => o.getD w :: applyRecord ws os

/-- The loop of `Commit` (trace.go:146-164).  A nil record is dereferenced: it panics. -/
def commitRecords (step : TStep) : Tracer → List Bytes → TRecords → Go Tracer
  | tr, _, [] => .ok tr
  | _, _, none :: _ => .panic
  | tr, ws, some rec_ :: recs =>
    let ws' := applyRecord ws rec_.subwords
    let tr' := if rec_.subwords.any Option.isSome then
        tr.trace { step, word := replaceAll [0] [0x2E] ws'.flatten, rule := some rec_.rule }
      else tr
    commitRecords step tr' ws' recs

/-- trace.go:139-165 `Commit`. -/
def commitTrace (step : TStep) (tr : Tracer) (subwords : List Subword) (recs : TRecords) : Go Tracer :=
  match tr with
  | none => .ok none
  | some _ => commitRecords step tr (subwords.map (·.word)) recs

/-! ## space.go -/

/-- space.go:9-12 `hasSpace`. -/
def hasSpace (word : Bytes) : Bool := (runes word).any isSpace

/-- space.go:16-26 `hasSpaceOnly`. -/
def hasSpaceOnly (word : Bytes) : Bool := !word.isEmpty && (runes word).all isSpace

/-! ## translit.go -/

/-- translit.go:6-12, the interface `Translit`: its scheme and its function.  An implementation with
internal state is not covered. -/
structure Translit where
  scheme : Bytes
  transliterate : Bytes → Go Bytes

/-! ## procedure.go -/

/-- procedure.go:54-71 `transliterate`, the loop over the schemes: the tracer keeps what was traced
before a failure. -/
def transliterateLoop (translits : List (Bytes × Translit)) : List Bytes → Bytes → Tracer →
    Go Bytes × Tracer
  | [], word, tr => (.ok word, tr)
  | scheme :: rest, word, tr =>
    match translits.lookup scheme with
    | none => (.err .translitNotImported, tr)
    | some t =>
      match t.transliterate word with
      | .ok word' =>
        transliterateLoop translits rest word'
          (tr.trace { step := .transliterate, word := word', why := t.scheme })
      | .err _ => (.err .translit, tr)
      | .panic => (.panic, tr)
      | .hang => (.hang, tr)

/-- procedure.go:89-95: the letters after per-script normalization. -/
def normalizeRune (s : Spec) (let_ : Rune) : Rune :=
  if s.normLetters.contains let_ || !s.script.is let_ then let_ else s.script.normalize let_

/-- procedure.go:80-82, per-spec normalization. -/
def normalizeSpec (s : Spec) (word : Bytes) : Bytes := replacePairs s.normPairs word

/-- procedure.go:84-97, per-script normalization. -/
def normalizeScript (s : Spec) (word : Bytes) : Bytes := encode ((runes word).map (normalizeRune s))

/-- procedure.go:78-100 `normalize`. -/
def normalizeStep (s : Spec) (word : Bytes) (tr : Tracer) : Bytes × Tracer :=
  let w1 := normalizeSpec s word
  let tr := tr.trace { step := .normalize, word := w1 }
  let w2 := normalizeScript s w1
  (w2, tr.trace { step := .normalize, word := w2, why := s.lang.script })

/-- procedure.go:116-124: whether a letter is meaningful. -/
def meaningful (s : Spec) (let_ : Rune) : Bool :=
  s.script.is let_ || s.puncts.contains let_ || hasSpaceOnly (encodeRune let_)

/-- procedure.go:113-124: the replacements of `partition`. -/
def partitionRepls (s : Spec) (word : Bytes) : List Repl :=
  (rangeStr word).filterMap fun (i, let_) =>
    if meaningful s let_ then some ⟨i, i + (encodeRune let_).length, encodeRune let_⟩ else none

/-- procedure.go:110-127 `partition`. -/
def partition (s : Spec) (word : Bytes) : Go (List Subword) := do
  let (sws, _) ← ((Replacer.new word 0 1).replaceBy (partitionRepls s word)).subwords
  return sws

/-- procedure.go:150-156, the loop over the rules for one subword. -/
def rewriteRules (tr : Tracer) (n i : Nat) : List Rule → Bytes → Replacer → TRecords →
    Go (Replacer × TRecords)
  | [], _, rep, recs => .ok (rep, recs)
  | rule :: rules, word, rep, recs => do
    let repls ← rule.replacements word
    let (word, rep) ← (rep.replaceBy repls).string
    rewriteRules tr n i rules word rep (recordSubword tr n recs i word rule)

/-- procedure.go:144-159, the loop over the subwords; returns what is written to the builder. -/
def rewriteLoop (tr : Tracer) (n : Nat) (rules : List Rule) : Nat → List Subword → TRecords →
    Go (List Subword × TRecords)
  | _, [], recs => .ok ([], recs)
  | i, sw :: sws, recs => do
    let (rep, recs) ← rewriteRules tr n i rules sw.word (Replacer.new sw.word sw.level 1) recs
    let (out, _) ← rep.subwords
    let (rest, recs) ← rewriteLoop tr n rules (i + 1) sws recs
    return (out ++ rest, recs)

/-- procedure.go:138-162 `rewrite`; the deferred commit runs after the result is computed. -/
def rewriteStep (s : Spec) (sws : List Subword) (tr : Tracer) : Go (List Subword × Tracer) := do
  let (out, recs) ← rewriteLoop tr sws.length s.rewrite 0 sws []
  let tr ← commitTrace .rewrite tr sws recs
  return (Builder.subwords out, tr)

/-- procedure.go:199-202: the masks for the replaced ranges. -/
def masks (repls : List Repl) : List Repl :=
  repls.map fun r => ⟨r.start, r.stop, List.replicate r.word.length 0⟩

/-- procedure.go:195-206, the loop over the rules for one subword. -/
def transcribeRules (tr : Tracer) (n i : Nat) : List Rule → Bytes → Replacer → Replacer → TRecords →
    Go (Replacer × TRecords)
  | [], _, rep, _, recs => .ok (rep, recs)
  | rule :: rules, word, rep, dummy, recs => do
    let repls ← rule.replacements word
    let rep := rep.replaceBy repls
    let (word, dummy) ← (dummy.replaceBy (masks repls)).string
    let (traced, rep) ← rep.string
    transcribeRules tr n i rules word rep dummy (recordSubword tr n recs i traced rule)

/-- procedure.go:179-209, the loop over the subwords. -/
def transcribeLoop (tr : Tracer) (n : Nat) (rules : List Rule) : Nat → List Subword → TRecords →
    Go (List Subword × TRecords)
  | _, [], recs => .ok ([], recs)
  | i, sw :: sws, recs => do
    if sw.level = 0 then
      let (rest, recs) ← transcribeLoop tr n rules (i + 1) sws recs
      return (sw :: rest, recs)
    else
      let (rep, recs) ← transcribeRules tr n i rules sw.word (Replacer.new sw.word sw.level 2)
        (Replacer.new sw.word 0 0) recs
      let (out, _) ← rep.subwords
      let (rest, recs) ← transcribeLoop tr n rules (i + 1) sws recs
      return (out ++ rest, recs)

/-- procedure.go:216-224: dropping what was never transcribed. -/
def discard (sws : List Subword) : List Subword :=
  sws.flatMap fun sw =>
    if sw.level = 1 then (if hasSpace sw.word then [⟨[0x20], 1⟩] else []) else [sw]

/-- procedure.go:173-227 `transcribe`. -/
def transcribeStep (s : Spec) (sws : List Subword) (tr : Tracer) : Go (List Subword × Tracer) := do
  let (out, recs) ← transcribeLoop tr sws.length s.transcribe 0 sws []
  let res := Builder.subwords (discard (Builder.subwords out))
  let tr ← commitTrace .transcribe tr sws recs
  return (res, tr)

/-- procedure.go:238-250, the loop of `syllabify`; `jamoBuf` is the text of the pending Jamo. -/
def syllabifyLoop : Bytes → List Subword → Bytes
  | jamoBuf, [] => Jamo.composeHangul jamoBuf
  | jamoBuf, sw :: sws =>
    if sw.level = 0 then Jamo.composeHangul jamoBuf ++ sw.word ++ syllabifyLoop [] sws
    else syllabifyLoop (jamoBuf ++ sw.word) sws

/-- procedure.go:234-255 `syllabify`. -/
def syllabifyStep (sws : List Subword) (tr : Tracer) : Bytes × Tracer :=
  let word := syllabifyLoop [] sws
  (word, tr.trace { step := .syllabify, word })

/-- Punctuation or space, at a position that may be outside the text (procedure.go:272-280). -/
def punctOrSpace : Option Rune → Bool
  | none => true
  | some ch => isPunct ch || isSpace ch

/-- `strings.TrimLeftFunc(s, unicode.IsSpace)` on runes. -/
def trimLeft (s : List Rune) : List Rune := s.dropWhile isSpace
/-- `strings.TrimRightFunc(s, unicode.IsSpace)` on runes. -/
def trimRight (s : List Rune) : List Rune := (s.reverse.dropWhile isSpace).reverse

/-- procedure.go:284-310, the loop of `localize`: `prev` is the rune before. -/
def localizeLoop (sc : Script) : Option Rune → List Rune → List Rune
  | _, [] => []
  | prev, ch :: rest =>
    if ch = 0x200B then localizeLoop sc (some ch) rest
    else if !isPunct ch then ch :: localizeLoop sc (some ch) rest
    else
      let punct := sc.localizePunct ch
      let punct := if punctOrSpace prev then trimLeft punct else punct
      let punct := if punctOrSpace rest.head? then trimRight punct else punct
      punct ++ localizeLoop sc (some ch) rest

/-- procedure.go:266-315 `localize`. -/
def localizeWord (sc : Script) (word : Bytes) : Bytes := encode (localizeLoop sc none (runes word))

/-- procedure.go:266-315 `localize` with its trace. -/
def localizeStep (s : Spec) (word : Bytes) (tr : Tracer) : Bytes × Tracer :=
  let word := localizeWord s.script word
  (word, tr.trace { step := .localize, word, why := s.lang.script })

/-- procedure.go:34-46: everything after `transliterate`. -/
def afterTranslit (s : Spec) (word : Bytes) (tr : Tracer) : Go (Bytes × Tracer) := do
  let (word, tr) := normalizeStep s word tr
  let sws ← partition s word
  let (sws, tr) ← rewriteStep s sws tr
  let (sws, tr) ← transcribeStep s sws tr
  let (word, tr) := syllabifyStep sws tr
  return localizeStep s word tr

/-- procedure.go:26-47 `forward`: the result and the tracer afterwards. -/
def forward (s : Spec) (translits : List (Bytes × Translit)) (word : Bytes) (tr : Tracer) :
    Go Bytes × Tracer :=
  let tr := tr.trace { step := .input, word }
  match transliterateLoop translits s.lang.translit word tr with
  | (.ok word, tr) =>
    match afterTranslit s word tr with
    | .ok (word, tr) => (.ok word, tr)
    | .err e => (.err e, tr)
    | .panic => (.panic, tr)
    | .hang => (.hang, tr)
  | r => r

/-- hangulize.go:78-81 `hangulizer.Hangulize` without a tracing function: the result only. -/
def hangulize (s : Spec) (translits : List (Bytes × Translit)) (word : Bytes) : Go Bytes :=
  (forward s translits word none).1

end Verif
