import Verif.Proofs.Trace
import Verif.Proofs.SpecFile
import Verif.Spec.Procedure

/-! The procedure as a function from the word to the result and the events. -/

namespace Verif

/-- `transliterate`: the result and the events. -/
def transliterateRun (translits : List (Bytes × Translit)) : List Bytes → Bytes → Go Bytes × List Trace
  | [], word => (.ok word, [])
  | scheme :: rest, word =>
    match translits.lookup scheme with
    | none => (.err .translitNotImported, [])
    | some t =>
      match t.transliterate word with
      | .ok word' =>
        let (r, evs) := transliterateRun translits rest word'
        (r, { step := .transliterate, word := word', why := t.scheme } :: evs)
      | .err _ => (.err .translit, [])
      | .panic => (.panic, [])
      | .hang => (.hang, [])

/-- What follows `transliterate`: the result and the events. -/
def afterRun (s : Spec) (word : Bytes) : Go (Bytes × List Trace) := do
  let w1 := normalizeSpec s word
  let w2 := normalizeScript s w1
  let sws ← partition s w2
  let (rows, out) ← rewriteAll s.rewrite sws
  let sws' := Builder.subwords out
  let (rows', out') ← transcribeAll s.transcribe sws'
  let w3 := syllabifyLoop [] (Builder.subwords (discard (Builder.subwords out')))
  let w4 := localizeWord s.script w3
  return (w4, { step := .normalize, word := w1 } :: { step := .normalize, word := w2, why := s.lang.script } ::
    (stepEvents .rewrite s.rewrite sws rows ++ stepEvents .transcribe s.transcribe sws' rows' ++
      [{ step := .syllabify, word := w3 }, { step := .localize, word := w4, why := s.lang.script }]))

theorem Tracer.traces_cons (tr : Tracer) (e : Trace) (evs : List Trace) :
    tr.traces (e :: evs) = (tr.trace e).traces evs := rfl

theorem Tracer.traces_append (tr : Tracer) (a b : List Trace) : tr.traces (a ++ b) = (tr.traces a).traces b := by
  simp [Tracer.traces]

theorem transliterateLoop_eq (translits : List (Bytes × Translit)) : ∀ (schemes : List Bytes) (word : Bytes)
    (tr : Tracer), transliterateLoop translits schemes word tr =
      ((transliterateRun translits schemes word).1, tr.traces (transliterateRun translits schemes word).2) := by
  intro schemes
  induction schemes with
  | nil => intro word tr; rfl
  | cons sc schemes ih =>
    intro word tr
    simp only [transliterateLoop, transliterateRun]
    cases translits.lookup sc with
    | none => rfl
    | some t =>
      simp only
      cases t.transliterate word with
      | ok w => simp only [ih]; rfl
      | _ => rfl

/-- A spec whose rules are numbered by their positions. -/
def Spec.Numbered (s : Spec) : Prop := Verif.Numbered s.rewrite ∧ Verif.Numbered s.transcribe

theorem afterTranslit_eq {s : Spec} (hs : s.Numbered) (word : Bytes) (tr : Tracer) :
    afterTranslit s word tr = (afterRun s word).bind fun p => .ok (p.1, tr.traces p.2) := by
  unfold afterTranslit afterRun normalizeStep
  simp only
  cases partition s (normalizeScript s (normalizeSpec s word)) with
  | ok sws =>
    simp only [Go.bind_ok, rewriteStep_eq hs.1]
    cases rewriteAll s.rewrite sws with
    | ok p =>
      obtain ⟨rows, out⟩ := p
      simp only [Go.bind, Go.bind_ok, transcribeStep_eq hs.2]
      cases transcribeAll s.transcribe (Builder.subwords out) with
      | ok p =>
        obtain ⟨rows', out'⟩ := p
        simp only [Go.bind_ok, Go.pure_eq, syllabifyStep, localizeStep, Tracer.traces_cons,
          Tracer.traces_append]
        rfl
      | _ => rfl
    | _ => rfl
  | _ => rfl

/-- `forward`: the result and the events. -/
def forwardRun (s : Spec) (translits : List (Bytes × Translit)) (word : Bytes) : Go Bytes × List Trace :=
  match transliterateRun translits s.lang.translit word with
  | (.ok word', evs) =>
    match afterRun s word' with
    | .ok (out, evs') => (.ok out, { step := .input, word } :: (evs ++ evs'))
    | .err e => (.err e, { step := .input, word } :: evs)
    | .panic => (.panic, { step := .input, word } :: evs)
    | .hang => (.hang, { step := .input, word } :: evs)
  | (r, evs) => (r, { step := .input, word } :: evs)

theorem forward_eq {s : Spec} (hs : s.Numbered) (translits : List (Bytes × Translit)) (word : Bytes) (tr : Tracer) :
    forward s translits word tr = ((forwardRun s translits word).1, tr.traces (forwardRun s translits word).2) := by
  unfold forward forwardRun
  simp only [transliterateLoop_eq]
  cases h : transliterateRun translits s.lang.translit word with
  | mk r evs =>
    cases r with
    | ok word' =>
      simp only [afterTranslit_eq hs]
      cases afterRun s word' with
      | ok p => obtain ⟨out, evs'⟩ := p; simp [Go.bind, Tracer.traces_cons, Tracer.traces_append]
      | _ => simp [Go.bind, Tracer.traces_cons]
    | _ => simp [Tracer.traces_cons]

theorem numbered_of_loop {o : Nat → Side → List (Bytes × Bytes) → List (Bytes × Bytes)}
    {macros : List (Bytes × Bytes)} {vars : List (Bytes × List Bytes)} {ps : List Hsl.Pair} {rules : List Rule}
    (h : newRulesLoop o macros vars 0 ps = .ok rules) : Numbered rules := by
  obtain ⟨hlen, h⟩ := newRulesLoop_spec h
  apply List.ext_getElem (by simp)
  intro j hj hj'
  simp only [List.length_map] at hj
  obtain ⟨h1, _⟩ := h j (by omega) hj
  simp only [List.getElem_map, List.getElem_range]
  omega

/-- Parsed specs are numbered. -/
theorem parseSpec_numbered {o : Ord} {src : Bytes} {sp : Spec} (h : parseSpec o src = .ok sp) : sp.Numbered := by
  obtain ⟨d, hd, _, _, _, _, _, ⟨rp, hrp, hr⟩, ⟨tp, htp, ht⟩, _⟩ := parseSpec_fields h
  exact ⟨numbered_of_loop hr, numbered_of_loop ht⟩

/-! ### The log -/

/-- The events with a word other than the word before, starting with `prev`. -/
def changes : Bytes → List Trace → List Trace
  | _, [] => []
  | prev, e :: evs => if prev = e.word then changes prev evs else e :: changes e.word evs

/-- The last word of a log. -/
def lastWord (prev : Bytes) (evs : List Trace) : Bytes := (evs.getLast?.map (·.word)).getD prev

theorem lastWord_cons (prev : Bytes) (e : Trace) (evs : List Trace) : lastWord prev (e :: evs) = lastWord e.word evs := by
  cases evs with
  | nil => rfl
  | cons a t => simp [lastWord, List.getLast?_cons]

theorem traces_eq : ∀ (evs : List Trace) (log : List Trace) (prev : Bytes),
    Tracer.traces (some ⟨log, prev⟩) evs = some ⟨log ++ changes prev evs, lastWord prev evs⟩ := by
  intro evs
  induction evs with
  | nil => intro log prev; simp [Tracer.traces, changes, lastWord]
  | cons e evs ih =>
    intro log prev
    rw [Tracer.traces_cons]
    simp only [Tracer.trace, lastWord_cons, changes]
    by_cases h : prev = e.word
    · simp only [h, ↓reduceIte, ih]
    · simp only [h, ↓reduceIte, ih]
      simp

theorem changes_last : ∀ (evs : List Trace) (prev : Bytes), lastWord prev (changes prev evs) = lastWord prev evs := by
  intro evs
  induction evs with
  | nil => intro prev; rfl
  | cons e evs ih =>
    intro prev
    rw [lastWord_cons]
    simp only [changes]
    by_cases h : prev = e.word
    · simp only [h, ↓reduceIte, ih]
    · simp only [h, ↓reduceIte, lastWord_cons, ih]

theorem changes_sublist : ∀ (evs : List Trace) (prev : Bytes), (changes prev evs).Sublist evs := by
  intro evs
  induction evs with
  | nil => intro prev; simp [changes]
  | cons e evs ih =>
    intro prev
    simp only [changes]
    by_cases h : prev = e.word
    · simp only [h, ↓reduceIte]; exact (ih _).cons _
    · simp only [h, ↓reduceIte]; exact (ih _).cons_cons _

theorem forwardRun_events {s : Spec} {translits : List (Bytes × Translit)} {word : Bytes} :
    ∃ evs, (forwardRun s translits word).2 = { step := .input, word } :: evs := by
  unfold forwardRun
  repeat' split
  all_goals exact ⟨_, rfl⟩

theorem afterRun_last {s : Spec} {word out : Bytes} {evs : List Trace} (h : afterRun s word = .ok (out, evs)) :
    ∃ evs', evs = evs' ++ [{ step := .localize, word := out, why := s.lang.script }] := by
  simp only [afterRun, Go.bind_eq_ok, Prod.exists, Go.pure_eq, Go.ok.injEq, Prod.mk.injEq] at h
  obtain ⟨sws, _, rows, o, _, rows', o', _, rfl, rfl⟩ := h
  exact ⟨{ step := .normalize, word := normalizeSpec s word } ::
    { step := .normalize, word := normalizeScript s (normalizeSpec s word), why := s.lang.script } ::
    (stepEvents .rewrite s.rewrite sws rows ++ stepEvents .transcribe s.transcribe (Builder.subwords o) rows' ++
      [{ step := .syllabify, word := syllabifyLoop [] (Builder.subwords (discard (Builder.subwords o'))) }]),
    by simp⟩

theorem forwardRun_last {s : Spec} {translits : List (Bytes × Translit)} {word out : Bytes}
    (h : (forwardRun s translits word).1 = .ok out) (prev : Bytes) :
    lastWord prev (forwardRun s translits word).2 = out := by
  unfold forwardRun at h ⊢
  cases h1 : transliterateRun translits s.lang.translit word with
  | mk r evs =>
    rw [h1] at h
    cases r with
    | ok word' =>
      simp only at h ⊢
      cases h2 : afterRun s word' with
      | ok p =>
        obtain ⟨out', evs'⟩ := p
        rw [h2] at h
        simp only [Go.ok.injEq] at h
        subst h
        obtain ⟨e, rfl⟩ := afterRun_last h2
        simp only [lastWord_cons, ← List.append_assoc]
        simp [lastWord]
      | _ => rw [h2] at h; simp at h
    | _ => simp at h

/-! ### The order of the events -/

open Verif.Spec.Procedure in
theorem forwardRun_stages (s : Spec) (translits : List (Bytes × Translit)) (word : Bytes) :
    ((forwardRun s translits word).2.map fun e => stage e.step).Pairwise (· ≤ ·) := by
  have hconst : ∀ (l : List Trace) (k : Nat), (∀ e ∈ l, stage e.step = k) →
      (l.map fun e => stage e.step).Pairwise (· ≤ ·) := by
    intro l k h
    have : l.map (fun e => stage e.step) = List.replicate l.length k := by
      rw [List.eq_replicate_iff]
      refine ⟨by simp, fun b hb => ?_⟩
      obtain ⟨e, he, rfl⟩ := List.mem_map.1 hb
      exact h e he
    rw [this]
    exact List.pairwise_replicate.2 (.inr (Nat.le_refl _))
  have h1 : ∀ schemes word, ∀ e ∈ (transliterateRun translits schemes word).2, stage e.step = 1 := by
    intro schemes
    induction schemes with
    | nil => intro word e he; simp [transliterateRun] at he
    | cons sc schemes ih =>
      intro word e he
      simp only [transliterateRun] at he
      split at he
      · simp at he
      · split at he
        · simp only [List.mem_cons] at he
          rcases he with rfl | he
          · rfl
          · exact ih _ e he
        all_goals simp at he
  have h2 : ∀ step rules orig rows, ∀ e ∈ stepEvents step rules orig rows, e.step = step := by
    intro step rules orig rows e he
    unfold stepEvents at he
    split at he
    · simp at he
    · obtain ⟨k, hk, rfl⟩ := List.mem_iff_getElem.1 he
      simp [ruleEvent]
  have hpre : ∀ evs : List Trace, (∀ e ∈ evs, stage e.step = 1) →
      ((({ step := .input, word } : Trace) :: evs).map fun e => stage e.step).Pairwise (· ≤ ·) := by
    intro evs he
    simp only [List.map_cons, List.pairwise_cons]
    exact ⟨fun _ _ => Nat.zero_le _, hconst evs 1 he⟩
  unfold forwardRun
  have h1' := h1 s.lang.translit word
  cases hr : transliterateRun translits s.lang.translit word with
  | mk r evs =>
    rw [hr] at h1'
    cases r with
    | ok w =>
      simp only
      cases ha : afterRun s w with
      | ok p =>
        obtain ⟨out, evs'⟩ := p
        simp only [afterRun, Go.bind_eq_ok, Prod.exists, Go.pure_eq, Go.ok.injEq, Prod.mk.injEq] at ha
        obtain ⟨sws, _, rows, o, _, rows', o', _, rfl, rfl⟩ := ha
        have hA := h2 .rewrite s.rewrite sws rows
        have hB := h2 .transcribe s.transcribe (Builder.subwords o) rows'
        generalize stepEvents .rewrite s.rewrite sws rows = A at hA
        generalize stepEvents .transcribe s.transcribe (Builder.subwords o) rows' = B at hB
        have hA' : ∀ e ∈ A, stage e.step = 3 := fun e he => by rw [hA e he]; rfl
        have hB' : ∀ e ∈ B, stage e.step = 4 := fun e he => by rw [hB e he]; rfl
        have pA := hconst A 3 hA'
        have pB := hconst B 4 hB'
        have pe := hconst evs 1 h1'
        simp only [List.map_cons, List.map_append, List.pairwise_cons, List.pairwise_append, List.mem_append,
          List.mem_map, List.mem_cons, List.not_mem_nil, or_false, List.map_nil]
        refine ⟨fun _ _ => Nat.zero_le _, pe, ⟨?_, ?_, ⟨pA, pB, ?_⟩, ?_, ?_⟩, ?_⟩
        · rintro a (rfl | (⟨e, he, rfl⟩ | ⟨e, he, rfl⟩) | rfl | rfl)
          · decide
          · rw [hA' e he]; decide
          · rw [hB' e he]; decide
          · decide
          · decide
        · rintro a ((⟨e, he, rfl⟩ | ⟨e, he, rfl⟩) | rfl | rfl)
          · rw [hA' e he]; decide
          · rw [hB' e he]; decide
          · decide
          · decide
        · rintro a ⟨e, he, rfl⟩ b ⟨e', he', rfl⟩
          rw [hA' e he, hB' e' he']; decide
        · refine ⟨?_, ?_⟩
          · rintro a rfl; decide
          · simp
        · rintro a (⟨e, he, rfl⟩ | ⟨e, he, rfl⟩) b (rfl | rfl)
          · rw [hA' e he]; decide
          · rw [hA' e he]; decide
          · rw [hB' e he]; decide
          · rw [hB' e he]; decide
        · rintro a ⟨e, he, rfl⟩ b (rfl | rfl | (⟨e', he', rfl⟩ | ⟨e', he', rfl⟩) | rfl | rfl)
          · rw [h1' e he]; decide
          · rw [h1' e he]; decide
          · rw [h1' e he, hA' e' he']; decide
          · rw [h1' e he, hB' e' he']; decide
          · rw [h1' e he]; decide
          · rw [h1' e he]; decide
      | _ => exact hpre evs h1'
    | _ => exact hpre evs h1'

end Verif
