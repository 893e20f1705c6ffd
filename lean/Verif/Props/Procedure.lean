import Verif.Proofs.Localize
import Verif.Proofs.Strings
import Verif.Props.Subword

/-! Properties C30–C40: the procedure. -/

namespace Verif.Props

open Verif.Spec.Subword Verif.Spec.Procedure

/-- A small spec for examples. -/
def greeting : Bytes :=
  str ("lang:\n\tcodes = \"xx\", \"xxx\"\n\tscript = \"Latn\"\nrewrite:\n\t\"ll\" -> \"l\"\n" ++
    "transcribe:\n\t\"h\" -> \"ㅎ\"\n\t\"e\" -> \"ㅔ\"\n\t\"l\" -> \"-ㄹㄹ\"\n\t\"o\" -> \"ㅗ\"\n")

/-- A fresh tracer. -/
def fresh : Tracer := some ⟨[], []⟩

/-! ## C30 -/

/-- C30: the result does not depend on the tracer. -/
theorem C30_trace_invisible {o : Ord} {src : Bytes} {sp : Spec} (h : parseSpec o src = .ok sp)
    (translits : List (Bytes × Translit)) (word : Bytes) (tr : Tracer) :
    (forward sp translits word tr).1 = hangulize sp translits word := by
  have hn := parseSpec_numbered h
  rw [hangulize, forward_eq hn, forward_eq hn]

example : ((parseSpec Ord.written greeting).bind fun sp => .ok ((forward sp [] (str "Hello, hello!") fresh).1,
    hangulize sp [] (str "Hello, hello!"))) =
    .ok (.ok (str "헬로, 헬로!"), .ok (str "헬로, 헬로!")) := by decide +kernel

/-! ## C31 -/

/-- C31: no event repeats the word before, the first one is the input, the events come in the order of the
steps, and the last one is the result. -/
theorem C31_trace_log {o : Ord} {src : Bytes} {sp : Spec} (h : parseSpec o src = .ok sp)
    (translits : List (Bytes × Translit)) (word : Bytes) :
    ∃ st, (forward sp translits word fresh).2 = some st ∧
      NoRepeat [] (st.log.map (·.word)) ∧
      (word ≠ [] → st.log.head? = some { step := .input, word }) ∧
      (st.log.map fun e => stage e.step).Pairwise (· ≤ ·) ∧
      (∀ out, (forward sp translits word fresh).1 = .ok out →
        (st.log.getLast?.map (·.word)).getD [] = out) := by
  have hn := parseSpec_numbered h
  obtain ⟨evs, he⟩ := forwardRun_events (s := sp) (translits := translits) (word := word)
  refine ⟨⟨changes [] (forwardRun sp translits word).2, lastWord [] (forwardRun sp translits word).2⟩, ?_, ?_, ?_,
    ?_, ?_⟩
  · rw [forward_eq hn, fresh, traces_eq]; simp
  · simp only
    generalize (forwardRun sp translits word).2 = evs
    generalize ([] : Bytes) = prev
    induction evs generalizing prev with
    | nil => exact trivial
    | cons e evs ih =>
      simp only [changes]
      by_cases hp : prev = e.word
      · simp only [hp, ↓reduceIte]; exact ih _
      · simp only [hp, ↓reduceIte, List.map_cons]; exact ⟨hp, ih _⟩
  · intro hw
    simp only [he, changes]
    rw [if_neg fun e => hw e.symm]
    rfl
  · simp only
    have hs := (changes_sublist (forwardRun sp translits word).2 []).map (fun e => stage e.step)
    refine List.Pairwise.sublist hs ?_
    exact forwardRun_stages sp translits word
  · intro out ho
    rw [forward_eq hn] at ho
    have := forwardRun_last ho []
    rw [← changes_last] at this
    exact this

example : ((parseSpec Ord.written greeting).bind fun sp => .ok ((forward sp [] (str "Hello!") fresh).2.map fun st =>
      st.log.map fun e => (e.step, e.word))) =
    .ok (some [(.input, str "Hello!"), (.normalize, str "hello!"), (.rewrite, str "helo!"),
      (.transcribe, str "ㅎelo!"), (.transcribe, str "ㅎㅔlo!"), (.transcribe, str "ㅎㅔ-ㄹㄹo!"),
      (.transcribe, str "ㅎㅔ-ㄹㄹㅗ!"), (.syllabify, str "헬로!")]) := by decide +kernel

/-! ## C32 -/

/-- C32: text nobody claims passes through. -/
theorem C32_pass_through {o : Ord} {src : Bytes} {sp : Spec} (h : parseSpec o src = .ok sp) (word : Bytes)
    (ht : sp.lang.translit = []) (w : Bytes) (hw : w = normalizeScript sp (normalizeSpec sp word))
    (hm : ∀ c ∈ runes w, sp.script.is c = false ∧ c ∉ sp.puncts ∧ Unicode.isSpace c = false)
    (hr : ∀ r ∈ sp.rewrite, r.replacements w = .ok []) (translits : List (Bytes × Translit)) :
    hangulize sp translits word = .ok (localizeWord sp.script w) := by
  have hn := parseSpec_numbered h
  have hv : ValidUtf8 w := hw ▸ encode_validUtf8 _
  have hmean : ∀ c ∈ runes w, meaningful sp c = false := by
    intro c hc
    obtain ⟨h1, h2, h3⟩ := hm c hc
    have : hasSpaceOnly (encodeRune c) = false := by
      have hr : runes (encodeRune c) = [c] := by
        have := runes_encode (rs := [c]) (by simpa using runes_valid w c hc)
        simpa using this
      simp [hasSpaceOnly, hr, h3]
    simp [meaningful, h1, h2, this]
  rw [hangulize, forward_eq hn, forwardRun, ht]
  simp only [transliterateRun, afterRun]
  rw [← hw, partition_eq sp hv]
  have hmap : ((runes w).map fun c => (c, if meaningful sp c then (1 : Int) else 0)) = (runes w).map fun c => (c, 0) := by
    apply List.map_congr_left
    intro c hc
    simp [hmean c hc]
  rw [hmap, chunks_const' 0 w hv]
  have hrun : ∀ (rules : List Rule), (∀ r ∈ rules, r.replacements w = .ok []) → ∀ rep : Replacer, rep.Clean →
      rep.word = w → ∃ ws rep', rewriteRun rules w rep = .ok (ws, rep') ∧ rep'.Clean ∧ rep'.tags = rep.tags := by
    intro rules
    induction rules with
    | nil => intro _ rep hc _; exact ⟨_, _, rfl, hc, rfl⟩
    | cons r rules ih =>
      intro hr rep hc hwd
      rcases string_cases hc [] with ⟨_, rep1, h1, h2, h3, h4⟩ | ⟨h1, _⟩
      · have e : rep1.tags = rep.tags := by simpa [splice] using h4
        have ew : rep1.word = w := by rw [← Replacer.tags_fst h2.wf, e, Replacer.tags_fst hc.wf, hwd]
        obtain ⟨ws, rep', h5, h6, h7⟩ := ih (fun r hr' => hr r (by simp [hr'])) rep1 h2 ew
        exact ⟨rep1.word :: ws, rep', by simp [rewriteRun, hr r (by simp), h1, ew, h5], h6, h7.trans e⟩
      · simp [Inside] at h1
  by_cases hne : w = []
  · subst hne
    simp only [if_true]
    rfl
  · simp only [hne, if_false]
    obtain ⟨ws, rep', h1, h2, h3⟩ := hrun sp.rewrite hr (Replacer.new w 0 1) (Replacer.new_clean _ _ _) rfl
    have hl : rep'.lchars = (runes w).map fun c => (c, 0) := by
      refine lchars_marked h2.wf (runes_valid w) (f := fun _ => 0) ?_
      rw [h3, Replacer.new_tags, marked_const, encode_runes hv]
    have h4 : rewriteAll sp.rewrite [⟨w, 0⟩] = .ok ([some ws], [⟨w, 0⟩]) := by
      simp only [rewriteAll, h1, Go.bind_ok, subwords_ok h2, hl, chunks_const' 0 w hv, hne, if_false, Go.pure_eq]
      rfl
    have h5 : transcribeAll sp.transcribe [⟨w, 0⟩] = .ok ([none], [⟨w, 0⟩]) := by simp [transcribeAll]
    have h6 : syllabifyLoop [] [⟨w, 0⟩] = w := by
      simp only [syllabifyLoop, ↓reduceIte]
      rw [show Jamo.composeHangul [] = [] from rfl]; simp
    have h7 : Builder.subwords [⟨w, 0⟩] = [⟨w, 0⟩] := by simp [Builder.subwords, Builder.mergeLoop]
    have h8 : discard [⟨w, 0⟩] = [⟨w, 0⟩] := by simp [discard]
    simp only [Go.bind_ok, h4, h5, h6, h7, h8, Go.pure_eq]

example : ((parseSpec Ord.written greeting).bind fun sp => hangulize sp [] (str "123。​☆")) = .ok (str "123。☆") := by
  decide +kernel

/-! ## C33 -/

/-- C33: in the transcribe step, a later rule only replaces text no earlier rule replaced. -/
theorem C33_transcribed_once (tr : Tracer) (n i : Nat) {rules : List Rule} (hn : ∀ r ∈ rules, NoNul r)
    {word : Bytes} {level : Int} (hl : level ≠ 2) {rep : Replacer} {recs recs' : TRecords}
    (h : transcribeRules tr n i rules word (Replacer.new word level 2) (Replacer.new word 0 0) recs = .ok (rep, recs')) :
    TranscribedOnce rules (word.map fun b => (b, level)) (rep.word.zip rep.levels) := by
  rw [transcribeRules_eq, Rx.go_bind_ok] at h
  obtain ⟨p, h1, h2⟩ := h
  obtain ⟨ws, rep'⟩ := p
  simp only [Go.ok.injEq, Prod.mk.injEq] at h2
  obtain ⟨rfl, _⟩ := h2
  have ht := Replacer.new_tags word level 2
  have := (transcribeRun_once (Replacer.new_clean word level 2) (Replacer.new_clean word 0 0) rfl rfl
    (by rw [ht, hidden_at hl]; rfl) hn h1).2
  rw [ht] at this
  exact this

/-- C33: the masked copy always has as many bytes as the real one, so neither of the two replacers panics
alone. -/
theorem C33_lockstep {rep dummy : Replacer} (hr : rep.Clean) (hd : dummy.Clean) (rs : List Repl)
    (hl : dummy.word.length = rep.word.length) {w w' : Bytes} {rep' dummy' : Replacer} :
    ((rep.replaceBy rs).string = .panic ↔ (dummy.replaceBy (masks rs)).string = .panic) ∧
    ((rep.replaceBy rs).string = .ok (w, rep') → (dummy.replaceBy (masks rs)).string = .ok (w', dummy') →
      w'.length = w.length) := by
  have e : dummy.tags.length = rep.tags.length := by
    rw [Replacer.tags_length hr.wf, Replacer.tags_length hd.wf, hl]
  refine ⟨?_, fun h1 h2 => ?_⟩
  · rcases string_cases hr rs with ⟨h1, r1, h2, _⟩ | ⟨h1, h2⟩ <;>
      rcases string_cases hd (masks rs) with ⟨h3, r3, h4, _⟩ | ⟨h3, h4⟩
    · rw [h2, h4]; simp
    · rw [inside_masks, e] at h3; exact absurd h1 h3
    · rw [inside_masks, e] at h3; exact absurd h3 h1
    · rw [h2, h4]
  · have a := word_splice hr h1
    have b := word_splice hd h2
    obtain ⟨_, rfl, _⟩ := string_ok hr h1
    obtain ⟨_, rfl, _⟩ := string_ok hd h2
    rw [a, b]
    have : ∀ (rs : List Repl) (off : Nat), (splice id dummy.word off (masks rs)).length =
        (splice id rep.word off rs).length := by
      intro rs
      induction rs with
      | nil => intro off; simp [splice, masks, hl]
      | cons r rs ih => intro off; simp only [masks] at ih; simp [splice, masks, ih, hl]
    exact this rs 0

/-! ## C34 -/

/-- C34: with well-behaved rules nothing panics, hangs or fails but a translit. -/
theorem C34_no_panic {o : Ord} {src : Bytes} {sp : Spec} (h : parseSpec o src = .ok sp)
    (hr : ∀ r ∈ sp.rewrite ++ sp.transcribe, WellBehaved r) (translits : List (Bytes × Translit)) (word : Bytes)
    (tr : Tracer) {w : Bytes} (ht : (transliterateLoop translits sp.lang.translit word tr).1 = .ok w) :
    ∃ out, (forward sp translits word tr).1 = .ok out := by
  have hn := parseSpec_numbered h
  rw [transliterateLoop_eq] at ht
  simp only at ht
  rw [forward_eq hn, forwardRun]
  cases hrun : transliterateRun translits sp.lang.translit word with
  | mk r evs =>
    rw [hrun] at ht
    simp only at ht
    subst ht
    simp only [afterRun]
    rw [partition_eq sp (normalizeScript_valid sp _)]
    simp only [Go.bind_ok]
    generalize chunks _ = sws
    obtain ⟨rows, out, h1⟩ := rewriteAll_ok (fun r hr' => hr r (List.mem_append_left _ hr')) sws
    obtain ⟨rows', out', h2⟩ := transcribeAll_ok (fun r hr' => hr r (List.mem_append_right _ hr')) (Builder.subwords out)
    simp only [h1, h2, Go.bind_ok, Go.pure_eq]
    exact ⟨_, rfl⟩

/-! ## C35 -/

/-- C35: the text between the steps has level 0 or 1. -/
theorem C35_levels {sp : Spec} {tr tr' : Tracer} {w : Bytes} {sws sws' : List Subword} (hv : ValidUtf8 w)
    (h1 : partition sp w = .ok sws) (h2 : rewriteStep sp sws tr = .ok (sws', tr')) :
    ∀ sw ∈ sws', sw.level = 0 ∨ sw.level = 1 := by
  rw [partition_eq sp hv] at h1
  simp only [Go.ok.injEq] at h1
  have hsws : ∀ sw ∈ sws, sw.level = 0 ∨ sw.level = 1 := by
    subst h1
    intro sw hsw
    obtain ⟨c, hc, e⟩ := chunks_level hsw (chunks_nonempty _ _ hsw)
    obtain ⟨x, _, rfl⟩ := List.mem_map.1 hc
    rw [← e]
    simp only
    split <;> simp
  unfold rewriteStep at h2
  rw [rewriteLoop_eq] at h2
  simp only [Go.bind_eq_ok, Prod.exists, Go.pure_eq, Go.ok.injEq, Prod.mk.injEq] at h2
  obtain ⟨out, recs, h3, tr2, h4, rfl, rfl⟩ := h2
  rw [Rx.go_bind_ok] at h3
  obtain ⟨⟨rows, out'⟩, h5, h6⟩ := h3
  simp only [Go.ok.injEq, Prod.mk.injEq] at h6
  obtain ⟨rfl, _⟩ := h6
  exact builder_levels' (P := fun l => l = 0 ∨ l = 1) (rewriteAll_levels (P := fun l => l = 0 ∨ l = 1) (.inr rfl) hsws h5)

/-- What becomes of a run of text of one level when the left-overs are removed. -/
def leftOver (sw : Subword) : Tagged :=
  if sw.level = 1 then (if (runes sw.word).any Unicode.isSpace then [(0x20, 1)] else [])
  else sw.word.map fun b => (b, sw.level)

/-- C35: of the left-overs only single spaces remain: each maximal run of them becomes one space if it contains
white space, and disappears otherwise. -/
theorem C35_left_overs {sp : Spec} {tr tr' : Tracer} {sws res : List Subword}
    (hl : ∀ sw ∈ sws, sw.level = 0 ∨ sw.level = 1) (h : transcribeStep sp sws tr = .ok (res, tr')) :
    (∀ sw ∈ res, sw.level = 1 → sw.word = [0x20]) ∧
    ∃ out recs runs, transcribeLoop tr sws.length sp.transcribe 0 sws [] = .ok (out, recs) ∧
      Alternating runs ∧ tagged runs = tagged out ∧ tagged res = runs.flatMap leftOver := by
  unfold transcribeStep at h
  simp only [Go.bind_eq_ok, Prod.exists, Go.pure_eq, Go.ok.injEq, Prod.mk.injEq] at h
  obtain ⟨out, recs, h1, tr2, _, rfl, rfl⟩ := h
  have hout : ∀ sw ∈ out, 0 ≤ sw.level := by
    have h1' := h1
    rw [transcribeLoop_eq, Rx.go_bind_ok] at h1'
    obtain ⟨⟨rows, out'⟩, h5, h6⟩ := h1'
    simp only [Go.ok.injEq, Prod.mk.injEq] at h6
    obtain ⟨rfl, _⟩ := h6
    exact transcribeAll_levels (P := fun l => 0 ≤ l) (by simp)
      (fun sw hs => by rcases hl sw hs with e | e <;> rw [e] <;> simp) h5
  have hruns := builder_levels' (P := fun l => 0 ≤ l) hout
  obtain ⟨ht, ha⟩ := C08_builder_merge out hout
  have hd : ∀ sw ∈ discard (Builder.subwords out), 0 ≤ sw.level := by
    intro sw hsw
    obtain ⟨x, hx, hm⟩ := List.mem_flatMap.1 hsw
    split at hm
    · split at hm
      · simp only [List.mem_singleton] at hm; subst hm; simp
      · simp at hm
    · simp only [List.mem_singleton] at hm; subst hm; exact hruns _ hx
  obtain ⟨ht2, ha2⟩ := C08_builder_merge (discard (Builder.subwords out)) hd
  have key : tagged (discard (Builder.subwords out)) = (Builder.subwords out).flatMap leftOver := by
    generalize Builder.subwords out = l
    induction l with
    | nil => rfl
    | cons sw l ih =>
      simp only [discard, tagged] at ih
      simp only [discard, tagged, List.flatMap_cons, List.flatMap_append, leftOver, hasSpace]
      congr 1
      by_cases h1 : sw.level = 1
      · simp only [h1, ↓reduceIte]
        split <;> rename_i hs <;> simp only [hs] <;> simp
      · simp [h1]
  refine ⟨?_, out, recs, Builder.subwords out, h1, ha, ht, ht2.trans key⟩
  exact discard_spaces ha hruns

example : ((parseSpec Ord.written (str "transcribe:\n\"a\" -> \"ㅏ\"")).bind fun sp =>
      hangulize sp [] (str "bab  \t c a1d")) = .ok (str "아 아1") := by
  decide +kernel

/-! ## C36 -/

/-- C36: other scripts than kana only lose zero-width spaces. -/
theorem C36_other_scripts {sc : Script} (h : sc ≠ .hrkt) (w : Bytes) :
    runes (localizeWord sc w) = (runes w).filter (· ≠ zwsp) := by
  rw [localizeWord_runes, localizeLoop_plain h]

/-- C36: in kana text, each letter becomes what `japanesePiece` says: nothing for a zero-width space, the
listed replacement for the listed punctuation, otherwise itself. -/
theorem C36_kana (w : Bytes) : runes (localizeWord .hrkt w) = (japanesePieces none (runes w)).flatten := by
  rw [localizeWord_runes, localizeLoop_hrkt]

/-- C36: localizing again changes nothing. -/
theorem C36_idempotent (sc : Script) (w : Bytes) : localizeWord sc (localizeWord sc w) = localizeWord sc w := by
  rw [localizeWord, localizeWord_runes, localizeLoop_id]
  · rfl
  · intro c hc
    obtain ⟨h1, _, h2⟩ := localizeLoop_mem hc (runes_valid w)
    exact ⟨h1, h2⟩

example : localizeWord .hrkt (str "「아」​와、이。『우』？") = str "'아' 와, 이.\"우\"?" := by decide +kernel

/-! ## C37 -/

/-- C37 fails if a zero-width space is at the end or next to the punctuation. -/
theorem C37_spaces_refuted : localizeWord .hrkt (str "아。​") = str "아. " ∧
    localizeWord .hrkt (str "아。​ 이") = str "아.  이" := by decide +kernel

/-- C37 (partial): in text without zero-width spaces, a space is only introduced between two letters neither
of which is a space.  Missing: zero-width spaces, with which it is false (`C37_spaces_refuted`). -/
theorem C37_spaces_partial (w : Bytes) (hz : zwsp ∉ runes w) (pre : List Rune) (c : Rune) (post : List Rune)
    (hs : runes w = pre ++ c :: post) (hc : japanese.lookup c ≠ none) :
    ∃ a piece b, runes (localizeWord .hrkt w) = a ++ piece ++ b ∧ piece = japanesePiece pre.getLast? c post.head? ∧
      (piece.head? = some 0x20 → ∃ x, a.getLast? = some x ∧ Unicode.isSpace x = false) ∧
      (piece.getLast? = some 0x20 → ∃ x, b.head? = some x ∧ Unicode.isSpace x = false) := by
  rw [C36_kana, hs]
  rw [hs] at hz
  obtain ⟨a, b, h1, _, h2, h3⟩ := pieces_split pre none c post
  refine ⟨a, _, b, h1, by simp, ?_, ?_⟩
  · intro hp
    obtain ⟨x, hx, hp1, hs1⟩ := piece_head hp hc
    simp only [Option.or_none] at hx
    obtain ⟨pre', rfl⟩ := List.getLast?_eq_some_iff.1 hx
    exact ⟨x, h2 pre' x rfl (by simp only [List.mem_append, List.mem_cons, List.not_mem_nil, or_false] at hz; grind) hp1, hs1⟩
  · intro hp
    obtain ⟨x, hx, hp1, hs1⟩ := piece_last hp hc
    cases post with
    | nil => simp at hx
    | cons y post =>
      simp only [List.head?_cons, Option.some.injEq] at hx
      subst hx
      exact ⟨y, h3 y post rfl (by simp only [List.mem_append, List.mem_cons] at hz; grind) hp1, hs1⟩

/-! ## C39 -/

/-- C39: the output is valid UTF-8 without zero-width spaces. -/
theorem C39_valid_output (sp : Spec) (translits : List (Bytes × Translit)) (word out : Bytes)
    (h : hangulize sp translits word = .ok out) : ValidUtf8 out ∧ zwsp ∉ runes out := by
  have key : ∃ w, out = localizeWord sp.script w := by
    unfold hangulize forward at h
    simp only at h
    split at h
    · simp only [afterTranslit] at h
      split at h
      · rename_i e
        simp only [Go.bind_eq_ok, Go.pure_eq, Go.ok.injEq] at e
        obtain ⟨sws, _, ⟨sws1, tr1⟩, _, ⟨sws2, tr2⟩, _, e⟩ := e
        simp only [Go.ok.injEq] at h
        subst h
        have := congrArg Prod.fst e
        exact ⟨_, this.symm⟩
      all_goals simp at h
    · rename_i e
      exfalso
      exact e out _ (Prod.ext h rfl)
  obtain ⟨w, rfl⟩ := key
  refine ⟨localizeWord_valid _ _, ?_⟩
  rw [localizeWord_runes]
  intro hc
  exact (localizeLoop_mem hc (runes_valid w)).1 rfl

example : ((parseSpec Ord.written greeting).bind fun sp => hangulize sp [] ([0xFF, 0xC3] ++ str "helo​")) =
    .ok (str "��헬로") := by decide +kernel

/-! ## C40 -/

/-- C40: the empty word. -/
theorem C40_empty {o : Ord} (ho : o.Ok) {src : Bytes} {sp : Spec} (h : parseSpec o src = .ok sp)
    (ht : sp.lang.translit = []) (hne : ∀ e ∈ sp.normalize, [] ∉ e.2) (translits : List (Bytes × Translit)) :
    hangulize sp translits [] = .ok [] := by
  have hn := parseSpec_numbered h
  have hspec : normalizeSpec sp [] = [] := by
    obtain ⟨_, _, _, _, _, _, _, _, _, _, _, _, _, hp, _⟩ := parseSpec_fields h
    have hk : ∀ p ∈ sp.normPairs, p.1 ≠ [] := by
      rw [hp]
      intro p hp
      have := (normArgs_perm (ho.2 sp.normalize)).mem_iff.1 hp
      simp only [normArgs, List.mem_flatMap, List.mem_map] at this
      obtain ⟨e, he, f, hf, rfl⟩ := this
      exact fun e' => hne e he (by rw [← e']; exact hf)
    exact replacePairs_nil hk
  rw [hangulize, forward_eq hn, forwardRun, ht]
  simp only [transliterateRun, afterRun, hspec]
  rfl

/-- An empty source in the normalize section matches the empty word. -/
example : ((parseSpec Ord.written (str "normalize:\na = \"\"\ntranscribe:\na -> \"ㅏ\"")).bind fun sp =>
    hangulize sp [] []) = .ok (str "아") := by decide +kernel

end Verif.Props
