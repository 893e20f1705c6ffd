import Verif.Proofs.Subword

/-!
# Properties C06–C08: replacing and splitting words
-/

namespace Verif.Props
open Verif.Spec.Subword

/-- A replacer reachable through its API: created by `NewReplacer`, then any rounds of `ReplaceBy`
and `String`. -/
inductive Reachable : Replacer → Prop
  | new (w : Bytes) (a b : Int) : Reachable (Replacer.new w a b)
  | replaceBy {r : Replacer} (rs : List Repl) : Reachable r → Reachable (r.replaceBy rs)
  | string {r r' : Replacer} {w : Bytes} : Reachable r → r.string = .ok (w, r') → Reachable r'

theorem Reachable.wf {r : Replacer} (h : Reachable r) : r.WF := by
  induction h with
  | new w a b => exact Replacer.new_wf w a b
  | replaceBy rs _ ih => exact ih
  | @string r r' w _ e ih =>
    simp only [Replacer.string, Go.bind_eq_ok, Go.pure_eq, Go.ok.injEq, Prod.mk.injEq] at e
    obtain ⟨r'', h, h1, h2⟩ := e
    rcases Replacer.commit_cases ih with ⟨r3, h3, h4, _⟩ | h3
    · rw [h] at h3; cases h3; subst h2; exact h4
    · rw [h] at h3; cases h3

/-- C06: a replacer in any reachable state keeps one level per byte, and applying its buffered
replacements turns the described text into the edited text, byte by byte and level by level. -/
theorem C06_replacer_splice {r : Replacer} (hr : Reachable r) (es : List Edit) (rest : Tagged)
    (htext : r.word.zip r.levels = before es rest) (hrepls : r.repls = replsOf 0 es) :
    ∃ r', r.string = .ok ((after r.nextLevel es rest).map (·.1), r') ∧
      r'.word.zip r'.levels = after r.nextLevel es rest := by
  obtain ⟨r', h1, h2, h3, h4, h5⟩ := Replacer.commit_edits hr.wf htext hrepls
  refine ⟨r', ?_, h3⟩
  rw [← h3]
  have : r'.word = r'.tags.map (·.1) := (Replacer.tags_fst h2).symm
  simp [Replacer.string, h1, ← this]

/-- The rounds of a client: batches of replacements, then `String`. -/
def rounds : Replacer → List (List (List Repl)) → Go (List Bytes × Replacer)
  | r, [] => .ok ([], r)
  | r, batches :: more => do
    let (w, r) ← (batches.foldl Replacer.replaceBy r).string
    let (ws, r) ← rounds r more
    return (w :: ws, r)

theorem foldl_replaceBy : ∀ (batches : List (List Repl)) (r : Replacer),
    batches.foldl Replacer.replaceBy r = { r with repls := r.repls ++ batches.flatten } := by
  intro batches
  induction batches with
  | nil => intro r; simp
  | cons b bs ih => intro r; simp [ih, Replacer.replaceBy]

theorem rounds_session {lvl : Int} : ∀ {t t' : Tagged} {bss : List (List (List Repl))} {ws : List Bytes},
    Session lvl t bss ws t' → ∀ r : Replacer, r.WF → r.tags = t → r.repls = [] → r.nextLevel = lvl →
    ∃ r', rounds r bss = .ok (ws, r') ∧ r'.WF ∧ r'.tags = t' ∧ r'.repls = [] := by
  intro t t' bss ws h
  induction h with
  | done t => intro r h1 h2 h3 _; exact ⟨r, rfl, h1, h2, h3⟩
  | round es rest batches hb _ ih =>
    intro r h1 h2 h3 h4
    have hf := foldl_replaceBy batches r
    rw [h3, List.nil_append, hb] at hf
    obtain ⟨q, a, b, c, d, e⟩ := Replacer.commit_edits (r := { r with repls := replsOf 0 es }) h1 h2 rfl
    obtain ⟨r', f, g⟩ := ih q b (by rw [c, ← h4]) d (by rw [e, ← h4])
    refine ⟨r', ?_, g⟩
    have hw : q.word = (after lvl es rest).map (·.1) := by
      rw [← Replacer.tags_fst b, c, ← h4]
    simp [rounds, hf, Replacer.string, a, f, hw]

theorem tags_new (w : Bytes) (a b : Int) : (Replacer.new w a b).tags = w.map fun c => (c, a) := by
  simp only [Replacer.tags, Replacer.new]
  induction w with
  | nil => rfl
  | cons c w ih => simp [List.replicate_succ, ih]

/-- C06: from its creation on, a replacer returns in every round the text with all edits passed so far, and at the
end each byte is known with its level: the first level where it was never replaced, the next level otherwise. -/
theorem C06_replacer_session {w : Bytes} {prevLevel nextLevel : Int} {bss : List (List (List Repl))}
    {ws : List Bytes} {t : Tagged} (h : Session nextLevel (w.map fun b => (b, prevLevel)) bss ws t) :
    ∃ r, rounds (Replacer.new w prevLevel nextLevel) bss = .ok (ws, r) ∧ r.word.zip r.levels = t ∧ r.repls = [] := by
  obtain ⟨r, h1, _, h2, h3⟩ := rounds_session h (Replacer.new w prevLevel nextLevel) (Replacer.new_wf _ _ _)
    (tags_new w prevLevel nextLevel) rfl rfl
  exact ⟨r, h1, h2, h3⟩

/-- C06 on two rounds, the first with two batches. -/
example : ∃ t, Session 1 ((str "abcdef").map fun b => (b, 0))
    [[[⟨1, 2, str "XX"⟩], [⟨4, 6, str "Y"⟩]], [[⟨0, 3, str "Z"⟩]]] [str "aXXcdY", str "ZcdY"] t ∧
    t = [(0x5A, 1), (0x63, 0), (0x64, 0), (0x59, 1)] := by
  refine ⟨_, .round [⟨[(97, 0)], [(98, 0)], str "XX"⟩, ⟨[(99, 0), (100, 0)], [(101, 0), (102, 0)], str "Y"⟩] []
    _ (by decide +kernel) (.round [⟨[], [(97, 0), (0x58, 1), (0x58, 1)], str "Z"⟩] [(99, 0), (100, 0), (0x59, 1)]
    _ (by decide +kernel) (.done _)), by decide +kernel⟩

/-- C06: every sorted, disjoint, in-range list of replacements is covered by `C06_replacer_splice`. -/
theorem C06_proper_is_edits {r : Replacer} (hr : Reachable r) (h : Proper 0 r.word.length r.repls) :
    ∃ es rest, r.repls = replsOf 0 es ∧ r.word.zip r.levels = before es rest := by
  have hl := Replacer.tags_length hr.wf
  rw [← hl] at h
  obtain ⟨es, rest, h1, h2⟩ := exists_edits r.tags r.repls 0 h
  exact ⟨es, rest, h1, by simpa [Replacer.tags] using h2⟩

/-- C06: replacements that start before the previous one ends, or beyond the word, panic. -/
theorem C06_replacer_panics {r : Replacer} (hr : Reachable r) (pre : List Repl) (x : Repl) (post : List Repl)
    (hs : r.repls = pre ++ x :: post)
    (hx : r.word.length < x.start ∨ (∃ p, pre.getLast? = some p ∧ x.start < p.stop)) :
    r.string = .panic := by
  have key : ∀ (pre : List Repl) (off : Nat),
      (r.word.length < x.start ∨ (∃ p, pre.getLast? = some p ∧ x.start < p.stop)) →
      ¬ Fits off r.word.length (pre ++ x :: post) := by
    intro pre
    induction pre with
    | nil =>
      intro off h hf
      rcases h with h | ⟨p, h, _⟩
      · obtain ⟨_, h2, _⟩ := hf; omega
      · simp at h
    | cons p pre ih =>
      intro off h hf
      obtain ⟨_, _, hf⟩ := hf
      cases pre with
      | nil =>
        rcases h with h | ⟨q, h, h2⟩
        · exact ih p.stop (.inl h) hf
        · simp at h; subst h; obtain ⟨h3, _⟩ := hf; omega
      | cons q pre =>
        refine ih p.stop ?_ hf
        simpa using h
  simp [Replacer.string, Replacer.commit,
    commitLoop_panic r.word r.levels r.nextLevel hr.wf _ _ (hs ▸ key pre 0 hx)]

/-- C06 on a word with two edits and a later round on the result. -/
example : ((Replacer.new (str "abcdef") 0 1).replaceBy [⟨1, 2, str "XX"⟩, ⟨4, 6, str ""⟩]).string =
    .ok (str "aXXcd", ⟨str "aXXcd", [], [0, 1, 1, 0, 0], 1⟩) := by decide +kernel

example : before [⟨[(97, 0)], [(98, 0)], str "XX"⟩] [(99, 0)] = (str "abc").zip [0, 0, 0] ∧
    replsOf 0 [⟨[(97, 0)], [(98, 0)], str "XX"⟩] = [⟨1, 2, str "XX"⟩] := by decide +kernel

/-- C07: the subwords are the maximal runs of equal levels of the characters of the replaced word. -/
theorem C07_subwords_chunks {r r' : Replacer} {w : Bytes} (hr : Reachable r) (h : r.string = .ok (w, r')) :
    ∃ cs : LChars, r.subwords = .ok (chunks cs, r') ∧
      cs = (rangeStr w).map (fun p => (p.2, r'.levels.getD p.1 0)) := by
  have hw := (Reachable.string hr h).wf
  simp only [Replacer.string, Go.bind_eq_ok, Go.pure_eq, Go.ok.injEq, Prod.mk.injEq] at h
  obtain ⟨r'', h, h1, h2⟩ := h
  subst h1; subst h2
  exact ⟨_, Replacer.subwords_eq h hw, rfl⟩

/-- C07: the subwords partition the replaced word: they are non-empty, neighbours differ in level, and
for valid UTF-8 their concatenation is what `String` returns. -/
theorem C07_subwords_partition {r r' : Replacer} {w : Bytes} (hr : Reachable r)
    (h : r.string = .ok (w, r')) :
    ∃ sws, r.subwords = .ok (sws, r') ∧ Alternating sws ∧ (∀ s ∈ sws, s.word ≠ []) ∧
      (ValidUtf8 w → sws.flatMap (·.word) = w) := by
  obtain ⟨cs, h1, h2⟩ := C07_subwords_chunks hr h
  refine ⟨_, h1, chunks_alternating cs, chunks_nonempty cs, fun hv => ?_⟩
  rw [chunks_word, h2]
  have : (List.map (fun x => x.1) (List.map (fun p => (p.2, r'.levels.getD p.1 0)) (rangeStr w))) = runes w := by
    rw [← rangeStr_map_snd]; simp [Function.comp_def]
  rw [this, encode_runes hv]

example : ((Replacer.new (str "한abc") 0 1).replaceBy [⟨3, 4, str "XY"⟩]).subwords =
    .ok ([⟨str "한", 0⟩, ⟨str "XY", 1⟩, ⟨str "bc", 0⟩], ⟨str "한XYbc", [], [0, 0, 0, 1, 1, 0, 0], 1⟩) := by
  decide +kernel

/-- C08: merging keeps every byte at its level, and no two neighbours share a level afterwards. -/
theorem C08_builder_merge (sws : List Subword) (h : ∀ s ∈ sws, 0 ≤ s.level) :
    tagged (Builder.subwords sws) = tagged sws ∧ Alternating (Builder.subwords sws) := by
  cases sws with
  | nil => simp [Builder.subwords, Alternating]
  | cons s sws =>
    have hs : s.level ≠ -1 := by have := h s (by simp); omega
    have h' : ∀ s ∈ sws, s.level ≠ -1 := fun x hx => by have := h x (by simp [hx]); omega
    rw [builder_eq]
    refine ⟨?_, mergeLoop_alternating _ _ _ hs h'⟩
    rw [mergeLoop_tagged _ _ _ hs h']
    simp [tagged]

/-- C08: in particular the text is unchanged. -/
theorem C08_builder_text (sws : List Subword) (h : ∀ s ∈ sws, 0 ≤ s.level) :
    Builder.string (Builder.subwords sws) = Builder.string sws := by
  have := congrArg (List.map (·.1)) (C08_builder_merge sws h).1
  simpa [tagged, Builder.string, List.map_flatMap, Function.comp_def] using this

/-- C08: a list without equal neighbours is left alone, so merging is idempotent. -/
theorem C08_builder_idempotent (sws : List Subword) (h : ∀ s ∈ sws, 0 ≤ s.level) :
    (Alternating sws → Builder.subwords sws = sws) ∧
    Builder.subwords (Builder.subwords sws) = Builder.subwords sws := by
  have key : ∀ sws : List Subword, (∀ s ∈ sws, 0 ≤ s.level) → Alternating sws → Builder.subwords sws = sws := by
    intro sws h ha
    cases sws with
    | nil => rfl
    | cons s sws =>
      have hs : s.level ≠ -1 := by have := h s (by simp); omega
      have h' : ∀ s ∈ sws, s.level ≠ -1 := fun x hx => by have := h x (by simp [hx]); omega
      rw [builder_eq, mergeLoop_fix _ _ _ hs h' ha]
  refine ⟨key sws h, key _ ?_ (C08_builder_merge sws h).2⟩
  intro s hs
  obtain ⟨x, hx, e⟩ := builder_levels sws s hs
  rw [← e]; exact h x hx

example : Builder.subwords [⟨str "a", 1⟩, ⟨str "b", 1⟩, ⟨str "c", 0⟩] = [⟨str "ab", 1⟩, ⟨str "c", 0⟩] := by
  decide +kernel

end Verif.Props
