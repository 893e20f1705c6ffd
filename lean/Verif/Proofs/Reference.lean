import Verif.Spec.Reference
import Verif.Proofs.Forward
import Verif.Proofs.Partition
import Verif.Proofs.Localize
import Verif.Proofs.Expand

/-! The procedure computes what the reference says. -/

namespace Verif

open Spec.Subword Spec.Procedure Spec.Reference

/-! ### Joining -/

theorem blocks_at {w : Bytes} (hw : w ≠ []) (l : Int) (t : Tagged) : blocks (at_ l w ++ t) =
    match blocks t with
    | [] => [⟨w, l⟩]
    | s :: rest => if l = s.level then ⟨w ++ s.word, l⟩ :: rest else ⟨w, l⟩ :: s :: rest := by
  induction w with
  | nil => contradiction
  | cons b w ih =>
    show blocks ((b, l) :: (at_ l w ++ t)) = _
    rw [blocks]
    by_cases h : w = []
    · subst h
      show (match blocks t with | [] => _ | s :: rest => _) = _
      cases blocks t <;> simp
    · rw [ih h]
      cases blocks t with
      | nil => simp
      | cons s rest =>
        by_cases hl : l = s.level
        · simp [hl]
        · simp [hl]

theorem mergeLoop_blocks : ∀ (sws : List Subword) (m : Int) (buf : Bytes), buf ≠ [] → m ≠ -1 →
    (∀ s ∈ sws, s.level ≠ -1 ∧ s.word ≠ []) → Builder.mergeLoop m buf sws = blocks (at_ m buf ++ tagged sws) := by
  intro sws
  induction sws with
  | nil =>
    intro m buf hb _ _
    rw [blocks_at hb]
    rfl
  | cons s sws ih =>
    intro m buf hb hm hs
    obtain ⟨h1, h2⟩ := hs s (by simp)
    have hs' := fun x hx => hs x (List.mem_cons_of_mem _ hx)
    have ht : tagged (s :: sws) = at_ s.level s.word ++ tagged sws := rfl
    rw [Builder.mergeLoop, ht]
    by_cases he : s.level = m
    · rw [if_neg (by simp [he]), ih _ _ (by simp [hb]) h1 hs', he, at_append, List.append_assoc]
    · rw [if_pos ⟨he, hm⟩, ih _ _ h2 h1 hs', blocks_at hb m]
      rw [blocks_at h2]
      cases blocks (tagged sws) with
      | nil => simp only; rw [if_neg (Ne.symm he)]
      | cons a rest =>
        simp only
        split
        · simp only; rw [if_neg (Ne.symm he)]
        · simp only; rw [if_neg (Ne.symm he)]

theorem builder_joined {sws : List Subword} (h : ∀ s ∈ sws, s.level ≠ -1 ∧ s.word ≠ []) :
    Builder.subwords sws = joined sws := by
  cases sws with
  | nil => rfl
  | cons s sws =>
    obtain ⟨h1, h2⟩ := h s (by simp)
    rw [builder_eq, mergeLoop_blocks _ _ _ h2 h1 fun x hx => h x (List.mem_cons_of_mem _ hx)]
    rfl

theorem blocks_nonempty : ∀ (t : Tagged), ∀ s ∈ blocks t, s.word ≠ []
  | [] => by simp [blocks]
  | (b, l) :: t => by
    have ih := blocks_nonempty t
    rw [blocks]
    cases hb : blocks t with
    | nil => simp
    | cons a rest =>
      rw [hb] at ih
      simp only
      split
      · intro s hs
        rcases List.mem_cons.1 hs with rfl | hs
        · simp
        · exact ih s (by simp [hs])
      · intro s hs
        rcases List.mem_cons.1 hs with rfl | hs
        · simp
        · exact ih s hs

/-! ### Rules -/

theorem Replacer.pieces_eq {r : Replacer} (h : r.Clean) : r.subwords = .ok (pieces r.tags, r) := by
  rw [subwords_ok h, pieces, letters, text, Replacer.tags_fst h.wf, Replacer.lchars, leveled]
  have : ∀ i, r.levels.getD i 0 = (r.tags[i]?.map (·.2)).getD 0 := by
    intro i
    rw [← List.getElem?_map, Replacer.tags_snd h.wf, List.getD_eq_getElem?_getD]
  simp only [this]

theorem rewriteRun_applied : ∀ {rules : List Rule} {w : Bytes} {rep : Replacer}, rep.Clean → rep.nextLevel = 1 →
    rep.word = w →
    (∀ ws rep', rewriteRun rules w rep = .ok (ws, rep') → rep'.Clean ∧ Applied 1 text rules rep.tags ws rep'.tags) ∧
    (∀ ws t, Applied 1 text rules rep.tags ws t →
      ∃ rep', rewriteRun rules w rep = .ok (ws, rep') ∧ rep'.Clean ∧ rep'.tags = t) := by
  intro rules
  induction rules with
  | nil =>
    intro w rep hc hn hw
    refine ⟨fun ws rep' h => ?_, fun ws t h => ?_⟩
    · simp only [rewriteRun, Go.ok.injEq, Prod.mk.injEq] at h
      obtain ⟨rfl, rfl⟩ := h
      exact ⟨hc, .done _⟩
    · cases h
      exact ⟨rep, rfl, hc, rfl⟩
  | cons r rules ih =>
    intro w rep hc hn hw
    have hview : text rep.tags = w := by rw [text, Replacer.tags_fst hc.wf, hw]
    refine ⟨fun ws rep' h => ?_, fun ws t h => ?_⟩
    · simp only [rewriteRun, Go.bind_eq_ok, Prod.exists, Go.pure_eq, Go.ok.injEq, Prod.mk.injEq] at h
      obtain ⟨rs, h1, w1, rep1, h2, ws1, rep2, h3, rfl, rfl⟩ := h
      obtain ⟨k1, rfl, k3, k4, k5⟩ := string_ok hc h2
      obtain ⟨k6, k7⟩ := (ih k3 (k4.trans hn) rfl).1 _ _ h3
      rw [k5, hn] at k7
      refine ⟨k6, ?_⟩
      have e : rep1.word = text (splice (at_ 1) rep.tags 0 rs) := by
        rw [← Replacer.tags_fst k3.wf, k5, hn]; rfl
      rw [e]
      exact .rule rs (by rw [hview]; exact h1) k1 k7
    · cases h with
      | rule rs seen inside rest =>
        rw [hview] at seen
        rcases string_cases hc rs with ⟨_, rep1, h2, k3, k4, k5⟩ | ⟨h1, _⟩
        · rw [hn] at k4 k5
          rw [← k5] at rest ⊢
          obtain ⟨rep', g1, g2, g3⟩ := (ih k3 k4 rfl).2 _ _ rest
          refine ⟨rep', ?_, g2, g3⟩
          simp only [rewriteRun, seen, h2, g1, Go.bind_ok, Go.pure_eq]
          rw [text, Replacer.tags_fst k3.wf]
        · exact absurd inside h1

theorem transcribeRun_applied : ∀ {rules : List Rule} {w : Bytes} {rep dummy : Replacer}, rep.Clean → dummy.Clean →
    rep.nextLevel = 2 → dummy.word = w → w = hidden rep.tags →
    (∀ ws rep', transcribeRun rules w rep dummy = .ok (ws, rep') →
      rep'.Clean ∧ Applied 2 hidden rules rep.tags ws rep'.tags) ∧
    (∀ ws t, Applied 2 hidden rules rep.tags ws t →
      ∃ rep', transcribeRun rules w rep dummy = .ok (ws, rep') ∧ rep'.Clean ∧ rep'.tags = t) := by
  intro rules
  induction rules with
  | nil =>
    intro w rep dummy hc hd hn hw hh
    refine ⟨fun ws rep' h => ?_, fun ws t h => ?_⟩
    · simp only [transcribeRun, Go.ok.injEq, Prod.mk.injEq] at h
      obtain ⟨rfl, rfl⟩ := h
      exact ⟨hc, .done _⟩
    · cases h
      exact ⟨rep, rfl, hc, rfl⟩
  | cons r rules ih =>
    intro w rep dummy hc hd hn hw hh
    have next : ∀ {rs : List Repl} {rep1 dummy1 : Replacer} {w1 : Bytes}, rep1.Clean →
        rep1.tags = splice (at_ 2) rep.tags 0 rs → (dummy.replaceBy (masks rs)).string = .ok (w1, dummy1) →
        dummy1.word = hidden rep1.tags := by
      intro rs rep1 dummy1 w1 h1 h2 h3
      rw [word_splice hd h3, h2, hidden_splice, ← hh, hw]
    refine ⟨fun ws rep' h => ?_, fun ws t h => ?_⟩
    · simp only [transcribeRun, Go.bind_eq_ok, Prod.exists, Go.pure_eq, Go.ok.injEq, Prod.mk.injEq] at h
      obtain ⟨rs, h1, w1, dummy1, h2, tw, rep1, h3, ws1, rep2, h4, rfl, rfl⟩ := h
      obtain ⟨k1, rfl, k3, k4, k5⟩ := string_ok hc h3
      obtain ⟨_, rfl, d3, _, _⟩ := string_ok hd h2
      rw [hn] at k5
      obtain ⟨k6, k7⟩ := (ih k3 d3 (k4.trans hn) rfl (next k3 k5 h2)).1 _ _ h4
      rw [k5] at k7
      refine ⟨k6, ?_⟩
      have e : rep1.word = text (splice (at_ 2) rep.tags 0 rs) := by
        rw [← Replacer.tags_fst k3.wf, k5]; rfl
      rw [e]
      exact .rule rs (by rw [← hh]; exact h1) k1 k7
    · cases h with
      | rule rs seen inside rest =>
        rw [← hh] at seen
        rcases string_cases hc rs with ⟨_, rep1, h2, k3, k4, k5⟩ | ⟨h1, _⟩
        · rw [hn] at k4 k5
          have hlen : dummy.tags.length = rep.tags.length := by
            rw [Replacer.tags_length hd.wf, hw, hh]; simp [hidden]
          rcases string_cases hd (masks rs) with ⟨_, dummy1, h2', d3, d4, d5⟩ | ⟨h1, _⟩
          · rw [← k5] at rest ⊢
            obtain ⟨rep', g1, g2, g3⟩ := (ih k3 d3 k4 rfl (next k3 k5 h2')).2 _ _ rest
            refine ⟨rep', ?_, g2, g3⟩
            simp only [transcribeRun, seen, h2, h2', g1, Go.bind_ok, Go.pure_eq]
            rw [text, Replacer.tags_fst k3.wf]
          · rw [inside_masks, hlen] at h1
            exact absurd inside h1
        · exact absurd inside h1

theorem rewriteAll_each (rules : List Rule) : ∀ (sws : List Subword) (rows : List (Option (List Bytes)))
    (out : List Subword), rewriteAll rules sws = .ok (rows, out) ↔ Each (Rewritten rules) sws rows out := by
  intro sws
  induction sws with
  | nil =>
    intro rows out
    constructor
    · intro h
      simp only [rewriteAll, Go.ok.injEq, Prod.mk.injEq] at h
      obtain ⟨rfl, rfl⟩ := h
      exact .nil
    · rintro ⟨⟩
      rfl
  | cons sw sws ih =>
    intro rows out
    have hrun := rewriteRun_applied (rules := rules) (w := sw.word) (Replacer.new_clean sw.word sw.level 1) rfl rfl
    rw [Replacer.new_tags] at hrun
    constructor
    · intro h
      simp only [rewriteAll, Go.bind_eq_ok, Prod.exists, Go.pure_eq, Go.ok.injEq, Prod.mk.injEq] at h
      obtain ⟨ws, rep, h1, o, rep', h2, rows', rest, h3, rfl, rfl⟩ := h
      obtain ⟨k1, k2⟩ := hrun.1 _ _ h1
      rw [Replacer.pieces_eq k1, Go.ok.injEq, Prod.mk.injEq] at h2
      exact .cons ⟨ws, _, rfl, k2, h2.1.symm⟩ ((ih _ _).1 h3)
    · rintro (_ | ⟨⟨ws, t, rfl, h1, rfl⟩, rest⟩)
      obtain ⟨rep', g1, g2, rfl⟩ := hrun.2 _ _ h1
      simp only [rewriteAll, g1, Replacer.pieces_eq g2, (ih _ _).2 rest, Go.bind_ok, Go.pure_eq]

theorem transcribeAll_each (rules : List Rule) : ∀ (sws : List Subword), (∀ s ∈ sws, s.level ≠ 2) →
    ∀ (rows : List (Option (List Bytes))) (out : List Subword),
      transcribeAll rules sws = .ok (rows, out) ↔ Each (Transcribed rules) sws rows out := by
  intro sws
  induction sws with
  | nil =>
    intro _ rows out
    constructor
    · intro h
      simp only [transcribeAll, Go.ok.injEq, Prod.mk.injEq] at h
      obtain ⟨rfl, rfl⟩ := h
      exact .nil
    · rintro ⟨⟩
      rfl
  | cons sw sws ih =>
    intro hl rows out
    have ih := ih fun s hs => hl s (List.mem_cons_of_mem _ hs)
    have hrun := transcribeRun_applied (rules := rules) (w := sw.word) (Replacer.new_clean sw.word sw.level 2)
      (Replacer.new_clean sw.word 0 0) rfl rfl (by rw [Replacer.new_tags, hidden_at (hl sw (by simp))])
    rw [Replacer.new_tags] at hrun
    by_cases h0 : sw.level = 0
    · constructor
      · intro h
        simp only [transcribeAll, h0, ↓reduceIte, Go.bind_eq_ok, Prod.exists, Go.pure_eq, Go.ok.injEq, Prod.mk.injEq] at h
        obtain ⟨rows', rest, h3, rfl, rfl⟩ := h
        exact .cons (.inl ⟨h0, rfl, rfl⟩) ((ih _ _).1 h3)
      · rintro (_ | ⟨⟨_, rfl, rfl⟩ | ⟨h, _⟩, rest⟩)
        · simp only [transcribeAll, h0, ↓reduceIte, (ih _ _).2 rest, Go.bind_ok, Go.pure_eq]
          rfl
        · exact absurd h0 h
    · constructor
      · intro h
        simp only [transcribeAll, h0, ↓reduceIte, Go.bind_eq_ok, Prod.exists, Go.pure_eq, Go.ok.injEq, Prod.mk.injEq] at h
        obtain ⟨ws, rep, h1, o, rep', h2, rows', rest, h3, rfl, rfl⟩ := h
        obtain ⟨k1, k2⟩ := hrun.1 _ _ h1
        rw [Replacer.pieces_eq k1, Go.ok.injEq, Prod.mk.injEq] at h2
        exact .cons (.inr ⟨h0, ws, _, rfl, k2, h2.1.symm⟩) ((ih _ _).1 h3)
      · rintro (_ | ⟨⟨h, _⟩ | ⟨_, ws, t, rfl, h1, rfl⟩, rest⟩)
        · exact absurd h h0
        · obtain ⟨rep', g1, g2, rfl⟩ := hrun.2 _ _ h1
          simp only [transcribeAll, h0, ↓reduceIte, g1, Replacer.pieces_eq g2, (ih _ _).2 rest, Go.bind_ok, Go.pure_eq]

/-! ### The other steps -/

theorem syllabifyLoop_run : ∀ (sws : List Subword) (buf : Bytes), (∀ s ∈ sws, s.level ≠ 0) →
    syllabifyLoop buf sws = Jamo.composeHangul (buf ++ sws.flatMap (·.word)) := by
  intro sws
  induction sws with
  | nil => intro buf _; simp [syllabifyLoop]
  | cons s sws ih =>
    intro buf h
    rw [syllabifyLoop, if_neg (h s (by simp)), ih _ fun x hx => h x (List.mem_cons_of_mem _ hx)]
    simp

theorem syllabifyLoop_split {s : Subword} (hs : s.level = 0) (b : List Subword) : ∀ (a : List Subword) (buf : Bytes),
    syllabifyLoop buf (a ++ s :: b) = syllabifyLoop buf a ++ s.word ++ syllabifyLoop [] b := by
  intro a
  induction a with
  | nil => intro buf; simp [syllabifyLoop, hs]
  | cons x a ih =>
    intro buf
    rw [List.cons_append, syllabifyLoop, syllabifyLoop]
    split
    · rw [ih]; simp
    · rw [ih]

theorem composed_iff : ∀ {sws : List Subword} {x : Bytes}, Composed sws x ↔ x = syllabifyLoop [] sws := by
  intro sws x
  constructor
  · intro h
    induction h with
    | run h => rw [syllabifyLoop_run _ _ h]; rfl
    | split _ h _ ih1 ih2 => rw [syllabifyLoop_split h, ih1, ih2]
  · rintro rfl
    suffices ∀ (sws : List Subword) (run : List Subword), (∀ s ∈ run, s.level ≠ 0) →
        Composed (run ++ sws) (syllabifyLoop [] (run ++ sws)) from this sws [] (by simp)
    intro sws
    induction sws with
    | nil =>
      intro run h
      rw [List.append_nil, syllabifyLoop_run _ _ h]
      exact .run h
    | cons s sws ih =>
      intro run h
      by_cases h0 : s.level = 0
      · rw [syllabifyLoop_split h0]
        refine .split ?_ h0 (ih [] (by simp))
        rw [syllabifyLoop_run _ _ h]
        exact .run h
      · have := ih (run ++ [s]) (by
          intro x hx
          rcases List.mem_append.1 hx with hx | hx
          · exact h x hx
          · rw [List.mem_singleton.1 hx]; exact h0)
        simpa using this

theorem discard_cleaned (sws : List Subword) : discard sws = cleaned sws := by
  unfold discard cleaned
  congr 1
  funext sw
  by_cases h : sw.level = 1
  · simp only [h, ↓reduceIte, ne_eq, not_true_eq_false, hasSpace, List.any_eq_true]
    congr 1
  · simp [h]

theorem localize_localized (sc : Script) (w : Bytes) : localizeWord sc w = encode (localized sc (runes w)) := by
  rw [localizeWord, localized]
  split
  · rename_i h; subst h; rw [localizeLoop_hrkt]
  · rename_i h; rw [localizeLoop_plain h]

theorem normalizeScript_normalized (s : Spec) (w : Bytes) : normalizeScript s w = encode (normalized s (runes w)) := by
  unfold normalizeScript normalized normalizeRune
  congr 2
  funext c
  by_cases h1 : c ∈ s.normLetters <;> by_cases h2 : s.script.is c = true <;> simp [h1, h2]

theorem meaningful_iff {s : Spec} {c : Rune} (hc : validRune c = true) : meaningful s c = true ↔ Meaningful s c := by
  have hr : runes (encodeRune c) = [c] := by
    have := runes_encode (rs := [c]) (by simpa using hc)
    simpa using this
  simp [meaningful, Meaningful, hasSpaceOnly, hr, encodeRune_ne_nil, or_assoc]

theorem replaceAll_dots (w : Bytes) : replaceAll [0] [0x2E] w = w.map fun b => if b = 0 then 0x2E else b := by
  rw [Hre.replaceAll_single]
  induction w with
  | nil => rfl
  | cons b w ih =>
    rw [List.flatMap_cons, ih]
    split <;> simp_all

theorem stepEvents_events (step : TStep) (rules : List Rule) (ps : List Subword) (rows : List (Option (List Bytes))) :
    stepEvents step rules ps rows = events step rules ps rows := by
  unfold stepEvents events
  have h1 : (rows.all Option.isNone = true) ↔ ∀ row ∈ rows, row = none := by
    simp [List.all_eq_true, Option.isNone_iff_eq_none]
  have h2 : ∀ k, (lineWord (ps.map (·.word)) rows k) = List.zipWith (fun (p : Subword) (row : Option (List Bytes)) =>
          match row with | none => p.word | some ws => ws.getD k []) ps rows := by
    intro k
    rw [lineWord, List.zipWith_map_left]
    congr 1
    funext p row
    cases row <;> rfl
  by_cases h : rows.all Option.isNone = true
  · rw [if_pos h, if_pos (h1.1 h)]
  · rw [if_neg h, if_neg fun h' => h (h1.2 h')]
    simp only [ruleEvent, h2, replaceAll_dots]
    rfl

theorem transliterateRun_iff (translits : List (Bytes × Translit)) : ∀ (ss : List Bytes) (w out : Bytes) (evs : List Trace),
    transliterateRun translits ss w = (.ok out, evs) ↔ Transliterated translits ss w evs out := by
  intro ss
  induction ss with
  | nil =>
    intro w out evs
    constructor
    · intro h
      simp only [transliterateRun, Prod.mk.injEq, Go.ok.injEq] at h
      obtain ⟨rfl, rfl⟩ := h
      exact .done _
    · rintro ⟨⟩; rfl
  | cons s ss ih =>
    intro w out evs
    constructor
    · intro h
      rw [transliterateRun] at h
      split at h
      · simp at h
      · rename_i t ht
        split at h
        · rename_i w' hw'
          simp only [Prod.mk.injEq] at h
          obtain ⟨h1, rfl⟩ := h
          exact .scheme ht hw' ((ih _ _ _).1 (Prod.ext h1 rfl))
        all_goals simp at h
    · rintro (_ | ⟨found, ok, rest⟩)
      rw [transliterateRun]
      simp only [found, ok, (ih _ _ _).2 rest]

/-! ### The procedure -/

theorem changes_changed : ∀ (evs : List Trace) (prev : Bytes), changes prev evs = changed prev evs
  | [], _ => rfl
  | e :: evs, prev => by
    simp only [changes, changed, changes_changed evs, eq_comm]

theorem pieces_nonempty (t : Tagged) : ∀ s ∈ pieces t, s.word ≠ [] := chunks_nonempty _

theorem each_nonempty {R : Subword → Option (List Bytes) → List Subword → Prop}
    (hR : ∀ {p words out}, p.word ≠ [] → R p words out → ∀ s ∈ out, s.word ≠ []) {ps rows out} (h : Each R ps rows out)
    (hp : ∀ s ∈ ps, s.word ≠ []) : ∀ s ∈ out, s.word ≠ [] := by
  induction h with
  | nil => simp
  | cons one rest ih =>
    intro s hs
    rcases List.mem_append.1 hs with hs | hs
    · exact hR (hp _ (by simp)) one s hs
    · exact ih (fun s hs => hp s (List.mem_cons_of_mem _ hs)) s hs

theorem rewritten_nonempty {rules : List Rule} {ps rows out} (h : Each (Rewritten rules) ps rows out)
    (hp : ∀ s ∈ ps, s.word ≠ []) : ∀ s ∈ out, s.word ≠ [] :=
  each_nonempty (by rintro p words out _ ⟨ws, t, _, _, rfl⟩; exact pieces_nonempty t) h hp

theorem transcribed_nonempty {rules : List Rule} {ps rows out} (h : Each (Transcribed rules) ps rows out)
    (hp : ∀ s ∈ ps, s.word ≠ []) : ∀ s ∈ out, s.word ≠ [] := by
  refine each_nonempty ?_ h hp
  rintro p words out hp (⟨_, _, rfl⟩ | ⟨_, ws, t, _, _, rfl⟩)
  · simpa using hp
  · exact pieces_nonempty t

theorem cleaned_nonempty {sws : List Subword} (h : ∀ s ∈ sws, s.word ≠ []) : ∀ s ∈ cleaned sws, s.word ≠ [] := by
  intro s hs
  simp only [cleaned, List.mem_flatMap] at hs
  obtain ⟨a, ha, hs⟩ := hs
  split at hs
  · rw [List.mem_singleton.1 hs]; exact h a ha
  · split at hs
    · rw [List.mem_singleton.1 hs]; simp
    · simp at hs

theorem cleaned_levels {P : Int → Prop} (hP : P 1) {sws : List Subword} (h : ∀ s ∈ sws, P s.level) :
    ∀ s ∈ cleaned sws, P s.level := by
  intro s hs
  simp only [cleaned, List.mem_flatMap] at hs
  obtain ⟨a, ha, hs⟩ := hs
  split at hs
  · rw [List.mem_singleton.1 hs]; exact h a ha
  · split at hs
    · rw [List.mem_singleton.1 hs]; exact hP
    · simp at hs

theorem partition_meaningful (s : Spec) {w : Bytes} (hv : ValidUtf8 w) :
    partition s w = .ok (chunks ((runes w).map fun c => (c, if Meaningful s c then 1 else 0))) := by
  rw [partition_eq s hv]
  congr 2
  apply List.map_congr_left
  intro c hc
  have := meaningful_iff (s := s) (runes_valid w c hc)
  by_cases h : Meaningful s c <;> simp [h, this]

/-- What follows transliteration, as in `Hangulized`. -/
theorem afterRun_iff (sp : Spec) (w out : Bytes) (evs : List Trace) : afterRun sp w = .ok (out, evs) ↔
    ∃ (rows rows' : List (Option (List Bytes))) (rewritten transcribed : List Subword) (composed : Bytes),
    let w1 := replacePairs sp.normPairs w
    let w2 := encode (normalized sp (runes w1))
    let ps := chunks ((runes w2).map fun c => (c, if Meaningful sp c then 1 else 0))
    Each (Rewritten sp.rewrite) ps rows rewritten ∧
    let ps' := joined rewritten
    Each (Transcribed sp.transcribe) ps' rows' transcribed ∧
    Composed (joined (cleaned (joined transcribed))) composed ∧
    out = encode (localized sp.script (runes composed)) ∧
    evs = { step := .normalize, word := w1 } ::
      { step := .normalize, word := w2, why := sp.lang.script } :: (events .rewrite sp.rewrite ps rows ++
      events .transcribe sp.transcribe ps' rows' ++
      [{ step := .syllabify, word := composed }, { step := .localize, word := out, why := sp.lang.script }]) := by
  have hv := normalizeScript_valid sp (normalizeSpec sp w)
  rw [normalizeScript_normalized, normalizeSpec] at hv
  have hp := partition_meaningful sp hv
  generalize hps : chunks ((runes (encode (normalized sp (runes (replacePairs sp.normPairs w))))).map
    fun c => (c, if Meaningful sp c then (1 : Int) else 0)) = ps at hp
  have hps1 : ∀ s ∈ ps, s.word ≠ [] := hps ▸ chunks_nonempty _
  have hps2 : ∀ s ∈ ps, s.level = 0 ∨ s.level = 1 := by
    intro s hs
    have hne := hps1 s hs
    rw [← hps] at hs
    obtain ⟨p, h1, h2⟩ := chunks_level hs hne
    simp only [List.mem_map] at h1
    obtain ⟨c, _, rfl⟩ := h1
    rw [← h2]
    simp only
    split <;> simp
  have join1 : ∀ {rows out}, Each (Rewritten sp.rewrite) ps rows out → Builder.subwords out = joined out ∧
      (∀ s ∈ joined out, s.level = 0 ∨ s.level = 1) := by
    intro rows out h
    have hn := rewritten_nonempty h hps1
    have hl := rewriteAll_levels (P := fun l => l = 0 ∨ l = 1) (Or.inr rfl) hps2 ((rewriteAll_each _ _ _ _).2 h)
    have hj := builder_joined (sws := out) fun s hs => ⟨by rcases hl s hs with h | h <;> omega, hn s hs⟩
    exact ⟨hj, hj ▸ builder_levels' (P := fun l => l = 0 ∨ l = 1) hl⟩
  have join2 : ∀ {rows1 out1 rows out}, Each (Rewritten sp.rewrite) ps rows1 out1 →
      Each (Transcribed sp.transcribe) (joined out1) rows out →
      Builder.subwords (discard (Builder.subwords out)) = joined (cleaned (joined out)) := by
    intro rows1 out1 rows out h1 h2
    obtain ⟨_, hl1⟩ := join1 h1
    have hn := transcribed_nonempty h2 (blocks_nonempty _)
    have hl := transcribeAll_levels (P := fun l => l = 0 ∨ l = 1 ∨ l = 2) (by simp)
      (fun s hs => by rcases hl1 s hs with h | h <;> simp [h])
      ((transcribeAll_each _ _ (fun s hs => by rcases hl1 s hs with h | h <;> omega) _ _).2 h2)
    have hj := builder_joined (sws := out) fun s hs => ⟨by rcases hl s hs with h | h | h <;> omega, hn s hs⟩
    have hl' : ∀ s ∈ joined out, s.level = 0 ∨ s.level = 1 ∨ s.level = 2 :=
      hj ▸ builder_levels' (P := fun l => l = 0 ∨ l = 1 ∨ l = 2) hl
    rw [hj, discard_cleaned]
    refine builder_joined fun s hs => ⟨?_, cleaned_nonempty (blocks_nonempty _) s hs⟩
    have := cleaned_levels (P := fun l => l = 0 ∨ l = 1 ∨ l = 2) (by simp) hl' s hs
    omega
  rw [afterRun]
  simp only [normalizeScript_normalized, normalizeSpec, hp, Go.bind_ok, Go.bind_eq_ok, Prod.exists, Go.pure_eq,
    Go.ok.injEq, Prod.mk.injEq, hps]
  constructor
  · rintro ⟨rows, rewritten, h1, rows', transcribed, h2, rfl, rfl⟩
    have e1 := (rewriteAll_each _ _ _ _).1 h1
    obtain ⟨j1, l1⟩ := join1 e1
    rw [j1] at h2
    have e2 := (transcribeAll_each _ _ (fun s hs => by rcases l1 s hs with h | h <;> omega) _ _).1 h2
    refine ⟨rows, rows', rewritten, transcribed, _, e1, e2, composed_iff.2 rfl, ?_, ?_⟩
    · rw [localize_localized, join2 e1 e2]
    · rw [stepEvents_events, stepEvents_events, j1, join2 e1 e2]
  · rintro ⟨rows, rows', rewritten, transcribed, composed, e1, e2, h3, rfl, rfl⟩
    obtain ⟨j1, l1⟩ := join1 e1
    refine ⟨rows, rewritten, (rewriteAll_each _ _ _ _).2 e1, rows', transcribed, ?_, ?_, ?_⟩
    · rw [j1]
      exact (transcribeAll_each _ _ (fun s hs => by rcases l1 s hs with h | h <;> omega) _ _).2 e2
    · rw [localize_localized, join2 e1 e2, composed_iff.1 h3]
    · rw [stepEvents_events, stepEvents_events, j1, join2 e1 e2, localize_localized, composed_iff.1 h3]

theorem forwardRun_iff (sp : Spec) (translits : List (Bytes × Translit)) (word out : Bytes) (evs : List Trace) :
    forwardRun sp translits word = (.ok out, evs) ↔ Hangulized sp translits word evs out := by
  rw [forwardRun, Hangulized]
  constructor
  · intro h
    split at h
    · rename_i w evs1 ht
      split at h
      · rename_i out' evs' ha
        simp only [Prod.mk.injEq, Go.ok.injEq] at h
        obtain ⟨rfl, rfl⟩ := h
        obtain ⟨rows, rows', rewritten, transcribed, composed, e1, e2, h3, h4, h5⟩ := (afterRun_iff _ _ _ _).1 ha
        exact ⟨w, evs1, rows, rows', rewritten, transcribed, composed, (transliterateRun_iff _ _ _ _ _).1 ht, e1, e2, h3,
          h4, by rw [h5]; simp⟩
      all_goals simp at h
    · rename_i r evs1 hne ht
      simp only [Prod.mk.injEq] at h
      exact absurd h.1 (hne out)
  · rintro ⟨w, evs1, rows, rows', rewritten, transcribed, composed, ht, e1, e2, h3, h4, rfl⟩
    rw [(transliterateRun_iff _ _ _ _ _).2 ht]
    simp only
    rw [(afterRun_iff _ _ _ _).2 ⟨rows, rows', rewritten, transcribed, composed, e1, e2, h3, h4, rfl⟩]
    simp

end Verif
