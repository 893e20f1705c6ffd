import Verif.Proofs.Forward
import Verif.Spec.Procedure

/-! The replacers of the rewrite and transcribe steps. -/

namespace Verif

open Verif.Spec.Subword Verif.Spec.Procedure

theorem slice_map {α β : Type} (f : α → β) (t : List α) (i j : Nat) :
    slice (t.map f) i j = if i ≤ j ∧ j ≤ t.length then .ok (((t.drop i).take (j - i)).map f) else .panic := by
  simp [slice, List.map_drop, List.map_take]

theorem drop_take_all {α : Type} (t : List α) (off : Nat) : (t.drop off).take (t.length - off) = t.drop off := by
  apply List.take_of_length_le; simp

/-- `commit` is splicing. -/
theorem commitLoop_splice (nl : Int) (t : Tagged) : ∀ (rs : List Repl) (off : Nat), Inside t.length off rs →
    Replacer.commitLoop (t.map (·.1)) (t.map (·.2)) nl off rs =
      .ok ((splice (at_ nl) t off rs).map (·.1), (splice (at_ nl) t off rs).map (·.2)) := by
  intro rs
  induction rs with
  | nil =>
    intro off h
    simp only [Inside] at h
    simp [Replacer.commitLoop, slice_map, h, splice, drop_take_all]
  | cons r rs ih =>
    intro off h
    obtain ⟨h1, h2, h3⟩ := h
    simp [Replacer.commitLoop, slice_map, h1, h2, ih _ h3, splice, at_, Function.comp_def]
    induction r.word with
    | nil => rfl
    | cons b w ih => simp [List.replicate_succ, ih]

theorem inside_iff_fits (len : Nat) : ∀ (rs : List Repl) (off : Nat), Inside len off rs ↔ Fits off len rs := by
  intro rs
  induction rs with
  | nil => intro off; rfl
  | cons r rs ih => intro off; simp [Inside, Fits, ih]

theorem inside_of_proper {len : Nat} {rs : List Repl} {off : Nat} (h : Proper off len rs) : Inside len off rs :=
  (inside_iff_fits _ _ _).2 (Proper_fits h)

/-- A replacer without pending replacements. -/
structure Replacer.Clean (r : Replacer) : Prop where
  wf : r.WF
  repls : r.repls = []

theorem Replacer.new_clean (w : Bytes) (a b : Int) : (Replacer.new w a b).Clean := ⟨Replacer.new_wf w a b, rfl⟩

theorem Replacer.new_tags (w : Bytes) (a b : Int) : (Replacer.new w a b).tags = at_ a w := by
  simp only [tags, new, at_]
  induction w with
  | nil => rfl
  | cons x w ih => simp [List.replicate_succ, ih]

theorem zip_map_map {α β : Type} (t : List (α × β)) : (t.map (·.1)).zip (t.map (·.2)) = t := by
  induction t with
  | nil => rfl
  | cons x t ih => simp [ih]

/-- Replacing and reading a replacer. -/
theorem string_cases {r : Replacer} (hc : r.Clean) (rs : List Repl) :
    (Inside r.tags.length 0 rs ∧ ∃ r', (r.replaceBy rs).string = .ok (r'.word, r') ∧ r'.Clean ∧
      r'.nextLevel = r.nextLevel ∧ r'.tags = splice (at_ r.nextLevel) r.tags 0 rs) ∨
    (¬ Inside r.tags.length 0 rs ∧ (r.replaceBy rs).string = .panic) := by
  have hl := Replacer.tags_length hc.wf
  by_cases h : Inside r.tags.length 0 rs
  · left
    refine ⟨h, ?_⟩
    have := commitLoop_splice r.nextLevel r.tags rs 0 h
    rw [Replacer.tags_fst hc.wf, Replacer.tags_snd hc.wf] at this
    refine ⟨⟨(splice (at_ r.nextLevel) r.tags 0 rs).map (·.1), [], (splice (at_ r.nextLevel) r.tags 0 rs).map (·.2),
      r.nextLevel⟩, ?_, ⟨by simp [Replacer.WF], rfl⟩, rfl, ?_⟩
    · simp [Replacer.string, Replacer.commit, Replacer.replaceBy, hc.repls, this]
    · exact zip_map_map _
  · right
    refine ⟨h, ?_⟩
    rw [hl, inside_iff_fits] at h
    have := commitLoop_panic r.word r.levels r.nextLevel hc.wf rs 0 h
    simp [Replacer.string, Replacer.commit, Replacer.replaceBy, hc.repls, this]

theorem string_ok {r r' : Replacer} {w : Bytes} {rs : List Repl} (hc : r.Clean)
    (h : (r.replaceBy rs).string = .ok (w, r')) :
    Inside r.tags.length 0 rs ∧ w = r'.word ∧ r'.Clean ∧ r'.nextLevel = r.nextLevel ∧
      r'.tags = splice (at_ r.nextLevel) r.tags 0 rs := by
  rcases string_cases hc rs with ⟨h1, r'', h2, h3, h4, h5⟩ | ⟨_, h2⟩
  · rw [h] at h2
    simp only [Go.ok.injEq, Prod.mk.injEq] at h2
    obtain ⟨rfl, rfl⟩ := h2
    exact ⟨h1, rfl, h3, h4, h5⟩
  · rw [h] at h2; simp at h2

theorem splice_map {α β : Type} (f : α → β) (new : Bytes → List α) (t : List α) : ∀ (rs : List Repl) (off : Nat),
    (splice new t off rs).map f = splice (fun w => (new w).map f) (t.map f) off rs := by
  intro rs
  induction rs with
  | nil => intro off; simp [splice]
  | cons r rs ih => intro off; simp [splice, ih]

theorem inside_masks (len : Nat) : ∀ (rs : List Repl) (off : Nat), Inside len off (masks rs) ↔ Inside len off rs := by
  intro rs
  induction rs with
  | nil => intro off; rfl
  | cons r rs ih =>
    intro off
    simp only [masks] at ih
    simp [masks, Inside, ih]

theorem splice_masks (t : Bytes) : ∀ (rs : List Repl) (off : Nat),
    splice id t off (masks rs) = splice (fun w => List.replicate w.length 0) t off rs := by
  intro rs
  induction rs with
  | nil => intro off; rfl
  | cons r rs ih =>
    intro off
    simp only [masks] at ih
    simp [masks, splice, ih]

theorem hidden_splice (t : Tagged) (rs : List Repl) (off : Nat) :
    hidden (splice (at_ 2) t off rs) = splice id (hidden t) off (masks rs) := by
  rw [splice_masks]
  unfold hidden
  rw [splice_map]
  congr 1
  funext w
  simp [at_, Function.comp_def, List.map_const']

/-- The word of a clean replacer after replacing. -/
theorem word_splice {r r' : Replacer} {w : Bytes} {rs : List Repl} (hc : r.Clean)
    (h : (r.replaceBy rs).string = .ok (w, r')) : r'.word = splice id r.word 0 rs := by
  obtain ⟨_, _, h3, _, h5⟩ := string_ok hc h
  rw [← Replacer.tags_fst h3.wf, h5, splice_map, Replacer.tags_fst hc.wf]
  congr 1
  funext w
  simp [at_, Function.comp_def]

/-- The transcribe loop keeps the two replacers in step. -/
theorem transcribeRun_once : ∀ {rules : List Rule} {w : Bytes} {rep dummy rep' : Replacer} {ws : List Bytes},
    rep.Clean → dummy.Clean → rep.nextLevel = 2 → dummy.word = w → w = hidden rep.tags →
    (∀ r ∈ rules, NoNul r) → transcribeRun rules w rep dummy = .ok (ws, rep') →
    rep'.Clean ∧ TranscribedOnce rules rep.tags rep'.tags := by
  intro rules
  induction rules with
  | nil =>
    intro w rep dummy rep' ws hc _ _ _ _ _ h
    simp only [transcribeRun, Go.ok.injEq, Prod.mk.injEq] at h
    obtain ⟨_, rfl⟩ := h
    exact ⟨hc, .done _⟩
  | cons r rules ih =>
    intro w rep dummy rep' ws hc hd hn hw hh hnul h
    simp only [transcribeRun, Go.bind_eq_ok, Prod.exists, Go.pure_eq, Go.ok.injEq, Prod.mk.injEq] at h
    obtain ⟨rs, h1, w', dummy', h2, tw, rep1, h3, ws', rep2, h4, rfl, rfl⟩ := h
    obtain ⟨a1, a2, a3, a4, a5⟩ := string_ok hc h3
    obtain ⟨b1, b2, b3, b4, b5⟩ := string_ok hd h2
    have hw' : w' = hidden rep1.tags := by
      rw [b2, word_splice hd h2, a5, hn, hidden_splice, hw, hh]
    obtain ⟨c1, c2⟩ := ih a3 b3 (a4.trans hn) b2.symm hw' (fun r hr => hnul r (by simp [hr])) h4
    refine ⟨c1, .rule rs (hh ▸ h1) a1 ?_ (by rw [← hn, ← a5]; exact c2)⟩
    intro x hx p hp1 hp2 y hy hy2
    refine hnul r (by simp) w rs h1 x hx p hp1 hp2 ?_
    rw [hh]
    simp [hidden, hy, hy2]

theorem hidden_at {lvl : Int} (h : lvl ≠ 2) (w : Bytes) : hidden (at_ lvl w) = w := by
  simp [hidden, at_, h, Function.comp_def]

/-! ### Well-behaved rules never panic -/

theorem rewriteRun_ok : ∀ {rules : List Rule} {w : Bytes} {rep : Replacer}, rep.Clean → rep.word = w →
    (∀ r ∈ rules, WellBehaved r) → ∃ ws rep', rewriteRun rules w rep = .ok (ws, rep') ∧ rep'.Clean := by
  intro rules
  induction rules with
  | nil => intro w rep hc _ _; exact ⟨_, _, rfl, hc⟩
  | cons r rules ih =>
    intro w rep hc hw hr
    obtain ⟨rs, h1, h2⟩ := hr r (by simp) w
    rw [← hw, ← Replacer.tags_length hc.wf] at h2
    rcases string_cases hc rs with ⟨_, rep1, h3, h4, h5, _⟩ | ⟨h3, _⟩
    · obtain ⟨ws, rep', h6, h7⟩ := ih h4 rfl (fun r hr' => hr r (by simp [hr']))
      exact ⟨rep1.word :: ws, rep', by simp [rewriteRun, h1, h3, h6], h7⟩
    · exact absurd (inside_of_proper h2) h3

theorem transcribeRun_ok : ∀ {rules : List Rule} {w : Bytes} {rep dummy : Replacer}, rep.Clean → dummy.Clean →
    dummy.word = w → w.length = rep.tags.length →
    (∀ r ∈ rules, WellBehaved r) → ∃ ws rep', transcribeRun rules w rep dummy = .ok (ws, rep') ∧ rep'.Clean := by
  intro rules
  induction rules with
  | nil => intro w rep dummy hc _ _ _ _; exact ⟨_, _, rfl, hc⟩
  | cons r rules ih =>
    intro w rep dummy hc hd hw hl hr
    obtain ⟨rs, h1, h2⟩ := hr r (by simp) w
    rw [hl] at h2
    have hi := inside_of_proper h2
    have hl2 : dummy.tags.length = rep.tags.length := by rw [Replacer.tags_length hd.wf, hw, hl]
    rcases string_cases hc rs with ⟨_, rep1, h3, h4, h5, h5'⟩ | ⟨h3, _⟩
    · rcases string_cases hd (masks rs) with ⟨_, d1, h6, h7, h8, h9⟩ | ⟨h6, _⟩
      · have hlen : d1.word.length = rep1.tags.length := by
          have e : rep1.tags.length = (splice (at_ 2) rep.tags 0 rs).length := by
            have : ∀ (new new' : Bytes → Tagged) (t : Tagged), (∀ w, (new w).length = (new' w).length) →
                ∀ (rs : List Repl) (off : Nat), (splice new t off rs).length = (splice new' t off rs).length := by
              intro new new' t hnew rs
              induction rs with
              | nil => intro off; rfl
              | cons r rs ih => intro off; simp [splice, ih, hnew]
            rw [h5']
            exact this _ _ _ (by simp [at_]) _ _
          have e2 : ∀ (t : Tagged) (t' : Bytes), t.length = t'.length → ∀ (rs : List Repl) (off : Nat),
              (splice (at_ 2) t off rs).length = (splice id t' off (masks rs)).length := by
            intro t t' ht rs
            induction rs with
            | nil => intro off; simp [splice, masks, ht]
            | cons r rs ih => intro off; simp only [masks] at ih; simp [splice, masks, ih, ht, at_]
          rw [word_splice hd h6, e, e2 rep.tags dummy.word (by rw [hw, hl])]
        obtain ⟨ws, rep', h10, h11⟩ := ih h4 h7 rfl hlen (fun r hr' => hr r (by simp [hr']))
        exact ⟨rep1.word :: ws, rep', by simp [transcribeRun, h1, h3, h6, h10], h11⟩
      · exact absurd ((inside_masks _ _ _).2 (hl2 ▸ hi)) h6
    · exact absurd hi h3

theorem subwords_ok {r : Replacer} (h : r.Clean) : r.subwords = .ok (chunks r.lchars, r) := by
  refine Replacer.subwords_eq ?_ h.wf
  have := string_cases h []
  rcases this with ⟨_, r', h1, h2, h3, h4⟩ | ⟨h1, _⟩
  · simp only [Replacer.replaceBy, List.append_nil] at h1
    have e : r.tags = r'.tags := by simp [h4, splice]
    simp only [Replacer.string, Go.bind_eq_ok, Go.pure_eq, Go.ok.injEq, Prod.mk.injEq] at h1
    obtain ⟨r'', h1, _, rfl⟩ := h1
    rw [h1]
    have e1 : r.word = r''.word := by rw [← Replacer.tags_fst h.wf, e, Replacer.tags_fst h2.wf]
    have e2 : r.levels = r''.levels := by rw [← Replacer.tags_snd h.wf, e, Replacer.tags_snd h2.wf]
    have e3 : r.repls = r''.repls := h.repls.trans h2.repls.symm
    cases r; cases r''
    simp only at e1 e2 e3 h3
    rw [e1, e2, e3, h3]
  · simp [Inside] at h1

theorem rewriteAll_ok {rules : List Rule} (hr : ∀ r ∈ rules, WellBehaved r) : ∀ (sws : List Subword),
    ∃ rows out, rewriteAll rules sws = .ok (rows, out) := by
  intro sws
  induction sws with
  | nil => exact ⟨_, _, rfl⟩
  | cons sw sws ih =>
    obtain ⟨rows, out, h⟩ := ih
    obtain ⟨ws, rep, h1, h2⟩ := rewriteRun_ok (Replacer.new_clean sw.word sw.level 1) rfl hr
    exact ⟨some ws :: rows, chunks rep.lchars ++ out, by
      rw [show (Replacer.new sw.word sw.level 1).word = sw.word from rfl] at h1
      simp [rewriteAll, h1, subwords_ok h2, h]⟩

theorem transcribeAll_ok {rules : List Rule} (hr : ∀ r ∈ rules, WellBehaved r) : ∀ (sws : List Subword),
    ∃ rows out, transcribeAll rules sws = .ok (rows, out) := by
  intro sws
  induction sws with
  | nil => exact ⟨_, _, rfl⟩
  | cons sw sws ih =>
    obtain ⟨rows, out, h⟩ := ih
    by_cases h0 : sw.level = 0
    · exact ⟨none :: rows, sw :: out, by simp [transcribeAll, h0, h]⟩
    · obtain ⟨ws, rep, h1, h2⟩ := transcribeRun_ok (Replacer.new_clean sw.word sw.level 2)
        (Replacer.new_clean sw.word 0 0) rfl (by rw [Replacer.new_tags]; simp [at_, Replacer.new]) hr
      exact ⟨some ws :: rows, chunks rep.lchars ++ out, by
        rw [show (Replacer.new sw.word 0 0).word = sw.word from rfl] at h1
        simp [transcribeAll, h0, h1, subwords_ok h2, h]⟩

end Verif
