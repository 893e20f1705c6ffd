import Verif.Proofs.Utf8
import Verif.Spec.Subword

/-! Lemmas about `subword`. -/

namespace Verif
open Spec.Subword

/-- The representation invariant of a replacer: one level per byte. -/
def Replacer.WF (r : Replacer) : Prop := r.levels.length = r.word.length

/-- The bytes of a replacer with their levels. -/
def Replacer.tags (r : Replacer) : Tagged := r.word.zip r.levels

theorem Replacer.tags_fst {r : Replacer} (h : r.WF) : r.tags.map (·.1) = r.word := by
  unfold tags
  exact List.map_fst_zip (by rw [h]; exact Nat.le_refl _)

theorem Replacer.tags_snd {r : Replacer} (h : r.WF) : r.tags.map (·.2) = r.levels := by
  unfold tags
  exact List.map_snd_zip (by rw [h]; exact Nat.le_refl _)

theorem Replacer.tags_length {r : Replacer} (h : r.WF) : r.tags.length = r.word.length := by
  unfold tags WF at *; simp; omega

theorem slice_ok {α : Type} (s : List α) {i j : Nat} (h : i ≤ j) (h2 : j ≤ s.length) :
    slice s i j = .ok ((s.drop i).take (j - i)) := by simp [slice, h, h2]

theorem slice_panic {α : Type} (s : List α) {i j : Nat} (h : ¬ (i ≤ j ∧ j ≤ s.length)) :
    slice s i j = .panic := by simp [slice, h]

theorem slice_append {α : Type} (a b c : List α) :
    slice (a ++ b ++ c) a.length (a.length + b.length) = .ok b := by
  rw [slice_ok] <;> simp

/-- Executing the edits of a text. -/
theorem commitLoop_edits (nl : Int) (tg : Tagged) (rest : Tagged) : ∀ (es : List Edit) (off : Nat),
    off ≤ tg.length → tg.drop off = before es rest →
    Replacer.commitLoop (tg.map (·.1)) (tg.map (·.2)) nl off (replsOf off es) =
      .ok ((after nl es rest).map (·.1), (after nl es rest).map (·.2)) := by
  intro es
  induction es with
  | nil =>
    intro off hoff h
    simp only [before, List.flatMap_nil, List.nil_append] at h
    simp only [replsOf, Replacer.commitLoop, after, List.flatMap_nil, List.nil_append, List.length_map]
    rw [slice_ok _ hoff (by simp), slice_ok _ hoff (by simp)]
    have e : rest.length = tg.length - off := by rw [← h]; simp
    simp only [Go.bind_ok, Go.pure_eq, ← List.map_drop, h]
    rw [← e, List.take_of_length_le (by simp), List.take_of_length_le (by simp)]
  | cons e es ih =>
    intro off hoff h
    simp only [before, List.flatMap_cons, List.append_assoc] at h
    have hlen : e.gap.length + e.old.length ≤ tg.length - off := by
      have := congrArg List.length h
      simp at this; omega
    simp only [replsOf, Replacer.commitLoop]
    rw [slice_ok _ (by omega) (by simp; omega), slice_ok _ (by omega) (by simp; omega)]
    have h2 : tg.drop (off + e.gap.length + e.old.length) = before es rest := by
      rw [show off + e.gap.length + e.old.length = off + (e.gap.length + e.old.length) by omega,
        ← List.drop_drop, h, before, ← List.append_assoc, List.drop_append_of_le_length (by simp)]
      simp
    have ih := ih (off + e.gap.length + e.old.length) (by omega) h2
    simp only [Go.bind_ok, ih, Go.pure_eq, ← List.map_drop, h]
    simp [after, Function.comp_def, List.map_const']

theorem repls_proper (rest : Tagged) : ∀ (es : List Edit) (off : Nat),
    Proper off (off + (before es rest).length) (replsOf off es) := by
  intro es
  induction es with
  | nil => intro off; simp [replsOf, Proper]
  | cons e es ih =>
    intro off
    refine ⟨by simp, by simp, ?_⟩
    have := ih (off + e.gap.length + e.old.length)
    simp only [before] at this ⊢
    simp only [List.flatMap_cons, List.length_append] at this ⊢
    rw [show off + (e.gap.length + e.old.length + (es.flatMap (fun e => e.gap ++ e.old)).length
      + rest.length) = off + e.gap.length + e.old.length +
      ((es.flatMap (fun e => e.gap ++ e.old)).length + rest.length) by omega]
    exact this

/-- Every proper replacement list describes edits of the text. -/
theorem exists_edits (tg : Tagged) : ∀ (rs : List Repl) (off : Nat), Proper off tg.length rs →
    ∃ es rest, rs = replsOf off es ∧ tg.drop off = before es rest := by
  intro rs
  induction rs with
  | nil => intro off _; exact ⟨[], tg.drop off, rfl, by simp [before]⟩
  | cons r rs ih =>
    intro off h
    obtain ⟨h1, h2, h3⟩ := h
    obtain ⟨es, rest, e1, e2⟩ := ih r.stop h3
    have hle : ∀ (rs : List Repl) (o : Nat), Proper o tg.length rs → o ≤ tg.length := by
      intro rs
      induction rs with
      | nil => intro o h; exact h
      | cons r rs ih => intro o h; have := ih _ h.2.2; obtain ⟨a, b, _⟩ := h; omega
    have h4 := hle _ _ h3
    refine ⟨⟨(tg.drop off).take (r.start - off), (tg.drop r.start).take (r.stop - r.start), r.word⟩ :: es,
      rest, ?_, ?_⟩
    · have l1 : ((tg.drop off).take (r.start - off)).length = r.start - off := by simp; omega
      have l2 : ((tg.drop r.start).take (r.stop - r.start)).length = r.stop - r.start := by simp; omega
      simp only [replsOf, l1, l2]
      rw [show off + (r.start - off) = r.start by omega, show r.start + (r.stop - r.start) = r.stop by omega,
        ← e1]
    · have e3 : tg.drop r.start = (tg.drop off).drop (r.start - off) := by
        rw [List.drop_drop]; congr 1; omega
      have e4 : tg.drop r.stop = (tg.drop r.start).drop (r.stop - r.start) := by
        rw [List.drop_drop]; congr 1; omega
      simp only [before, List.flatMap_cons, List.append_assoc]
      rw [show List.flatMap (fun e => e.gap ++ e.old) es ++ rest = before es rest from rfl, ← e2, e4,
        List.take_append_drop, e3, List.take_append_drop]

theorem Proper_le {len : Nat} : ∀ {rs : List Repl} {o : Nat}, Proper o len rs → o ≤ len := by
  intro rs
  induction rs with
  | nil => intro o h; exact h
  | cons r rs ih => intro o h; have := ih h.2.2; obtain ⟨a, b, _⟩ := h; omega

/-- Committing proper replacements. -/
theorem Replacer.commit_edits {r : Replacer} (hw : r.WF) {es : List Edit} {rest : Tagged}
    (h : r.tags = before es rest) (hr : r.repls = replsOf 0 es) :
    ∃ r', r.commit = .ok r' ∧ r'.WF ∧ r'.tags = after r.nextLevel es rest ∧ r'.repls = [] ∧
      r'.nextLevel = r.nextLevel := by
  have := commitLoop_edits r.nextLevel r.tags rest es 0 (Nat.zero_le _) (by simpa using h)
  rw [tags_fst hw, tags_snd hw] at this
  refine ⟨{ r with word := (after r.nextLevel es rest).map (·.1),
                   levels := (after r.nextLevel es rest).map (·.2), repls := [] }, ?_, ?_, ?_, rfl, rfl⟩
  · simp [commit, hr, this]
  · simp [WF]
  · simp only [tags]
    generalize after r.nextLevel es rest = l
    induction l with
    | nil => rfl
    | cons a l ih => simp [ih]

/-- Committing proper replacements, with the word only. -/
theorem Replacer.commit_proper {r : Replacer} (hw : r.WF) (h : Proper 0 r.word.length r.repls) :
    ∃ r', r.commit = .ok r' ∧ r'.WF ∧ r'.repls = [] ∧ r'.nextLevel = r.nextLevel := by
  rw [← tags_length hw] at h
  obtain ⟨es, rest, h1, h2⟩ := exists_edits r.tags r.repls 0 h
  obtain ⟨r', a, b, c, d, e⟩ := commit_edits hw (by simpa using h2) h1
  exact ⟨r', a, b, d, e⟩

theorem Replacer.new_wf (w : Bytes) (a b : Int) : (Replacer.new w a b).WF := by simp [new, WF]

/-- Out-of-order or out-of-range replacements. -/
def Fits (off len : Nat) : List Repl → Prop
  | [] => off ≤ len
  | r :: rs => off ≤ r.start ∧ r.start ≤ len ∧ Fits r.stop len rs

theorem commitLoop_panic (w : Bytes) (l : List Int) (nl : Int) (hl : l.length = w.length) :
    ∀ (rs : List Repl) (off : Nat), ¬ Fits off w.length rs →
    Replacer.commitLoop w l nl off rs = .panic := by
  intro rs
  induction rs with
  | nil =>
    intro off h
    simp only [Fits] at h
    simp [Replacer.commitLoop, slice_panic w (i := off) (j := w.length) (by omega)]
  | cons r rs ih =>
    intro off h
    simp only [Fits] at h
    rw [Replacer.commitLoop]
    by_cases h1 : off ≤ r.start ∧ r.start ≤ w.length
    · rw [slice_ok w h1.1 h1.2, slice_ok l h1.1 (by omega)]
      simp [ih r.stop (by intro h2; exact h ⟨h1.1, h1.2, h2⟩)]
    · rw [slice_panic w h1]; rfl

theorem commitLoop_isOk (w : Bytes) (l : List Int) (nl : Int) (hl : l.length = w.length) :
    ∀ (rs : List Repl) (off : Nat), Fits off w.length rs →
    ∃ w' l', Replacer.commitLoop w l nl off rs = .ok (w', l') ∧ l'.length = w'.length := by
  intro rs
  induction rs with
  | nil =>
    intro off h
    simp only [Fits] at h
    refine ⟨w.drop off, l.drop off, ?_, by simp [hl]⟩
    rw [Replacer.commitLoop, slice_ok w h (Nat.le_refl _), slice_ok l (by omega) (Nat.le_refl _)]
    simp [List.take_of_length_le]
  | cons r rs ih =>
    intro off h
    obtain ⟨h1, h2, h3⟩ := h
    obtain ⟨w', l', e, hl'⟩ := ih r.stop h3
    rw [Replacer.commitLoop, slice_ok w h1 h2, slice_ok l h1 (by omega), e]
    exact ⟨_, _, rfl, by simp [hl, hl']⟩

theorem Replacer.commit_ok_iff {r : Replacer} (hw : r.WF) :
    (∃ r', r.commit = .ok r') ↔ Fits 0 r.word.length r.repls := by
  constructor
  · intro ⟨r', h⟩
    apply Classical.byContradiction
    intro hf
    simp [commit, commitLoop_panic r.word r.levels r.nextLevel hw _ _ hf] at h
  · intro h
    obtain ⟨w', l', e, _⟩ := commitLoop_isOk r.word r.levels r.nextLevel hw _ _ h
    simp [commit, e]

theorem Replacer.commit_cases {r : Replacer} (hw : r.WF) :
    (∃ r', r.commit = .ok r' ∧ r'.WF ∧ r'.repls = [] ∧ r'.nextLevel = r.nextLevel) ∨ r.commit = .panic := by
  by_cases h : Fits 0 r.word.length r.repls
  · obtain ⟨w', l', e, h2⟩ := commitLoop_isOk r.word r.levels r.nextLevel hw _ _ h
    exact .inl ⟨{ r with word := w', levels := l', repls := [] }, by simp [commit, e], h2, rfl, rfl⟩
  · exact .inr (by simp [commit, commitLoop_panic r.word r.levels r.nextLevel hw _ _ h])

theorem Proper_fits {len : Nat} : ∀ {rs : List Repl} {off : Nat}, Proper off len rs → Fits off len rs := by
  intro rs
  induction rs with
  | nil => intro off h; exact h
  | cons r rs ih => intro off h; exact ⟨h.1, by have := Proper_le h.2.2; obtain ⟨_, _, _⟩ := h; omega, ih h.2.2⟩

/-! ### Splitting into chunks -/

/-- The loop of `Subwords` on characters paired with their levels. -/
def mg (level : Int) (buf : Bytes) : LChars → List Subword
  | [] => [⟨buf, level⟩]
  | (ch, l) :: cs =>
    if l ≠ level then ⟨buf, level⟩ :: mg l (encodeRune ch) cs else mg level (buf ++ encodeRune ch) cs

/-- The characters of a word with the level of their first byte. -/
def leveled (levels : List Int) (rng : List (Nat × Rune)) : LChars :=
  rng.map (fun p => (p.2, levels.getD p.1 0))

theorem subwordsLoop_eq (levels : List Int) : ∀ (rng : List (Nat × Rune)) (level : Int) (buf : Bytes),
    (∀ p ∈ rng, p.1 < levels.length) →
    Replacer.subwordsLoop levels level buf rng = .ok (mg level buf (leveled levels rng)) := by
  intro rng
  induction rng with
  | nil => intro level buf _; rfl
  | cons p rng ih =>
    intro level buf h
    obtain ⟨i, ch⟩ := p
    have hi : i < levels.length := h (i, ch) (by simp)
    have h' : ∀ p ∈ rng, p.1 < levels.length := fun p hp => h p (by simp [hp])
    rw [Replacer.subwordsLoop]
    simp only [index, List.getElem?_eq_getElem hi, Go.bind_ok, leveled, List.map_cons, mg,
      List.getD_eq_getElem?_getD, Option.getD_some]
    split
    · rw [ih _ _ h']; rfl
    · rw [ih _ _ h']; rfl

theorem mg_eq_loop : ∀ (cs : LChars) (a : Rune × Int) (g : LChars) (gs : List LChars),
    (∀ x ∈ g, x.2 = a.2) →
    (List.splitBy.loop sameLevel cs a g gs).map chunk =
      gs.reverse.map chunk ++ mg a.2 (encode ((g.reverse ++ [a]).map (·.1))) cs := by
  intro cs
  induction cs with
  | nil =>
    intro a g gs hg
    simp only [List.splitBy.loop, List.reverse_cons, List.map_append, List.map_cons, List.map_nil, mg]
    congr 2
    simp only [chunk, Subword.mk.injEq]
    refine ⟨by simp, ?_⟩
    cases hr : g.reverse with
    | nil => simp
    | cons x t =>
      have : x ∈ g := by have : x ∈ g.reverse := by simp [hr]
                         simpa using this
      simp [hg x this]
  | cons c cs ih =>
    intro a g gs hg
    rw [List.splitBy.loop]
    obtain ⟨ch, l⟩ := c
    simp only [sameLevel, mg]
    by_cases h : a.2 = l
    · subst h
      simp only [beq_self_eq_true, ne_eq, not_true_eq_false, if_false]
      rw [ih _ _ _ (by intro x hx; simp at hx; rcases hx with rfl | hx; rfl; exact hg x hx)]
      simp [encode_append]
    · have h' : (a.2 == l) = false := by simpa using h
      simp only [h']
      rw [ih _ _ _ (by simp)]
      have h2 : l ≠ a.2 := fun e => h e.symm
      simp only [ne_eq, h2, not_false_eq_true, if_true]
      simp only [List.reverse_cons, List.map_append, List.map_cons, List.map_nil, List.append_assoc,
        List.reverse_nil, List.nil_append, encode_cons, encode_nil, List.append_nil, List.singleton_append]
      congr 2
      simp only [chunk, Subword.mk.injEq]
      refine ⟨by simp, ?_⟩
      cases hr : g.reverse with
      | nil => simp
      | cons x t =>
        have : x ∈ g := by have : x ∈ g.reverse := by simp [hr]
                           simpa using this
        simp [hg x this]

theorem mg_eq_chunks (ch : Rune) (l : Int) (cs : LChars) : mg l [] ((ch, l) :: cs) = chunks ((ch, l) :: cs) := by
  simp only [mg, chunks, List.splitBy]
  rw [mg_eq_loop _ _ _ _ (by simp)]
  simp

theorem rangeFrom_bounds : ∀ (l : List (Rune × Nat)) (i : Nat), (∀ p ∈ l, 1 ≤ p.2) →
    ∀ p ∈ rangeFrom i l, i ≤ p.1 ∧ p.1 < i + (l.map (·.2)).sum := by
  intro l
  induction l with
  | nil => simp [rangeFrom]
  | cons a t ih =>
    intro i h p hp
    obtain ⟨r, n⟩ := a
    have hn : 1 ≤ n := h (r, n) (by simp)
    simp only [rangeFrom, List.mem_cons] at hp
    simp only [List.map_cons, List.sum_cons]
    rcases hp with rfl | hp
    · simp; omega
    · have := ih (i + n) (fun p hp => h p (by simp [hp])) p hp
      omega

theorem decode_width_pos (s : Bytes) : ∀ p ∈ decode s, 1 ≤ p.2 := by
  suffices ∀ n (s : Bytes), s.length ≤ n → ∀ p ∈ decode s, 1 ≤ p.2 from this s.length s (Nat.le_refl _)
  intro n
  induction n with
  | zero => intro s hs; have : s = [] := List.eq_nil_of_length_eq_zero (by omega); simp [this, decode_nil]
  | succ n ih =>
    intro s hs
    cases s with
    | nil => simp [decode_nil]
    | cons b t =>
      intro p hp
      rw [decode_cons] at hp
      rcases List.mem_cons.1 hp with rfl | hp
      · exact decodeRune_width_pos b t
      · exact ih _ (by simp at hs ⊢; omega) p hp

theorem rangeStr_bounds (s : Bytes) : ∀ p ∈ rangeStr s, p.1 < s.length := by
  intro p hp
  have := rangeFrom_bounds (decode s) 0 (decode_width_pos s) p hp
  rw [decode_width_sum] at this
  omega

/-- The characters of a replacer with their levels. -/
def Replacer.lchars (r : Replacer) : LChars := leveled r.levels (rangeStr r.word)

theorem Replacer.subwords_eq {r r' : Replacer} (h : r.commit = .ok r') (hw : r'.WF) :
    r.subwords = .ok (chunks r'.lchars, r') := by
  unfold subwords
  simp only [h, Go.bind_ok]
  cases hl : r'.levels with
  | nil =>
    have : r'.word = [] := by unfold WF at hw; rw [hl] at hw; exact List.eq_nil_of_length_eq_zero hw.symm
    simp [lchars, leveled, this, rangeStr, decode_nil, rangeFrom, chunks, List.splitBy]
  | cons l ls =>
    have hne : r'.word ≠ [] := by intro e; unfold WF at hw; rw [hl, e] at hw; simp at hw
    simp only
    rw [subwordsLoop_eq]
    · simp only [Go.bind_ok, Go.pure_eq]
      congr 2
      cases hword : r'.word with
      | nil => contradiction
      | cons b t =>
        simp only [lchars, hl, hword, rangeStr, decode_cons, rangeFrom, leveled, List.map_cons]
        exact mg_eq_chunks _ _ _
    · intro p hp
      have := rangeStr_bounds r'.word p hp
      unfold WF at hw
      rw [hl] at hw
      omega

theorem mg_word (cs : LChars) : ∀ level buf,
    (mg level buf cs).flatMap (·.word) = buf ++ encode (cs.map (·.1)) := by
  induction cs with
  | nil => intro l b; simp [mg]
  | cons c cs ih =>
    intro l b
    obtain ⟨ch, l'⟩ := c
    simp only [mg]
    split <;> simp [ih]

theorem mg_head (cs : LChars) : ∀ level buf, ∃ b t, mg level buf cs = ⟨b, level⟩ :: t := by
  induction cs with
  | nil => intro l b; exact ⟨_, _, rfl⟩
  | cons c cs ih =>
    intro l b
    obtain ⟨ch, l'⟩ := c
    simp only [mg]
    split
    · exact ⟨_, _, rfl⟩
    · exact ih _ _

theorem mg_alternating (cs : LChars) : ∀ level buf, Alternating (mg level buf cs) := by
  induction cs with
  | nil => intro l b; simp [mg, Alternating]
  | cons c cs ih =>
    intro l b
    obtain ⟨ch, l'⟩ := c
    simp only [mg]
    split
    · rename_i h
      obtain ⟨b', t, e⟩ := mg_head cs l' (encodeRune ch)
      have := ih l' (encodeRune ch)
      rw [e] at this ⊢
      exact ⟨fun h' => h h'.symm, this⟩
    · exact ih _ _

theorem mg_nonempty (cs : LChars) : ∀ level buf, buf ≠ [] → ∀ s ∈ mg level buf cs, s.word ≠ [] := by
  induction cs with
  | nil => intro l b hb s hs; simp [mg] at hs; subst hs; exact hb
  | cons c cs ih =>
    intro l b hb s hs
    obtain ⟨ch, l'⟩ := c
    simp only [mg] at hs
    split at hs
    · rcases List.mem_cons.1 hs with rfl | hs
      · exact hb
      · exact ih _ _ (encodeRune_ne_nil ch) s hs
    · exact ih _ _ (by simp [hb]) s hs

theorem chunks_word (cs : LChars) : (chunks cs).flatMap (·.word) = encode (cs.map (·.1)) := by
  cases cs with
  | nil => rfl
  | cons c cs => obtain ⟨ch, l⟩ := c; rw [← mg_eq_chunks, mg_word]; simp

theorem chunks_alternating (cs : LChars) : Alternating (chunks cs) := by
  cases cs with
  | nil => simp [chunks, List.splitBy, Alternating]
  | cons c cs => obtain ⟨ch, l⟩ := c; rw [← mg_eq_chunks]; exact mg_alternating _ _ _

theorem chunks_nonempty (cs : LChars) : ∀ s ∈ chunks cs, s.word ≠ [] := by
  cases cs with
  | nil => simp [chunks, List.splitBy]
  | cons c cs =>
    obtain ⟨ch, l⟩ := c
    rw [← mg_eq_chunks]
    simp only [mg, ne_eq, not_true_eq_false, if_false, List.nil_append]
    exact mg_nonempty _ _ _ (encodeRune_ne_nil ch)

/-! ### Merging -/

theorem mergeLoop_tagged : ∀ (sws : List Subword) (m : Int) (buf : Bytes), m ≠ -1 →
    (∀ s ∈ sws, s.level ≠ -1) →
    tagged (Builder.mergeLoop m buf sws) = buf.map (fun b => (b, m)) ++ tagged sws := by
  intro sws
  induction sws with
  | nil => intro m buf _ _; simp [Builder.mergeLoop, tagged]
  | cons s sws ih =>
    intro m buf hm h
    have hs := h s (by simp)
    have h' : ∀ s ∈ sws, s.level ≠ -1 := fun x hx => h x (by simp [hx])
    simp only [Builder.mergeLoop]
    split
    · have := ih s.level s.word hs h'
      simp only [tagged, List.flatMap_cons] at this ⊢
      rw [this]
    · rename_i hne
      have e : s.level = m := by
        apply Classical.byContradiction; intro h; exact hne ⟨h, hm⟩
      rw [ih _ _ hs h', e]
      simp [tagged, e]

theorem mergeLoop_head : ∀ (sws : List Subword) (m : Int) (buf : Bytes), m ≠ -1 →
    ∃ b t, Builder.mergeLoop m buf sws = ⟨b, m⟩ :: t := by
  intro sws
  induction sws with
  | nil => intro m buf _; exact ⟨_, _, rfl⟩
  | cons s sws ih =>
    intro m buf hm
    simp only [Builder.mergeLoop]
    split
    · exact ⟨_, _, rfl⟩
    · rename_i hne
      have e : s.level = m := by
        apply Classical.byContradiction; intro h; exact hne ⟨h, hm⟩
      rw [e]; exact ih _ _ hm

theorem mergeLoop_alternating : ∀ (sws : List Subword) (m : Int) (buf : Bytes), m ≠ -1 →
    (∀ s ∈ sws, s.level ≠ -1) → Alternating (Builder.mergeLoop m buf sws) := by
  intro sws
  induction sws with
  | nil => intro m buf _ _; simp [Builder.mergeLoop, Alternating]
  | cons s sws ih =>
    intro m buf hm h
    have hs := h s (by simp)
    have h' : ∀ s ∈ sws, s.level ≠ -1 := fun x hx => h x (by simp [hx])
    simp only [Builder.mergeLoop]
    split
    · rename_i hne
      obtain ⟨b, t, e⟩ := mergeLoop_head sws s.level s.word hs
      have := ih s.level s.word hs h'
      rw [e] at this ⊢
      exact ⟨fun e => hne.1 e.symm, this⟩
    · exact ih _ _ hs h'

theorem mergeLoop_fix : ∀ (sws : List Subword) (m : Int) (buf : Bytes), m ≠ -1 →
    (∀ s ∈ sws, s.level ≠ -1) → Alternating (⟨buf, m⟩ :: sws) →
    Builder.mergeLoop m buf sws = ⟨buf, m⟩ :: sws := by
  intro sws
  induction sws with
  | nil => intro m buf _ _ _; rfl
  | cons s sws ih =>
    intro m buf hm h ha
    simp only [Builder.mergeLoop]
    rw [if_pos ⟨fun e => ha.1 e.symm, hm⟩, ih _ _ (h s (by simp)) (fun x hx => h x (by simp [hx])) ha.2]

theorem mergeLoop_levels : ∀ (sws : List Subword) (m : Int) (buf : Bytes),
    ∀ s ∈ Builder.mergeLoop m buf sws, s.level = m ∨ ∃ x ∈ sws, x.level = s.level := by
  intro sws
  induction sws with
  | nil => intro m buf s hs; simp [Builder.mergeLoop] at hs; subst hs; simp
  | cons x sws ih =>
    intro m buf s hs
    simp only [Builder.mergeLoop] at hs
    split at hs
    · rcases List.mem_cons.1 hs with rfl | hs
      · exact .inl rfl
      · rcases ih _ _ s hs with h | ⟨y, hy, h⟩
        · exact .inr ⟨x, by simp, h.symm⟩
        · exact .inr ⟨y, by simp [hy], h⟩
    · rcases ih _ _ s hs with h | ⟨y, hy, h⟩
      · exact .inr ⟨x, by simp, h.symm⟩
      · exact .inr ⟨y, by simp [hy], h⟩

theorem builder_eq (s : Subword) (sws : List Subword) :
    Builder.subwords (s :: sws) = Builder.mergeLoop s.level s.word sws := by
  simp [Builder.subwords, Builder.mergeLoop]

theorem builder_levels (sws : List Subword) :
    ∀ s ∈ Builder.subwords sws, ∃ x ∈ sws, x.level = s.level := by
  cases sws with
  | nil => simp [Builder.subwords]
  | cons x sws =>
    rw [builder_eq]
    intro s hs
    rcases mergeLoop_levels _ _ _ s hs with h | ⟨y, hy, h⟩
    · exact ⟨x, by simp, h.symm⟩
    · exact ⟨y, by simp [hy], h⟩

end Verif
