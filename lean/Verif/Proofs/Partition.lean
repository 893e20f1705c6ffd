import Verif.Proofs.Transcribe

/-! The partition step, and the levels of the text throughout the procedure. -/

namespace Verif

open Verif.Spec.Subword Verif.Spec.Procedure

/-- The text of some letters at their levels. -/
def marked (f : Rune → Int) (rs : List Rune) : Tagged := rs.flatMap fun c => at_ (f c) (encodeRune c)

theorem at_append (l : Int) (a b : Bytes) : at_ l (a ++ b) = at_ l a ++ at_ l b := by simp [at_]

theorem marked_const (l : Int) (rs : List Rune) : marked (fun _ => l) rs = at_ l (encode rs) := by
  induction rs with
  | nil => rfl
  | cons c rs ih => rw [encode_cons, at_append, ← ih]; rfl

theorem marked_fst (f : Rune → Int) (rs : List Rune) : (marked f rs).map (·.1) = encode rs := by
  induction rs with
  | nil => rfl
  | cons c rs ih =>
    rw [encode_cons, ← ih]
    simp [marked, at_, Function.comp_def]

/-- The byte offsets of letters. -/
def offsets : Nat → List Rune → List (Nat × Rune)
  | _, [] => []
  | i, c :: rs => (i, c) :: offsets (i + (encodeRune c).length) rs

theorem rangeStr_encode {rs : List Rune} (h : ∀ r ∈ rs, validRune r = true) : rangeStr (encode rs) = offsets 0 rs := by
  have := decode_encode_append h []
  simp only [List.append_nil, decode_nil] at this
  rw [rangeStr, this]
  generalize 0 = i
  clear this h
  induction rs generalizing i with
  | nil => rfl
  | cons c rs ih => simp [rangeFrom, offsets, ih]

/-- The replacements of `partition` from an offset on. -/
def markRepls (P : Rune → Bool) (i : Nat) (rs : List Rune) : List Repl :=
  (offsets i rs).filterMap fun (i, c) => if P c then some ⟨i, i + (encodeRune c).length, encodeRune c⟩ else none

theorem splice_mark (P : Rune → Bool) : ∀ (rs : List Rune) (pre : Tagged) (off : Nat), off ≤ pre.length →
    Inside (pre ++ at_ 0 (encode rs)).length off (markRepls P pre.length rs) ∧
    splice (at_ 1) (pre ++ at_ 0 (encode rs)) off (markRepls P pre.length rs) =
      pre.drop off ++ marked (fun c => if P c then 1 else 0) rs := by
  intro rs
  induction rs with
  | nil =>
    intro pre off h
    simp [markRepls, offsets, Inside, splice, marked, at_, h]
  | cons c rs ih =>
    intro pre off h
    have e : pre ++ at_ 0 (encode (c :: rs)) = (pre ++ at_ 0 (encodeRune c)) ++ at_ 0 (encode rs) := by
      rw [encode_cons, at_append, List.append_assoc]
    have el : (pre ++ at_ 0 (encodeRune c)).length = pre.length + (encodeRune c).length := by simp [at_]
    by_cases hp : P c = true
    · obtain ⟨h1, h2⟩ := ih (pre ++ at_ 0 (encodeRune c)) (pre.length + (encodeRune c).length) (by omega)
      have er : markRepls P pre.length (c :: rs) =
          ⟨pre.length, pre.length + (encodeRune c).length, encodeRune c⟩ ::
            markRepls P (pre ++ at_ 0 (encodeRune c)).length rs := by
        simp [markRepls, offsets, hp, el]
      rw [er, e]
      refine ⟨⟨h, by simp, h1⟩, ?_⟩
      have h0 : (pre ++ at_ 0 (encodeRune c)).drop (pre.length + (encodeRune c).length) = [] :=
        List.drop_eq_nil_of_le (by omega)
      rw [splice, h2, h0]
      simp only [List.nil_append, marked, List.flatMap_cons, hp, if_true]
      rw [List.append_assoc, List.append_assoc, List.drop_append_of_le_length h,
        List.take_append_of_le_length (by simp)]
      rw [List.take_of_length_le (by simp)]
    · obtain ⟨h1, h2⟩ := ih (pre ++ at_ 0 (encodeRune c)) off (by omega)
      have er : markRepls P pre.length (c :: rs) = markRepls P (pre ++ at_ 0 (encodeRune c)).length rs := by
        simp [markRepls, offsets, hp, el]
      rw [er, e]
      refine ⟨h1, ?_⟩
      rw [h2, List.drop_append_of_le_length h]
      simp [marked, hp]

theorem leveled_marked (f : Rune → Int) : ∀ (rs : List Rune) (pre : List Int),
    leveled (pre ++ (marked f rs).map (·.2)) (offsets pre.length rs) = rs.map fun c => (c, f c) := by
  intro rs
  induction rs with
  | nil => intro pre; rfl
  | cons c rs ih =>
    intro pre
    have := ih (pre ++ (at_ (f c) (encodeRune c)).map (·.2))
    simp only [at_, List.map_map, List.length_append, List.length_map] at this
    have hlen := encodeRune_length_pos c
    simp only [leveled, offsets, List.map_cons, marked, List.flatMap_cons, List.map_append]
    congr 1
    · simp only [List.getD_eq_getElem?_getD, Prod.mk.injEq, true_and]
      rw [List.getElem?_append_right (Nat.le_refl _), List.getElem?_append_left (by simpa [at_] using hlen)]
      simp [at_, List.getElem?_eq_getElem hlen]
    · simp only [leveled, marked, List.append_assoc] at this
      simpa [at_] using this

theorem lchars_marked {r : Replacer} (hw : r.WF) {rs : List Rune} (hv : ∀ c ∈ rs, validRune c = true)
    {f : Rune → Int} (h : r.tags = marked f rs) : r.lchars = rs.map fun c => (c, f c) := by
  have h1 : r.word = encode rs := by rw [← Replacer.tags_fst hw, h, marked_fst]
  have h2 : r.levels = (marked f rs).map (·.2) := by rw [← Replacer.tags_snd hw, h]
  rw [Replacer.lchars, h1, h2, rangeStr_encode hv]
  simpa using leveled_marked f rs []

/-- Splitting a word by the meaning of its letters. -/
theorem partition_eq (s : Spec) {w : Bytes} (hv : ValidUtf8 w) :
    partition s w = .ok (chunks ((runes w).map fun c => (c, if meaningful s c then 1 else 0))) := by
  have hrs := runes_valid w
  have hw := encode_runes hv
  have hr : partitionRepls s w = markRepls (meaningful s) 0 (runes w) := by
    have := rangeStr_encode hrs
    rw [hw] at this
    rw [partitionRepls, this, markRepls]
  obtain ⟨h1, h2⟩ := splice_mark (meaningful s) (runes w) [] 0 (Nat.le_refl _)
  simp only [List.nil_append, List.length_nil, List.drop_nil, hw] at h1 h2
  have ht := Replacer.new_tags w 0 1
  rcases string_cases (Replacer.new_clean w 0 1) (partitionRepls s w) with ⟨_, r', h3, h4, h5, h6⟩ | ⟨h3, _⟩
  · rw [ht, hr] at h6
    have h6' : r'.tags = _ := h6.trans h2
    have := lchars_marked h4.wf hrs h6'
    simp only [Replacer.string, Go.bind_eq_ok, Go.pure_eq, Go.ok.injEq, Prod.mk.injEq] at h3
    obtain ⟨r'', h3, _, rfl⟩ := h3
    rw [partition, Replacer.subwords_eq h3 h4.wf, this]
    rfl
  · rw [ht, hr] at h3; exact absurd h1 h3

theorem mg_const (l : Int) : ∀ (rs : List Rune) (buf : Bytes),
    mg l buf (rs.map fun c => (c, l)) = [⟨buf ++ encode rs, l⟩] := by
  intro rs
  induction rs with
  | nil => intro buf; simp [mg]
  | cons c rs ih => intro buf; simp [mg, ih]

theorem chunks_const (l : Int) {rs : List Rune} (h : rs ≠ []) :
    chunks (rs.map fun c => (c, l)) = [⟨encode rs, l⟩] := by
  cases rs with
  | nil => contradiction
  | cons c rs =>
    have := mg_eq_chunks c l (rs.map fun c => (c, l))
    rw [List.map_cons, ← this]
    have := mg_const l (c :: rs) []
    simpa using this

theorem chunks_const' (l : Int) (w : Bytes) (hv : ValidUtf8 w) :
    chunks ((runes w).map fun c => (c, l)) = if w = [] then [] else [⟨w, l⟩] := by
  by_cases h : w = []
  · subst h; rfl
  · rw [chunks_const l (by simpa [runes_eq_nil_iff] using h), encode_runes hv, if_neg h]

/-! ### Levels -/

theorem splice_mem {α : Type} {new : Bytes → List α} {t : List α} : ∀ {rs : List Repl} {off : Nat} {x : α},
    x ∈ splice new t off rs → x ∈ t ∨ ∃ r ∈ rs, x ∈ new r.word := by
  intro rs
  induction rs with
  | nil => intro off x h; exact .inl (List.mem_of_mem_drop h)
  | cons r rs ih =>
    intro off x h
    simp only [splice, List.mem_append] at h
    rcases h with (h | h) | h
    · exact .inl (List.mem_of_mem_drop (List.mem_of_mem_take h))
    · exact .inr ⟨r, by simp, h⟩
    · rcases ih h with h | ⟨r', hr, h⟩
      · exact .inl h
      · exact .inr ⟨r', by simp [hr], h⟩

/-- All levels of a replacer satisfy a predicate. -/
def Replacer.Levels (P : Int → Prop) (r : Replacer) : Prop := ∀ l ∈ r.levels, P l

theorem levels_string {P : Int → Prop} {r r' : Replacer} {w : Bytes} {rs : List Repl} (hc : r.Clean)
    (hl : r.Levels P) (hn : P r.nextLevel) (h : (r.replaceBy rs).string = .ok (w, r')) : r'.Levels P := by
  obtain ⟨_, _, h3, _, h5⟩ := string_ok hc h
  intro l hm
  rw [← Replacer.tags_snd h3.wf, h5] at hm
  obtain ⟨x, hx, rfl⟩ := List.mem_map.1 hm
  rcases splice_mem hx with h | ⟨q, _, h⟩
  · exact hl _ (by rw [← Replacer.tags_snd hc.wf]; exact List.mem_map.2 ⟨x, h, rfl⟩)
  · simp only [at_, List.mem_map] at h
    obtain ⟨b, _, rfl⟩ := h
    exact hn

theorem splitBy_loop_mem {α : Type} {R : α → α → Bool} {a x : α} {g l : List α} {gs : List (List α)} {c : List α}
    (h : c ∈ List.splitBy.loop R l a g gs) (hx : x ∈ c) : x ∈ l ∨ x = a ∨ x ∈ g ∨ ∃ d ∈ gs, x ∈ d := by
  induction l generalizing a g gs with
  | nil =>
    simp only [List.splitBy.loop, List.mem_reverse, List.mem_cons] at h
    rcases h with rfl | h
    · simp only [List.mem_reverse, List.mem_cons] at hx
      rcases hx with h | h
      · exact .inr (.inl h)
      · exact .inr (.inr (.inl h))
    · exact .inr (.inr (.inr ⟨c, h, hx⟩))
  | cons b l ih =>
    simp only [List.splitBy.loop] at h
    split at h
    · rcases ih h with h | h | h | h
      · exact .inl (by simp [h])
      · exact .inl (by simp [h])
      · simp only [List.mem_cons] at h
        rcases h with h | h
        · exact .inr (.inl h)
        · exact .inr (.inr (.inl h))
      · exact .inr (.inr (.inr h))
    · rcases ih h with h | h | h | ⟨d, hd, h⟩
      · exact .inl (by simp [h])
      · exact .inl (by simp [h])
      · simp at h
      · simp only [List.mem_cons] at hd
        rcases hd with rfl | hd
        · simp only [List.mem_reverse, List.mem_cons] at h
          rcases h with h | h
          · exact .inr (.inl h)
          · exact .inr (.inr (.inl h))
        · exact .inr (.inr (.inr ⟨d, hd, h⟩))

theorem splitBy_mem {α : Type} {R : α → α → Bool} {x : α} {l c : List α} (h : c ∈ l.splitBy R) (hx : x ∈ c) : x ∈ l := by
  cases l with
  | nil => simp [List.splitBy] at h
  | cons a l =>
    rcases splitBy_loop_mem h hx with h | h | h | ⟨_, h, _⟩ <;> simp_all

theorem chunks_level {cs : LChars} {sw : Subword} (h : sw ∈ chunks cs) (hne : sw.word ≠ []) :
    ∃ c ∈ cs, c.2 = sw.level := by
  obtain ⟨g, hg, rfl⟩ := List.mem_map.1 h
  cases g with
  | nil => exact absurd rfl hne
  | cons c g => exact ⟨c, splitBy_mem hg (by simp), rfl⟩

theorem subwords_levels {P : Int → Prop} {r : Replacer} (hc : r.Clean) (hl : r.Levels P) {out : List Subword}
    {r' : Replacer} (h : r.subwords = .ok (out, r')) : ∀ sw ∈ out, P sw.level := by
  rw [subwords_ok hc] at h
  simp only [Go.ok.injEq, Prod.mk.injEq] at h
  obtain ⟨rfl, rfl⟩ := h
  intro sw hsw
  obtain ⟨c, hc', e⟩ := chunks_level hsw (chunks_nonempty _ _ hsw)
  rw [← e]
  simp only [Replacer.lchars, leveled, List.mem_map] at hc'
  obtain ⟨p, hp, rfl⟩ := hc'
  have hb := rangeStr_bounds r.word p hp
  have hw := hc.wf
  unfold Replacer.WF at hw
  simp only [List.getD_eq_getElem?_getD]
  rw [List.getElem?_eq_getElem (by omega)]
  exact hl _ (List.getElem_mem _)

theorem new_levels {P : Int → Prop} {w : Bytes} {a b : Int} (h : P a) : (Replacer.new w a b).Levels P := by
  intro l hl
  simp only [Replacer.new, List.mem_replicate] at hl
  exact hl.2 ▸ h

theorem rewriteRun_levels {P : Int → Prop} : ∀ {rules : List Rule} {w : Bytes} {rep rep' : Replacer} {ws : List Bytes},
    rep.Clean → rep.Levels P → P rep.nextLevel → rewriteRun rules w rep = .ok (ws, rep') →
    rep'.Clean ∧ rep'.Levels P := by
  intro rules
  induction rules with
  | nil =>
    intro w rep rep' ws hc hl _ h
    simp only [rewriteRun, Go.ok.injEq, Prod.mk.injEq] at h
    exact h.2 ▸ ⟨hc, hl⟩
  | cons r rules ih =>
    intro w rep rep' ws hc hl hn h
    simp only [rewriteRun, Go.bind_eq_ok, Prod.exists, Go.pure_eq, Go.ok.injEq, Prod.mk.injEq] at h
    obtain ⟨rs, _, w1, rep1, h1, ws1, rep2, h2, _, rfl⟩ := h
    obtain ⟨_, _, h3, h4, _⟩ := string_ok hc h1
    exact ih h3 (levels_string hc hl hn h1) (h4 ▸ hn) h2

theorem transcribeRun_levels {P : Int → Prop} : ∀ {rules : List Rule} {w : Bytes} {rep dummy rep' : Replacer}
    {ws : List Bytes}, rep.Clean → rep.Levels P → P rep.nextLevel →
    transcribeRun rules w rep dummy = .ok (ws, rep') → rep'.Clean ∧ rep'.Levels P := by
  intro rules
  induction rules with
  | nil =>
    intro w rep dummy rep' ws hc hl _ h
    simp only [transcribeRun, Go.ok.injEq, Prod.mk.injEq] at h
    exact h.2 ▸ ⟨hc, hl⟩
  | cons r rules ih =>
    intro w rep dummy rep' ws hc hl hn h
    simp only [transcribeRun, Go.bind_eq_ok, Prod.exists, Go.pure_eq, Go.ok.injEq, Prod.mk.injEq] at h
    obtain ⟨rs, _, w1, d1, _, w2, rep1, h1, ws1, rep2, h2, _, rfl⟩ := h
    obtain ⟨_, _, h3, h4, _⟩ := string_ok hc h1
    exact ih h3 (levels_string hc hl hn h1) (h4 ▸ hn) h2

theorem rewriteAll_levels {P : Int → Prop} (hP : P 1) {rules : List Rule} : ∀ {sws : List Subword}
    {rows : List (Option (List Bytes))} {out : List Subword}, (∀ sw ∈ sws, P sw.level) →
    rewriteAll rules sws = .ok (rows, out) → ∀ sw ∈ out, P sw.level := by
  intro sws
  induction sws with
  | nil =>
    intro rows out _ h
    simp only [rewriteAll, Go.ok.injEq, Prod.mk.injEq] at h
    simp [← h.2]
  | cons sw sws ih =>
    intro rows out hl h
    simp only [rewriteAll, Go.bind_eq_ok, Prod.exists, Go.pure_eq, Go.ok.injEq, Prod.mk.injEq] at h
    obtain ⟨ws, rep, h1, o, r', h2, rows', rest, h3, _, rfl⟩ := h
    obtain ⟨hc, hl'⟩ := rewriteRun_levels (Replacer.new_clean _ _ _) (new_levels (hl sw (by simp))) hP h1
    intro x hx
    rcases List.mem_append.1 hx with hx | hx
    · exact subwords_levels hc hl' h2 x hx
    · exact ih (fun s hs => hl s (by simp [hs])) h3 x hx

theorem transcribeAll_levels {P : Int → Prop} (hP : P 2) {rules : List Rule} : ∀ {sws : List Subword}
    {rows : List (Option (List Bytes))} {out : List Subword}, (∀ sw ∈ sws, P sw.level) →
    transcribeAll rules sws = .ok (rows, out) → ∀ sw ∈ out, P sw.level := by
  intro sws
  induction sws with
  | nil =>
    intro rows out _ h
    simp only [transcribeAll, Go.ok.injEq, Prod.mk.injEq] at h
    simp [← h.2]
  | cons sw sws ih =>
    intro rows out hl h
    have hl2 := fun s (hs : s ∈ sws) => hl s (by simp [hs])
    by_cases h0 : sw.level = 0
    · simp only [transcribeAll, h0, ↓reduceIte, Go.bind_eq_ok, Prod.exists, Go.pure_eq, Go.ok.injEq,
        Prod.mk.injEq] at h
      obtain ⟨rows', rest, h3, _, rfl⟩ := h
      intro x hx
      rcases List.mem_cons.1 hx with rfl | hx
      · exact hl _ (by simp)
      · exact ih hl2 h3 x hx
    · simp only [transcribeAll, h0, ↓reduceIte, Go.bind_eq_ok, Prod.exists, Go.pure_eq, Go.ok.injEq,
        Prod.mk.injEq] at h
      obtain ⟨ws, rep, h1, o, r', h2, rows', rest, h3, _, rfl⟩ := h
      obtain ⟨hc, hl'⟩ := transcribeRun_levels (Replacer.new_clean _ _ _) (new_levels (hl sw (by simp))) hP h1
      intro x hx
      rcases List.mem_append.1 hx with hx | hx
      · exact subwords_levels hc hl' h2 x hx
      · exact ih hl2 h3 x hx

theorem normalizeScript_valid (s : Spec) (w : Bytes) : ValidUtf8 (normalizeScript s w) := encode_validUtf8 _

theorem builder_levels' {P : Int → Prop} {sws : List Subword} (h : ∀ sw ∈ sws, P sw.level) :
    ∀ sw ∈ Builder.subwords sws, P sw.level := by
  intro sw hsw
  obtain ⟨x, hx, e⟩ := builder_levels sws sw hsw
  exact e ▸ h x hx

/-! ### Left-overs -/

/-- Pieces of level 1 are single spaces and apart from one another. -/
def Isolated : List Subword → Prop
  | [] => True
  | a :: t => (a.level = 1 → a.word = [0x20] ∧ ∀ b, t.head? = some b → b.level ≠ 1) ∧ Isolated t

theorem discard_isolated : ∀ {l : List Subword}, Alternating l → Isolated (discard l) := by
  intro l
  induction l with
  | nil => intro _; exact trivial
  | cons a l ih =>
    intro h
    have hl : Alternating l := by
      cases l with
      | nil => trivial
      | cons b t => exact h.2
    have hi := ih hl
    simp only [discard] at hi ⊢
    simp only [List.flatMap_cons]
    by_cases h1 : a.level = 1
    · simp only [h1, ↓reduceIte]
      split
      · refine ⟨fun _ => ⟨rfl, fun b hb => ?_⟩, hi⟩
        cases l with
        | nil => simp at hb
        | cons c t =>
          have hc : c.level ≠ 1 := fun e => h.1 (h1.trans e.symm)
          simp only [List.flatMap_cons, hc, ↓reduceIte] at hb
          have hb : some c = some b := hb
          exact (Option.some.inj hb) ▸ hc
      · exact hi
    · simp only [h1, ↓reduceIte, List.cons_append, List.nil_append]
      exact ⟨fun e => absurd e h1, hi⟩

theorem mergeLoop_isolated : ∀ (l : List Subword) (m : Int) (buf : Bytes), m ≠ -1 → (∀ s ∈ l, s.level ≠ -1) →
    Isolated (⟨buf, m⟩ :: l) → ∀ s ∈ Builder.mergeLoop m buf l, s.level = 1 → s.word = [0x20] := by
  intro l
  induction l with
  | nil =>
    intro m buf _ _ h s hs h1
    simp only [Builder.mergeLoop, List.mem_singleton] at hs
    subst hs
    exact (h.1 h1).1
  | cons a l ih =>
    intro m buf hm hl h s hs h1
    have ha := hl a (by simp)
    have hl' := fun s (hs : s ∈ l) => hl s (by simp [hs])
    simp only [Builder.mergeLoop] at hs
    by_cases e : a.level = m
    · simp only [e, ne_eq, not_true_eq_false, false_and, ↓reduceIte] at hs
      have hm1 : m ≠ 1 := fun e1 => (h.1 e1).2 a rfl (e.trans e1)
      refine ih m (buf ++ a.word) hm hl' ⟨fun e1 => absurd e1 hm1, h.2.2⟩ s hs h1
    · simp only [ne_eq, e, not_false_eq_true, hm, and_self, ↓reduceIte, List.mem_cons] at hs
      rcases hs with rfl | hs
      · exact (h.1 h1).1
      · exact ih a.level a.word ha hl' h.2 s hs h1

theorem discard_spaces {l : List Subword} (h : Alternating l) (hl : ∀ s ∈ l, 0 ≤ s.level) :
    ∀ s ∈ Builder.subwords (discard l), s.level = 1 → s.word = [0x20] := by
  have hi := discard_isolated h
  have hd : ∀ s ∈ discard l, s.level ≠ -1 := by
    intro sw hsw
    obtain ⟨x, hx, hm⟩ := List.mem_flatMap.1 hsw
    split at hm
    · split at hm
      · simp only [List.mem_singleton] at hm; subst hm; simp
      · simp at hm
    · simp only [List.mem_singleton] at hm
      subst hm
      have := hl _ hx
      omega
  generalize discard l = d at hi hd
  cases d with
  | nil => simp [Builder.subwords]
  | cons a d =>
    rw [builder_eq]
    exact mergeLoop_isolated d a.level a.word (hd a (by simp)) (fun s hs => hd s (by simp [hs])) hi

end Verif
