import Verif.Proofs.HslRender

/-! Comments and blanks do not matter, except where a comment swallows the end of a pair. -/

set_option linter.unusedSimpArgs false

namespace Verif.Hsl

open Verif.Spec.Hsl

/-! ## Parsing without lines -/

/-- A document without lines. -/
def bareDoc (d : Doc) : List (Bytes × Kind × List (Bytes × List Bytes)) := d.map fun x => (x.1, bare x.2)

theorem lookup_bare {n : Bytes} : ∀ {d d' : Doc}, bareDoc d = bareDoc d' →
    (d.lookup n).map bare = (d'.lookup n).map bare
  | [], [], _ => rfl
  | [], _ :: _, h => by simp [bareDoc] at h
  | _ :: _, [], h => by simp [bareDoc] at h
  | (m, s) :: d, (m', s') :: d', h => by
    simp only [bareDoc, List.map_cons, List.cons.injEq, Prod.mk.injEq] at h
    obtain ⟨⟨rfl, hs⟩, h⟩ := h
    simp only [List.lookup]
    cases n == m with
    | true => simp [hs]
    | false => exact lookup_bare h

theorem setSection_bare {n : Bytes} {t t' : Section} (ht : bare t = bare t') : ∀ {d d' : Doc},
    bareDoc d = bareDoc d' → bareDoc (setSection n t d) = bareDoc (setSection n t' d')
  | [], [], _ => by simp [setSection, bareDoc, ht]
  | [], _ :: _, h => by simp [bareDoc] at h
  | _ :: _, [], h => by simp [bareDoc] at h
  | (m, s) :: d, (m', s') :: d', h => by
    simp only [bareDoc, List.map_cons, List.cons.injEq, Prod.mk.injEq] at h
    obtain ⟨⟨rfl, hs⟩, h⟩ := h
    simp only [setSection]
    split
    · simp [bareDoc, ht] at h ⊢
      exact h
    · have := setSection_bare (n := n) ht h
      simp only [bareDoc, List.map_cons] at this ⊢
      simp [hs, this]

/-- States that agree up to lines. -/
def SameState (st st' : State) : Prop :=
  bareDoc st.doc = bareDoc st'.doc ∧ st.lastString = st'.lastString ∧ st.sectionName = st'.sectionName

/-- Pending pairs that agree up to lines. -/
def SamePending : Option Pending → Option Pending → Prop
  | none, none => True
  | some p, some p' => p.kind = p'.kind ∧ p.values = p'.values
  | _, _ => False

theorem section_addPair_bare {s s' : Section} (h : bare s = bare s') (left : Bytes) (vals : List Bytes)
    (l l' : Nat) : (s.addPair ⟨left, vals, l⟩).map bare = (s'.addPair ⟨left, vals, l'⟩).map bare := by
  simp only [bare, Prod.mk.injEq] at h
  obtain ⟨hk, hp⟩ := h
  unfold Section.addPair
  rw [← hk]
  cases hkd : s.kind with
  | list => simp [bare, hp]
  | dict =>
    have : (s.pairs.any fun p => decide (p.left = left)) = (s'.pairs.any fun p => decide (p.left = left)) := by
      have := congrArg (fun x => x.any fun q => decide (q.1 = left)) hp
      simpa [List.any_map, Function.comp_def] using this
    simp only [this]
    split
    · rfl
    · simp [bare, hp]

theorem addPair_same {st st' : State} (h : SameState st st') (kind : Kind) (vals : List Bytes) (l l' : Nat) :
    match st.addPair kind l vals, st'.addPair kind l' vals with
    | some a, some b => SameState a b
    | none, none => True
    | _, _ => False := by
  obtain ⟨hd, hl, hn⟩ := h
  unfold State.addPair
  have hlook := lookup_bare (n := st.sectionName) hd
  rw [← hn, ← hl]
  have hsec : bare ((st.doc.lookup st.sectionName).getD ⟨kind, [], st.sectionLine⟩)
      = bare ((st'.doc.lookup st.sectionName).getD ⟨kind, [], st'.sectionLine⟩) := by
    cases h1 : st.doc.lookup st.sectionName <;> cases h2 : st'.doc.lookup st.sectionName <;>
      simp [h1, h2] at hlook ⊢
    · simp [bare]
    · exact hlook
  have := section_addPair_bare hsec st.lastString vals l l'
  simp only []
  generalize Section.addPair _ _ = a at this ⊢
  generalize Section.addPair _ _ = b at this ⊢
  cases a <;> cases b <;> simp at this ⊢
  exact ⟨setSection_bare this hd, rfl, rfl⟩

/-- Neither blank nor comment. -/
def significant : Token → Bool
  | .space | .comment => false
  | _ => true

theorem parseLoop_bare : ∀ (ts : List (Token × Nat)) (st st' : State) (p p' : Option Pending),
    SameState st st' → SamePending p p' →
    bareOutcome (parseLoop st p ts)
      = bareOutcome (parseLoop st' p' (at0 ((ts.map Prod.fst).filter significant)))
  | [], st, st', none, none, h, _ => by
    simp only [List.map_nil, List.filter_nil, at0, parseLoop, bareOutcome]
    exact congrArg _ h.1
  | [], st, st', some p, some p', h, hp => by
    have := addPair_same h p.kind p.values p.line p'.line
    simp only [List.map_nil, List.filter_nil, at0, parseLoop]
    obtain ⟨h1, h2⟩ := hp
    rw [h1, h2] at this
    rw [h1, h2]
    generalize State.addPair st _ _ _ = a at this ⊢
    generalize State.addPair st' _ _ _ = b at this ⊢
    cases a <;> cases b <;> simp at this ⊢
    simp only [bareOutcome]
    exact congrArg _ this.1
  | _, _, _, some _, none, _, hp => hp.elim
  | _, _, _, none, some _, _, hp => hp.elim
  | (tk, l) :: ts, st, st', none, none, h, hp => by
    have ih := parseLoop_bare ts
    cases tk with
    | space | comment => exact ih st st' none none h trivial
    | panics | hangs | illegal => rfl
    | eof =>
      simp only [List.map_cons, List.filter_cons, significant, if_true, at0, parseLoop, step, bareOutcome]
      exact congrArg _ h.1
    | newline | comma => exact ih st st' none none h trivial
    | string s =>
      exact ih { st with lastString := encode s } { st' with lastString := encode s } none none
        ⟨h.1, rfl, h.2.2⟩ trivial
    | colon =>
      exact ih { st with sectionName := st.lastString, sectionLine := l }
        { st' with sectionName := st'.lastString, sectionLine := 0 } none none ⟨h.1, h.2.1, h.2.1⟩ trivial
    | equal =>
      simp only [List.map_cons, List.filter_cons, significant, if_true, at0, parseLoop, step]
      rw [h.2.2]
      by_cases hn : st'.sectionName = []
      · simp only [hn, if_true]
      · simp only [hn, if_false]
        exact ih st st' (some ⟨.dict, l, []⟩) (some ⟨.dict, 0, []⟩) h ⟨rfl, rfl⟩
    | arrow =>
      simp only [List.map_cons, List.filter_cons, significant, if_true, at0, parseLoop, step]
      rw [h.2.2]
      by_cases hn : st'.sectionName = []
      · simp only [hn, if_true]
      · simp only [hn, if_false]
        exact ih st st' (some ⟨.list, l, []⟩) (some ⟨.list, 0, []⟩) h ⟨rfl, rfl⟩
  | (tk, l) :: ts, st, st', some p, some p', h, hp => by
    have ih := parseLoop_bare ts
    have fin : bareOutcome (match finish st p with
          | .stop r => r
          | .cont st' p' => parseLoop st' p' ts)
        = bareOutcome (match finish st' p' with
          | .stop r => r
          | .cont st' p' => parseLoop st' p' (at0 ((ts.map Prod.fst).filter significant))) := by
      have := addPair_same h p.kind p.values p.line p'.line
      obtain ⟨h1, h2⟩ := hp
      rw [h1, h2] at this
      unfold finish
      rw [h1, h2]
      generalize State.addPair st _ _ _ = a at this ⊢
      generalize State.addPair st' _ _ _ = b at this ⊢
      cases a <;> cases b <;> simp at this ⊢
      exact ih _ _ none none this trivial
    cases tk with
    | panics | hangs | illegal => rfl
    | eof => exact fin
    | newline => exact fin
    | string s =>
      exact ih st st' (some { p with values := p.values ++ [encode s] })
        (some { p' with values := p'.values ++ [encode s] }) h ⟨hp.1, by rw [hp.2]⟩
    | _ => exact ih st st' (some p) (some p') h hp

/-! ## Significant tokens -/

/-- The tokens of a source, without lines, blanks and comments. -/
def sigs (s : List Rune) : List Token := ((tokensFrom 0 0 s).map Prod.fst).filter significant

theorem tokensFrom_line : ∀ (n : Nat) (s : List Rune), s.length ≤ n → ∀ (l l' : Nat),
    (tokensFrom 0 l s).map Prod.fst = (tokensFrom 0 l' s).map Prod.fst := by
  intro n
  induction n with
  | zero =>
    intro s hs l l'
    have : s = [] := by simpa using hs
    subst this
    simp [tokensFrom]
  | succ n ih =>
    intro s hs l l'
    cases s with
    | nil => simp [tokensFrom]
    | cons ch t =>
      rw [tokensFrom_cons, tokensFrom_cons]
      simp only [List.map_cons, List.cons.injEq, true_and]
      exact ih _ (by simp at hs ⊢; omega) _ _

theorem sigs_cons (ch : Rune) (t : List Rune) :
    sigs (ch :: t) = (if significant (scan ch t).1 then [(scan ch t).1] else []) ++ sigs (t.drop (scan ch t).2) := by
  rw [sigs, tokensFrom_cons]
  simp only [List.map_cons, List.filter_cons]
  rw [tokensFrom_line _ _ (Nat.le_refl _) _ 0]
  split <;> simp [sigs]

theorem parse_sigs (src : Bytes) : bareOutcome (parse src)
    = bareOutcome (parseLoop ⟨[], [], [], 0⟩ none (at0 (sigs (runes src)))) := by
  rw [parse, parseLoop_bare (tokens src) _ ⟨[], [], [], 0⟩ none none ⟨rfl, rfl, rfl⟩ trivial, tokens,
    tokensFrom_line _ _ (Nat.le_refl _) 1 0]
  rfl

theorem sigs_blank {c : Rune} (h : isBlank c = true) (t : List Rune) : sigs (c :: t) = sigs t := by
  have hscan : ∀ (c : Rune) (t : List Rune), isBlank c = true →
      scan c t = (.space, (readWhile isBlank t).length) := by
    intro c t h
    have h1 := blank_plain h
    have h2 : Unicode.isSpace c = true := by simp [isBlank] at h; exact h.2
    have h0 : c ≠ 0 := by rintro rfl; revert h2; decide +kernel
    simp [scan, h0, h1, h2]
  rw [sigs_cons, hscan c t h]
  simp only [significant, Bool.false_eq_true, if_false, List.nil_append]
  cases t with
  | nil => rfl
  | cons d t =>
    by_cases hd : isBlank d = true
    · have h0 : d ≠ 0 := by rintro rfl; revert hd; decide +kernel
      rw [sigs_cons d t, hscan d t hd]
      simp [significant, readWhile, hd, h0]
    · simp [readWhile, hd]

theorem sigs_blanks : ∀ (bs t : List Rune), (∀ c ∈ bs, isBlank c = true) → sigs (bs ++ t) = sigs t
  | [], _, _ => rfl
  | b :: bs, t, h => by
    rw [List.cons_append, sigs_blank (h b (by simp)), sigs_blanks bs t fun c hc => h c (by simp [hc])]

theorem scan_hash (t : List Rune) : scan 0x23 t = (.comment, commentLen true t) := by
  have h1 : Unicode.isSpace 0x23 = false := by decide +kernel
  have h2 : isInitial 0x23 = false := by decide +kernel
  simp [scan, h1, h2]

theorem sigs_hash (t : List Rune) : sigs (0x23 :: t) = sigs (t.drop (commentLen true t)) := by
  rw [sigs_cons, scan_hash]
  simp [significant]

theorem sigs_skip : ∀ (t : List Rune), sigs (t.drop (commentLen false t)) = sigs t
  | [] => rfl
  | c :: t => by
    rw [commentLen]
    split
    · rename_i h
      rw [List.drop_succ_cons, sigs_skip t, sigs_blank h]
    · split
      · rename_i h
        have : c = 0x23 := by simpa using h
        subst this
        rw [List.drop_succ_cons, sigs_hash]
      · rfl

/-- A comment on its own line. -/
theorem sigs_comment (b : List Rune) : ∀ (c : List Rune), (∀ x ∈ c, x ≠ 0x0A ∧ x ≠ 0) →
    sigs (0x23 :: (c ++ 0x0A :: b)) = sigs b := by
  intro c h
  have hlen : commentLen true (c ++ 0x0A :: b) = c.length + 1 + commentLen false b := by
    induction c with
    | nil => simp [commentLen]; omega
    | cons x c ih =>
      have hx := h x (by simp)
      simp only [List.cons_append, commentLen]
      rw [ih fun y hy => h y (by simp [hy])]
      simp [hx]; omega
  rw [sigs_hash, hlen]
  have : c ++ 0x0A :: b = (c ++ [0x0A]) ++ b := by simp
  rw [this, List.drop_append, List.drop_of_length_le (by simp)]
  simp only [List.length_append, List.length_cons, List.length_nil, List.nil_append]
  rw [show c.length + 1 + commentLen false b - (c.length + (0 + 1)) = commentLen false b by omega]
  exact sigs_skip b

/-! ## Appending after a newline -/

theorem takeWhile_append_stop {p : Rune → Bool} {x : Rune} (hx : p x = false) (b : List Rune) :
    ∀ (a : List Rune), x ∈ a → (a ++ b).takeWhile p = a.takeWhile p
  | [], h => by simp at h
  | y :: a, h => by
    simp only [List.cons_append, List.takeWhile_cons]
    split
    · rename_i hy
      rw [takeWhile_append_stop hx b a]
      rcases List.mem_cons.1 h with rfl | h
      · rw [hx] at hy; simp at hy
      · exact h
    · rfl

theorem quoted_append (b : List Rune) : ∀ (t : List Rune) (e : Bool) (v : List Rune × Nat),
    quoted e t = some v → quoted e (t ++ b) = some v
  | [], _, _, h => by simp [quoted] at h
  | ch :: t, e, v, h => by
    have ih := quoted_append b t
    rw [List.cons_append, quoted]
    rw [quoted] at h
    split at h
    · split at h
      · obtain ⟨w, hw, rfl⟩ := Option.map_eq_some_iff.1 h
        rename_i h1 h2
        simp [h1, h2, ih _ _ hw]
      · rename_i h1 h2
        simp [h1, h2] at h ⊢
        exact h
    · split at h
      · obtain ⟨w, hw, rfl⟩ := Option.map_eq_some_iff.1 h
        rename_i h1 h2
        simp [h2, ih _ _ hw]
      · split at h
        · obtain ⟨w, hw, rfl⟩ := Option.map_eq_some_iff.1 h
          rename_i h1 h2 h3
          simp only [h1, h2, if_false]
          rw [if_pos h3, ih _ _ hw]
          rfl
        · obtain ⟨w, hw, rfl⟩ := Option.map_eq_some_iff.1 h
          rename_i h1 h2 h3
          simp only [h1, h2, if_false]
          rw [if_neg h3, ih _ _ hw]
          rfl

/-- A comment that stops inside a text stops there also if the text goes on; one that reads the whole
text goes on in the mode of its end. -/
theorem commentLen_append (b : List Rune) : ∀ (t : List Rune) (c : Bool),
    (commentLen c t < t.length → commentLen c (t ++ b) = commentLen c t) ∧
    (commentLen c t = t.length → commentLen c (t ++ b) = t.length +
      commentLen (decide (Mode.after (if c then .comment else .code) t = .comment)) b)
  | [], c => by cases c <;> simp [commentLen]
  | ch :: t, c => by
    have iht := commentLen_append b t true
    have ihf := commentLen_append b t false
    cases c
    · simp only [List.cons_append, commentLen, List.length_cons]
      by_cases h1 : isBlank ch = true
      · have hp := blank_plain h1
        simp only [h1, if_true, Nat.add_lt_add_iff_right, Nat.add_right_cancel_iff]
        refine ⟨fun h => ?_, fun h => ?_⟩
        · exact ihf.1 h
        · rw [ihf.2 h]
          simp [after_cons, Mode.next, hp.1, hp.2.1]; omega
      · by_cases h2 : ch = 0x23
        · subst h2
          simp only [h1, Bool.false_eq_true, if_false, beq_self_eq_true, if_true,
            Nat.add_lt_add_iff_right, Nat.add_right_cancel_iff]
          refine ⟨fun h => ?_, fun h => ?_⟩
          · exact iht.1 h
          · rw [iht.2 h]
            simp [after_cons, Mode.next]; omega
        · simp [h1, h2]
    · simp only [List.cons_append, commentLen, List.length_cons]
      by_cases h1 : ch = 0x0A
      · subst h1
        simp only [bne_self_eq_false, Bool.false_and, Bool.false_eq_true, if_false,
          Nat.add_lt_add_iff_right, Nat.add_right_cancel_iff]
        refine ⟨fun h => ?_, fun h => ?_⟩
        · exact ihf.1 h
        · rw [ihf.2 h]
          simp [after_cons, Mode.next]; omega
      · by_cases h2 : ch = 0
        · subst h2
          simp only [bne_self_eq_false, Bool.and_false, Bool.false_eq_true, if_false,
            Nat.add_lt_add_iff_right, Nat.add_right_cancel_iff]
          refine ⟨fun h => ?_, fun h => ?_⟩
          · exact ihf.1 h
          · rw [ihf.2 h]
            simp [after_cons, Mode.next]; omega
        · have hb : (ch != 0x0A && ch != 0) = true := by simp [h1, h2]
          simp only [hb, if_true, Nat.add_lt_add_iff_right, Nat.add_right_cancel_iff]
          refine ⟨fun h => ?_, fun h => ?_⟩
          · exact iht.1 h
          · rw [iht.2 h]
            simp [after_cons, Mode.next, h1, h2]; omega

/-- Either nothing or a text that ends a line. -/
def Lines (a : List Rune) : Prop := a = [] ∨ ∃ a', a = a' ++ [0x0A]

theorem Lines.tail {c : Rune} {t : List Rune} (h : Lines (c :: t)) (ht : t ≠ []) : 0x0A ∈ t := by
  rcases h with h | ⟨a', h⟩
  · simp at h
  · cases a' with
    | nil => simp at h; exact absurd h.2 ht
    | cons x a' => simp at h; rw [h.2]; simp

theorem Lines.drop {c : Rune} {t : List Rune} (h : Lines (c :: t)) (n : Nat) : Lines (t.drop n) := by
  rcases h with h | ⟨a', h⟩
  · simp at h
  · cases a' with
    | nil => simp at h; rw [h.2]; simp [Lines]
    | cons x a' =>
      simp at h
      rw [h.2]
      by_cases hn : n ≤ a'.length
      · rw [List.drop_append_of_le_length hn]
        exact Or.inr ⟨_, rfl⟩
      · left
        rw [List.drop_eq_nil_iff]
        simp; omega

theorem scan_append (b : List Rune) {ch : Rune} {t : List Rune} (hl : Lines (ch :: t))
    (hh : (scan ch t).1 ≠ .hangs) (hc : (scan ch t).1 ≠ .comment) :
    scan ch (t ++ b) = scan ch t ∧ (scan ch t).2 ≤ t.length := by
  by_cases ht : t = []
  · subst ht
    have : ch = 0x0A := by
      rcases hl with h | ⟨a', h⟩
      · simp at h
      · cases a' with
        | nil => simpa using h
        | cons x a' => simp at h
    subst this
    simp [scan]
  · have hmem := hl.tail ht
    have hrw : ∀ test : Rune → Bool, test 0x0A = false → readWhile test (t ++ b) = readWhile test t := by
      intro test htest
      exact takeWhile_append_stop (x := 0x0A) (by simp [htest]) b t hmem
    have hlen : ∀ test : Rune → Bool, (readWhile test t).length ≤ t.length :=
      fun test => (List.takeWhile_prefix _).length_le
    have hb : isBlank 0x0A = false := by decide +kernel
    have hlt : isLetter 0x0A = false := by decide +kernel
    unfold scan at hh hc ⊢
    rw [hrw isBlank hb, hrw isLetter hlt]
    by_cases h0 : ch = 0
    · simp [h0]
    by_cases h1 : ch = 0x0A
    · simp [h0, h1]
    by_cases h2 : Unicode.isSpace ch = true
    · simp only [h0, h1, h2, if_false, if_true]
      exact ⟨trivial, hlen _⟩
    by_cases h3 : isInitial ch = true
    · simp only [h0, h1, h2, h3, if_false, if_true]
      exact ⟨trivial, hlen _⟩
    by_cases h4 : ch = 0x22
    · subst h4
      simp only [h0, h1, h2, h3, if_false, if_true] at hh ⊢
      cases hq : quoted false t with
      | none => simp [hq] at hh
      | some v =>
        rw [quoted_append b t false v hq]
        refine ⟨rfl, ?_⟩
        have := quoted_mode t false
        rw [hq] at this
        exact this.2
    by_cases h5 : ch = 0x23
    · subst h5
      simp [h1, h2, h3] at hc
    simp only [h0, h1, h2, h3, h4, h5, if_false]
    by_cases h6 : ch = 0x3A
    · simp [h6]
    by_cases h7 : ch = 0x2C
    · simp [h6, h7]
    by_cases h8 : ch = 0x3D
    · simp [h6, h7, h8]
    by_cases h9 : ch = 0x2D
    · simp only [h6, h7, h8, h9, if_false, if_true]
      cases t with
      | nil => exact absurd rfl ht
      | cons d t =>
        by_cases hd : d = 0x3E
        · subst hd; simp
        · simp [hd]
    · simp [h6, h7, h8, h9]

/-- Lexing can be cut after a newline. -/
theorem sigs_append (b : List Rune) : ∀ (n : Nat) (a : List Rune), a.length ≤ n → Lines a →
    Mode.after .code a = .code → sigs (a ++ b) = sigs a ++ sigs b := by
  intro n
  induction n with
  | zero =>
    intro a ha _ _
    have : a = [] := by simpa using ha
    subst this
    rfl
  | succ n ih =>
    intro a ha hl hm
    cases a with
    | nil => rfl
    | cons ch t =>
      have hsplit : Mode.after .code (ch :: t)
          = (Mode.after .code (ch :: t.take (scan ch t).2)).after (t.drop (scan ch t).2) := by
        rw [← after_append, List.cons_append, List.take_append_drop]
      have hh : (scan ch t).1 ≠ .hangs := by
        rcases scan_mode ch t with ⟨hk, _⟩ | ⟨_, _, hq | hq⟩
        · exact hk
        · rw [hq] at hm; simp at hm
        · rw [hq] at hm; simp at hm
      have hmd : Mode.after .code (t.drop (scan ch t).2) = .code := by
        rcases scan_mode ch t with ⟨_, hc | ⟨hd, hc⟩⟩ | ⟨hk, _⟩
        · rw [← hc, ← hsplit, hm, hc]
        · rw [hd]; rfl
        · exact absurd hk hh
      rw [List.cons_append, sigs_cons, sigs_cons]
      by_cases hc : (scan ch t).1 = .comment
      · have hch : ch = 0x23 := by
          clear hsplit hh hmd
          unfold scan at hc
          split at hc; · simp at hc
          split at hc; · simp at hc
          split at hc; · simp at hc
          split at hc; · simp at hc
          split at hc
          · split at hc <;> simp at hc
          split at hc
          · assumption
          split at hc; · simp at hc
          split at hc; · simp at hc
          split at hc; · simp at hc
          split at hc
          · split at hc <;> simp at hc
          · simp at hc
        subst hch
        rw [scan_hash, scan_hash] at *
        simp only [significant, Bool.false_eq_true, if_false, List.nil_append]
        rcases Nat.lt_or_ge (commentLen true t) t.length with hlt | hge
        · rw [(commentLen_append b t true).1 hlt, List.drop_append_of_le_length (Nat.le_of_lt hlt)]
          exact ih _ (by simp at ha ⊢; omega) (hl.drop _) hmd
        · have heq : commentLen true t = t.length :=
            Nat.le_antisymm (commentLen_mode t true).1 hge
          rw [(commentLen_append b t true).2 heq, heq]
          have hm' : Mode.after .comment t = .code := hm
          simp only [if_true, hm', List.drop_length]
          rw [List.drop_append, List.drop_of_length_le (by omega)]
          simp only [List.nil_append, Nat.add_sub_cancel_left]
          exact sigs_skip b
      · obtain ⟨h1, h2⟩ := scan_append b hl hh hc
        rw [h1, List.drop_append_of_le_length h2, ih _ (by simp at ha ⊢; omega) (hl.drop _) hmd]
        simp

theorem encode_runes_str {s : Bytes} (h : encode (runes s) = s) : ValidUtf8 s := (validUtf8_iff s).2 h

end Verif.Hsl
