import Verif.Spec.Hsl
import Verif.Proofs.Utf8

/-! Proofs about the HSL lexer and parser. -/

namespace Verif.Hsl

open Verif.Spec.Hsl

/-! ## Token positions -/

theorem tokensFrom_drop : ∀ (k line : Nat) (s : List Rune),
    tokensFrom k line s = tokensFrom 0 line (s.drop k)
  | 0, _, s => by simp
  | k + 1, _, [] => by simp [tokensFrom]
  | k + 1, line, _ :: t => by simpa [tokensFrom] using tokensFrom_drop k line t

theorem tokensFrom_cons (line : Nat) (ch : Rune) (t : List Rune) :
    tokensFrom 0 line (ch :: t)
      = ((scan ch t).1, line + newlines (ch :: t.take (scan ch t).2)) ::
        tokensFrom 0 (line + newlines (ch :: t.take (scan ch t).2)) (t.drop (scan ch t).2) := by
  rw [tokensFrom, tokensFrom_drop]

theorem newlines_append (a b : List Rune) : newlines (a ++ b) = newlines a + newlines b := by
  simp [newlines]

theorem after_append (m : Mode) (a b : List Rune) : m.after (a ++ b) = (m.after a).after b := by
  simp [Mode.after]

theorem after_cons (m : Mode) (a : Rune) (b : List Rune) : m.after (a :: b) = (m.next a).after b := rfl

@[simp] theorem after_nil (m : Mode) : m.after [] = m := rfl

theorem after_plain : ∀ (s : List Rune), (∀ c ∈ s, c ≠ 0x22 ∧ c ≠ 0x23) → Mode.after .code s = .code
  | [], _ => rfl
  | c :: s, h => by
    have hc := h c (by simp)
    rw [after_cons]
    simp only [Mode.next, hc.1, hc.2, if_false]
    exact after_plain s fun d hd => h d (by simp [hd])

theorem readWhile_length (test : Rune → Bool) (s : List Rune) :
    s.take (readWhile test s).length = readWhile test s := by
  rw [readWhile]
  exact (List.prefix_iff_eq_take.1 (List.takeWhile_prefix _)).symm

theorem readWhile_mem {test : Rune → Bool} {s : List Rune} {c : Rune} (h : c ∈ readWhile test s) :
    test c = true := by
  have := List.all_eq_true.1 (List.all_takeWhile (l := s) (p := fun ch => ch != 0 && test ch)) c h
  simp at this
  exact this.2

theorem quoted_mode : ∀ (t : List Rune) (e : Bool),
    match quoted e t with
    | some (_, n) => Mode.after (if e then .escaped else .quote) (t.take n) = .code ∧ n ≤ t.length
    | none => Mode.after (if e then .escaped else .quote) t = .quote ∨
        Mode.after (if e then .escaped else .quote) t = .escaped
  | [], e => by cases e <;> simp [quoted]
  | ch :: t, e => by
    have ht := quoted_mode t true
    have hf := quoted_mode t false
    rw [quoted]
    by_cases h1 : ch = 0x22
    · subst h1
      cases e
      · simp [after_cons, Mode.next]
      · simp only [if_true]
        cases hq : quoted false t with
        | none => simpa [hq, after_cons, Mode.next] using hf
        | some v => simpa [hq, after_cons, Mode.next] using hf
    · by_cases h2 : ch = 0x5C
      · subst h2
        cases hq : quoted true t with
        | none => cases e <;> simpa [hq, after_cons, Mode.next] using ht
        | some v => cases e <;> simpa [hq, after_cons, Mode.next] using ht
      · cases e
        · cases hq : quoted false t with
          | none => simpa [hq, h1, h2, after_cons, Mode.next] using hf
          | some v => simpa [hq, h1, h2, after_cons, Mode.next] using hf
        · cases hq : quoted true t with
          | none => simpa [hq, h1, h2, after_cons, Mode.next] using ht
          | some v => simpa [hq, h1, h2, after_cons, Mode.next] using ht

theorem blank_plain {c : Rune} (h : isBlank c = true) : c ≠ 0x22 ∧ c ≠ 0x23 ∧ c ≠ 0x0A := by
  refine ⟨?_, ?_, ?_⟩ <;> (rintro rfl; revert h; decide +kernel)

theorem letter_plain {c : Rune} (h : isLetter c = true) : c ≠ 0x22 ∧ c ≠ 0x23 ∧ c ≠ 0x0A := by
  refine ⟨?_, ?_, ?_⟩ <;> (rintro rfl; revert h; decide +kernel)

theorem commentLen_mode : ∀ (t : List Rune) (b : Bool), commentLen b t ≤ t.length ∧
    (Mode.after (if b then .comment else .code) (t.take (commentLen b t)) = .code ∨
      (t.drop (commentLen b t) = [] ∧
        Mode.after (if b then .comment else .code) (t.take (commentLen b t)) = .comment))
  | [], b => by cases b <;> simp [commentLen]
  | ch :: t, b => by
    have ht := commentLen_mode t true
    have hf := commentLen_mode t false
    cases b
    · rw [commentLen]
      by_cases h1 : isBlank ch = true
      · have := blank_plain h1
        simpa [h1, after_cons, Mode.next, this.1, this.2.1] using hf
      · by_cases h2 : ch = 0x23
        · subst h2
          simpa [h1, after_cons, Mode.next] using ht
        · simp [h1, h2]
    · rw [commentLen]
      by_cases h1 : ch = 0x0A
      · subst h1
        simpa [after_cons, Mode.next] using hf
      · by_cases h2 : ch = 0
        · subst h2
          simpa [after_cons, Mode.next] using hf
        · simpa [h1, h2, after_cons, Mode.next] using ht

/-- What a token leaves behind. -/
theorem scan_mode (ch : Rune) (t : List Rune) :
    ((scan ch t).1 ≠ .hangs ∧ (Mode.after .code (ch :: t.take (scan ch t).2) = .code ∨
      (t.drop (scan ch t).2 = [] ∧ Mode.after .code (ch :: t.take (scan ch t).2) = .comment))) ∨
    ((scan ch t).1 = .hangs ∧ t.drop (scan ch t).2 = [] ∧ (Mode.after .code (ch :: t) = .quote ∨
      Mode.after .code (ch :: t) = .escaped)) := by
  unfold scan
  by_cases h0 : ch = 0
  · subst h0; left; simp [after_cons, Mode.next]
  rw [if_neg h0]
  by_cases h1 : ch = 0x0A
  · subst h1; left; simp [after_cons, Mode.next]
  rw [if_neg h1]
  by_cases h2 : Unicode.isSpace ch = true
  · rw [if_pos h2]
    left
    refine ⟨by simp, Or.inl ?_⟩
    simp only [readWhile_length]
    apply after_plain
    intro c hc
    rcases List.mem_cons.1 hc with rfl | hc
    · have : isBlank c = true := by simp [isBlank, h1, h2]
      exact ⟨(blank_plain this).1, (blank_plain this).2.1⟩
    · have := blank_plain (readWhile_mem hc)
      exact ⟨this.1, this.2.1⟩
  rw [if_neg h2]
  by_cases h3 : isInitial ch = true
  · rw [if_pos h3]
    left
    refine ⟨by simp, Or.inl ?_⟩
    simp only [readWhile_length]
    apply after_plain
    intro c hc
    rcases List.mem_cons.1 hc with rfl | hc
    · have : isLetter c = true := by simp [isLetter, h3]
      exact ⟨(letter_plain this).1, (letter_plain this).2.1⟩
    · have := letter_plain (readWhile_mem hc)
      exact ⟨this.1, this.2.1⟩
  rw [if_neg h3]
  by_cases h4 : ch = 0x22
  · subst h4
    have hq := quoted_mode t false
    cases h : quoted false t with
    | none =>
      right
      rw [h] at hq
      simpa [after_cons, Mode.next] using hq
    | some v =>
      left
      rw [h] at hq
      refine ⟨by simp, Or.inl ?_⟩
      simpa [after_cons, Mode.next] using hq.1
  rw [if_neg h4]
  left
  by_cases h5 : ch = 0x23
  · subst h5
    have := (commentLen_mode t true).2
    simpa [after_cons, Mode.next] using this
  rw [if_neg h5]
  have hp : ∀ n, n ≤ 1 → (∀ c ∈ t.take n, c = 0x3E) → Mode.after .code (ch :: t.take n) = .code := by
    intro n _ hn
    apply after_plain
    intro c hc
    rcases List.mem_cons.1 hc with rfl | hc
    · exact ⟨h4, h5⟩
    · rw [hn c hc]; decide
  have hp0 : Mode.after .code (ch :: t.take 0) = .code := hp 0 (by simp) (by simp)
  split
  · exact ⟨by simp, Or.inl hp0⟩
  split
  · exact ⟨by simp, Or.inl hp0⟩
  split
  · exact ⟨by simp, Or.inl hp0⟩
  split
  · split
    · rename_i h10
      obtain ⟨t', rfl⟩ := List.head?_eq_some_iff.1 h10
      exact ⟨by simp, Or.inl (hp 1 (by simp) (by simp))⟩
    · exact ⟨by simp, Or.inl hp0⟩
  · exact ⟨by simp, Or.inl hp0⟩

/-- Every token stands in the source outside of quotes and comments. -/
theorem tokensFrom_mem : ∀ (n : Nat) (s : List Rune), s.length ≤ n → ∀ (line : Nat) (tk : Token) (l : Nat),
    (tk, l) ∈ tokensFrom 0 line s → ∃ pre ch t, s = pre ++ ch :: t ∧ Mode.after .code pre = .code ∧
      (scan ch t).1 = tk ∧ l = line + newlines pre + newlines (ch :: t.take (scan ch t).2) := by
  intro n
  induction n with
  | zero =>
    intro s hs line tk l h
    have : s = [] := by simpa using hs
    subst this
    simp [tokensFrom] at h
  | succ n ih =>
    intro s hs line tk l h
    cases s with
    | nil => simp [tokensFrom] at h
    | cons ch t =>
      rw [tokensFrom_cons] at h
      rcases List.mem_cons.1 h with h | h
      · simp only [Prod.mk.injEq] at h
        exact ⟨[], ch, t, rfl, rfl, h.1.symm, by simpa [newlines] using h.2⟩
      · obtain ⟨pre, ch', t', e, hm, hsc, hl⟩ := ih (t.drop (scan ch t).2)
          (by simp at hs ⊢; omega) _ tk l h
        refine ⟨ch :: t.take (scan ch t).2 ++ pre, ch', t', ?_, ?_, hsc, ?_⟩
        · simp only [List.cons_append, List.append_assoc]
          rw [← e, List.take_append_drop]
        · rw [after_append]
          rcases scan_mode ch t with ⟨_, hc | ⟨hd, _⟩⟩ | ⟨_, hd, _⟩
          · rw [hc, hm]
          · rw [hd] at e; simp at e
          · rw [hd] at e; simp at e
        · rw [newlines_append, hl]; omega

/-- The source ends inside quotes exactly if its last token does not return. -/
theorem tokensFrom_hangs : ∀ (n : Nat) (s : List Rune), s.length ≤ n → ∀ (line : Nat),
    (∃ l, (Token.hangs, l) ∈ tokensFrom 0 line s) ↔
      (Mode.after .code s = .quote ∨ Mode.after .code s = .escaped) := by
  intro n
  induction n with
  | zero =>
    intro s hs line
    have : s = [] := by simpa using hs
    subst this
    simp [tokensFrom]
  | succ n ih =>
    intro s hs line
    cases s with
    | nil => simp [tokensFrom]
    | cons ch t =>
      rw [tokensFrom_cons]
      have hsplit : Mode.after .code (ch :: t)
          = (Mode.after .code (ch :: t.take (scan ch t).2)).after (t.drop (scan ch t).2) := by
        rw [← after_append, List.cons_append, List.take_append_drop]
      rcases scan_mode ch t with ⟨hk, hc | ⟨hd, hc⟩⟩ | ⟨hh, hd, hm⟩
      · rw [hsplit, hc, ← ih (t.drop (scan ch t).2) (by simp at hs ⊢; omega)
          (line + newlines (ch :: t.take (scan ch t).2))]
        simp [Ne.symm hk]
      · rw [hsplit, hc, hd]
        simp [Ne.symm hk, tokensFrom]
      · simp only [hm, iff_true]
        exact ⟨_, by rw [hh]; exact List.mem_cons_self ..⟩

/-! ## The parser -/

theorem lookup_setSection (name m : Bytes) (s : Section) : ∀ (d : Doc),
    (setSection name s d).lookup m = if m = name then some s else d.lookup m
  | [] => by
    by_cases h : m = name
    · simp [setSection, h]
    · have h' : (m == name) = false := by simpa using h
      simp [setSection, List.lookup, h', h]
  | (n, s') :: d => by
    rw [setSection]
    have ih := lookup_setSection name m s d
    by_cases hn : n = name
    · subst hn
      simp only [if_true]
      by_cases h : m = n
      · simp [List.lookup, h]
      · have h' : (m == n) = false := by simpa using h
        simp [List.lookup, h', h]
    · simp only [if_neg hn]
      by_cases h : m = n
      · subst h
        simp [List.lookup, hn]
      · have h' : (m == n) = false := by simpa using h
        simp [List.lookup, h', ih]

theorem pairsOf_append (name : Bytes) (a b : List Entry) :
    pairsOf name (a ++ b) = pairsOf name a ++ pairsOf name b := by
  simp [pairsOf]

theorem kindOf_append (name : Bytes) (a b : List Entry) :
    kindOf name (a ++ b) = (kindOf name a).or (kindOf name b) := by
  simp only [kindOf, List.find?_append]
  cases List.find? (fun e => decide (e.sect = name)) a <;> simp

theorem kindOf_none {name : Bytes} {a : List Entry} (h : pairsOf name a = []) : kindOf name a = none := by
  simp only [pairsOf, List.map_eq_nil_iff, List.filter_eq_nil_iff] at h
  simp only [kindOf, Option.map_eq_none_iff, List.find?_eq_none]
  exact h

/-- Adding a pair. -/
theorem holds_addPair {st : State} {es : List Entry} (h : Holds st.doc es) (kind : Kind) (line : Nat)
    (vals : List Bytes) :
    match st.addPair kind line vals with
    | some st' => Holds st'.doc (es ++ [⟨st.sectionName, kind, ⟨st.lastString, vals, line⟩⟩]) ∧
        st'.sectionName = st.sectionName ∧ st'.lastString = st.lastString
    | none => Duplicated (es ++ [⟨st.sectionName, kind, ⟨st.lastString, vals, line⟩⟩]) := by
  have hp : ∀ m, pairsOf m [⟨st.sectionName, kind, ⟨st.lastString, vals, line⟩⟩]
      = if m = st.sectionName then [⟨st.lastString, vals, line⟩] else [] := by
    intro m
    by_cases hm : st.sectionName = m
    · simp [pairsOf, hm]
    · simp [pairsOf, hm, Ne.symm hm]
  have hk : ∀ m, kindOf m [⟨st.sectionName, kind, ⟨st.lastString, vals, line⟩⟩]
      = if m = st.sectionName then some kind else none := by
    intro m
    by_cases hm : st.sectionName = m
    · simp [kindOf, hm]
    · simp [kindOf, hm, Ne.symm hm]
  have key : ∀ sec : Section, sec.pairs = pairsOf st.sectionName es →
      ((kindOf st.sectionName es).or (some kind) = some sec.kind) →
      (sec.kind = .dict → (sec.pairs.map (·.left)).Nodup) →
      match sec.addPair ⟨st.lastString, vals, line⟩ with
      | some sec' => Holds (setSection st.sectionName sec' st.doc)
          (es ++ [⟨st.sectionName, kind, ⟨st.lastString, vals, line⟩⟩])
      | none => Duplicated (es ++ [⟨st.sectionName, kind, ⟨st.lastString, vals, line⟩⟩]) := by
    intro sec h1 h2 h3
    have good : ∀ sec' : Section, sec'.pairs = sec.pairs ++ [⟨st.lastString, vals, line⟩] →
        sec'.kind = sec.kind → (sec.kind = .dict → (sec'.pairs.map (·.left)).Nodup) →
        Holds (setSection st.sectionName sec' st.doc)
          (es ++ [⟨st.sectionName, kind, ⟨st.lastString, vals, line⟩⟩]) := by
      intro sec' e1 e2 e3 m
      rw [lookup_setSection, pairsOf_append, kindOf_append, hp, hk]
      by_cases hm : m = st.sectionName
      · subst hm
        simp only [if_true]
        refine ⟨fun hh => by simp at hh, ?_⟩
        rintro s hs
        simp only [Option.some.injEq] at hs
        subst hs
        rw [e1, h1, e2]
        refine ⟨rfl, h2, ?_⟩
        rw [← h1, ← e1]
        exact e3
      · simp only [if_neg hm, List.append_nil, Option.or_none]
        exact h m
    unfold Section.addPair
    cases hkd : sec.kind with
    | list => exact good _ rfl hkd.symm (fun hh => by rw [hkd] at hh; simp at hh)
    | dict =>
      simp only []
      by_cases hd : (sec.pairs.any fun p => decide (p.left = st.lastString)) = true
      · rw [if_pos hd]
        refine ⟨st.sectionName, ?_, ?_⟩
        · rw [kindOf_append, hk, if_pos rfl, h2, hkd]
        · rw [pairsOf_append, hp, if_pos rfl, ← h1]
          simp only [List.any_eq_true, decide_eq_true_eq] at hd
          obtain ⟨p, hpm, hpl⟩ := hd
          rw [List.map_append, List.nodup_append]
          rintro ⟨_, _, hh⟩
          exact hh p.left (List.mem_map.2 ⟨p, hpm, rfl⟩) st.lastString (by simp) hpl
      · rw [if_neg hd]
        apply good _ rfl hkd.symm
        intro _
        simp only [List.map_append, List.map_cons, List.map_nil]
        rw [List.nodup_append]
        refine ⟨h3 hkd, by simp, ?_⟩
        intro a ha b hb hab
        simp only [List.mem_singleton] at hb
        subst hb
        obtain ⟨p, hpm, hpl⟩ := List.mem_map.1 ha
        apply hd
        simp only [List.any_eq_true, decide_eq_true_eq]
        exact ⟨p, hpm, by rw [hpl, hab]⟩
  unfold State.addPair
  have hh := h st.sectionName
  cases hl : st.doc.lookup st.sectionName with
  | none =>
    have h0 := hh.1 hl
    have := key ⟨kind, [], st.sectionLine⟩ h0.symm (by rw [kindOf_none h0]; rfl) (fun _ => by simp)
    simp only [Option.getD_none]
    revert this
    cases Section.addPair ⟨kind, [], st.sectionLine⟩ ⟨st.lastString, vals, line⟩ <;> simp
  | some sec =>
    obtain ⟨h1, h2, h3⟩ := hh.2 sec hl
    have := key sec h1 (by rw [h2]; rfl) h3
    simp only [Option.getD_some]
    revert this
    cases Section.addPair sec ⟨st.lastString, vals, line⟩ <;> simp

theorem duplicated_append {es : List Entry} (h : Duplicated es) (x : List Entry) : Duplicated (es ++ x) := by
  obtain ⟨name, hk, hd⟩ := h
  refine ⟨name, by rw [kindOf_append, hk]; rfl, ?_⟩
  rw [pairsOf_append, List.map_append, List.nodup_append]
  exact fun hh => hd hh.1

/-- The entry of a pending pair. -/
def pendingEntry (st : State) (p : Pending) (ts : List (Token × Nat)) : Entry :=
  ⟨st.sectionName, p.kind, ⟨st.lastString, p.values ++ values ts, p.line⟩⟩

/-- What remains to be read. -/
def remaining (st : State) (p : Option Pending) (ts : List (Token × Nat)) : List Entry :=
  match p with
  | none => entries st.sectionName st.lastString false ts
  | some p => pendingEntry st p ts :: entries st.sectionName st.lastString true ts

theorem parseLoop_outcome : ∀ (ts : List (Token × Nat)) (st : State) (p : Option Pending)
    (done : List Entry), Holds st.doc done → (p.isSome → st.sectionName ≠ []) →
    match parseLoop st p ts with
    | .ok doc => Holds doc (done ++ remaining st p ts) ∧ ∀ e ∈ remaining st p ts, e.sect ≠ []
    | .err e => e = .hsl ∧ ((∃ l, (Token.illegal, l) ∈ ts) ∨ ∃ e ∈ remaining st p ts, e.sect = [])
    | .panic => (∃ l, (Token.panics, l) ∈ ts) ∨ Duplicated (done ++ remaining st p ts)
    | .hang => ∃ l, (Token.hangs, l) ∈ ts
  | [], st, none, done, h, _ => by simpa [parseLoop, remaining, entries] using h
  | [], st, some p, done, h, hs => by
    have := holds_addPair h p.kind p.line p.values
    rw [parseLoop]
    cases ha : st.addPair p.kind p.line p.values with
    | none => rw [ha] at this; simpa [remaining, entries, pendingEntry, values] using this
    | some st' =>
      rw [ha] at this
      refine ⟨by simpa [remaining, entries, pendingEntry, values] using this.1, ?_⟩
      simpa [remaining, entries, pendingEntry] using hs
  | (tk, l) :: ts, st, p, done, h, hs => by
    have lift : ∀ (st' : State) (p' : Option Pending) (done' : List Entry), Holds st'.doc done' →
        (p'.isSome → st'.sectionName ≠ []) →
        done' ++ remaining st' p' ts = done ++ remaining st p ((tk, l) :: ts) →
        (∀ e ∈ remaining st p ((tk, l) :: ts), e ∈ remaining st' p' ts ∨ e.sect ≠ []) →
        (∀ e ∈ remaining st' p' ts, e ∈ remaining st p ((tk, l) :: ts)) →
        match parseLoop st' p' ts with
        | .ok doc => Holds doc (done ++ remaining st p ((tk, l) :: ts)) ∧
            ∀ e ∈ remaining st p ((tk, l) :: ts), e.sect ≠ []
        | .err e => e = .hsl ∧ ((∃ l', (Token.illegal, l') ∈ (tk, l) :: ts) ∨
            ∃ e ∈ remaining st p ((tk, l) :: ts), e.sect = [])
        | .panic => (∃ l', (Token.panics, l') ∈ (tk, l) :: ts) ∨
            Duplicated (done ++ remaining st p ((tk, l) :: ts))
        | .hang => ∃ l', (Token.hangs, l') ∈ (tk, l) :: ts := by
      intro st' p' done' h1 h2 h3 h4 h5
      have ih := parseLoop_outcome ts st' p' done' h1 h2
      rw [h3] at ih
      cases hr : parseLoop st' p' ts with
      | ok doc =>
        rw [hr] at ih
        refine ⟨ih.1, fun e he => ?_⟩
        rcases h4 e he with he | he
        · exact ih.2 e he
        · exact he
      | err e =>
        rw [hr] at ih
        refine ⟨ih.1, ?_⟩
        rcases ih.2 with ⟨l', hl⟩ | ⟨e, he, hz⟩
        · exact Or.inl ⟨l', List.mem_cons_of_mem _ hl⟩
        · exact Or.inr ⟨e, h5 e he, hz⟩
      | panic =>
        rw [hr] at ih
        rcases ih with ⟨l', hl⟩ | hd
        · exact Or.inl ⟨l', List.mem_cons_of_mem _ hl⟩
        · exact Or.inr hd
      | hang =>
        rw [hr] at ih
        obtain ⟨l', hl⟩ := ih
        exact ⟨l', List.mem_cons_of_mem _ hl⟩
    have fin : ∀ q : Pending, p = some q → (tk = .eof ∨ tk = .newline) →
        match (match finish st q with
          | .stop r => r
          | .cont st' p' => parseLoop st' p' ts) with
        | .ok doc => Holds doc (done ++ remaining st p ((tk, l) :: ts)) ∧
            ∀ e ∈ remaining st p ((tk, l) :: ts), e.sect ≠ []
        | .err e => e = .hsl ∧ ((∃ l', (Token.illegal, l') ∈ (tk, l) :: ts) ∨
            ∃ e ∈ remaining st p ((tk, l) :: ts), e.sect = [])
        | .panic => (∃ l', (Token.panics, l') ∈ (tk, l) :: ts) ∨
            Duplicated (done ++ remaining st p ((tk, l) :: ts))
        | .hang => ∃ l', (Token.hangs, l') ∈ (tk, l) :: ts := by
      rintro q rfl htk
      have hrem : remaining st (some q) ((tk, l) :: ts)
          = ⟨st.sectionName, q.kind, ⟨st.lastString, q.values, q.line⟩⟩ ::
            entries st.sectionName st.lastString false ts := by
        rcases htk with rfl | rfl <;> simp [remaining, pendingEntry, values, entries]
      have := holds_addPair h q.kind q.line q.values
      unfold finish
      cases ha : st.addPair q.kind q.line q.values with
      | none =>
        rw [ha] at this
        refine Or.inr ?_
        rw [hrem, ← List.singleton_append, ← List.append_assoc]
        exact duplicated_append this _
      | some st' =>
        rw [ha] at this
        obtain ⟨h1, h2, h3⟩ := this
        refine lift st' none _ h1 (fun hh => by simp at hh) ?_ ?_ ?_
        · rw [hrem]; simp [remaining, h2, h3]
        · rw [hrem]
          intro e he
          rcases List.mem_cons.1 he with rfl | he
          · exact Or.inr (hs rfl)
          · exact Or.inl (by simpa [remaining, h2, h3] using he)
        · rw [hrem]
          intro e he
          exact List.mem_cons_of_mem _ (by simpa [remaining, h2, h3] using he)
    rw [parseLoop]
    cases tk with
    | panics => exact Or.inl ⟨l, by simp⟩
    | hangs => exact ⟨l, by simp⟩
    | illegal => exact ⟨rfl, Or.inl ⟨l, by simp⟩⟩
    | eof =>
      cases p with
      | none => simpa [step, remaining, entries] using h
      | some q => exact fin q rfl (Or.inl rfl)
    | newline =>
      cases p with
      | none => exact lift st none done h hs rfl (fun e he => Or.inl he) (fun e he => he)
      | some q => exact fin q rfl (Or.inr rfl)
    | string s =>
      cases p with
      | none =>
        exact lift { st with lastString := encode s } none done h (fun hh => by simp at hh) rfl
          (fun e he => Or.inl he) (fun e he => he)
      | some q =>
        have e1 : remaining st (some { q with values := q.values ++ [encode s] }) ts
            = remaining st (some q) ((.string s, l) :: ts) := by
          simp [remaining, pendingEntry, values, entries]
        exact lift st (some { q with values := q.values ++ [encode s] }) done h (fun _ => hs rfl)
          (by rw [e1]) (fun e he => Or.inl (by rw [e1]; exact he)) (fun e he => by rw [← e1]; exact he)
    | colon =>
      cases p with
      | none =>
        exact lift { st with sectionName := st.lastString, sectionLine := l } none done h
          (fun hh => by simp at hh) rfl (fun e he => Or.inl he) (fun e he => he)
      | some q => exact lift st (some q) done h hs rfl (fun e he => Or.inl he) (fun e he => he)
    | equal =>
      cases p with
      | none =>
        rw [step]
        by_cases hn : st.sectionName = []
        · rw [if_pos hn]
          exact ⟨rfl, Or.inr ⟨⟨st.sectionName, .dict, ⟨st.lastString, values ts, l⟩⟩,
            by simp [remaining, entries], hn⟩⟩
        · rw [if_neg hn]
          exact lift st (some ⟨.dict, l, []⟩) done h (fun _ => hn) rfl (fun e he => Or.inl he)
            (fun e he => he)
      | some q => exact lift st (some q) done h hs rfl (fun e he => Or.inl he) (fun e he => he)
    | arrow =>
      cases p with
      | none =>
        rw [step]
        by_cases hn : st.sectionName = []
        · rw [if_pos hn]
          exact ⟨rfl, Or.inr ⟨⟨st.sectionName, .list, ⟨st.lastString, values ts, l⟩⟩,
            by simp [remaining, entries], hn⟩⟩
        · rw [if_neg hn]
          exact lift st (some ⟨.list, l, []⟩) done h (fun _ => hn) rfl (fun e he => Or.inl he)
            (fun e he => he)
      | some q => exact lift st (some q) done h hs rfl (fun e he => Or.inl he) (fun e he => he)
    | space | comment | comma =>
      cases p with
      | none => exact lift st none done h hs rfl (fun e he => Or.inl he) (fun e he => he)
      | some q => exact lift st (some q) done h hs rfl (fun e he => Or.inl he) (fun e he => he)

theorem parseLoop_ok_clean : ∀ (ts : List (Token × Nat)) (st : State) (p : Option Pending) (doc : Doc),
    parseLoop st p ts = .ok doc → (∀ l, (Token.eof, l) ∉ ts) →
    ∀ l, (Token.illegal, l) ∉ ts ∧ (Token.panics, l) ∉ ts ∧ (Token.hangs, l) ∉ ts
  | [], _, _, _, _, _ => by simp
  | (tk, l) :: ts, st, p, doc, h, he => by
    have he' : ∀ l, (Token.eof, l) ∉ ts := fun l' hl => he l' (List.mem_cons_of_mem _ hl)
    rw [parseLoop] at h
    have go : ∀ st' p', step st p (tk, l) = .cont st' p' →
        ∀ l, (Token.illegal, l) ∉ ts ∧ (Token.panics, l) ∉ ts ∧ (Token.hangs, l) ∉ ts := by
      intro st' p' hs
      rw [hs] at h
      exact parseLoop_ok_clean ts st' p' doc h he'
    cases hs : step st p (tk, l) with
    | cont st' p' =>
      intro l'
      have := go st' p' hs l'
      cases tk <;> simp [step] at hs <;> simp [this]
    | stop r =>
      rw [hs] at h
      exfalso
      have : r = .ok doc := h
      subst this
      cases tk with
      | eof => exact he l (by simp)
      | string s => cases p <;> simp [step] at hs
      | newline =>
        cases p with
        | none => simp [step] at hs
        | some q =>
          simp only [step, finish] at hs
          cases hh : st.addPair q.kind q.line q.values <;> simp [hh] at hs
      | equal => cases p <;> simp [step] at hs <;> split at hs <;> simp at hs
      | arrow => cases p <;> simp [step] at hs <;> split at hs <;> simp at hs
      | _ => cases p <;> simp [step] at hs

theorem entries_mem : ∀ (ts : List (Token × Nat)) (sect key : Bytes) (b : Bool) (e : Entry),
    e ∈ entries sect key b ts → ((Token.equal, e.pair.line) ∈ ts ∧ e.kind = .dict) ∨
      ((Token.arrow, e.pair.line) ∈ ts ∧ e.kind = .list)
  | [], _, _, _, e, h => by simp [entries] at h
  | (tk, l) :: ts, sect, key, b, e, h => by
    have ih := entries_mem ts
    have up : ((Token.equal, e.pair.line) ∈ ts ∧ e.kind = .dict) ∨
        ((Token.arrow, e.pair.line) ∈ ts ∧ e.kind = .list) →
        ((Token.equal, e.pair.line) ∈ (tk, l) :: ts ∧ e.kind = .dict) ∨
        ((Token.arrow, e.pair.line) ∈ (tk, l) :: ts ∧ e.kind = .list) := by
      rintro (⟨a, b⟩ | ⟨a, b⟩)
      · exact Or.inl ⟨List.mem_cons_of_mem _ a, b⟩
      · exact Or.inr ⟨List.mem_cons_of_mem _ a, b⟩
    cases b
    · cases tk with
      | eof => simp [entries] at h
      | equal =>
        rw [entries, List.mem_cons] at h
        rcases h with rfl | h
        · exact Or.inl ⟨by simp, rfl⟩
        · exact up (ih _ _ _ e h)
      | arrow =>
        rw [entries, List.mem_cons] at h
        rcases h with rfl | h
        · exact Or.inr ⟨by simp, rfl⟩
        · exact up (ih _ _ _ e h)
      | _ => rw [entries] at h <;> first | exact up (ih _ _ _ e h) | simp
    · cases tk <;> (rw [entries] at h <;> first | exact up (ih _ _ _ e h) | simp)

theorem scan_equal {ch : Rune} {t : List Rune} (h : (scan ch t).1 = .equal) :
    ch = 0x3D ∧ newlines (ch :: t.take (scan ch t).2) = 0 := by
  unfold scan at h ⊢
  split at h; · simp at h
  split at h; · simp at h
  split at h; · simp at h
  split at h; · simp at h
  split at h; · split at h <;> simp at h
  split at h; · simp at h
  split at h; · simp at h
  split at h; · simp at h
  split at h
  · rename_i h0 h1 h2 h3 h4 h5 h6 h7 h8
    subst h8
    refine ⟨rfl, ?_⟩
    simp [*, newlines]
  split at h
  · split at h <;> simp at h
  · simp at h

theorem scan_arrow {ch : Rune} {t : List Rune} (h : (scan ch t).1 = .arrow) :
    ch = 0x2D ∧ (∃ t', t = 0x3E :: t') ∧ newlines (ch :: t.take (scan ch t).2) = 0 := by
  unfold scan at h ⊢
  split at h; · simp at h
  split at h; · simp at h
  split at h; · simp at h
  split at h; · simp at h
  split at h; · split at h <;> simp at h
  split at h; · simp at h
  split at h; · simp at h
  split at h; · simp at h
  split at h; · simp at h
  split at h
  · split at h
    · rename_i h0 h1 h2 h3 h4 h5 h6 h7 h8 h9 h10
      subst h9
      obtain ⟨t', rfl⟩ := List.head?_eq_some_iff.1 h10
      refine ⟨rfl, ⟨t', rfl⟩, ?_⟩
      simp [*, newlines]
    · simp at h
  · simp at h

theorem scan_panics {ch : Rune} {t : List Rune} (h : (scan ch t).1 = .panics) :
    ch = 0x2D ∧ ∀ t', t ≠ 0x3E :: t' := by
  unfold scan at h
  split at h; · simp at h
  split at h; · simp at h
  split at h; · simp at h
  split at h; · simp at h
  split at h; · split at h <;> simp at h
  split at h; · simp at h
  split at h; · simp at h
  split at h; · simp at h
  split at h; · simp at h
  split at h
  · split at h
    · simp at h
    · rename_i h9 h10
      exact ⟨h9, fun t' ht => h10 (by rw [ht]; rfl)⟩
  · simp at h

theorem scan_eof {ch : Rune} {t : List Rune} (h : (scan ch t).1 = .eof) : ch = 0 := by
  unfold scan at h
  split at h; · assumption
  split at h; · simp at h
  split at h; · simp at h
  split at h; · simp at h
  split at h; · split at h <;> simp at h
  split at h; · simp at h
  split at h; · simp at h
  split at h; · simp at h
  split at h; · simp at h
  split at h
  · split at h <;> simp at h
  · simp at h

/-- Quotes never hold a backslash. -/
theorem quoted_no_backslash : ∀ (t : List Rune) (e : Bool) (s : List Rune) (n : Nat),
    quoted e t = some (s, n) → (0x5C : Rune) ∉ s
  | [], _, _, _, h => by simp [quoted] at h
  | ch :: t, e, s, n, h => by
    rw [quoted] at h
    have ih := quoted_no_backslash t
    split at h
    · split at h
      · simp only [Option.map_eq_some_iff, Prod.mk.injEq, Prod.exists] at h
        obtain ⟨s', n', hq, rfl, rfl⟩ := h
        rename_i hc _
        subst hc
        simpa using ih _ _ _ hq
      · simp only [Option.some.injEq, Prod.mk.injEq] at h
        rw [← h.1]; simp
    · split at h
      · simp only [Option.map_eq_some_iff, Prod.mk.injEq, Prod.exists] at h
        obtain ⟨s', n', hq, rfl, rfl⟩ := h
        exact ih _ _ _ hq
      · split at h
        · simp only [Option.map_eq_some_iff, Prod.mk.injEq, Prod.exists] at h
          obtain ⟨s', n', hq, rfl, rfl⟩ := h
          exact ih _ _ _ hq
        · simp only [Option.map_eq_some_iff, Prod.mk.injEq, Prod.exists] at h
          obtain ⟨s', n', hq, rfl, rfl⟩ := h
          rename_i hb _
          simp only [List.mem_cons, not_or]
          exact ⟨fun hh => hb hh.symm, ih _ _ _ hq⟩

theorem scan_string_no_backslash {ch : Rune} {t : List Rune} {s : List Rune}
    (h : (scan ch t).1 = .string s) : (0x5C : Rune) ∉ s := by
  unfold scan at h
  split at h; · simp at h
  split at h; · simp at h
  split at h; · simp at h
  split at h
  · rename_i hi
    simp only [Token.string.injEq] at h
    subst h
    intro hm
    have hl : isLetter 0x5C = true := by
      rcases List.mem_cons.1 hm with hm | hm
      · rw [hm]; simp [isLetter, hi]
      · exact readWhile_mem hm
    exact absurd hl (by decide +kernel)
  split at h
  · split at h
    · rename_i s' n hq
      simp only [Token.string.injEq] at h
      subst h
      exact quoted_no_backslash _ _ _ _ hq
    · simp at h
  split at h; · simp at h
  split at h; · simp at h
  split at h; · simp at h
  split at h; · simp at h
  split at h
  · split at h <;> simp at h
  · simp at h

end Verif.Hsl
