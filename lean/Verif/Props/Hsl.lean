import Verif.Proofs.HslComment

/-! Properties C19–C25: the HSL parser. -/

namespace Verif.Props

open Verif.Hsl Verif.Spec.Hsl

/-- The entries of a source. -/
private theorem parse_outcome (src : Bytes) :
    match parse src with
    | .ok doc => Holds doc (entries [] [] false (tokens src)) ∧
        ∀ e ∈ entries [] [] false (tokens src), e.sect ≠ []
    | .err e => e = .hsl ∧ ((∃ l, (Token.illegal, l) ∈ tokens src) ∨
        ∃ e ∈ entries [] [] false (tokens src), e.sect = [])
    | .panic => (∃ l, (Token.panics, l) ∈ tokens src) ∨ Duplicated (entries [] [] false (tokens src))
    | .hang => ∃ l, (Token.hangs, l) ∈ tokens src := by
  have := parseLoop_outcome (tokens src) ⟨[], [], [], 0⟩ none [] (by intro n; simp [pairsOf]) (by simp)
  simp only [remaining, List.nil_append] at this
  exact this

/-! ## C19 -/

/-- C19, refuted: a quote that is not closed makes the parser loop forever. -/
theorem C19_terminates_refuted : ∃ src, parse src = .hang :=
  ⟨str "a: b = \"c", by decide +kernel⟩

/-- C19, for sources whose quotes are closed: parsing ends. -/
theorem C19_terminates_partial (src : Bytes) (h : QuotesClosed src) : parse src ≠ .hang := by
  intro hp
  have := parse_outcome src
  rw [hp] at this
  rw [tokens, tokensFrom_hangs _ _ (Nat.le_refl _)] at this
  rcases h with h | h <;> rw [h] at this <;> simp at this

/-- C19: the lexer runs into an endless loop exactly if a quote is not closed. -/
theorem C19_lexer_hangs (src : Bytes) : (∃ l, (Token.hangs, l) ∈ tokens src) ↔ ¬ QuotesClosed src := by
  rw [tokens, tokensFrom_hangs _ _ (Nat.le_refl _), QuotesClosed]
  cases Mode.after .code (runes src) <;> simp

/-- C19: a source with an open quote (and without NUL characters, which end a source) is never parsed
successfully. -/
theorem C19_open_quote (src : Bytes) (h : ¬ QuotesClosed src) (h0 : 0 ∉ runes src) (doc : Doc) :
    parse src ≠ .ok doc := by
  intro hp
  obtain ⟨l, hl⟩ := (C19_lexer_hangs src).2 h
  refine (parseLoop_ok_clean _ _ _ doc hp ?_ l).2.2 hl
  intro l' hl'
  obtain ⟨pre, ch, t, he, _, hs, _⟩ := tokensFrom_mem _ _ (Nat.le_refl _) _ _ _ hl'
  have hch := scan_eof hs
  rw [he] at h0
  simp [hch] at h0

example : QuotesClosed (str "a: b = \"c\\\"\" # \"\n") ∧
    parse (str "a: b = \"c\\\"\" # \"\n") = .ok [(str "a", ⟨.dict, [⟨str "b", [str "c\""], 1⟩], 1⟩)] := by
  decide +kernel

example : ¬ QuotesClosed (str "a: b = \"c") ∧ 0 ∉ runes (str "a: b = \"c") := by decide +kernel

/-! ## C20 -/

/-- A `-` outside of quotes and comments that is not the start of `->`. -/
def StrayDash (src : Bytes) : Prop :=
  ∃ pre post, runes src = pre ++ 0x2D :: post ∧ Mode.after .code pre = .code ∧ ∀ t, post ≠ 0x3E :: t

/-- C20, refuted: a stray dash panics, and so does a repeated key. -/
theorem C20_no_panic_refuted : parse (str "a: b - c") = .panic ∧ parse (str "a:\nb = c\nb = d") = .panic := by
  decide +kernel

/-- C20, all outcomes: a panic comes from a stray dash or from a repeated key of a dictionary, an error
from an illegal character or from a pair outside of sections, an endless loop from an open quote;
otherwise parsing succeeds. -/
theorem C20_no_panic_partial (src : Bytes) :
    (parse src = .panic → StrayDash src ∨ Duplicated (entries [] [] false (tokens src))) ∧
    (∀ e, parse src = .err e → e = .hsl ∧ ((∃ l, (Token.illegal, l) ∈ tokens src) ∨
        ∃ e ∈ entries [] [] false (tokens src), e.sect = [])) ∧
    (parse src = .hang → ¬ QuotesClosed src) := by
  have h := parse_outcome src
  refine ⟨fun hp => ?_, fun e hp => ?_, fun hp hq => C19_terminates_partial src hq hp⟩
  · rw [hp] at h
    rcases h with ⟨l, hl⟩ | h
    · left
      obtain ⟨pre, ch, t, he, hm, hs, _⟩ := tokensFrom_mem _ _ (Nat.le_refl _) _ _ _ hl
      obtain ⟨rfl, ht⟩ := scan_panics hs
      exact ⟨pre, t, he, hm, ht⟩
    · exact Or.inr h
  · rw [hp] at h
    exact h

/-- C20: the malformed sources (without NUL) are exactly the rejected ones. -/
theorem C20_malformed (src : Bytes) (h0 : 0 ∉ runes src) :
    (∃ doc, parse src = .ok doc) ↔
      (∀ l, (Token.illegal, l) ∉ tokens src ∧ (Token.panics, l) ∉ tokens src ∧ (Token.hangs, l) ∉ tokens src) ∧
      (∀ e ∈ entries [] [] false (tokens src), e.sect ≠ []) ∧
      ¬ Duplicated (entries [] [] false (tokens src)) := by
  have h := parse_outcome src
  constructor
  · rintro ⟨doc, hp⟩
    rw [hp] at h
    refine ⟨parseLoop_ok_clean _ _ _ doc hp ?_, h.2, ?_⟩
    · intro l' hl'
      obtain ⟨pre, ch, t, he, _, hs, _⟩ := tokensFrom_mem _ _ (Nat.le_refl _) _ _ _ hl'
      have hch := scan_eof hs
      rw [he] at h0
      simp [hch] at h0
    · rintro ⟨name, hk, hd⟩
      have hh := h.1 name
      cases hl : doc.lookup name with
      | none => rw [kindOf_none (hh.1 hl)] at hk; simp at hk
      | some s =>
        obtain ⟨h1, h2, h3⟩ := hh.2 s hl
        rw [hk] at h2
        apply hd
        rw [← h1]
        exact h3 (by simpa using h2.symm)
  · rintro ⟨h1, h2, h3⟩
    cases hp : parse src with
    | ok doc => exact ⟨doc, rfl⟩
    | err e =>
      rw [hp] at h
      rcases h.2 with ⟨l, hl⟩ | ⟨e, he, hz⟩
      · exact absurd hl (h1 l).1
      · exact absurd hz (h2 e he)
    | panic =>
      rw [hp] at h
      rcases h with ⟨l, hl⟩ | hd
      · exact absurd hl (h1 l).2.1
      · exact absurd hd h3
    | hang =>
      rw [hp] at h
      obtain ⟨l, hl⟩ := h
      exact absurd hl (h1 l).2.2

example : parse (str "a: b ? c") = .err .hsl ∧ parse (str "b = c") = .err .hsl ∧
    parse (str "a:\nb -> c\nb -> d") = .ok
      [(str "a", ⟨.list, [⟨str "b", [str "c"], 2⟩, ⟨str "b", [str "d"], 3⟩], 1⟩)] := by decide +kernel

/-! ## C21 -/

/-- C21: a document that is written down is read back: every section has its kind, its pairs in their
order and their values, and there is no other section.  Words may be written without quotes. -/
theorem C21_roundtrip (d : List Sect) (h : Writable d) (w : List Rune → List Rune) (hw : Spelling w) :
    ∃ doc, parse (encode (render w d)) = .ok doc ∧
    (∀ s ∈ d, (doc.lookup (encode s.name)).map bare
      = some (s.kind, s.pairs.map fun p => (encode p.1, p.2.map encode))) ∧
    ∀ name, name ∉ d.map (fun s => encode s.name) → doc.lookup name = none :=
  parse_render hw h

example : encode (render quote [⟨runes (str "a"), .dict, [(runes (str "b\""), [runes (str "한"), []])]⟩,
      ⟨runes (str "c"), .list, [(runes (str "x"), [])]⟩])
    = str "\"a\":\n\t\"b\\\"\" = \"한\", \"\"\n\"c\":\n\t\"x\" -> \n" := by decide +kernel

/-- Words are written without quotes. -/
def bareWords (s : List Rune) : List Rune :=
  match s with
  | [] => quote []
  | c :: t =>
    if (c = 0x5F ∨ Unicode.isLetter c = true) ∧ ∀ x ∈ t, x = 0x5F ∨ Unicode.isLetter x = true ∨ Unicode.isDigit x = true
    then c :: t else quote (c :: t)

theorem spelling_bareWords : Spelling bareWords := by
  intro s
  unfold bareWords
  split
  · exact .inl rfl
  · split
    · rename_i h; exact .inr ⟨⟨_, _, rfl, h.1, h.2⟩, rfl⟩
    · exact .inl rfl

theorem spelling_quote : Spelling quote := fun _ => .inl rfl

example : encode (render bareWords [⟨runes (str "a"), .dict, [(runes (str "_b2"), [runes (str "한"), runes (str "2b"), []])]⟩])
    = str "a:\n\t_b2 = 한, \"2b\", \"\"\n" := by decide +kernel

example : Writable [⟨runes (str "a"), .dict, [(runes (str "b\""), [runes (str "한"), []])]⟩,
    ⟨runes (str "c"), .list, [(runes (str "x"), [])]⟩] := by
  refine ⟨by decide +kernel, ?_⟩
  intro s hs
  simp only [List.mem_cons, List.not_mem_nil, or_false] at hs
  rcases hs with rfl | rfl
  · refine ⟨by decide +kernel, ⟨by decide +kernel, by decide +kernel⟩, by simp, fun _ => by simp, ?_⟩
    simp only [forall_eq, List.mem_cons, List.not_mem_nil, or_false]
    refine ⟨⟨by decide +kernel, by decide +kernel⟩, ?_⟩
    rintro v (rfl | rfl)
    · exact ⟨by decide +kernel, by decide +kernel⟩
    · simp [Text]
  · refine ⟨by decide +kernel, ⟨by decide +kernel, by decide +kernel⟩, by simp, fun hk => by simp at hk, ?_⟩
    simp only [List.mem_singleton, forall_eq]
    exact ⟨⟨by decide +kernel, by decide +kernel⟩, by simp⟩

/-! ## C22 -/

/-- C22, refuted: a comment at the end of a line swallows the newline, so the next line becomes a part of
the pair. -/
theorem C22_comments_refuted :
    parse (str "a:\nb = c # d\ne = f\n") = .ok [(str "a", ⟨.dict, [⟨str "b", [str "c", str "e", str "f"], 2⟩], 1⟩)] ∧
    parse (str "a:\nb = c\ne = f\n")
      = .ok [(str "a", ⟨.dict, [⟨str "b", [str "c"], 2⟩, ⟨str "e", [str "f"], 3⟩], 1⟩)] := by
  decide +kernel

/-- C22, for comments on a line of their own: they change nothing but line numbers. -/
theorem C22_comments_partial (a c b : Bytes) (blanks : List Rune) (hc : ValidUtf8 c)
    (hl : a = [] ∨ ∃ a', ValidUtf8 a' ∧ a = a' ++ str "\n") (hm : Mode.after .code (runes a) = .code)
    (hb : ∀ x ∈ blanks, isBlank x = true ∧ validRune x = true)
    (hn : ∀ x ∈ runes c, x ≠ 0x0A ∧ x ≠ 0) :
    bareOutcome (parse (a ++ (encode blanks ++ (str "#" ++ (c ++ (str "\n" ++ b))))))
      = bareOutcome (parse (a ++ b)) := by
  have hs : ValidUtf8 (str "#") := encode_runes_str (by decide +kernel)
  have hsn : ValidUtf8 (str "\n") := encode_runes_str (by decide +kernel)
  rw [parse_sigs, parse_sigs]
  have e1 : runes (str "#") = [0x23] := by decide +kernel
  have e2 : runes (str "\n") = [0x0A] := by decide +kernel
  have hlr : Lines (runes a) ∧ ValidUtf8 a := by
    rcases hl with rfl | ⟨a', ha', rfl⟩
    · exact ⟨Or.inl rfl, encode_runes_str rfl⟩
    · refine ⟨Or.inr ⟨runes a', by rw [runes_append ha', e2]⟩, encode_runes_str ?_⟩
      rw [runes_append ha', encode_append, encode_runes ha', encode_runes hsn]
  obtain ⟨hlr, ha⟩ := hlr
  rw [runes_append ha, runes_append ha, runes_encode_append (fun x hx => (hb x hx).2), runes_append hs,
    runes_append hc, runes_append hsn]
  rw [e1, e2, sigs_append _ _ _ (Nat.le_refl _) hlr hm, sigs_append _ _ _ (Nat.le_refl _) hlr hm,
    sigs_blanks _ _ (fun x hx => (hb x hx).1)]
  simp only [List.cons_append, List.nil_append]
  rw [sigs_comment _ _ hn]

example : bareOutcome (parse (str "a:\nb = c\n\t# 한\ne = f\n"))
    = .ok [(str "a", .dict, [(str "b", [str "c"]), (str "e", [str "f"])])] ∧
    Mode.after .code (runes (str "a:\nb = c\n")) = .code := by
  refine ⟨?_, by decide +kernel⟩
  have : parse (str "a:\nb = c\n\t# 한\ne = f\n")
      = .ok [(str "a", ⟨.dict, [⟨str "b", [str "c"], 2⟩, ⟨str "e", [str "f"], 4⟩], 1⟩)] := by decide +kernel
  rw [this]
  rfl

/-! ## C23 -/

/-- C23: every section has exactly the pairs written for it, in their order; a dictionary has no two pairs
with the same key. -/
theorem C23_sections (src : Bytes) (doc : Doc) (h : parse src = .ok doc) (name : Bytes) :
    (doc.lookup name = none → pairsOf name (entries [] [] false (tokens src)) = []) ∧
    ∀ s, doc.lookup name = some s → s.pairs = pairsOf name (entries [] [] false (tokens src)) ∧
      kindOf name (entries [] [] false (tokens src)) = some s.kind ∧
      (s.kind = .dict → (s.pairs.map (·.left)).Nodup) := by
  have := parse_outcome src
  rw [h] at this
  exact this.1 name

/-- C23: `Map`, `All` and `One` of a dictionary find every pair. -/
theorem C23_accessors (src : Bytes) (doc : Doc) (h : parse src = .ok doc) (name : Bytes) (s : Section)
    (hs : doc.lookup name = some s) (hk : s.kind = .dict) (p : Pair) (hp : p ∈ s.pairs) :
    s.all p.left = p.right ∧ s.one p.left = p.right.headD [] ∧
    ∀ m, s.injective = some m → p.right.length = 1 ∧ m.lookup p.left = some (p.right.headD []) := by
  have hnd := ((C23_sections src doc h name).2 s hs).2.2 hk
  have key : ∀ (ps : List Pair) {β : Type} (f : Pair → β), (ps.map (·.left)).Nodup → p ∈ ps →
      (ps.map fun q => (q.left, f q)).lookup p.left = some (f p) := by
    intro ps β f
    induction ps with
    | nil => intro _ h; simp at h
    | cons q ps ih =>
      intro hn hm
      simp only [List.map_cons, List.nodup_cons] at hn
      rcases List.mem_cons.1 hm with rfl | hm
      · simp
      · have hne : p.left ≠ q.left := fun he => hn.1 (by rw [← he]; exact List.mem_map.2 ⟨p, hm, rfl⟩)
        have hne' : (p.left == q.left) = false := by simpa using hne
        simp only [List.map_cons, List.lookup, hne']
        exact ih hn.2 hm
  have hall : s.all p.left = p.right := by
    rw [Section.all, Section.map, key s.pairs (·.right) hnd hp]
    rfl
  refine ⟨hall, by rw [Section.one, hall], ?_⟩
  intro m hm
  rw [Section.injective] at hm
  split at hm
  · rename_i h1
    simp only [Option.some.injEq] at hm
    rw [← hm]
    simp only [List.all_eq_true, decide_eq_true_eq] at h1
    exact ⟨h1 p hp, key s.pairs _ hnd hp⟩
  · simp at hm

example : parse (str "a:\nx -> y\nx -> z, w\nb:\nk = v\na:\nu -> v") = .ok
    [(str "a", ⟨.list, [⟨str "x", [str "y"], 2⟩, ⟨str "x", [str "z", str "w"], 3⟩, ⟨str "u", [str "v"], 7⟩], 1⟩),
     (str "b", ⟨.dict, [⟨str "k", [str "v"], 5⟩], 4⟩)] := by decide +kernel

/-- C23: a key without a pair has no values; `Injective` fails exactly if some key does not have one
value. -/
theorem C23_missing (s : Section) :
    (∀ key, (∀ p ∈ s.pairs, p.left ≠ key) → s.all key = [] ∧ s.one key = []) ∧
    (s.injective = none ↔ ∃ p ∈ s.pairs, p.right.length ≠ 1) := by
  constructor
  · intro key hk
    have : s.map.lookup key = none := by
      rw [Section.map, List.lookup_eq_none_iff]
      intro q hq
      obtain ⟨p, hp, rfl⟩ := List.mem_map.1 hq
      simpa using Ne.symm (hk p hp)
    simp [Section.one, Section.all, this]
  · unfold Section.injective
    split
    · rename_i h
      simp only [List.all_eq_true, decide_eq_true_eq] at h
      simp only [reduceCtorEq, false_iff, not_exists, not_and]
      exact fun p hp hn => hn (h p hp)
    · rename_i h
      simp only [List.all_eq_true, decide_eq_true_eq] at h
      simp only [true_iff]
      exact Classical.byContradiction fun hn => h fun p hp => Classical.byContradiction fun hl => hn ⟨p, hp, hl⟩

example : let s : Section := ⟨.dict, [⟨str "a", [str "x"], 1⟩, ⟨str "b", [str "y", str "z"], 2⟩], 0⟩
    s.injective = none ∧ s.all (str "c") = [] ∧ s.one (str "b") = str "y" := by decide +kernel

/-! ## C24 -/

/-- C24: the line of a pair is 1 plus the number of newlines before its sign, and the sign stands outside
of quotes and comments. -/
theorem C24_lines (src : Bytes) (doc : Doc) (h : parse src = .ok doc) (name : Bytes) (s : Section)
    (hs : doc.lookup name = some s) (p : Pair) (hp : p ∈ s.pairs) :
    ∃ pre post, runes src = pre ++ post ∧ Mode.after .code pre = .code ∧
      ((∃ t, post = 0x3D :: t) ∨ ∃ t, post = 0x2D :: 0x3E :: t) ∧
      p.line = 1 + pre.count 0x0A ∧ 1 ≤ p.line ∧ p.line ≤ 1 + (runes src).count 0x0A := by
  have h1 := ((C23_sections src doc h name).2 s hs).1
  rw [h1] at hp
  simp only [pairsOf, List.mem_map, List.mem_filter] at hp
  obtain ⟨e, ⟨he, _⟩, rfl⟩ := hp
  rcases entries_mem _ _ _ _ e he with ⟨hm, _⟩ | ⟨hm, _⟩
  · obtain ⟨pre, ch, t, hr, hmode, hsc, hl⟩ := tokensFrom_mem _ _ (Nat.le_refl _) _ _ _ hm
    obtain ⟨rfl, hz⟩ := scan_equal hsc
    refine ⟨pre, 0x3D :: t, hr, hmode, Or.inl ⟨t, rfl⟩, ?_, ?_, ?_⟩
    · rw [hl, hz]; simp [newlines]
    · omega
    · rw [hl, hz, hr]; simp [newlines]
  · obtain ⟨pre, ch, t, hr, hmode, hsc, hl⟩ := tokensFrom_mem _ _ (Nat.le_refl _) _ _ _ hm
    obtain ⟨rfl, ⟨t', rfl⟩, hz⟩ := scan_arrow hsc
    refine ⟨pre, 0x2D :: 0x3E :: t', hr, hmode, Or.inr ⟨t', rfl⟩, ?_, ?_, ?_⟩
    · rw [hl, hz]; simp [newlines]
    · omega
    · rw [hl, hz, hr]; simp [newlines]

/-! ## C25 -/

/-- C25: a quoted text without backslashes is one token. -/
theorem C25_quoted (s rest : List Rune) (h : (0x5C : Rune) ∉ s) :
    ∃ n, scan 0x22 (escape s ++ 0x22 :: rest) = (.string s, n) ∧
      (escape s ++ 0x22 :: rest).drop n = rest := by
  refine ⟨_, scan_quote s rest h, ?_⟩
  have : escape s ++ 0x22 :: rest = (escape s ++ [0x22]) ++ rest := by simp
  rw [this, List.drop_left' (by simp)]

/-- C25: no string of a source contains a backslash. -/
theorem C25_no_backslash (src : Bytes) (s : List Rune) (l : Nat) (h : (Token.string s, l) ∈ tokens src) :
    (0x5C : Rune) ∉ s := by
  obtain ⟨pre, ch, t, _, _, hs, _⟩ := tokensFrom_mem _ _ (Nat.le_refl _) _ _ _ h
  exact scan_string_no_backslash hs

example : tokens (str "\"a\\\"b # 한\nc\" d") = [(.string (runes (str "a\"b # 한\nc")), 2), (.space, 2),
    (.string (runes (str "d")), 2)] := by decide +kernel

example : tokens (str "\"a\\n\"b\"") = [(.string (runes (str "a\"b")), 1)] := by decide +kernel

end Verif.Props
