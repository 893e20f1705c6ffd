import Verif.Proofs.Hsl
import Verif.Proofs.Tables

/-! Written documents are read back. -/

namespace Verif.Hsl

open Verif.Spec.Hsl

theorem quoted_escape (rest : List Rune) : ∀ (s : List Rune), (0x5C : Rune) ∉ s →
    quoted false (escape s ++ 0x22 :: rest) = some (s, (escape s).length + 1)
  | [], _ => by simp [escape, quoted]
  | c :: s, h => by
    have hs : (0x5C : Rune) ∉ s := fun hh => h (by simp [hh])
    have hc : c ≠ 0x5C := fun hh => h (by simp [hh])
    have ih := quoted_escape rest s hs
    by_cases hq : c = 0x22
    · subst hq
      simp [escape, quoted, ih]
    · simp [escape, hq, quoted, hc, ih]

/-- A quoted text is one token. -/
theorem scan_quote (s rest : List Rune) (h : (0x5C : Rune) ∉ s) :
    scan 0x22 (escape s ++ 0x22 :: rest) = (.string s, (escape s).length + 1) := by
  have h1 : Unicode.isSpace 0x22 = false := by decide +kernel
  have h2 : isInitial 0x22 = false := by decide +kernel
  simp [scan, h1, h2, quoted_escape rest s h]

/-- The text `s` is read as the tokens `toks`, and `s'` remains. -/
def Lex (s : List Rune) (toks : List Token) (s' : List Rune) : Prop :=
  ∀ line, ∃ tl line', tl.map Prod.fst = toks ∧ tokensFrom 0 line s = tl ++ tokensFrom 0 line' s'

theorem Lex.nil (s : List Rune) : Lex s [] s := fun line => ⟨[], line, rfl, rfl⟩

theorem Lex.trans {s s' s'' : List Rune} {a b : List Token} (h : Lex s a s') (h' : Lex s' b s'') :
    Lex s (a ++ b) s'' := by
  intro line
  obtain ⟨tl, line', e, ht⟩ := h line
  obtain ⟨tl', line'', e', ht'⟩ := h' line'
  exact ⟨tl ++ tl', line'', by simp [e, e'], by rw [ht, ht', List.append_assoc]⟩

theorem Lex.one {ch : Rune} {t s' : List Rune} {tk : Token} {n : Nat} (h : scan ch t = (tk, n))
    (hd : t.drop n = s') : Lex (ch :: t) [tk] s' := by
  intro line
  refine ⟨[(tk, line + newlines (ch :: t.take n))], line + newlines (ch :: t.take n), rfl, ?_⟩
  rw [tokensFrom_cons, h, hd]
  rfl

theorem lex_quote (s rest : List Rune) (h : (0x5C : Rune) ∉ s) : Lex (quote s ++ rest) [.string s] rest := by
  have e : quote s ++ rest = 0x22 :: (escape s ++ 0x22 :: rest) := by simp [quote]
  rw [e]
  refine Lex.one (scan_quote s rest h) ?_
  have : escape s ++ 0x22 :: rest = (escape s ++ [0x22]) ++ rest := by simp
  rw [this, List.drop_left' (by simp)]

theorem isInitial_iff (c : Rune) : isInitial c = true ↔ c = 0x5F ∨ Unicode.isLetter c = true := by
  simp [isInitial]

theorem initial_not_space {c : Rune} (h : isInitial c = true) : Unicode.isSpace c = false ∧ c ≠ 0 ∧ c ≠ 0x0A := by
  refine ⟨?_, ?_, ?_⟩
  · rcases (isInitial_iff c).1 h with rfl | h
    · decide +kernel
    · exact not_inTable (by decide +kernel : tablesDisjoint Unicode.letterTable Unicode.spaceTable = true) h
  · rintro rfl; revert h; decide +kernel
  · rintro rfl; revert h; decide +kernel

/-- A character that ends a word in a written document. -/
def Ends (d : Rune) : Prop := d = 0x3A ∨ d = 0x20 ∨ d = 0x2C ∨ d = 0x0A

theorem lex_word {s : List Rune} (h : Word s) {d : Rune} (hd : Ends d) (rest : List Rune) :
    Lex (s ++ d :: rest) [.string s] (d :: rest) := by
  obtain ⟨c, t, rfl, hc, ht⟩ := h
  have hi := (isInitial_iff c).2 hc
  obtain ⟨h1, h2, h3⟩ := initial_not_space hi
  have hl : isLetter d = false := by rcases hd with rfl | rfl | rfl | rfl <;> decide +kernel
  have hr : readWhile isLetter (t ++ d :: rest) = t := by
    unfold readWhile
    rw [List.takeWhile_append_of_pos]
    · simp [hl]
    · intro x hx
      have : isLetter x = true := by
        rcases ht x hx with h | h | h
        · simp [isLetter, isInitial, h]
        · simp [isLetter, isInitial, h]
        · simp [isLetter, h]
      have h0 : x ≠ 0 := by rintro rfl; revert this; decide +kernel
      simp [this, h0]
  exact Lex.one (n := t.length) (by simp [scan, h1, h2, h3, hi, hr]) (by simp)

theorem lex_text {w : List Rune → List Rune} (hw : Spelling w) {s : List Rune} (h : (0x5C : Rune) ∉ s) {d : Rune}
    (hd : Ends d) (rest : List Rune) : Lex (w s ++ d :: rest) [.string s] (d :: rest) := by
  rcases hw s with e | ⟨h1, e⟩
  · rw [e]; exact lex_quote s _ h
  · rw [e]; exact lex_word h1 hd rest

/-- A written text does not begin with a blank. -/
theorem spelling_head {w : List Rune → List Rune} (hw : Spelling w) (s : List Rune) :
    ∃ c t, w s = c :: t ∧ isBlank c = false := by
  rcases hw s with e | ⟨⟨c, t, rfl, hc, _⟩, e⟩
  · exact ⟨0x22, _, e, by decide +kernel⟩
  · exact ⟨c, t, e, by simp [isBlank, (initial_not_space ((isInitial_iff c).2 hc)).1]⟩

theorem lex_space (c d : Rune) (rest : List Rune) (hc : c = 0x20 ∨ c = 0x09)
    (hb : isBlank d = false) : Lex (c :: d :: rest) [.space] (d :: rest) := by
  have hs : Unicode.isSpace c = true ∧ c ≠ 0 ∧ c ≠ 0x0A := by
    rcases hc with rfl | rfl <;> decide +kernel
  refine Lex.one (n := 0) (by simp [scan, hs, readWhile, hb]) rfl

theorem lex_colon (rest : List Rune) : Lex (0x3A :: rest) [.colon] rest := by
  have h1 : Unicode.isSpace 0x3A = false := by decide +kernel
  have h2 : isInitial 0x3A = false := by decide +kernel
  exact Lex.one (n := 0) (by simp [scan, h1, h2]) rfl

theorem lex_comma (rest : List Rune) : Lex (0x2C :: rest) [.comma] rest := by
  have h1 : Unicode.isSpace 0x2C = false := by decide +kernel
  have h2 : isInitial 0x2C = false := by decide +kernel
  exact Lex.one (n := 0) (by simp [scan, h1, h2]) rfl

theorem lex_newline (rest : List Rune) : Lex (0x0A :: rest) [.newline] rest :=
  Lex.one (n := 0) (by simp [scan]) rfl

/-- The token of a sign. -/
def signToken : Kind → Token
  | .dict => .equal
  | .list => .arrow

theorem lex_sign (kind : Kind) (rest : List Rune) :
    Lex (sign kind ++ rest) [signToken kind] rest := by
  have h1 : Unicode.isSpace 0x3D = false := by decide +kernel
  have h2 : isInitial 0x3D = false := by decide +kernel
  have h3 : Unicode.isSpace 0x2D = false := by decide +kernel
  have h4 : isInitial 0x2D = false := by decide +kernel
  cases kind
  · exact Lex.one (n := 0) (by simp [scan, h1, h2, signToken]) rfl
  · exact Lex.one (n := 1) (by simp [scan, h3, h4, signToken]) rfl

/-- The tokens of the right side. -/
def valueTokens : List (List Rune) → List Token
  | [] => []
  | [v] => [.string v]
  | v :: w :: vs => [.string v] ++ ([.comma] ++ ([.space] ++ valueTokens (w :: vs)))

variable {w : List Rune → List Rune}

theorem renderValues_head (hw : Spelling w) : ∀ (v : List Rune) (vs : List (List Rune)),
    ∃ c t, renderValues w (v :: vs) = c :: t ∧ isBlank c = false
  | v, [] => spelling_head hw v
  | v, _ :: _ => by
    obtain ⟨c, t, h1, h2⟩ := spelling_head hw v
    exact ⟨c, _, by rw [renderValues, h1]; rfl, h2⟩

theorem lex_values (hw : Spelling w) (rest : List Rune) : ∀ (vs : List (List Rune)), (∀ v ∈ vs, Text v) →
    Lex (renderValues w vs ++ 0x0A :: rest) (valueTokens vs) (0x0A :: rest)
  | [], _ => Lex.nil _
  | [v], h => lex_text hw (h v (by simp)).2 (by simp [Ends]) rest
  | v :: v' :: vs, h => by
    have ih := lex_values hw rest (v' :: vs) fun x hx => h x (by simp [hx])
    obtain ⟨c, t, ht, hb⟩ := renderValues_head hw v' vs
    have e : renderValues w (v :: v' :: vs) ++ 0x0A :: rest
        = w v ++ (0x2C :: 0x20 :: (renderValues w (v' :: vs) ++ 0x0A :: rest)) := by simp [renderValues]
    rw [e]
    refine (lex_text hw (h v (by simp)).2 (by simp [Ends]) _).trans ((lex_comma _).trans (Lex.trans ?_ ih))
    rw [ht]
    exact lex_space _ _ _ (Or.inl rfl) hb

/-- The tokens of a pair. -/
def pairTokens (kind : Kind) (p : List Rune × List (List Rune)) : List Token :=
  [.space] ++ ([.string p.1] ++ ([.space] ++ ([signToken kind] ++ ([.space] ++ (valueTokens p.2 ++ [.newline])))))

theorem lex_pair (hw : Spelling w) (kind : Kind) (p : List Rune × List (List Rune)) (rest : List Rune) (h1 : Text p.1)
    (h2 : ∀ v ∈ p.2, Text v) : Lex (renderPair w kind p ++ rest) (pairTokens kind p) rest := by
  have e : renderPair w kind p ++ rest
      = 0x09 :: (w p.1 ++ (0x20 :: (sign kind ++
        (0x20 :: (renderValues w p.2 ++ (0x0A :: rest)))))) := by
    cases kind <;> simp [renderPair]
  rw [e]
  have l5 : Lex (0x20 :: (renderValues w p.2 ++ (0x0A :: rest))) [.space]
      (renderValues w p.2 ++ (0x0A :: rest)) := by
    cases hv : p.2 with
    | nil => exact lex_space _ _ _ (Or.inl rfl) (by decide +kernel)
    | cons v vs =>
      obtain ⟨c, t, ht, hb⟩ := renderValues_head hw v vs
      rw [ht]
      exact lex_space _ _ _ (Or.inl rfl) hb
  have l3 := (lex_sign kind _).trans (l5.trans ((lex_values hw _ p.2 h2).trans (lex_newline rest)))
  have l2 : Lex (0x20 :: (sign kind ++
        (0x20 :: (renderValues w p.2 ++ (0x0A :: rest))))) [.space]
      (sign kind ++
        (0x20 :: (renderValues w p.2 ++ (0x0A :: rest)))) := by
    cases kind <;> exact lex_space _ _ _ (Or.inl rfl) (by decide +kernel)
  have l1 := (lex_text hw h1.2 (by simp [Ends]) _).trans (l2.trans l3)
  refine Lex.trans ?_ l1
  obtain ⟨c, t, ht, hb⟩ := spelling_head hw p.1
  rw [ht]
  exact lex_space _ _ _ (Or.inr rfl) hb

theorem lex_pairs (hw : Spelling w) (kind : Kind) (rest : List Rune) : ∀ (ps : List (List Rune × List (List Rune))),
    (∀ p ∈ ps, Text p.1 ∧ ∀ v ∈ p.2, Text v) →
    Lex ((ps.map (renderPair w kind)).flatten ++ rest) (ps.map (pairTokens kind)).flatten rest
  | [], _ => Lex.nil _
  | p :: ps, h => by
    have ih := lex_pairs hw kind rest ps fun x hx => h x (by simp [hx])
    simp only [List.map_cons, List.flatten_cons, List.append_assoc]
    exact (lex_pair hw kind p _ (h p (by simp)).1 (h p (by simp)).2).trans ih

/-- The tokens of a section. -/
def sectTokens (s : Sect) : List Token :=
  [.string s.name] ++ ([.colon] ++ ([.newline] ++ (s.pairs.map (pairTokens s.kind)).flatten))

theorem lex_sects (hw : Spelling w) (rest : List Rune) : ∀ (d : List Sect),
    (∀ s ∈ d, Text s.name ∧ ∀ p ∈ s.pairs, Text p.1 ∧ ∀ v ∈ p.2, Text v) →
    Lex (render w d ++ rest) (d.map sectTokens).flatten rest
  | [], _ => Lex.nil _
  | s :: d, h => by
    have ih := lex_sects hw rest d fun x hx => h x (by simp [hx])
    have hs := h s (by simp)
    have e : render w (s :: d) ++ rest
        = w s.name ++ (0x3A :: 0x0A :: ((s.pairs.map (renderPair w s.kind)).flatten ++ (render w d ++ rest))) := by
      simp [render, renderSect]
    rw [e]
    simp only [List.map_cons, List.flatten_cons]
    exact ((lex_text hw hs.1.2 (by simp [Ends]) _).trans ((lex_colon _).trans ((lex_newline _).trans
      (lex_pairs hw s.kind _ s.pairs hs.2)))).trans ih

/-! ## The entries of the tokens -/

/-- An entry without its line. -/
def bareEntry (e : Entry) : Bytes × Kind × Bytes × List Bytes := (e.sect, e.kind, e.pair.left, e.pair.right)

/-- The value strings of tokens. -/
theorem values_erase : ∀ (ts ts' : List (Token × Nat)), ts.map Prod.fst = ts'.map Prod.fst →
    values ts = values ts'
  | [], ts', h => by
    have : ts' = [] := by simpa using h.symm
    rw [this]
  | (tk, l) :: ts, [], h => by simp at h
  | (tk, l) :: ts, (tk', l') :: ts', h => by
    simp only [List.map_cons, List.cons.injEq] at h
    obtain ⟨rfl, h⟩ := h
    have ih := values_erase ts ts' h
    cases tk <;> simp [values, ih]

theorem entries_erase : ∀ (ts ts' : List (Token × Nat)), ts.map Prod.fst = ts'.map Prod.fst →
    ∀ sect key b, (entries sect key b ts).map bareEntry = (entries sect key b ts').map bareEntry
  | [], ts', h => by
    have : ts' = [] := by simpa using h.symm
    simp [this]
  | (tk, l) :: ts, [], h => by simp at h
  | (tk, l) :: ts, (tk', l') :: ts', h => by
    simp only [List.map_cons, List.cons.injEq] at h
    obtain ⟨rfl, h⟩ := h
    have ih := entries_erase ts ts' h
    have hv := values_erase ts ts' h
    intro sect key b
    cases b <;> cases tk <;> simp [entries, ih, bareEntry, hv]

/-- Tokens on line 0. -/
def at0 (ts : List Token) : List (Token × Nat) := ts.map fun t => (t, 0)

theorem at0_append (a b : List Token) : at0 (a ++ b) = at0 a ++ at0 b := by simp [at0]

theorem values_tokens (rest : List (Token × Nat)) : ∀ (vs : List (List Rune)),
    values (at0 (valueTokens vs) ++ (.newline, 0) :: rest) = vs.map encode
  | [] => rfl
  | [_] => rfl
  | v :: w :: vs => by
    have ih := values_tokens rest (w :: vs)
    simp only [valueTokens, at0_append, List.append_assoc]
    simp only [at0, List.map_cons, List.map_nil, List.cons_append, List.nil_append, values]
    rw [show (valueTokens (w :: vs)).map (fun t => (t, 0)) = at0 (valueTokens (w :: vs)) from rfl, ih]
    rfl

theorem entries_values (sect key : Bytes) (rest : List (Token × Nat)) : ∀ (vs : List (List Rune)),
    entries sect key true (at0 (valueTokens vs) ++ (.newline, 0) :: rest) = entries sect key false rest
  | [] => rfl
  | [v] => by simp [valueTokens, at0, entries]
  | v :: w :: vs => by
    have ih := entries_values sect key rest (w :: vs)
    simp only [valueTokens, at0_append, List.append_assoc]
    simp only [at0, List.map_cons, List.map_nil, List.cons_append, List.nil_append, entries]
    exact ih

/-- The entries of a pair list. -/
def pairEntries (sect : Bytes) (kind : Kind) (ps : List (List Rune × List (List Rune))) : List Entry :=
  ps.map fun p => ⟨sect, kind, ⟨encode p.1, p.2.map encode, 0⟩⟩

theorem entries_pairs (sect : Bytes) (kind : Kind) (rest : List (Token × Nat)) :
    ∀ (ps : List (List Rune × List (List Rune))) (key : Bytes), ∃ key',
      entries sect key false (at0 (ps.map (pairTokens kind)).flatten ++ rest)
        = pairEntries sect kind ps ++ entries sect key' false rest
  | [], key => ⟨key, rfl⟩
  | p :: ps, key => by
    obtain ⟨key', ih⟩ := entries_pairs sect kind rest ps (encode p.1)
    refine ⟨key', ?_⟩
    have hv := values_tokens (at0 (ps.map (pairTokens kind)).flatten ++ rest) p.2
    have he := entries_values sect (encode p.1) (at0 (ps.map (pairTokens kind)).flatten ++ rest) p.2
    simp only [List.map_cons, List.flatten_cons, at0_append, pairTokens, List.append_assoc]
    cases kind
    · simp only [signToken, at0, List.map_cons, List.map_nil, List.cons_append, List.nil_append, entries,
        values]
      simp only [at0] at hv he ih
      rw [hv, he, ih]
      rfl
    · simp only [signToken, at0, List.map_cons, List.map_nil, List.cons_append, List.nil_append, entries,
        values]
      simp only [at0] at hv he ih
      rw [hv, he, ih]
      rfl

/-- The entries of a document. -/
def docEntries (d : List Sect) : List Entry :=
  d.flatMap fun s => pairEntries (encode s.name) s.kind s.pairs

theorem entries_sects : ∀ (d : List Sect) (sect key : Bytes),
    entries sect key false (at0 (d.map sectTokens).flatten) = docEntries d
  | [], _, _ => rfl
  | s :: d, sect, key => by
    obtain ⟨key', h⟩ := entries_pairs (encode s.name) s.kind (at0 (d.map sectTokens).flatten) s.pairs
      (encode s.name)
    have ih := entries_sects d (encode s.name) key'
    simp only [List.map_cons, List.flatten_cons, at0_append, sectTokens, List.append_assoc]
    simp only [at0, List.map_cons, List.map_nil, List.cons_append, List.nil_append, entries]
    simp only [at0] at h ih
    rw [h, ih]
    rfl

/-! ## Reading back -/

/-- The pairs of a section without lines. -/
theorem pairsOf_bare {es es' : List Entry} (h : es.map bareEntry = es'.map bareEntry) (name : Bytes) :
    (pairsOf name es).map (fun p => (p.left, p.right)) = (pairsOf name es').map (fun p => (p.left, p.right)) ∧
      kindOf name es = kindOf name es' := by
  induction es generalizing es' with
  | nil =>
    have : es' = [] := by simpa using h.symm
    simp [this]
  | cons e es ih =>
    cases es' with
    | nil => simp at h
    | cons e' es' =>
      simp only [List.map_cons, List.cons.injEq] at h
      obtain ⟨h1, h2⟩ := h
      have := ih h2
      simp only [bareEntry, Prod.mk.injEq] at h1
      obtain ⟨hs, hk, hl, hr⟩ := h1
      simp only [pairsOf, kindOf] at this ⊢
      by_cases hn : e.sect = name
      · simp [hn, ← hs, this, hl, hr, hk]
      · simp [hn, ← hs, this]

theorem pairEntries_other {name sect : Bytes} (h : sect ≠ name) (kind : Kind)
    (ps : List (List Rune × List (List Rune))) :
    pairsOf name (pairEntries sect kind ps) = [] ∧ kindOf name (pairEntries sect kind ps) = none := by
  have h1 : pairsOf name (pairEntries sect kind ps) = [] := by
    simp only [pairsOf, pairEntries, List.map_eq_nil_iff, List.filter_eq_nil_iff]
    intro e he
    simp only [List.mem_map] at he
    obtain ⟨p, _, rfl⟩ := he
    simpa using h
  exact ⟨h1, kindOf_none h1⟩

theorem pairEntries_same (name : Bytes) (kind : Kind) : ∀ (ps : List (List Rune × List (List Rune))),
    pairsOf name (pairEntries name kind ps) = (ps.map fun p => ⟨encode p.1, p.2.map encode, 0⟩) ∧
      (ps ≠ [] → kindOf name (pairEntries name kind ps) = some kind)
  | [] => by simp [pairsOf, pairEntries]
  | p :: ps => by
    have ih := (pairEntries_same name kind ps).1
    simp only [pairsOf, pairEntries] at ih
    simp [pairsOf, pairEntries, kindOf, ih]

theorem encode_inj {a b : List Rune} (ha : ∀ c ∈ a, validRune c = true) (hb : ∀ c ∈ b, validRune c = true)
    (h : encode a = encode b) : a = b := by
  rw [← runes_encode ha, h, runes_encode hb]

/-- The section of a name in a document. -/
theorem docEntries_other {name : Bytes} : ∀ (d : List Sect), (∀ s ∈ d, encode s.name ≠ name) →
    pairsOf name (docEntries d) = [] ∧ kindOf name (docEntries d) = none
  | [], _ => by simp [docEntries, pairsOf, kindOf]
  | s :: d, h => by
    have ih := docEntries_other d fun x hx => h x (by simp [hx])
    have h1 := pairEntries_other (h s (by simp)) s.kind s.pairs
    have e : docEntries (s :: d) = pairEntries (encode s.name) s.kind s.pairs ++ docEntries d := by
      simp [docEntries]
    rw [e, pairsOf_append, kindOf_append, h1.1, h1.2, ih.1, ih.2]
    simp

theorem docEntries_same : ∀ (d : List Sect), Writable d → ∀ s ∈ d,
    pairsOf (encode s.name) (docEntries d) = (s.pairs.map fun p => ⟨encode p.1, p.2.map encode, 0⟩) ∧
      kindOf (encode s.name) (docEntries d) = some s.kind
  | [], _, s, hs => by simp at hs
  | s0 :: d, hw, s, hs => by
    have hw' : Writable d := by
      refine ⟨?_, fun x hx => hw.2 x (by simp [hx])⟩
      have := hw.1
      simp only [List.map_cons, List.nodup_cons] at this
      exact this.2
    have hne : ∀ x ∈ d, encode x.name ≠ encode s0.name := by
      intro x hx he
      have := encode_inj (hw.2 x (by simp [hx])).2.1.1 (hw.2 s0 (by simp)).2.1.1 he
      have h1 := hw.1
      simp only [List.map_cons, List.nodup_cons, List.mem_map, not_exists, not_and] at h1
      exact h1.1 x hx this
    have e : docEntries (s0 :: d) = pairEntries (encode s0.name) s0.kind s0.pairs ++ docEntries d := by
      simp [docEntries]
    rw [e, pairsOf_append, kindOf_append]
    rcases List.mem_cons.1 hs with rfl | hs
    · have h1 := pairEntries_same (encode s.name) s.kind s.pairs
      have h2 := docEntries_other d hne
      rw [h1.1, h2.1, h1.2 (hw.2 s (by simp)).2.2.1]
      simp
    · have h1 := pairEntries_other (Ne.symm (hne s hs)) s0.kind s0.pairs
      have ih := docEntries_same d hw' s hs
      rw [h1.1, h1.2, ih.1, ih.2]
      simp

theorem renderText_valid {s : List Rune} (h : Text s) : ∀ c ∈ quote s, validRune c = true := by
  have key : ∀ (t : List Rune), (∀ c ∈ t, validRune c = true) → ∀ c ∈ escape t, validRune c = true := by
    intro t
    induction t with
    | nil => simp [escape]
    | cons a t ih =>
      intro ht c hc
      have ih := ih fun x hx => ht x (by simp [hx])
      rw [escape] at hc
      split at hc
      · simp only [List.mem_cons] at hc
        rcases hc with rfl | rfl | hc
        · decide
        · decide
        · exact ih c hc
      · rcases List.mem_cons.1 hc with rfl | hc
        · exact ht c (by simp)
        · exact ih c hc
  intro c hc
  simp only [quote, List.cons_append, List.mem_cons, List.mem_append, List.not_mem_nil, or_false] at hc
  rcases hc with rfl | hc | rfl
  · decide
  · exact key s h.1 c hc
  · decide

theorem spelling_valid (hw : Spelling w) {s : List Rune} (h : Text s) : ∀ c ∈ w s, validRune c = true := by
  rcases hw s with e | ⟨_, e⟩
  · rw [e]; exact renderText_valid h
  · rw [e]; exact h.1

theorem renderValues_valid (hw : Spelling w) : ∀ (vs : List (List Rune)), (∀ v ∈ vs, Text v) →
    ∀ c ∈ renderValues w vs, validRune c = true
  | [], _, c, hc => by simp [renderValues] at hc
  | [v], h, c, hc => spelling_valid hw (h v (by simp)) c hc
  | v :: v' :: vs, h, c, hc => by
    have ih := renderValues_valid hw (v' :: vs) fun x hx => h x (by simp [hx])
    simp only [renderValues, List.mem_append, List.mem_cons, List.not_mem_nil, or_false] at hc
    rcases hc with (hc | rfl | rfl) | hc
    · exact spelling_valid hw (h v (by simp)) c hc
    · decide
    · decide
    · exact ih c hc

theorem render_valid (hw : Spelling w) {d : List Sect} (hd : Writable d) : ∀ c ∈ render w d, validRune c = true := by
  intro c hc
  simp only [render, List.mem_flatten, List.mem_map] at hc
  obtain ⟨_, ⟨s, hs, rfl⟩, hc⟩ := hc
  have h := hd.2 s hs
  simp only [renderSect, List.mem_append, List.mem_cons, List.not_mem_nil, or_false, List.mem_flatten,
    List.mem_map] at hc
  rcases hc with (hc | rfl | rfl) | ⟨_, ⟨p, hp, rfl⟩, hc⟩
  · exact spelling_valid hw h.2.1 c hc
  · decide
  · decide
  · have hp := h.2.2.2.2 p hp
    simp only [renderPair, List.mem_append, List.mem_cons, List.not_mem_nil, or_false] at hc
    rcases hc with (((((rfl | hc) | rfl) | hc) | rfl) | hc) | rfl
    · decide
    · exact spelling_valid hw hp.1 c hc
    · decide
    · cases hk : s.kind <;> simp only [hk, sign, List.mem_cons, List.not_mem_nil, or_false] at hc
      · subst hc; decide
      · rcases hc with rfl | rfl <;> decide
    · decide
    · exact renderValues_valid hw _ hp.2 c hc
    · decide

/-- The tokens of a written document are all well-formed. -/
theorem sectTokens_clean (d : List Sect) (tk : Token) (h : tk ∈ (d.map sectTokens).flatten) :
    tk ≠ .illegal ∧ tk ≠ .panics ∧ tk ≠ .hangs := by
  have hv : ∀ (vs : List (List Rune)), ∀ tk ∈ valueTokens vs, tk ≠ .illegal ∧ tk ≠ .panics ∧ tk ≠ .hangs := by
    intro vs
    induction vs with
    | nil => simp [valueTokens]
    | cons v vs ih =>
      cases vs with
      | nil => simp [valueTokens]
      | cons w vs =>
        intro tk htk
        simp only [valueTokens, List.mem_append, List.mem_cons, List.not_mem_nil, or_false] at htk
        rcases htk with rfl | rfl | rfl | htk
        · simp
        · simp
        · simp
        · exact ih tk htk
  simp only [List.mem_flatten, List.mem_map] at h
  obtain ⟨_, ⟨s, _, rfl⟩, h⟩ := h
  simp only [sectTokens, List.mem_append, List.mem_cons, List.not_mem_nil, or_false, List.mem_flatten,
    List.mem_map] at h
  rcases h with rfl | rfl | rfl | ⟨_, ⟨p, _, rfl⟩, h⟩
  · simp
  · simp
  · simp
  · simp only [pairTokens, List.mem_append, List.mem_cons, List.not_mem_nil, or_false] at h
    rcases h with rfl | rfl | rfl | rfl | rfl | h | rfl
    · simp
    · simp
    · simp
    · cases s.kind <;> simp [signToken]
    · simp
    · exact hv _ _ h
    · simp

theorem parse_render (hsp : Spelling w) {d : List Sect} (hw : Writable d) : ∃ doc, parse (encode (render w d)) = .ok doc ∧
    (∀ s ∈ d, (doc.lookup (encode s.name)).map bare
      = some (s.kind, s.pairs.map fun p => (encode p.1, p.2.map encode))) ∧
    ∀ name, name ∉ d.map (fun s => encode s.name) → doc.lookup name = none := by
  have hr : runes (encode (render w d)) = render w d := runes_encode (render_valid hsp hw)
  obtain ⟨tl, line', he, ht⟩ := lex_sects hsp [] d (fun s hs => ⟨(hw.2 s hs).2.1, (hw.2 s hs).2.2.2.2⟩) 1
  have htok : tokens (encode (render w d)) = tl := by
    rw [tokens, hr]
    simpa [tokensFrom] using ht
  have hbare : (entries [] [] false tl).map bareEntry = (docEntries d).map bareEntry := by
    rw [← entries_sects d [] []]
    apply entries_erase
    rw [he]
    simp [at0, Function.comp_def]
  have hclean : ∀ tk l, (tk, l) ∈ tl → tk ≠ .illegal ∧ tk ≠ .panics ∧ tk ≠ .hangs := by
    intro tk l hm
    apply sectTokens_clean d
    rw [← he]
    exact List.mem_map.2 ⟨_, hm, rfl⟩
  have hout := parseLoop_outcome tl ⟨[], [], [], 0⟩ none [] (by intro n; simp [pairsOf]) (by simp)
  have hsect : ∀ e ∈ entries [] [] false tl, ∃ s ∈ d, e.sect = encode s.name := by
    intro e hm
    have : bareEntry e ∈ (docEntries d).map bareEntry := by
      rw [← hbare]; exact List.mem_map.2 ⟨e, hm, rfl⟩
    obtain ⟨e', hm', hb⟩ := List.mem_map.1 this
    simp only [docEntries, List.mem_flatMap, pairEntries, List.mem_map] at hm'
    obtain ⟨s, hs, p, _, rfl⟩ := hm'
    simp only [bareEntry, Prod.mk.injEq] at hb
    exact ⟨s, hs, hb.1.symm⟩
  rw [parse, htok]
  cases hp : parseLoop ⟨[], [], [], 0⟩ none tl with
  | hang =>
    rw [hp] at hout
    obtain ⟨l, hl⟩ := hout
    exact absurd rfl (hclean _ _ hl).2.2
  | err e =>
    rw [hp] at hout
    rcases hout.2 with ⟨l, hl⟩ | ⟨e, hm, hz⟩
    · exact absurd rfl (hclean _ _ hl).1
    · obtain ⟨s, hs, h⟩ := hsect e hm
      rw [hz] at h
      exfalso
      apply (hw.2 s hs).1
      have := runes_encode (hw.2 s hs).2.1.1
      rw [← h] at this
      exact this.symm
  | panic =>
    rw [hp] at hout
    rcases hout with ⟨l, hl⟩ | ⟨name, hk, hd⟩
    · exact absurd rfl (hclean _ _ hl).2.1
    · exfalso
      simp only [remaining, List.nil_append] at hk hd
      obtain ⟨b1, b2⟩ := pairsOf_bare hbare name
      rw [b2] at hk
      by_cases hn : ∃ s ∈ d, encode s.name = name
      · obtain ⟨s, hs, rfl⟩ := hn
        obtain ⟨h1, h2⟩ := docEntries_same d hw s hs
        rw [h2] at hk
        apply hd
        have hmap : (pairsOf (encode s.name) (entries [] [] false tl)).map (·.left)
            = ((s.pairs.map (·.1)).map encode) := by
          have := congrArg (List.map Prod.fst) b1
          rw [h1] at this
          simpa [Function.comp_def] using this
        rw [hmap]
        have hkd : s.kind = .dict := by simpa using hk
        have hnd := (hw.2 s hs).2.2.2.1 hkd
        apply List.pairwise_map.2
        apply List.Pairwise.imp_of_mem ?_ hnd
        intro a b ha hb hab hh
        obtain ⟨pa, hpa, rfl⟩ := List.mem_map.1 ha
        obtain ⟨pb, hpb, rfl⟩ := List.mem_map.1 hb
        have hx := (hw.2 s hs).2.2.2.2
        exact hab (encode_inj (hx pa hpa).1.1 (hx pb hpb).1.1 hh)
      · simp only [not_exists, not_and] at hn
        rw [(docEntries_other d hn).2] at hk
        simp at hk
  | ok doc =>
    rw [hp] at hout
    obtain ⟨hh, _⟩ := hout
    simp only [remaining, List.nil_append] at hh
    refine ⟨doc, rfl, ?_, ?_⟩
    · intro s hs
      obtain ⟨h1, h2⟩ := docEntries_same d hw s hs
      obtain ⟨b1, b2⟩ := pairsOf_bare hbare (encode s.name)
      rw [h1] at b1
      cases hl : doc.lookup (encode s.name) with
      | none =>
        have := (hh (encode s.name)).1 hl
        rw [this] at b1
        have : s.pairs = [] := by simpa using b1.symm
        exact absurd this (hw.2 s hs).2.2.1
      | some sec =>
        obtain ⟨h3, h4, _⟩ := (hh (encode s.name)).2 sec hl
        rw [b2, h2] at h4
        simp only [Option.map_some, bare, Option.some.injEq, Prod.mk.injEq]
        refine ⟨by simpa using h4.symm, ?_⟩
        rw [h3, b1]
        simp [Function.comp_def]
    · intro name hn
      have hn' : ∀ s ∈ d, encode s.name ≠ name := by
        intro s hs he
        exact hn (List.mem_map.2 ⟨s, hs, he⟩)
      cases hl : doc.lookup name with
      | none => rfl
      | some sec =>
        obtain ⟨_, h4, _⟩ := (hh name).2 sec hl
        rw [(pairsOf_bare hbare name).2, (docEntries_other d hn').2] at h4
        simp at h4

end Verif.Hsl
