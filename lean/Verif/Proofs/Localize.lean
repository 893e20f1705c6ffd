import Verif.Proofs.Partition
import Verif.Proofs.Tables

/-! The localize step. -/

namespace Verif

open Verif.Spec.Subword Verif.Spec.Procedure Unicode

theorem punct_not_space {c : Rune} (h : isPunct c = true) : isSpace c = false :=
  not_inTable (by decide +kernel : tablesDisjoint punctTable spaceTable = true) h

theorem trim_single {c : Rune} (h : isSpace c = false) : trimLeft [c] = [c] ∧ trimRight [c] = [c] := by
  simp [trimLeft, trimRight, h]

/-- Scripts but kana only lose zero-width spaces. -/
theorem localizeLoop_plain {sc : Script} (h : sc ≠ .hrkt) : ∀ (rs : List Rune) (prev : Option Rune),
    localizeLoop sc prev rs = rs.filter (· ≠ zwsp) := by
  have hl : ∀ c, sc.localizePunct c = [c] := by cases sc <;> simp_all [Script.localizePunct]
  intro rs
  induction rs with
  | nil => intro prev; rfl
  | cons c rs ih =>
    intro prev
    simp only [localizeLoop, ih, hl]
    by_cases hz : c = 0x200B
    · simp [hz, zwsp]
    · have hz' : c ≠ zwsp := hz
      simp only [hz, ↓reduceIte, ne_eq, hz', not_false_eq_true, decide_true, List.filter_cons_of_pos]
      by_cases hp : isPunct c = true
      · obtain ⟨t1, t2⟩ := trim_single (punct_not_space hp)
        simp only [hp, Bool.not_true, Bool.false_eq_true, ↓reduceIte]
        split <;> split <;> simp [t1, t2]
      · simp [hp]

theorem noSpace_iff (c : Option Rune) : NoSpace c ↔ punctOrSpace c = true := by
  cases c with
  | none => simp [NoSpace, punctOrSpace]
  | some x => simp [NoSpace, punctOrSpace]

theorem hrktPunct_eq (c : Rune) : hrktPunct c =
    match japanese.lookup c with
    | some (l, x, r) => space l ++ [x] ++ space r
    | none => [c] := by
  unfold hrktPunct
  simp only [japanese, List.lookup_cons]
  by_cases h1 : c = 0x3002
  · subst h1; rfl
  by_cases h2 : c = 0x3001
  · subst h2; rfl
  by_cases h3 : c = 0xFF1A
  · subst h3; rfl
  by_cases h4 : c = 0xFF01
  · subst h4; rfl
  by_cases h5 : c = 0xFF1F
  · subst h5; rfl
  by_cases h6 : c = 0x301C
  · subst h6; rfl
  by_cases h7 : c = 0x300C
  · subst h7; rfl
  by_cases h8 : c = 0x300D
  · subst h8; rfl
  by_cases h9 : c = 0x300E
  · subst h9; rfl
  by_cases h10 : c = 0x300F
  · subst h10; rfl
  have e : ∀ n, ¬ c = n → (c == n) = false := by intro n h; simpa using h
  have h1' := e _ h1
  have h2' := e _ h2
  have h3' := e _ h3
  have h4' := e _ h4
  have h5' := e _ h5
  have h6' := e _ h6
  have h7' := e _ h7
  have h8' := e _ h8
  have h9' := e _ h9
  have h10' := e _ h10
  simp [h1, h2, h3, h4, h5, h6, h7, h8, h9, h10, h1', h2', h3', h4', h5', h6', h7', h8', h9', h10']

theorem japanese_lookup {c : Rune} {l : Bool} {x : Rune} {r : Bool} (h : japanese.lookup c = some (l, x, r)) :
    isPunct c = true ∧ isSpace x = false ∧ (x ≠ zwsp) ∧ japanese.lookup x = none ∧ c ≠ zwsp ∧ validRune x = true := by
  have : ∀ p ∈ japanese, isPunct p.1 = true ∧ isSpace p.2.2.1 = false ∧ p.2.2.1 ≠ zwsp ∧
      japanese.lookup p.2.2.1 = none ∧ p.1 ≠ zwsp ∧ validRune p.2.2.1 = true := by decide +kernel
  have hm : (c, l, x, r) ∈ japanese := by
    clear this
    revert h
    induction japanese with
    | nil => simp
    | cons p t ih =>
      intro h
      rw [List.lookup_cons] at h
      by_cases hc : c = p.1
      · simp only [hc, BEq.rfl, Option.some.injEq] at h
        rw [hc, ← h]; simp
      · have : (c == p.1) = false := by simpa using hc
        simp only [this] at h
        exact List.mem_cons_of_mem _ (ih h)
  exact this _ hm

theorem trim_spaced {x : Rune} (hx : isSpace x = false) (l r : Bool) :
    trimLeft (space l ++ [x] ++ space r) = [x] ++ space r ∧
    trimRight (space l ++ [x] ++ space r) = space l ++ [x] ∧
    trimRight ([x] ++ space r) = [x] := by
  have hs : isSpace 0x20 = true := by decide +kernel
  have hd : ∀ t : List Rune, List.dropWhile isSpace (32 :: t) = List.dropWhile isSpace t := by
    intro t; rw [List.dropWhile_cons_of_pos hs]
  cases l <;> cases r <;> simp [trimLeft, trimRight, space, hx, hd]

/-- Kana text. -/
theorem localizeLoop_hrkt : ∀ (rs : List Rune) (prev : Option Rune),
    localizeLoop .hrkt prev rs = (japanesePieces prev rs).flatten := by
  intro rs
  induction rs with
  | nil => intro prev; rfl
  | cons c rs ih =>
    intro prev
    simp only [localizeLoop, japanesePieces, List.flatten_cons, ih, japanesePiece]
    by_cases hz : c = 0x200B
    · have hz' : c = zwsp := hz
      simp [hz', zwsp]
    · have hz' : c ≠ zwsp := hz
      simp only [hz, hz', ↓reduceIte, Script.localizePunct, hrktPunct_eq]
      cases hl : japanese.lookup c with
      | none =>
        simp only
        by_cases hp : isPunct c = true
        · obtain ⟨t1, t2⟩ := trim_single (punct_not_space hp)
          simp only [hp, Bool.not_true, Bool.false_eq_true, ↓reduceIte]
          split <;> split <;> simp [t1, t2]
        · simp [hp]
      | some p =>
        obtain ⟨l, x, r⟩ := p
        obtain ⟨hp, hx, _⟩ := japanese_lookup hl
        obtain ⟨t1, t2, t3⟩ := trim_spaced hx l r
        simp only [hp, Bool.not_true, Bool.false_eq_true, ↓reduceIte]
        by_cases ha : punctOrSpace prev = true <;> by_cases hb : punctOrSpace rs.head? = true <;>
          simp only [ha, hb, ↓reduceIte, t1, t2, t3, noSpace_iff, Bool.false_eq_true] <;> simp [space]

/-- Localizing gives no zero-width space and nothing to localize. -/
theorem localizeLoop_mem {sc : Script} {rs : List Rune} {prev : Option Rune} {c : Rune}
    (h : c ∈ localizeLoop sc prev rs) (hv : ∀ r ∈ rs, validRune r = true) :
    c ≠ zwsp ∧ validRune c = true ∧ (sc = .hrkt → japanese.lookup c = none) := by
  by_cases hs : sc = .hrkt
  · subst hs
    rw [localizeLoop_hrkt] at h
    induction rs generalizing prev with
    | nil => simp [japanesePieces] at h
    | cons a rs ih =>
      simp only [japanesePieces, List.flatten_cons, List.mem_append] at h
      rcases h with h | h
      · unfold japanesePiece at h
        by_cases hz : a = zwsp
        · simp [hz] at h
        · rw [if_neg hz] at h
          cases hl : japanese.lookup a with
          | none =>
            rw [hl] at h
            simp only [List.mem_singleton] at h
            subst h
            exact ⟨hz, hv _ (by simp), fun _ => hl⟩
          | some p =>
            obtain ⟨l, x, r⟩ := p
            rw [hl] at h
            simp only [List.mem_append, List.mem_singleton] at h
            obtain ⟨_, _, h1, h2, _, h3⟩ := japanese_lookup hl
            have hsp : ∀ b, c ∈ space b → c = 0x20 := by
              intro b hb
              cases b
              · simp [space] at hb
              · simpa [space] using hb
            have h20 : (0x20 : Nat) ≠ zwsp ∧ validRune 0x20 = true ∧ japanese.lookup (0x20 : Nat) = none := by decide +kernel
            rcases h with (h | h) | h
            · rw [hsp _ h]; exact ⟨h20.1, h20.2.1, fun _ => h20.2.2⟩
            · rw [h]; exact ⟨h1, h3, fun _ => h2⟩
            · rw [hsp _ h]; exact ⟨h20.1, h20.2.1, fun _ => h20.2.2⟩
      · exact ih (fun r hr => hv r (by simp [hr])) h
  · rw [localizeLoop_plain hs] at h
    simp only [List.mem_filter, ne_eq, decide_not, Bool.not_eq_eq_eq_not, Bool.not_true,
      decide_eq_false_iff_not] at h
    exact ⟨h.2, hv c h.1, fun e => absurd e hs⟩

theorem localizeLoop_id {sc : Script} : ∀ (rs : List Rune) (prev : Option Rune),
    (∀ c ∈ rs, c ≠ zwsp ∧ (sc = .hrkt → japanese.lookup c = none)) → localizeLoop sc prev rs = rs := by
  by_cases hs : sc = .hrkt
  · subst hs
    intro rs
    induction rs with
    | nil => intro prev _; rfl
    | cons a rs ih =>
      intro prev h
      have := ih (some a) fun c hc => h c (by simp [hc])
      rw [localizeLoop_hrkt] at this ⊢
      obtain ⟨h1, h2⟩ := h a (by simp)
      simp [japanesePieces, this, japanesePiece, h1, h2]
  · intro rs prev h
    rw [localizeLoop_plain hs]
    rw [List.filter_eq_self]
    intro c hc
    simpa using (h c hc).1

theorem localizeWord_valid (sc : Script) (w : Bytes) : ValidUtf8 (localizeWord sc w) := encode_validUtf8 _

theorem localizeWord_runes (sc : Script) (w : Bytes) : runes (localizeWord sc w) = localizeLoop sc none (runes w) :=
  runes_encode fun _ hc => (localizeLoop_mem hc (runes_valid w)).2.1

/-! ### Introduced spaces -/

theorem piece_plain {prev next : Option Rune} {x : Rune} (hz : x ≠ zwsp) (hp : isPunct x = false) :
    japanesePiece prev x next = [x] := by
  unfold japanesePiece
  rw [if_neg hz]
  cases hl : japanese.lookup x with
  | none => rfl
  | some p =>
    obtain ⟨l, y, r⟩ := p
    have := (japanese_lookup hl).1
    rw [hp] at this
    simp at this

theorem pieces_split : ∀ (pre : List Rune) (prev : Option Rune) (c : Rune) (post : List Rune), ∃ a b,
    (japanesePieces prev (pre ++ c :: post)).flatten = a ++ japanesePiece (pre.getLast?.or prev) c post.head? ++ b ∧
    (pre = [] → a = []) ∧ (∀ pre' x, pre = pre' ++ [x] → x ≠ zwsp → isPunct x = false → a.getLast? = some x) ∧
    (∀ y post', post = y :: post' → y ≠ zwsp → isPunct y = false → b.head? = some y) := by
  intro pre
  induction pre with
  | nil =>
    intro prev c post
    refine ⟨[], (japanesePieces (some c) post).flatten, by simp [japanesePieces], fun _ => rfl, ?_, ?_⟩
    · intro pre' x h; simp at h
    · rintro y post' rfl hz hp
      simp [japanesePieces, piece_plain hz hp]
  | cons p pre ih =>
    intro prev c post
    obtain ⟨a, b, h1, h0, h2, h3⟩ := ih (some p) c post
    refine ⟨japanesePiece prev p (pre ++ c :: post).head? ++ a, b, ?_, by simp, ?_, h3⟩
    · have e : (p :: pre).getLast?.or prev = pre.getLast?.or (some p) := by
        cases pre with
        | nil => rfl
        | cons q t => simp [List.getLast?_cons]
      rw [e]
      simp [japanesePieces, h1]
    · intro pre' x he hz hp
      cases pre' with
      | nil =>
        simp only [List.nil_append, List.cons.injEq] at he
        obtain ⟨rfl, rfl⟩ := he
        rw [piece_plain hz hp]
        simp [h0 rfl]
      | cons q pre' =>
        simp only [List.cons_append, List.cons.injEq] at he
        obtain ⟨rfl, rfl⟩ := he
        have := h2 pre' x rfl hz hp
        rw [List.getLast?_append, this]
        rfl

theorem noSpace_not {c : Option Rune} (h : ¬ NoSpace c) : ∃ x, c = some x ∧ isPunct x = false ∧ isSpace x = false := by
  rw [noSpace_iff] at h
  cases c with
  | none => simp [punctOrSpace] at h
  | some x =>
    simp only [punctOrSpace, Bool.or_eq_true, not_or, Bool.not_eq_true] at h
    exact ⟨x, rfl, h.1, h.2⟩

theorem piece_head {prev next : Option Rune} {c : Rune} (h : (japanesePiece prev c next).head? = some 0x20)
    (hc : japanese.lookup c ≠ none) : ∃ x, prev = some x ∧ isPunct x = false ∧ isSpace x = false := by
  unfold japanesePiece at h
  by_cases hz : c = zwsp
  · simp [hz] at h
  · rw [if_neg hz] at h
    cases hl : japanese.lookup c with
    | none => exact absurd hl hc
    | some p =>
      obtain ⟨l, x, r⟩ := p
      rw [hl] at h
      simp only at h
      have hx : x ≠ 0x20 := by
        rintro rfl
        have := (japanese_lookup hl).2.1
        revert this
        decide +kernel
      by_cases hn : NoSpace prev
      · simp [hn, space] at h; exact absurd h hx
      · exact noSpace_not hn

theorem piece_last {prev next : Option Rune} {c : Rune} (h : (japanesePiece prev c next).getLast? = some 0x20)
    (hc : japanese.lookup c ≠ none) : ∃ x, next = some x ∧ isPunct x = false ∧ isSpace x = false := by
  unfold japanesePiece at h
  by_cases hz : c = zwsp
  · simp [hz] at h
  · rw [if_neg hz] at h
    cases hl : japanese.lookup c with
    | none => exact absurd hl hc
    | some p =>
      obtain ⟨l, x, r⟩ := p
      rw [hl] at h
      simp only at h
      have hx : x ≠ 0x20 := by
        rintro rfl
        have := (japanese_lookup hl).2.1
        revert this
        decide +kernel
      by_cases hn : NoSpace next
      · simp [hn, space] at h; exact absurd h hx
      · exact noSpace_not hn

end Verif
