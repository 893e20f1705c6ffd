import Verif.Spec.Search

/-! # Typing Hangul, letter by letter -/

namespace Verif.Search

open Verif.Js Verif.Spec.Search

/-! ## Tables -/

theorem cho_eq : cho = consonant := by decide +kernel

theorem letters_consonant : ∀ c < 19, letters (consonant.getD c 0) = [consonant.getD c 0] := by decide +kernel

theorem letters_vowel : ∀ v < 21, letters (0x314F + v) = jung.getD v [] := by decide +kernel

theorem letters_final : ∀ k < 28, k ≠ 0 → letters (final.getD k 0) = jong.getD k [] := by decide +kernel

theorem vowel_key : ∀ v ∈ vowelKeys, v < 21 ∧ jung.getD v [] = [0x314F + v] := by decide +kernel

theorem joined_finals {k c k' : Nat} (hk : k < 28) (hc : c < 19) (h : joinFinals k c = some k') :
    k' < 28 ∧ k' ≠ 0 ∧ k ≠ 0 ∧ jong.getD k' [] = jong.getD k [] ++ [consonant.getD c 0] ∧ splitFinal k' = (k, c) := by
  have key : ∀ k < 28, ∀ c < 19, ∀ k' ∈ joinFinals k c, k' < 28 ∧ k' ≠ 0 ∧ k ≠ 0 ∧
      jong.getD k' [] = jong.getD k [] ++ [consonant.getD c 0] ∧ splitFinal k' = (k, c) := by decide +kernel
  exact key k hk c hc k' h

theorem final_of {c k : Nat} (hc : c < 19) (h : finalOf c = some k) :
    k < 28 ∧ k ≠ 0 ∧ jong.getD k [] = [consonant.getD c 0] ∧ splitFinal k = (0, c) ∧ final.getD k 0 = consonant.getD c 0 := by
  have key : ∀ c < 19, ∀ k ∈ finalOf c, k < 28 ∧ k ≠ 0 ∧ jong.getD k [] = [consonant.getD c 0] ∧ splitFinal k = (0, c) ∧
      final.getD k 0 = consonant.getD c 0 := by decide +kernel
  exact key c hc k h

theorem joined_vowels {v w x : Nat} (hv : v < 21) (hw : w ∈ vowelKeys) (h : joinVowels v w = some x) :
    x < 21 ∧ jung.getD x [] = jung.getD v [] ++ [0x314F + w] := by
  have key : ∀ v < 21, ∀ w ∈ vowelKeys, ∀ x ∈ joinVowels v w, x < 21 ∧ jung.getD x [] = jung.getD v [] ++ [0x314F + w] := by decide +kernel
  exact key v hv w hw x h

theorem split_final : ∀ k < 28, k ≠ 0 → (splitFinal k).1 < 28 ∧ (splitFinal k).2 < 19 ∧
    jong.getD k [] = jong.getD (splitFinal k).1 [] ++ [consonant.getD (splitFinal k).2 0] := by decide +kernel

theorem letters_syllable {c v k : Nat} (hc : c < 19) (hv : v < 21) (hk : k < 28) :
    letters (syllable c v k) = consonant.getD c 0 :: jung.getD v [] ++ jong.getD k [] := by
  have e : 0xAC00 ≤ syllable c v k ∧ syllable c v k ≤ 0xD7A3 := by unfold syllable; omega
  have e1 : (syllable c v k - 0xAC00) / 28 / 21 = c := by unfold syllable; omega
  have e2 : (syllable c v k - 0xAC00) / 28 % 21 = v := by unfold syllable; omega
  have e3 : (syllable c v k - 0xAC00) % 28 = k := by unfold syllable; omega
  simp only [letters, if_pos e, e1, e2, e3, cho_eq]

theorem letters_plain {u : Nat} (h : unhangul u) : letters u = [u] := by
  have t : ∀ x ∈ cho ++ completeJong ++ completeJung, 0x3131 ≤ x ∧ x ≤ 0x3163 := by decide +kernel
  have n : ∀ l : List Nat, (∀ x ∈ l, x ∈ cho ++ completeJong ++ completeJung) → u ∉ l := fun l hl hu => h.1 (t _ (hl _ hu))
  unfold letters
  rw [if_neg h.2, if_neg (n cho (by simp +contextual)), if_neg (n completeJong (by simp +contextual)),
    if_neg (n completeJung (by simp +contextual))]

/-! ## Pressing keys -/

/-- Something which can be composed. -/
def Sound : Part → Prop
  | .none => True
  | .consonant c => c < 19
  | .pair k => k < 28 ∧ k ≠ 0 ∧ (splitFinal k).1 ≠ 0
  | .vowel v => v < 21
  | .open c v => c < 19 ∧ v < 21
  | .closed c v k => c < 19 ∧ v < 21 ∧ k < 28 ∧ k ≠ 0

theorem disassemble_append (a b : Str) : disassemble (a ++ b) = disassemble a ++ disassemble b := by
  simp [disassemble, grouped]

theorem disassemble_one (u : Nat) : disassemble [u] = letters u := by simp [disassemble, grouped]

theorem jong_zero : jong.getD 0 [] = [] := by decide +kernel

/-- Each key adds its letter. -/
theorem press (joins : Bool) {i : Input} (hi : Sound i.part) {key : Key} (hk : key.Real) :
    Sound (i.press joins key).part ∧ disassemble (i.press joins key).text = disassemble i.text ++ [key.letter] := by
  obtain ⟨done, part⟩ := i
  have fresh : ∀ {c}, c < 19 → Sound (Input.next ⟨done, part⟩ (.consonant c)).part ∧
      disassemble (Input.next ⟨done, part⟩ (.consonant c)).text = disassemble (Input.text ⟨done, part⟩) ++ [consonant.getD c 0] := by
    intro c hc
    refine ⟨hc, ?_⟩
    show disassemble (Input.text ⟨done, part⟩ ++ [consonant.getD c 0]) = _
    rw [disassemble_append, disassemble_one, letters_consonant c hc]
  have freshV : ∀ {v}, v ∈ vowelKeys → Sound (Input.next ⟨done, part⟩ (.vowel v)).part ∧
      disassemble (Input.next ⟨done, part⟩ (.vowel v)).text = disassemble (Input.text ⟨done, part⟩) ++ [0x314F + v] := by
    intro v hv
    obtain ⟨h1, h2⟩ := vowel_key v hv
    refine ⟨h1, ?_⟩
    show disassemble (Input.text ⟨done, part⟩ ++ [0x314F + v]) = _
    rw [disassemble_append, disassemble_one, letters_vowel v h1, h2]
  cases key with
  | consonant c =>
    have hc : c < 19 := hk
    cases part with
    | none => exact fresh hc
    | pair k => exact fresh hc
    | vowel v => exact fresh hc
    | consonant b =>
      simp only [Input.press, Key.letter]
      split
      next k e =>
        obtain ⟨k0, e1, e2⟩ := Option.bind_eq_some_iff.1 e
        have e1 : finalOf b = some k0 := by
          cases joins
          · simp at e1
          · simpa using e1
        obtain ⟨f1, f2, f3, _⟩ := final_of hi e1
        obtain ⟨j1, j2, j3, j4, j5⟩ := joined_finals f1 hc e2
        refine ⟨⟨j1, j2, by rw [j5]; exact j3⟩, ?_⟩
        simp only [Input.text, Part.text]
        rw [disassemble_append, disassemble_append, disassemble_one, disassemble_one, letters_final k j1 j2, j4, f3,
          letters_consonant b hi, List.append_assoc]
      next => exact fresh hc
    | «open» b v =>
      simp only [Input.press, Key.letter]
      split
      next k e =>
        obtain ⟨f1, f2, f3, _⟩ := final_of hc e
        refine ⟨⟨hi.1, hi.2, f1, f2⟩, ?_⟩
        simp only [Input.text, Part.text]
        rw [disassemble_append, disassemble_append, disassemble_one, disassemble_one, letters_syllable hi.1 hi.2 f1,
          letters_syllable hi.1 hi.2 (by omega), f3, jong_zero]
        simp
      next => exact fresh hc
    | closed b v k =>
      simp only [Input.press, Key.letter]
      split
      next k' e =>
        obtain ⟨j1, j2, _, j4, _⟩ := joined_finals hi.2.2.1 hc e
        refine ⟨⟨hi.1, hi.2.1, j1, j2⟩, ?_⟩
        simp only [Input.text, Part.text]
        rw [disassemble_append, disassemble_append, disassemble_one, disassemble_one, letters_syllable hi.1 hi.2.1 j1,
          letters_syllable hi.1 hi.2.1 hi.2.2.1, j4]
        simp
      next => exact fresh hc
  | vowel v =>
    have hv : v ∈ vowelKeys := hk
    obtain ⟨v1, v2⟩ := vowel_key v hv
    cases part with
    | none => exact freshV hv
    | consonant c =>
      refine ⟨⟨hi, v1⟩, ?_⟩
      simp only [Input.press, Key.letter, Input.text, Part.text]
      rw [disassemble_append, disassemble_append, disassemble_one, disassemble_one, letters_syllable hi v1 (by omega), v2, jong_zero,
        letters_consonant c hi]
      simp
    | pair k =>
      obtain ⟨s1, s2, s3⟩ := split_final k hi.1 hi.2.1
      refine ⟨⟨s2, v1⟩, ?_⟩
      simp only [Input.press, Key.letter, Input.text, Part.text]
      simp only [disassemble_append, disassemble_one, letters_final _ s1 hi.2.2, letters_final k hi.1 hi.2.1,
        letters_syllable s2 v1 (show 0 < 28 by omega), v2, jong_zero, s3]
      simp
    | vowel w =>
      simp only [Input.press, Key.letter]
      split
      next x e =>
        obtain ⟨x1, x2⟩ := joined_vowels hi hv e
        refine ⟨x1, ?_⟩
        simp only [Input.text, Part.text]
        rw [disassemble_append, disassemble_append, disassemble_one, disassemble_one, letters_vowel x x1, x2, letters_vowel w hi,
          List.append_assoc]
      next => exact freshV hv
    | «open» c w =>
      simp only [Input.press, Key.letter]
      split
      next x e =>
        obtain ⟨x1, x2⟩ := joined_vowels hi.2 hv e
        refine ⟨⟨hi.1, x1⟩, ?_⟩
        simp only [Input.text, Part.text]
        rw [disassemble_append, disassemble_append, disassemble_one, disassemble_one, letters_syllable hi.1 x1 (by omega), x2,
          letters_syllable hi.1 hi.2 (by omega), jong_zero]
        simp
      next => exact freshV hv
    | closed c w k =>
      obtain ⟨s1, s2, s3⟩ := split_final k hi.2.2.1 hi.2.2.2
      refine ⟨⟨s2, v1⟩, ?_⟩
      simp only [Input.press, Key.letter, Input.text, Part.text]
      simp only [disassemble_append, disassemble_one, letters_syllable hi.1 hi.2.1 s1, letters_syllable hi.1 hi.2.1 hi.2.2.1,
        letters_syllable s2 v1 (show 0 < 28 by omega), v2, jong_zero, s3]
      simp
  | other u =>
    refine ⟨trivial, ?_⟩
    show disassemble (Input.text ⟨done, part⟩ ++ [u] ++ []) = _
    rw [List.append_nil, disassemble_append, disassemble_one, letters_plain hk]
    rfl

theorem press_all (joins : Bool) : ∀ {keys : List Key} {i : Input}, Sound i.part → (∀ k ∈ keys, k.Real) →
    Sound (keys.foldl (Input.press joins) i).part ∧
    disassemble (keys.foldl (Input.press joins) i).text = disassemble i.text ++ keys.map Key.letter
  | [], _, hi, _ => ⟨hi, by simp⟩
  | k :: keys, i, hi, hk => by
    obtain ⟨h1, h2⟩ := press joins hi (hk k (by simp))
    obtain ⟨h3, h4⟩ := press_all joins h1 fun k hk' => hk k (List.mem_cons_of_mem _ hk')
    exact ⟨h3, by rw [List.foldl_cons, h4, h2]; simp⟩

/-- The letters of what was typed are those of the keys. -/
theorem letters_composed (joins : Bool) {keys : List Key} (hk : ∀ k ∈ keys, k.Real) :
    disassemble (composed joins keys) = keys.map Key.letter := by
  have := (press_all joins (i := ⟨[], .none⟩) trivial hk).2
  simpa [composed, Input.text, Part.text, disassemble, grouped] using this

/-! ## Names -/

/-- The keys for a vowel. -/
def vowelStrokes (v : Nat) : List Key := (jung.getD v []).map fun u => .vowel (u - 0x314F)

/-- The keys for a final consonant. -/
def finalStrokes (k : Nat) : List Key := (jong.getD k []).map fun u => .consonant (consonant.idxOf u)

/-- The keys for a unit of a name. -/
def strokes (u : Nat) : List Key :=
  if 0xAC00 ≤ u ∧ u ≤ 0xD7A3 then
    .consonant ((u - 0xAC00) / 588) :: vowelStrokes ((u - 0xAC00) / 28 % 21) ++ finalStrokes ((u - 0xAC00) % 28)
  else [.other u]

/-- What is composed is complete. -/
def Complete : Part → Prop
  | .none => True
  | .open c v => c < 19 ∧ v < 21
  | .closed c v k => c < 19 ∧ v < 21 ∧ k < 28 ∧ k ≠ 0
  | _ => False

theorem vowel_strokes : ∀ v < 21, (∃ w ∈ vowelKeys, vowelStrokes v = [.vowel w] ∧ v = w) ∨
    ∃ w x, w ∈ vowelKeys ∧ x ∈ vowelKeys ∧ vowelStrokes v = [.vowel w, .vowel x] ∧ joinVowels w x = some v := by
  intro v hv
  have key : ∀ v < 21, (jung.getD v [] = [0x314F + v] ∧ v ∈ vowelKeys) ∨
      ∃ w ∈ vowelKeys, ∃ x ∈ vowelKeys, jung.getD v [] = [0x314F + w, 0x314F + x] ∧ joinVowels w x = some v := by decide +kernel
  rcases key v hv with ⟨h1, h2⟩ | ⟨w, hw, x, hx, h1, h2⟩
  · exact .inl ⟨v, h2, by simp only [vowelStrokes, h1, List.map_cons, List.map_nil, Nat.add_sub_cancel_left], rfl⟩
  · exact .inr ⟨w, x, hw, hx, by simp only [vowelStrokes, h1, List.map_cons, List.map_nil, Nat.add_sub_cancel_left], h2⟩

theorem final_strokes : ∀ k < 28, (k = 0 ∧ finalStrokes k = []) ∨ (∃ c < 19, finalStrokes k = [.consonant c] ∧ finalOf c = some k) ∨
    ∃ b < 19, ∃ c < 19, ∃ j, finalStrokes k = [.consonant b, .consonant c] ∧ finalOf b = some j ∧ joinFinals j c = some k := by
  intro k hk
  have key : ∀ k < 28, (k = 0 ∧ jong.getD k [] = []) ∨ (∃ c < 19, jong.getD k [] = [consonant.getD c 0] ∧ finalOf c = some k) ∨
      ∃ b < 19, ∃ c < 19, jong.getD k [] = [consonant.getD b 0, consonant.getD c 0] ∧ ∃ j ∈ finalOf b, joinFinals j c = some k := by
    decide +kernel
  have ix : ∀ c < 19, consonant.idxOf (consonant.getD c 0) = c := by decide +kernel
  rcases key k hk with ⟨h1, h2⟩ | ⟨c, hc, h1, h2⟩ | ⟨b, hb, c, hc, h1, j, hj, h2⟩
  · exact .inl ⟨h1, by simp only [finalStrokes, h2, List.map_nil]⟩
  · exact .inr (.inl ⟨c, hc, by simp only [finalStrokes, h1, List.map_cons, List.map_nil, ix c hc], h2⟩)
  · exact .inr (.inr ⟨b, hb, c, hc, j, by simp only [finalStrokes, h1, List.map_cons, List.map_nil, ix c hc, ix b hb], hj, h2⟩)

/-- The beginning of a syllable ends the one before. -/
theorem press_begin (joins : Bool) {i : Input} (hi : Complete i.part) {c v : Nat} (hc : c < 19) :
    (i.press joins (.consonant c)).press joins (.vowel v) = ⟨i.text, .open c v⟩ := by
  obtain ⟨done, part⟩ := i
  cases part with
  | none => rfl
  | consonant b => exact hi.elim
  | pair k => exact hi.elim
  | vowel w => exact hi.elim
  | «open» b w =>
    simp only [Input.press]
    cases e : finalOf c with
    | none => rfl
    | some k =>
      obtain ⟨_, _, _, h, _⟩ := final_of hc e
      simp [h, Input.text, Part.text]
  | closed b w k =>
    simp only [Input.press]
    cases e : joinFinals k c with
    | none => rfl
    | some k' =>
      obtain ⟨_, _, _, _, h⟩ := joined_finals hi.2.2.1 hc e
      simp [h, Input.text, Part.text]

theorem unit_eq {u : Nat} (h : 0xAC00 ≤ u ∧ u ≤ 0xD7A3) : ∃ c v k, c < 19 ∧ v < 21 ∧ k < 28 ∧ u = syllable c v k := by
  refine ⟨(u - 0xAC00) / 588, (u - 0xAC00) / 28 % 21, (u - 0xAC00) % 28, ?_, ?_, ?_, ?_⟩
  · omega
  · omega
  · omega
  · unfold syllable
    omega

theorem syllable_range {c v k : Nat} (hc : c < 19) (hv : v < 21) (hk : k < 28) : 0xAC00 ≤ syllable c v k ∧ syllable c v k ≤ 0xD7A3 := by
  unfold syllable
  omega

theorem strokes_syllable {c v k : Nat} (hc : c < 19) (hv : v < 21) (hk : k < 28) :
    strokes (syllable c v k) = .consonant c :: vowelStrokes v ++ finalStrokes k ∧ initial (syllable c v k) = .consonant c := by
  have h := syllable_range hc hv hk
  have e1 : (syllable c v k - 0xAC00) / 588 = c := by unfold syllable; omega
  have e2 : (syllable c v k - 0xAC00) / 28 % 21 = v := by unfold syllable; omega
  have e3 : (syllable c v k - 0xAC00) % 28 = k := by unfold syllable; omega
  unfold strokes initial
  rw [if_pos h, if_pos h, e1, e2, e3]
  exact ⟨rfl, rfl⟩

theorem strokes_plain {u : Nat} (h : unhangul u) : strokes u = [.other u] ∧ initial u = .other u := by
  unfold strokes initial
  rw [if_neg h.2, if_neg h.2]
  exact ⟨rfl, rfl⟩

/-- Every syllable, and every other unit, can be typed after any of them. -/
theorem press_unit (joins : Bool) {i : Input} (hi : Complete i.part) {u : Nat} (hu : 0xAC00 ≤ u ∧ u ≤ 0xD7A3 ∨ unhangul u) :
    Complete ((strokes u).foldl (Input.press joins) i).part ∧ ((strokes u).foldl (Input.press joins) i).text = i.text ++ [u] ∧
    ∀ k ∈ strokes u, k.Real := by
  rcases hu with h | h
  · obtain ⟨c, v, k, h1, h2, h3, rfl⟩ := unit_eq h
    rw [(strokes_syllable h1 h2 h3).1]
    -- with the vowel
    have hv : (vowelStrokes v).foldl (Input.press joins) (i.press joins (.consonant c)) = ⟨i.text, .open c v⟩ ∧ ∀ k ∈ vowelStrokes v, k.Real := by
      rcases vowel_strokes v h2 with ⟨w, hw, e1, rfl⟩ | ⟨w, x, hw, hx, e1, e2⟩
      · rw [e1]
        exact ⟨press_begin joins hi h1, by simpa [Key.Real] using hw⟩
      · rw [e1]
        refine ⟨?_, by simp [Key.Real, hw, hx]⟩
        simp only [List.foldl_cons, List.foldl_nil]
        rw [press_begin joins hi h1]
        simp [Input.press, e2]
    have hf : Complete ((finalStrokes k).foldl (Input.press joins) ⟨i.text, .open c v⟩).part ∧
        ((finalStrokes k).foldl (Input.press joins) ⟨i.text, .open c v⟩).text = i.text ++ [syllable c v k] ∧ ∀ k' ∈ finalStrokes k, k'.Real := by
      rcases final_strokes k h3 with ⟨rfl, e1⟩ | ⟨c', hc, e1, e2⟩ | ⟨b, hb, c', hc, j, e1, e2, e3⟩
      · rw [e1]
        exact ⟨⟨h1, h2⟩, rfl, by simp⟩
      · rw [e1]
        obtain ⟨_, f2, _⟩ := final_of hc e2
        simp only [List.foldl_cons, List.foldl_nil, Input.press, e2]
        exact ⟨⟨h1, h2, h3, f2⟩, rfl, by simpa [Key.Real] using hc⟩
      · rw [e1]
        obtain ⟨f1, f2, _⟩ := final_of hb e2
        obtain ⟨_, j2, _⟩ := joined_finals f1 hc e3
        simp only [List.foldl_cons, List.foldl_nil, Input.press, e2, e3]
        exact ⟨⟨h1, h2, h3, j2⟩, rfl, by simp [Key.Real, hb, hc]⟩
    rw [List.cons_append, List.foldl_cons, List.foldl_append, hv.1]
    refine ⟨hf.1, hf.2.1, ?_⟩
    intro k' hk
    rcases List.mem_cons.1 hk with rfl | hk
    · exact h1
    · rcases List.mem_append.1 hk with hk | hk
      · exact hv.2 k' hk
      · exact hf.2.2 k' hk
  · rw [(strokes_plain h).1]
    exact ⟨trivial, by simp [Input.press, Input.text, Part.text], by simpa [Key.Real] using h⟩

theorem press_name (joins : Bool) : ∀ {name : Str} {i : Input}, Complete i.part → Written name →
    Complete ((name.flatMap strokes).foldl (Input.press joins) i).part ∧
    ((name.flatMap strokes).foldl (Input.press joins) i).text = i.text ++ name ∧ ∀ k ∈ name.flatMap strokes, k.Real
  | [], _, hi, _ => ⟨hi, by simp, by simp⟩
  | u :: name, i, hi, hn => by
    obtain ⟨h1, h2, h3⟩ := press_unit joins hi (hn u (by simp))
    obtain ⟨h4, h5, h6⟩ := press_name joins h1 fun u hu => hn u (List.mem_cons_of_mem _ hu)
    rw [List.flatMap_cons, List.foldl_append]
    refine ⟨h4, by rw [h5, h2]; simp, fun k hk => ?_⟩
    rcases List.mem_append.1 hk with hk | hk
    · exact h3 k hk
    · exact h6 k hk

/-- Every name of syllables and other text can be typed. -/
theorem name_composed (joins : Bool) {name : Str} (hn : Written name) : ∃ keys, (∀ k ∈ keys, k.Real) ∧ composed joins keys = name := by
  obtain ⟨_, h2, h3⟩ := press_name joins (i := ⟨[], .none⟩) trivial hn
  exact ⟨_, h3, by simpa [composed, Input.text, Part.text] using h2⟩

/-- The first letters. -/
theorem initials {name : Str} (hn : Written name) : (grouped name).filterMap List.head? = name.map fun u => (initial u).letter := by
  induction name with
  | nil => rfl
  | cons u name ih =>
    have ih := ih fun u hu => hn u (by simp [hu])
    have e : (letters u).head? = some (initial u).letter := by
      rcases hn u (by simp) with h | h
      · obtain ⟨c, v, k, h1, h2, h3, rfl⟩ := unit_eq h
        rw [(strokes_syllable h1 h2 h3).2, letters_syllable h1 h2 h3]
        rfl
      · rw [(strokes_plain h).2, letters_plain h]
        rfl
    simp only [grouped, List.map_cons, List.filterMap_cons, e] at ih ⊢
    rw [ih]

theorem initial_real {name : Str} (hn : Written name) : ∀ u ∈ name, (initial u).Real := by
  intro u hu
  rcases hn u hu with h | h
  · obtain ⟨c, v, k, h1, h2, h3, rfl⟩ := unit_eq h
    rw [(strokes_syllable h1 h2 h3).2]
    exact h1
  · rw [(strokes_plain h).2]
    exact h

/-! ## The component -/

/-- After the effects the options are those of the specs. -/
def Inv (s : Select) : Prop := s.due = false → s.next = options s.specs ∧ s.fuse = some s.shown

theorem Inv.steps : ∀ {es : List Event} {s t : Select}, Inv s → s.steps es = some t → Inv t
  | [], s, t, hs, h => by
    simp only [Select.steps, Option.some.injEq] at h
    exact h ▸ hs
  | e :: es, s, t, hs, h => by
    simp only [Select.steps] at h
    obtain ⟨r, h1, h2⟩ := Option.bind_eq_some_iff.1 h
    refine Inv.steps ?_ h2
    cases e with
    | render specs =>
      simp only [Select.step] at h1
      split at h1
      · simp at h1
      · cases h1
        intro hd
        simp at hd
    | effects =>
      simp only [Select.step] at h1
      split at h1
      · cases h1
        intro _
        exact ⟨rfl, rfl⟩
      · simp at h1

theorem ready {specs : List Lang} {es : List Event} {s : Select} (h : (Select.init specs).steps es = some s) (hr : Ready s) :
    s.fuse = some (options s.specs) := by
  have := Inv.steps (s := Select.init specs) (fun hd => by simp [Select.init] at hd) h hr.1
  rw [this.2, hr.2, this.1]

end Verif.Search
