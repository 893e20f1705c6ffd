import Verif.Go.RegexpParse
import Verif.Proofs.Regexp

/-!
# Lemmas about the regular expression parser: parsing is compositional
-/

namespace Verif.Rx

/-! ## Splitting into tokens -/

/-- A rune that never continues a token: `(`, `)` or `|`. -/
def Sep (d : Rune) : Prop := d = 0x28 ∨ d = 0x29 ∨ d = 0x7C

theorem takeWhile_append_stop {α : Type} {p : α → Bool} {d : α} (h : p d = false) (t x : List α) :
    (t ++ d :: x).takeWhile p = t.takeWhile p := by
  induction t with
  | nil => simp [h]
  | cons a t ih => simp [List.takeWhile_cons, ih]

theorem takeWhile_length_le {α : Type} (p : α → Bool) (t : List α) : (t.takeWhile p).length ≤ t.length :=
  (List.takeWhile_sublist p).length_le

theorem lexInt_append {d : Rune} (hd : Sep d) (t x : List Rune) : lexInt (t ++ d :: x) = lexInt t := by
  unfold lexInt
  rw [takeWhile_append_stop]
  rcases hd with rfl | rfl | rfl <;> decide

theorem lexInt_le {t : List Rune} {v n : Nat} (h : lexInt t = some (v, n)) : n ≤ t.length := by
  unfold lexInt at h
  simp only at h
  split at h
  · simp at h
  · simp only [Option.some.injEq, Prod.mk.injEq] at h
    have := takeWhile_length_le (fun c : Nat => 0x30 ≤ c && c ≤ 0x39) t
    omega

theorem drop_append_le {α : Type} {t x : List α} {n : Nat} (h : n ≤ t.length) :
    (t ++ x).drop n = t.drop n ++ x := by
  rw [List.drop_append_of_le_length h]

theorem drop_head_lt {t : List Rune} {a : Rune} {n : Nat} (h : (t.drop n).head? = some a) :
    n < t.length := by
  rcases Nat.lt_or_ge n t.length with h' | h'
  · exact h'
  · rw [List.drop_eq_nil_of_le h'] at h; simp at h

theorem Sep.ne {d : Rune} (hd : Sep d) : d ≠ 0x7D ∧ d ≠ 0x2C ∧ d ≠ 0x3F := by
  rcases hd with rfl | rfl | rfl <;> decide

/-- The first rune after some of a text: a separator behind the text does not matter if it is not the
rune looked for. -/
theorem head_drop_append {t x : List Rune} {n : Nat} {d c : Rune} (hn : n ≤ t.length) (hd : d ≠ c) :
    ((t ++ d :: x).drop n).head? = some c ↔ (t.drop n).head? = some c := by
  rw [drop_append_le hn]
  cases t.drop n with
  | nil => simp [hd]
  | cons a u => simp

theorem lexRepeat_append {d : Rune} (hd : Sep d) (t x : List Rune) :
    lexRepeat (t ++ d :: x) = lexRepeat t := by
  obtain ⟨d1, d2, d3⟩ := hd.ne
  unfold lexRepeat
  rw [lexInt_append hd]
  cases h : lexInt t with
  | none => rfl
  | some v =>
    obtain ⟨mn, n⟩ := v
    have hn := lexInt_le h
    simp only [head_drop_append hn d1, head_drop_append hn d2]
    split
    · rfl
    · split
      · rename_i hc
        have hlt := drop_head_lt hc
        rw [drop_append_le (by omega : n + 1 ≤ t.length), lexInt_append hd]
        have e0 := head_drop_append (t := t.drop (n + 1)) (x := x) (n := 0) (by omega) d1
        simp only [List.drop_zero] at e0
        simp only [e0]
        split
        · rfl
        · cases h4 : lexInt (t.drop (n + 1)) with
          | none => rfl
          | some y =>
            obtain ⟨mx, k⟩ := y
            simp only [head_drop_append (lexInt_le h4) d1]
      · rfl

theorem lexRepeat_le {t : List Rune} {mn n : Nat} {mx : Option Nat} (h : lexRepeat t = some (mn, mx, n)) :
    n ≤ t.length := by
  unfold lexRepeat at h
  split at h
  · simp at h
  · simp only at h
    split at h
    · rename_i hu
      have := drop_head_lt hu
      simp at h; omega
    · split at h
      · rename_i hu
        have := drop_head_lt hu
        split at h
        · rename_i hv
          have := drop_head_lt (n := 0) hv
          simp at h this; omega
        · split at h
          · simp at h
          · split at h
            · rename_i hv
              have := drop_head_lt hv
              simp at h this; omega
            · simp at h
      · simp at h

theorem lazyMark_append {d : Rune} (hd : Sep d) (t x : List Rune) :
    lazyMark (t ++ d :: x) = lazyMark t := by
  cases t with
  | nil => rcases hd with rfl | rfl | rfl <;> rfl
  | cons a t => rfl

theorem lazyMark_le (t : List Rune) : (lazyMark t).toNat ≤ t.length := by
  cases t with
  | nil => simp [lazyMark]
  | cons a t =>
    have : (lazyMark (a :: t)).toNat ≤ 1 := Bool.toNat_le _
    simp; omega

theorem go_bind_ok {α β : Type} {x : Go α} {f : α → Go β} {b : β} :
    x.bind f = .ok b ↔ ∃ a, x = .ok a ∧ f a = .ok b := by
  cases x <;> simp [Go.bind]

theorem lexName_append {t : List Rune} {n : Nat} (h : lexName t = .ok n) (x : List Rune) :
    n ≤ t.length ∧ lexName (t ++ x) = .ok n := by
  unfold lexName at h ⊢
  simp only at h ⊢
  split at h
  · simp at h
  · rename_i hc
    simp only [Bool.or_eq_true, not_or] at hc
    simp only [Go.ok.injEq] at h
    have hl : (t.takeWhile (· != 0x3E)).length < t.length := by
      have := takeWhile_length_le (· != 0x3E) t
      simp only [decide_eq_true_eq] at hc
      omega
    have : (t ++ x).takeWhile (· != 0x3E) = t.takeWhile (· != 0x3E) := by
      rw [List.takeWhile_append]
      rw [if_neg (by omega)]
    rw [this]
    refine ⟨by omega, ?_⟩
    rw [if_neg, h]
    simp only [Bool.or_eq_true, not_or]
    refine ⟨hc.1, ?_⟩
    simp only [List.length_append, decide_eq_true_eq]
    omega

theorem classChar_append {s : List Rune} {r : Rune} {n : Nat} (h : classChar s = .ok (r, n)) (x : List Rune) :
    1 ≤ n ∧ n ≤ s.length ∧ classChar (s ++ x) = .ok (r, n) := by
  cases s with
  | nil => simp [classChar] at h
  | cons c t =>
    simp only [classChar] at h
    split at h
    · rename_i hc
      subst hc
      cases t with
      | nil => simp at h
      | cons d t =>
        simp only [go_bind_ok] at h
        obtain ⟨a, h1, h2⟩ := h
        simp only [Go.ok.injEq, Prod.mk.injEq] at h2
        simp [classChar, h1, Go.bind, h2]
        omega
    · rename_i hc
      simp only [Go.ok.injEq, Prod.mk.injEq] at h
      simp [classChar, h]
      omega

theorem startsPosix_append {s : List Rune} (h : startsPosix s = false) (hl : 2 ≤ s.length)
    (hne : s ≠ [0x5B, 0x3A]) (x : List Rune) : startsPosix (s ++ x) = false := by
  match s, h, hl, hne with
  | [a, b], _, _, hne =>
    cases x with
    | nil => rfl
    | cons c x =>
      simp only [List.cons_append, List.nil_append, startsPosix]
      simp at hne
      by_cases h1 : a = 0x5B
      · simp [hne h1]
      · simp [h1]
  | a :: b :: c :: t, h, _, _ => simpa [startsPosix] using h

theorem perlItem_append {s : List Rune} (hl : 2 ≤ s.length) (x : List Rune) :
    perlItem (s ++ x) = perlItem s := by
  match s, hl with
  | a :: b :: t, _ => rfl

theorem rangeItem_append {lo n m : Nat} {u : List Rune} {rs : List (Nat × Nat)}
    (h : rangeItem lo n u = .ok (rs, m)) :
    n ≤ m ∧ m ≤ n + u.length ∧
      (u ≠ [] → u ≠ [0x2D] → ∀ x, rangeItem lo n (u ++ x) = .ok (rs, m)) := by
  match u, h with
  | [], h => simp [rangeItem] at h; simp [h]
  | [a], h =>
    simp [rangeItem] at h
    refine ⟨by omega, by simp; omega, ?_⟩
    intro _ hne x
    simp at hne
    cases x with
    | nil => simp [rangeItem, h]
    | cons b x => simp [rangeItem, h, hne]
  | a :: b :: t, h =>
    simp only [rangeItem] at h
    split at h
    · rename_i hc
      simp only [go_bind_ok] at h
      obtain ⟨⟨hi, k⟩, h1, h2⟩ := h
      obtain ⟨k1, k2, _⟩ := classChar_append h1 []
      simp only at h2
      split at h2
      · simp at h2
      · rename_i hlt
        simp only [Go.ok.injEq, Prod.mk.injEq] at h2
        obtain ⟨rfl, rfl⟩ := h2
        simp at k2
        refine ⟨by omega, by simp; omega, ?_⟩
        intro _ _ x
        obtain ⟨_, _, k3⟩ := classChar_append h1 x
        simp only [List.cons_append] at k3 ⊢
        simp only [rangeItem, if_pos hc, k3, Go.bind, hlt, if_false]
    · rename_i hc
      simp only [Go.ok.injEq, Prod.mk.injEq] at h
      obtain ⟨rfl, rfl⟩ := h
      refine ⟨by omega, by omega, ?_⟩
      intro _ _ x
      simp only [List.cons_append, rangeItem, hc, if_false]

theorem classItem_append {s : List Rune} {rs : List (Nat × Nat)} {n : Nat}
    (h : classItem s = .ok (rs, n)) :
    1 ≤ n ∧ n ≤ s.length ∧
      (n < s.length → s ≠ [0x5B, 0x3A] → (∀ k, s.drop k = [0x2D] → n ≠ k) →
        ∀ x, classItem (s ++ x) = .ok (rs, n)) := by
  unfold classItem at h
  split at h
  · simp at h
  · rename_i hposix
    simp only [Bool.not_eq_true] at hposix
    cases hp : perlItem s with
    | some g =>
      have hl : 2 ≤ s.length := by
        match s, hp with
        | a :: b :: t, _ => simp
      simp only [hp, go_bind_ok] at h
      obtain ⟨a, h1, h2⟩ := h
      simp only [Go.ok.injEq, Prod.mk.injEq] at h2
      obtain ⟨rfl, rfl⟩ := h2
      refine ⟨by omega, by omega, ?_⟩
      intro _ hne _ x
      simp only [classItem, startsPosix_append hposix hl hne x, perlItem_append hl, hp, h1, Go.bind]
      simp
    | none =>
      simp only [hp, go_bind_ok] at h
      obtain ⟨⟨lo, k⟩, h1, h2⟩ := h
      simp only at h2
      obtain ⟨k1, k2, k3⟩ := classChar_append h1 []
      obtain ⟨r1, r2, r3⟩ := rangeItem_append h2
      simp at r2
      refine ⟨by omega, by omega, ?_⟩
      intro hlt hne hdash x
      obtain ⟨_, _, k4⟩ := classChar_append h1 x
      have hl : 2 ≤ s.length := by omega
      simp only [classItem, startsPosix_append hposix hl hne x, perlItem_append hl, hp, k4, Go.bind,
        drop_append_le k2]
      rw [if_neg (by simp)]
      refine r3 ?_ ?_ x
      · intro h0
        have := congrArg List.length h0
        simp at this; omega
      · intro h0
        have hnk := hdash k h0
        rw [h0] at h2
        simp [rangeItem] at h2
        omega

theorem classItems_append : ∀ (k : Nat) (first : Bool) (s : List Rune) (rs : List (Nat × Nat)) (n : Nat),
    classItems k first s = .ok (rs, n) →
      k < n ∧ n ≤ s.length ∧ ∀ x, classItems k first (s ++ x) = .ok (rs, n)
  | _, _, [], rs, n, h => by simp [classItems] at h
  | k + 1, first, c :: t, rs, n, h => by
      simp only [classItems, go_bind_ok] at h
      obtain ⟨⟨rs', m⟩, h1, h2⟩ := h
      simp only [Go.ok.injEq, Prod.mk.injEq] at h2
      obtain ⟨rfl, rfl⟩ := h2
      obtain ⟨a1, a2, a3⟩ := classItems_append k first t rs' m h1
      refine ⟨by omega, by simp; omega, fun x => ?_⟩
      simp [classItems, a3 x, Go.bind]
  | 0, first, c :: t, rs, n, h => by
      simp only [classItems] at h
      split at h
      · rename_i hc
        simp only [Go.ok.injEq, Prod.mk.injEq] at h
        obtain ⟨rfl, rfl⟩ := h
        refine ⟨by omega, by simp, fun x => ?_⟩
        simp only [List.cons_append, classItems, hc, if_true]
      · rename_i hc
        simp only [go_bind_ok] at h
        obtain ⟨⟨r1, m1⟩, h1, ⟨r2, m2⟩, h2, h3⟩ := h
        simp only [Go.ok.injEq, Prod.mk.injEq] at h3
        obtain ⟨rfl, rfl⟩ := h3
        obtain ⟨b1, b2, b3⟩ := classItems_append (m1 - 1) false t r2 m2 h2
        obtain ⟨a1, a2, a3⟩ := classItem_append h1
        simp at a2
        refine ⟨by omega, by simp; omega, fun x => ?_⟩
        have hx : classItem ((c :: t) ++ x) = .ok (r1, m1) := by
          refine a3 (by simp; omega) ?_ ?_ x
          · rintro he
            simp at he
            obtain ⟨rfl, rfl⟩ := he
            have : m1 = 1 := by
              have : classItem [0x5B, 0x3A] = .ok ([(0x5B, 0x5B)], 1) := by rfl
              rw [this] at h1; simp at h1; omega
            subst this
            simp [classItems, classItem, startsPosix, perlItem, rangeItem, classChar, Go.bind] at h2
          · rintro k he rfl
            have e2 : t.drop (m1 - 1) = [0x2D] := by
              rw [← he, show m1 = (m1 - 1) + 1 by omega, List.drop_succ_cons]
              simp
            have : ∀ (k : Nat) (t : List Rune), t.drop k = [0x2D] → ∀ y, classItems k false t ≠ .ok y := by
              intro k
              induction k with
              | zero =>
                intro t ht y
                simp at ht; subst ht
                simp [classItems, classItem, startsPosix, perlItem, rangeItem, classChar, Go.bind]
              | succ k ih =>
                intro t ht y hy
                cases t with
                | nil => simp at ht
                | cons a t =>
                  simp at ht
                  simp only [classItems, go_bind_ok] at hy
                  obtain ⟨z, hz, _⟩ := hy
                  exact ih t ht z hz
            exact this _ _ e2 _ h2
        simp only [List.cons_append] at hx ⊢
        simp only [classItems, hc, hx, Go.bind, b3 x]
        rfl

theorem lexClass_append {s : List Rune} {tok : Tok} {n : Nat} (h : lexClass s = .ok (tok, n)) (x : List Rune) :
    n ≤ s.length ∧ lexClass (s ++ x) = .ok (tok, n) := by
  cases s with
  | nil => simp [lexClass, classItems, Go.bind] at h
  | cons c t =>
    unfold lexClass at h ⊢
    by_cases hc : (c :: t).head? = some 0x5E
    · have hc' : (c :: t ++ x).head? = some 0x5E := hc
      rw [if_pos hc] at h
      rw [if_pos hc']
      simp only [List.tail_cons, List.cons_append] at h ⊢
      simp only [go_bind_ok] at h
      obtain ⟨⟨rs, m⟩, h1, h2⟩ := h
      obtain ⟨a1, a2, a3⟩ := classItems_append _ _ _ _ _ h1
      simp only [Go.ok.injEq, Prod.mk.injEq] at h2
      obtain ⟨rfl, rfl⟩ := h2
      refine ⟨by simp; omega, ?_⟩
      simp [a3 x, Go.bind]
    · have hc' : ¬ (c :: t ++ x).head? = some 0x5E := hc
      rw [if_neg hc] at h
      rw [if_neg hc']
      simp only [go_bind_ok] at h
      obtain ⟨⟨rs, m⟩, h1, h2⟩ := h
      obtain ⟨a1, a2, a3⟩ := classItems_append _ _ _ _ _ h1
      simp only [Go.ok.injEq, Prod.mk.injEq] at h2
      obtain ⟨rfl, rfl⟩ := h2
      have := a3 x
      simp only [List.cons_append] at this
      refine ⟨a2, ?_⟩
      simp [this, Go.bind]

/-- A token is not affected by what follows a separator. -/
theorem lexOne_append {c d : Rune} {t : List Rune} {tok : Tok} {n : Nat} (hd : Sep d)
    (h : lexOne c t = .ok (tok, n)) (x : List Rune) :
    n ≤ t.length ∧ lexOne c (t ++ d :: x) = .ok (tok, n) := by
  unfold lexOne at h ⊢
  by_cases c1 : c = 0x28
  · rw [if_pos c1] at h ⊢
    have hh : (t ++ d :: x).head? = some 0x3F ↔ t.head? = some 0x3F := by
      simpa using head_drop_append (t := t) (x := x) (n := 0) (by omega) hd.ne.2.2
    have h2 : ∀ k (l : List Rune), l.head? = some 0x3F → l.length = k →
        (t.take k = l → (t ++ d :: x).take k = l) := by
      intro k l hl hk htk
      have : k ≤ t.length := by
        have := congrArg List.length htk
        simp at this; omega
      rw [List.take_append_of_le_length this, htk]
    split at h
    · rename_i h1
      simp at h; obtain ⟨rfl, rfl⟩ := h
      refine ⟨?_, by rw [if_pos (h2 2 _ rfl rfl h1)]⟩
      have := congrArg List.length h1
      simp at this; omega
    · rename_i h1
      split at h
      · rename_i h3
        have hl : 3 ≤ t.length := by
          have := congrArg List.length h3
          simp at this; omega
        simp only [go_bind_ok] at h
        obtain ⟨m, h4, h5⟩ := h
        obtain ⟨a1, a2⟩ := lexName_append h4 (d :: x)
        simp only [Go.ok.injEq, Prod.mk.injEq] at h5
        obtain ⟨rfl, rfl⟩ := h5
        simp at a1
        refine ⟨by omega, ?_⟩
        rw [if_neg, if_pos (h2 3 _ rfl rfl h3), drop_append_le hl, a2]
        · rfl
        · rw [List.take_append_of_le_length (by omega)]; exact h1
      · rename_i h3
        split at h
        · simp at h
        · rename_i h4
          simp at h; obtain ⟨rfl, rfl⟩ := h
          refine ⟨by omega, ?_⟩
          have hno : ∀ k (l : List Rune), l.head? = some 0x3F → k ≠ 0 → (t ++ d :: x).take k ≠ l := by
            intro k l hl hk he
            apply h4
            rw [← hh, ← hl, ← he]
            cases k with
            | zero => exact absurd rfl hk
            | succ k => cases h : t ++ d :: x <;> simp
          rw [if_neg (hno 2 _ rfl (by omega)), if_neg (hno 3 _ rfl (by omega)), if_neg (by rw [hh]; exact h4)]
  rw [if_neg c1] at h ⊢
  by_cases c2 : c = 0x29
  · rw [if_pos c2] at h ⊢; simp at h; obtain ⟨rfl, rfl⟩ := h; simp
  rw [if_neg c2] at h ⊢
  by_cases c3 : c = 0x7C
  · rw [if_pos c3] at h ⊢; simp at h; obtain ⟨rfl, rfl⟩ := h; simp
  rw [if_neg c3] at h ⊢
  by_cases c4 : c = 0x5E
  · rw [if_pos c4] at h ⊢; simp at h; obtain ⟨rfl, rfl⟩ := h; simp
  rw [if_neg c4] at h ⊢
  by_cases c5 : c = 0x24
  · rw [if_pos c5] at h ⊢; simp at h; obtain ⟨rfl, rfl⟩ := h; simp
  rw [if_neg c5] at h ⊢
  by_cases c6 : c = 0x2E
  · rw [if_pos c6] at h ⊢; simp at h; obtain ⟨rfl, rfl⟩ := h; simp
  rw [if_neg c6] at h ⊢
  have hl := lazyMark_le t
  by_cases c7 : c = 0x2A
  · rw [if_pos c7] at h ⊢; rw [lazyMark_append hd]; exact ⟨by simp at h; omega, h⟩
  rw [if_neg c7] at h ⊢
  by_cases c8 : c = 0x2B
  · rw [if_pos c8] at h ⊢; rw [lazyMark_append hd]; exact ⟨by simp at h; omega, h⟩
  rw [if_neg c8] at h ⊢
  by_cases c9 : c = 0x3F
  · rw [if_pos c9] at h ⊢; rw [lazyMark_append hd]; exact ⟨by simp at h; omega, h⟩
  rw [if_neg c9] at h ⊢
  by_cases c10 : c = 0x5B
  · rw [if_pos c10] at h ⊢; exact lexClass_append h _
  rw [if_neg c10] at h ⊢
  by_cases c11 : c = 0x7B
  · rw [if_pos c11] at h ⊢
    rw [lexRepeat_append hd]
    cases hr : lexRepeat t with
    | none => rw [hr] at h; simp at h; obtain ⟨rfl, rfl⟩ := h; simp
    | some y =>
      obtain ⟨mn, mx, m⟩ := y
      have hm := lexRepeat_le hr
      simp only [hr] at h ⊢
      rw [drop_append_le hm, lazyMark_append hd]
      refine ⟨?_, h⟩
      split at h
      · simp at h
      · have := lazyMark_le (t.drop m)
        simp at h this
        omega
  rw [if_neg c11] at h ⊢
  by_cases c12 : c = 0x5C
  · rw [if_pos c12] at h ⊢
    cases t with
    | nil => simp at h
    | cons e t =>
      simp only [go_bind_ok] at h
      obtain ⟨m, h1, h2⟩ := h
      simp only [Go.ok.injEq, Prod.mk.injEq] at h2
      obtain ⟨rfl, rfl⟩ := h2
      simp [h1, Go.bind]
  · rw [if_neg c12] at h ⊢; simp at h; obtain ⟨rfl, rfl⟩ := h; simp

/-- Splitting into tokens is compositional at separators. -/
theorem lexFrom_append {d : Rune} (hd : Sep d) (x : List Rune) :
    ∀ (k : Nat) (a : List Rune) (ts : List Tok), k ≤ a.length → lexFrom k a = .ok ts →
      lexFrom k (a ++ d :: x) = (lexFrom 0 (d :: x)).bind fun us => .ok (ts ++ us)
  | k, [], ts, hk, h => by
      simp at hk; subst hk
      simp [lexFrom] at h; subst h
      simp only [List.nil_append]
      cases lexFrom 0 (d :: x) <;> rfl
  | k + 1, c :: t, ts, hk, h => by
      simp only [lexFrom] at h
      simp at hk
      simpa [lexFrom] using lexFrom_append hd x k t ts hk h
  | 0, c :: t, ts, hk, h => by
      simp only [lexFrom, go_bind_ok] at h
      obtain ⟨⟨tok, n⟩, h1, us, h2, h3⟩ := h
      simp only [Go.ok.injEq] at h3
      subst h3
      obtain ⟨a1, a2⟩ := lexOne_append hd h1 x
      have := lexFrom_append hd x n t us a1 h2
      rw [List.cons_append, lexFrom, a2]
      simp only [Go.bind, this]
      cases lexFrom 0 (d :: x) <;> rfl

/-! ## Parsing inside a context -/

/-- A context for a parse: capture index, alternatives and items of the group it happens in, and the
enclosing groups. -/
structure Ext where
  c : Option Nat
  as : List Re
  xs : List Re
  S : List Frame

/-- The outermost group of a parse, placed in a context. -/
def Ext.bot (e : Ext) (f : Frame) : Frame := ⟨e.c, f.alts ++ e.as, f.cat ++ e.xs⟩

/-- The stack of a parse, placed in a context. -/
def Ext.stk (e : Ext) : List Frame → List Frame
  | [] => e.S
  | [f] => e.bot f :: e.S
  | f :: g :: t => f :: e.stk (g :: t)

/-- A parser state, placed in a context. -/
def Ext.lift (e : Ext) (st : PSt) : PSt :=
  ⟨match st.stack with | [] => e.bot st.cur | _ :: _ => st.cur, e.stk st.stack, st.ncap, st.lastRep⟩

theorem repeat_lift (e : Ext) {st st' : PSt} (f : Re → Re) (h : st.repeat f = .ok st') :
    (e.lift st).repeat f = .ok (e.lift st') := by
  obtain ⟨⟨c, as, cat⟩, stack, ncap, lr⟩ := st
  cases lr with
  | true => simp [PSt.repeat] at h
  | false =>
    cases cat with
    | nil => simp [PSt.repeat] at h
    | cons r rs =>
      simp only [PSt.repeat, Go.ok.injEq] at h; subst h
      cases stack <;> rfl

theorem pstep_lift (e : Ext) {st st' : PSt} {t : Tok} (h : pstep st t = .ok st')
    (hb : e.xs = [] ∨ ¬ (t = .bar ∧ st.stack = [])) : pstep (e.lift st) t = .ok (e.lift st') := by
  obtain ⟨cur, stack, ncap, lr⟩ := st
  cases t with
  | lit r =>
    simp only [pstep, PSt.push, Go.ok.injEq] at h; subst h
    cases stack <;> rfl
  | re r =>
    simp only [pstep, PSt.push, Go.ok.injEq] at h; subst h
    cases stack <;> rfl
  | «open» =>
    simp only [pstep, Go.ok.injEq] at h; subst h
    cases stack <;> rfl
  | openNC =>
    simp only [pstep, Go.ok.injEq] at h; subst h
    cases stack <;> rfl
  | bar =>
    simp only [pstep, Go.ok.injEq] at h; subst h
    cases stack with
    | nil =>
      rcases hb with hb | hb
      · simp [Ext.lift, Ext.bot, pstep, hb]
      · exact absurd ⟨rfl, rfl⟩ hb
    | cons f t => rfl
  | close =>
    cases stack with
    | nil => simp [pstep] at h
    | cons f t =>
      simp only [pstep, PSt.push, Go.ok.injEq] at h; subst h
      cases t <;> rfl
  | star g => exact repeat_lift e _ h
  | plus g => exact repeat_lift e _ h
  | quest g => exact repeat_lift e _ h
  | rep mn mx g => exact repeat_lift e _ h

/-- No `|` outside of all groups, starting inside `n` groups. -/
def barless : Nat → List Tok → Bool
  | _, [] => true
  | n, .open :: ts | n, .openNC :: ts => barless (n + 1) ts
  | n, .close :: ts => barless (n - 1) ts
  | n, .bar :: ts => n != 0 && barless n ts
  | n, _ :: ts => barless n ts

theorem repeat_stack {st st' : PSt} {f : Re → Re} (h : st.repeat f = .ok st') : st'.stack = st.stack := by
  unfold PSt.repeat at h
  split at h
  · simp at h; subst h; rfl
  · simp at h

/-- The rest of a `barless` list is `barless` after a token. -/
theorem pstep_barless {st st' : PSt} {t : Tok} (h : pstep st t = .ok st') {ts : List Tok}
    (hb : barless st.stack.length (t :: ts) = true) :
    ¬ (t = .bar ∧ st.stack = []) ∧ barless st'.stack.length ts = true := by
  cases t with
  | lit r => simp only [pstep, Go.ok.injEq] at h; subst h; exact ⟨by simp, hb⟩
  | re r => simp only [pstep, Go.ok.injEq] at h; subst h; exact ⟨by simp, hb⟩
  | «open» => simp only [pstep, Go.ok.injEq] at h; subst h; exact ⟨by simp, hb⟩
  | openNC => simp only [pstep, Go.ok.injEq] at h; subst h; exact ⟨by simp, hb⟩
  | bar =>
    simp only [pstep, Go.ok.injEq] at h; subst h
    simp only [barless, Bool.and_eq_true, bne_iff_ne] at hb
    refine ⟨fun h => ?_, hb.2⟩
    rw [h.2] at hb; simp at hb
  | close =>
    obtain ⟨cur, stack, ncap, lr⟩ := st
    cases stack with
    | nil => simp [pstep] at h
    | cons f t => simp only [pstep, Go.ok.injEq] at h; subst h; exact ⟨by simp, hb⟩
  | star g => rw [repeat_stack h]; exact ⟨by simp, hb⟩
  | plus g => rw [repeat_stack h]; exact ⟨by simp, hb⟩
  | quest g => rw [repeat_stack h]; exact ⟨by simp, hb⟩
  | rep mn mx g => rw [repeat_stack h]; exact ⟨by simp, hb⟩

/-- A parse happens the same way in a context. -/
theorem psteps_lift (e : Ext) {ts : List Tok} : ∀ {st st' : PSt}, psteps st ts = .ok st' →
    (e.xs = [] ∨ barless st.stack.length ts = true) → psteps (e.lift st) ts = .ok (e.lift st') := by
  induction ts with
  | nil => intro st st' h _; simp [psteps] at h ⊢; rw [h]
  | cons t ts ih =>
    intro st st' h hb
    simp only [psteps, go_bind_ok] at h ⊢
    obtain ⟨s1, h1, h2⟩ := h
    rcases hb with hb | hb
    · exact ⟨_, pstep_lift e h1 (.inl hb), ih h2 (.inl hb)⟩
    · obtain ⟨b1, b2⟩ := pstep_barless h1 hb
      exact ⟨_, pstep_lift e h1 (.inr b1), ih h2 (.inr b2)⟩

theorem psteps_append {a b : List Tok} {st : PSt} :
    psteps st (a ++ b) = (psteps st a).bind fun st' => psteps st' b := by
  induction a generalizing st with
  | nil => rfl
  | cons t a ih =>
    simp only [List.cons_append, psteps]
    cases h : pstep st t with
    | ok s => simp only [Go.bind, ih]
    | err e => rfl
    | panic => rfl
    | hang => rfl

/-! ## Renumbering groups -/

mutual
/-- Add `k` to all group numbers. -/
def shiftCap (k : Nat) : Re → Re
  | .cap i r => .cap (i + k) (shiftCap k r)
  | .star g r => .star g (shiftCap k r)
  | .plus g r => .plus g (shiftCap k r)
  | .quest g r => .quest g (shiftCap k r)
  | .rep mn mx g r => .rep mn mx g (shiftCap k r)
  | .cat rs => .cat (shiftCapList k rs)
  | .alt rs => .alt (shiftCapList k rs)
  | r => r
def shiftCapList (k : Nat) : List Re → List Re
  | [] => []
  | r :: rs => shiftCap k r :: shiftCapList k rs
end

theorem shiftCapList_eq (k : Nat) (rs : List Re) : shiftCapList k rs = rs.map (shiftCap k) := by
  induction rs with
  | nil => rfl
  | cons r rs ih => simp [shiftCapList, ih]

theorem shiftCap_mkCat (k : Nat) (rs : List Re) : shiftCap k (mkCat rs) = mkCat (rs.map (shiftCap k)) := by
  match rs with
  | [] => rfl
  | [r] => rfl
  | a :: b :: t => simp [mkCat, shiftCap, shiftCapList_eq]

theorem shiftCap_mkAlt (k : Nat) (rs : List Re) : shiftCap k (mkAlt rs) = mkAlt (rs.map (shiftCap k)) := by
  match rs with
  | [] => rfl
  | [r] => rfl
  | a :: b :: t => simp [mkAlt, shiftCap, shiftCapList_eq]

def Frame.shift (k : Nat) (f : Frame) : Frame :=
  ⟨f.cap.map (· + k), f.alts.map (shiftCap k), f.cat.map (shiftCap k)⟩

theorem Frame.body_shift (k : Nat) (f : Frame) : (f.shift k).body = shiftCap k f.body := by
  simp [Frame.body, Frame.shift, shiftCap_mkAlt, shiftCap_mkCat]

def PSt.shift (k : Nat) (st : PSt) : PSt :=
  ⟨st.cur.shift k, st.stack.map (Frame.shift k), st.ncap + k, st.lastRep⟩

/-- A token without groups in it. -/
def plainTok : Tok → Bool
  | .re r => match r with
    | .cls _ _ | .anyNotNL | .beginText | .endText | .wordB | .noWordB => true
    | _ => false
  | _ => true

theorem plainTok_shift {k : Nat} {r : Re} (h : plainTok (.re r) = true) : shiftCap k r = r := by
  cases r <;> first | rfl | simp [plainTok] at h

theorem repeat_shift {k : Nat} {st st' : PSt} {f : Re → Re} (hf : ∀ r, shiftCap k (f r) = f (shiftCap k r))
    (h : st.repeat f = .ok st') : (st.shift k).repeat f = .ok (st'.shift k) := by
  obtain ⟨⟨c, as, cat⟩, stack, ncap, lr⟩ := st
  cases lr with
  | true => simp [PSt.repeat] at h
  | false =>
    cases cat with
    | nil => simp [PSt.repeat] at h
    | cons r rs =>
      simp only [PSt.repeat, Go.ok.injEq] at h; subst h
      simp [PSt.repeat, PSt.shift, Frame.shift, hf]

theorem pstep_shift (k : Nat) {st st' : PSt} {t : Tok} (ht : plainTok t = true) (h : pstep st t = .ok st') :
    pstep (st.shift k) t = .ok (st'.shift k) := by
  cases t with
  | lit r => simp only [pstep, Go.ok.injEq] at h; subst h; rfl
  | re r =>
    simp only [pstep, Go.ok.injEq] at h; subst h
    simp [pstep, PSt.push, PSt.shift, Frame.shift, plainTok_shift ht]
  | «open» =>
    simp only [pstep, Go.ok.injEq] at h; subst h
    simp [pstep, PSt.shift, Frame.shift]; omega
  | openNC => simp only [pstep, Go.ok.injEq] at h; subst h; rfl
  | bar =>
    simp only [pstep, Go.ok.injEq] at h; subst h
    simp [pstep, PSt.shift, Frame.shift, shiftCap_mkCat]
  | close =>
    obtain ⟨cur, stack, ncap, lr⟩ := st
    cases stack with
    | nil => simp [pstep] at h
    | cons f t =>
      simp only [pstep, Go.ok.injEq] at h; subst h
      simp only [pstep, PSt.shift, PSt.push, List.map_cons, Frame.body_shift, Frame.close]
      obtain ⟨c, as, cat⟩ := cur
      cases c <;> simp [Frame.shift, shiftCap]
  | star g => exact repeat_shift (fun _ => rfl) h
  | plus g => exact repeat_shift (fun _ => rfl) h
  | quest g => exact repeat_shift (fun _ => rfl) h
  | rep mn mx g => exact repeat_shift (fun _ => rfl) h

theorem psteps_shift (k : Nat) {ts : List Tok} (ht : ∀ t ∈ ts, plainTok t = true) :
    ∀ {st st' : PSt}, psteps st ts = .ok st' → psteps (st.shift k) ts = .ok (st'.shift k) := by
  induction ts with
  | nil => intro st st' h; simp [psteps] at h ⊢; rw [h]
  | cons t ts ih =>
    intro st st' h
    simp only [psteps, go_bind_ok] at h ⊢
    obtain ⟨s1, h1, h2⟩ := h
    exact ⟨_, pstep_shift k (ht t (by simp)) h1, ih (fun t h => ht t (by simp [h])) h2⟩

theorem escapeTok_plain {c : Rune} {tok : Tok} (h : escapeTok c = .ok tok) : plainTok tok = true := by
  unfold escapeTok at h
  split at h
  · simp at h; subst h; rfl
  · repeat' split at h
    all_goals first | (simp at h; done) | (simp at h; subst h; rfl) | skip
    simp only [go_bind_ok] at h
    obtain ⟨_, _, h⟩ := h
    simp at h; subst h; rfl

theorem lexClass_plain {t : List Rune} {tok : Tok} {n : Nat} (h : lexClass t = .ok (tok, n)) :
    plainTok tok = true := by
  unfold lexClass at h
  split at h
  all_goals
    simp only [go_bind_ok, Prod.exists, Go.ok.injEq, Prod.mk.injEq] at h
    obtain ⟨_, _, _, rfl, _⟩ := h
    rfl

theorem lexOne_plain {c : Rune} {t : List Rune} {tok : Tok} {n : Nat} (h : lexOne c t = .ok (tok, n)) :
    plainTok tok = true := by
  unfold lexOne at h
  by_cases c1 : c = 0x28
  · rw [if_pos c1] at h
    split at h
    · simp at h; obtain ⟨rfl, _⟩ := h; rfl
    · split at h
      · simp only [go_bind_ok, Go.ok.injEq, Prod.mk.injEq] at h
        obtain ⟨_, _, rfl, _⟩ := h; rfl
      · split at h
        · simp at h
        · simp at h; obtain ⟨rfl, _⟩ := h; rfl
  rw [if_neg c1] at h
  by_cases c2 : c = 0x29
  · rw [if_pos c2] at h; simp at h; obtain ⟨rfl, _⟩ := h; rfl
  rw [if_neg c2] at h
  by_cases c3 : c = 0x7C
  · rw [if_pos c3] at h; simp at h; obtain ⟨rfl, _⟩ := h; rfl
  rw [if_neg c3] at h
  by_cases c4 : c = 0x5E
  · rw [if_pos c4] at h; simp at h; obtain ⟨rfl, _⟩ := h; rfl
  rw [if_neg c4] at h
  by_cases c5 : c = 0x24
  · rw [if_pos c5] at h; simp at h; obtain ⟨rfl, _⟩ := h; rfl
  rw [if_neg c5] at h
  by_cases c6 : c = 0x2E
  · rw [if_pos c6] at h; simp at h; obtain ⟨rfl, _⟩ := h; rfl
  rw [if_neg c6] at h
  by_cases c7 : c = 0x2A
  · rw [if_pos c7] at h; simp at h; obtain ⟨rfl, _⟩ := h; rfl
  rw [if_neg c7] at h
  by_cases c8 : c = 0x2B
  · rw [if_pos c8] at h; simp at h; obtain ⟨rfl, _⟩ := h; rfl
  rw [if_neg c8] at h
  by_cases c9 : c = 0x3F
  · rw [if_pos c9] at h; simp at h; obtain ⟨rfl, _⟩ := h; rfl
  rw [if_neg c9] at h
  by_cases c10 : c = 0x5B
  · rw [if_pos c10] at h; exact lexClass_plain h
  rw [if_neg c10] at h
  by_cases c11 : c = 0x7B
  · rw [if_pos c11] at h
    split at h
    · simp at h; obtain ⟨rfl, _⟩ := h; rfl
    · split at h
      · simp at h
      · simp at h; obtain ⟨rfl, _⟩ := h; rfl
  rw [if_neg c11] at h
  by_cases c12 : c = 0x5C
  · rw [if_pos c12] at h
    cases t with
    | nil => simp at h
    | cons e t =>
      simp only [go_bind_ok, Go.ok.injEq, Prod.mk.injEq] at h
      obtain ⟨_, h0, rfl, _⟩ := h
      exact escapeTok_plain h0
  · rw [if_neg c12] at h; simp at h; obtain ⟨rfl, _⟩ := h; rfl

theorem lexFrom_plain : ∀ (k : Nat) (a : List Rune) (ts : List Tok), lexFrom k a = .ok ts →
    ∀ t ∈ ts, plainTok t = true
  | _, [], ts, h => by simp [lexFrom] at h; subst h; simp
  | k + 1, c :: t, ts, h => lexFrom_plain k t ts (by simpa [lexFrom] using h)
  | 0, c :: t, ts, h => by
      simp only [lexFrom, go_bind_ok] at h
      obtain ⟨⟨tok, n⟩, h1, us, h2, h3⟩ := h
      simp only [Go.ok.injEq] at h3
      subst h3
      intro t' ht
      rcases List.mem_cons.1 ht with rfl | ht
      · exact lexOne_plain h1
      · exact lexFrom_plain n t us h2 t' ht



/-! ## Group numbers -/

theorem hasCapList_iff {i : Nat} {rs : List Re} :
    HasCapList i rs = true ↔ ∃ r ∈ rs, HasCap i r = true := by
  induction rs with
  | nil => simp [HasCapList]
  | cons r rs ih => simp [HasCapList, ih]

theorem hasCap_mkCat (i : Nat) (rs : List Re) : HasCap i (mkCat rs) = HasCapList i rs := by
  match rs with
  | [] => rfl
  | [r] => simp [mkCat, HasCapList]
  | a :: b :: t =>
    rw [Bool.eq_iff_iff]
    simp only [mkCat, HasCap, hasCapList_iff, List.mem_reverse]

theorem hasCap_mkAlt (i : Nat) (rs : List Re) : HasCap i (mkAlt rs) = HasCapList i rs := by
  match rs with
  | [] => rfl
  | [r] => simp [mkAlt, HasCapList]
  | a :: b :: t =>
    rw [Bool.eq_iff_iff]
    simp only [mkAlt, HasCap, hasCapList_iff, List.mem_reverse]

mutual
theorem hasCap_le {i : Nat} : ∀ (r : Re), HasCap i r = true → i ≤ numCap r
  | .cap j r, h => by
      simp only [HasCap, Bool.or_eq_true, beq_iff_eq] at h
      rw [numCap]
      rcases h with rfl | h
      · exact Nat.le_max_left _ _
      · exact Nat.le_trans (hasCap_le r h) (Nat.le_max_right _ _)
  | .star _ r, h => by simpa [numCap] using hasCap_le r (by simpa [HasCap] using h)
  | .plus _ r, h => by simpa [numCap] using hasCap_le r (by simpa [HasCap] using h)
  | .quest _ r, h => by simpa [numCap] using hasCap_le r (by simpa [HasCap] using h)
  | .rep _ _ _ r, h => by simpa [numCap] using hasCap_le r (by simpa [HasCap] using h)
  | .cat rs, h => by simpa [numCap] using hasCapList_le rs (by simpa [HasCap] using h)
  | .alt rs, h => by simpa [numCap] using hasCapList_le rs (by simpa [HasCap] using h)
  | .noMatch, h | .empty, h | .lit _, h | .cls _ _, h | .anyNotNL, h | .any, h | .beginLine, h
  | .endLine, h | .beginText, h | .endText, h | .wordB, h | .noWordB, h => by simp [HasCap] at h
theorem hasCapList_le {i : Nat} : ∀ (rs : List Re), HasCapList i rs = true → i ≤ numCapList rs
  | [], h => by simp [HasCapList] at h
  | r :: rs, h => by
      simp only [HasCapList, Bool.or_eq_true] at h
      rw [numCapList]
      rcases h with h | h
      · exact Nat.le_trans (hasCap_le r h) (Nat.le_max_left _ _)
      · exact Nat.le_trans (hasCapList_le rs h) (Nat.le_max_right _ _)
end

mutual
theorem hasCap_numCap : ∀ (r : Re), numCap r ≠ 0 → HasCap (numCap r) r = true
  | .cap j r, h => by
      simp only [HasCap, Bool.or_eq_true, beq_iff_eq]
      rw [numCap] at h ⊢
      rcases Nat.le_total (numCap r) j with h' | h'
      · left; exact (Nat.max_eq_left h').symm
      · right
        rw [show Nat.max j (numCap r) = numCap r from Nat.max_eq_right h'] at h ⊢
        exact hasCap_numCap r h
  | .star _ r, h => by simpa [numCap, HasCap] using hasCap_numCap r (by simpa [numCap] using h)
  | .plus _ r, h => by simpa [numCap, HasCap] using hasCap_numCap r (by simpa [numCap] using h)
  | .quest _ r, h => by simpa [numCap, HasCap] using hasCap_numCap r (by simpa [numCap] using h)
  | .rep _ _ _ r, h => by simpa [numCap, HasCap] using hasCap_numCap r (by simpa [numCap] using h)
  | .cat rs, h => by simpa [numCap, HasCap] using hasCapList_numCap rs (by simpa [numCap] using h)
  | .alt rs, h => by simpa [numCap, HasCap] using hasCapList_numCap rs (by simpa [numCap] using h)
  | .noMatch, h | .empty, h | .lit _, h | .cls _ _, h | .anyNotNL, h | .any, h | .beginLine, h
  | .endLine, h | .beginText, h | .endText, h | .wordB, h | .noWordB, h => by simp [numCap] at h
theorem hasCapList_numCap : ∀ (rs : List Re), numCapList rs ≠ 0 → HasCapList (numCapList rs) rs = true
  | [], h => by simp [numCapList] at h
  | r :: rs, h => by
      simp only [HasCapList, Bool.or_eq_true]
      rw [numCapList] at h ⊢
      rcases Nat.le_total (numCapList rs) (numCap r) with h' | h'
      · left
        rw [show Nat.max (numCap r) (numCapList rs) = numCap r from Nat.max_eq_left h'] at h ⊢
        exact hasCap_numCap r h
      · right
        rw [show Nat.max (numCap r) (numCapList rs) = numCapList rs from Nat.max_eq_right h'] at h ⊢
        exact hasCapList_numCap rs h
end

theorem numCap_eq {r : Re} {k : Nat} (h : ∀ i, HasCap i r = true ↔ 1 ≤ i ∧ i ≤ k) : numCap r = k := by
  apply Nat.le_antisymm
  · rcases Nat.eq_zero_or_pos (numCap r) with h0 | h0
    · omega
    · exact ((h _).1 (hasCap_numCap r (by omega))).2
  · rcases Nat.eq_zero_or_pos k with h0 | h0
    · omega
    · exact hasCap_le r ((h k).2 (by omega))

mutual
theorem hasCap_shift {i k : Nat} : ∀ (r : Re), HasCap (i + k) (shiftCap k r) = HasCap i r
  | .cap j r => by
      simp only [HasCap, shiftCap, hasCap_shift r]
      congr 1
      rw [Bool.eq_iff_iff]; simp
  | .star _ r => by simpa [HasCap, shiftCap] using hasCap_shift r
  | .plus _ r => by simpa [HasCap, shiftCap] using hasCap_shift r
  | .quest _ r => by simpa [HasCap, shiftCap] using hasCap_shift r
  | .rep _ _ _ r => by simpa [HasCap, shiftCap] using hasCap_shift r
  | .cat rs => by simpa [HasCap, shiftCap] using hasCapList_shift rs
  | .alt rs => by simpa [HasCap, shiftCap] using hasCapList_shift rs
  | .noMatch | .empty | .lit _ | .cls _ _ | .anyNotNL | .any | .beginLine
  | .endLine | .beginText | .endText | .wordB | .noWordB => rfl
theorem hasCapList_shift {i k : Nat} : ∀ (rs : List Re), HasCapList (i + k) (shiftCapList k rs) = HasCapList i rs
  | [] => rfl
  | r :: rs => by simp [HasCapList, shiftCapList, hasCap_shift r, hasCapList_shift rs]
end

mutual
theorem hasCap_shift_ge {i k : Nat} : ∀ (r : Re), HasCap i (shiftCap k r) = true → k ≤ i
  | .cap j r, h => by
      simp only [HasCap, shiftCap, Bool.or_eq_true, beq_iff_eq] at h
      rcases h with h | h
      · omega
      · exact hasCap_shift_ge r h
  | .star _ r, h => hasCap_shift_ge r (by simpa [HasCap, shiftCap] using h)
  | .plus _ r, h => hasCap_shift_ge r (by simpa [HasCap, shiftCap] using h)
  | .quest _ r, h => hasCap_shift_ge r (by simpa [HasCap, shiftCap] using h)
  | .rep _ _ _ r, h => hasCap_shift_ge r (by simpa [HasCap, shiftCap] using h)
  | .cat rs, h => hasCapList_shift_ge rs (by simpa [HasCap, shiftCap] using h)
  | .alt rs, h => hasCapList_shift_ge rs (by simpa [HasCap, shiftCap] using h)
  | .noMatch, h | .empty, h | .lit _, h | .cls _ _, h | .anyNotNL, h | .any, h | .beginLine, h
  | .endLine, h | .beginText, h | .endText, h | .wordB, h | .noWordB, h => by simp [HasCap, shiftCap] at h
theorem hasCapList_shift_ge {i k : Nat} : ∀ (rs : List Re), HasCapList i (shiftCapList k rs) = true → k ≤ i
  | [], h => by simp [HasCapList, shiftCapList] at h
  | r :: rs, h => by
      simp only [HasCapList, shiftCapList, Bool.or_eq_true] at h
      rcases h with h | h
      · exact hasCap_shift_ge r h
      · exact hasCapList_shift_ge rs h
end

/-- A group number occurs in a frame. -/
def Frame.hasCap (i : Nat) (f : Frame) : Prop :=
  f.cap = some i ∨ HasCapList i f.alts = true ∨ HasCapList i f.cat = true

/-- A group number occurs in a parser state. -/
def PSt.hasCap (i : Nat) (st : PSt) : Prop := st.cur.hasCap i ∨ ∃ f ∈ st.stack, f.hasCap i

/-- The groups of a state are numbered without gaps. -/
def PSt.Numbered (st : PSt) : Prop := ∀ i, st.hasCap i ↔ 1 ≤ i ∧ i ≤ st.ncap

theorem repeat_numbered {st st' : PSt} {f : Re → Re} (hf : ∀ i r, HasCap i (f r) = HasCap i r)
    (hn : st.Numbered) (h : st.repeat f = .ok st') : st'.Numbered := by
  obtain ⟨⟨c, as, cat⟩, stack, ncap, lr⟩ := st
  cases lr with
  | true => simp [PSt.repeat] at h
  | false =>
    cases cat with
    | nil => simp [PSt.repeat] at h
    | cons r rs =>
      simp only [PSt.repeat, Go.ok.injEq] at h; subst h
      intro i
      have := hn i
      simpa [PSt.hasCap, Frame.hasCap, HasCapList, hf] using this

theorem plainTok_noCap {i : Nat} {r : Re} (h : plainTok (.re r) = true) : HasCap i r = false := by
  cases r <;> first | rfl | simp [plainTok] at h

theorem hasCap_closed {i : Nat} {f : Frame} : HasCap i f.close = true ↔ f.hasCap i := by
  obtain ⟨c, as, cat⟩ := f
  unfold Frame.close Frame.body Frame.hasCap
  cases c with
  | none => simp only [hasCap_mkAlt, HasCapList, hasCap_mkCat, Bool.or_eq_true]; simp; exact or_comm
  | some j =>
    simp only [HasCap, hasCap_mkAlt, HasCapList, hasCap_mkCat, Bool.or_eq_true, beq_iff_eq]
    simp only [Option.some.injEq]
    rw [or_comm (a := HasCapList i cat = true)]

theorem pstep_numbered {st st' : PSt} {t : Tok} (ht : plainTok t = true) (hn : st.Numbered)
    (h : pstep st t = .ok st') : st'.Numbered := by
  cases t with
  | lit r =>
    simp only [pstep, Go.ok.injEq] at h; subst h
    intro i
    have := hn i
    simpa [PSt.hasCap, Frame.hasCap, HasCapList, PSt.push, HasCap] using this
  | re r =>
    simp only [pstep, Go.ok.injEq] at h; subst h
    intro i
    have := hn i
    simpa [PSt.hasCap, Frame.hasCap, HasCapList, PSt.push, plainTok_noCap ht] using this
  | «open» =>
    simp only [pstep, Go.ok.injEq] at h; subst h
    intro i
    have := hn i
    simp only [PSt.hasCap, Frame.hasCap, HasCapList, List.mem_cons] at this ⊢
    constructor
    · rintro (h | ⟨f, h | h, h2⟩)
      · simp at h; omega
      · subst h
        have := this.1 (.inl h2); omega
      · have := this.1 (.inr ⟨f, h, h2⟩); omega
    · rintro ⟨h1, h2⟩
      by_cases h3 : i = st.ncap + 1
      · subst h3; left; left; rfl
      · rcases this.2 ⟨h1, by omega⟩ with h | ⟨f, hf, h⟩
        · exact .inr ⟨_, .inl rfl, h⟩
        · exact .inr ⟨f, .inr hf, h⟩
  | openNC =>
    simp only [pstep, Go.ok.injEq] at h; subst h
    intro i
    have := hn i
    simp only [PSt.hasCap, Frame.hasCap, HasCapList, List.mem_cons] at this ⊢
    rw [← this]
    constructor
    · rintro (h | ⟨f, h | h, h2⟩)
      · simp at h
      · subst h; exact .inl h2
      · exact .inr ⟨f, h, h2⟩
    · rintro (h | ⟨f, hf, h⟩)
      · exact .inr ⟨_, .inl rfl, h⟩
      · exact .inr ⟨f, .inr hf, h⟩
  | bar =>
    simp only [pstep, Go.ok.injEq] at h; subst h
    intro i
    have := hn i
    simp only [PSt.hasCap, Frame.hasCap, HasCapList, hasCap_mkCat, Bool.or_eq_true] at this ⊢
    rw [← this]
    simp only [Bool.false_eq_true, or_false]
    constructor
    · rintro ((h | h | h) | h)
      · exact .inl (.inl h)
      · exact .inl (.inr (.inr h))
      · exact .inl (.inr (.inl h))
      · exact .inr h
    · rintro ((h | h | h) | h)
      · exact .inl (.inl h)
      · exact .inl (.inr (.inr h))
      · exact .inl (.inr (.inl h))
      · exact .inr h
  | close =>
    obtain ⟨⟨c, as, cat⟩, stack, ncap, lr⟩ := st
    cases stack with
    | nil => simp [pstep] at h
    | cons f t =>
      simp only [pstep, Go.ok.injEq] at h; subst h
      intro i
      have := hn i
      simp only [PSt.hasCap, List.mem_cons, exists_eq_or_imp] at this ⊢
      rw [show (PSt.push ⟨f, t, ncap, false⟩ _).ncap = ncap from rfl] at *
      rw [← this]
      simp only [PSt.push, Frame.hasCap, HasCapList, Bool.or_eq_true, hasCap_closed]
      constructor
      · rintro ((h | h | h | h) | h)
        · exact .inr (.inl (.inl h))
        · exact .inr (.inl (.inr (.inl h)))
        · exact .inl h
        · exact .inr (.inl (.inr (.inr h)))
        · exact .inr (.inr h)
      · rintro (h | (h | h | h) | h)
        · exact .inl (.inr (.inr (.inl h)))
        · exact .inl (.inl h)
        · exact .inl (.inr (.inl h))
        · exact .inl (.inr (.inr (.inr h)))
        · exact .inr h
  | star g => exact repeat_numbered (f := .star g) (fun _ _ => rfl) hn h
  | plus g => exact repeat_numbered (f := .plus g) (fun _ _ => rfl) hn h
  | quest g => exact repeat_numbered (f := .quest g) (fun _ _ => rfl) hn h
  | rep mn mx g => exact repeat_numbered (f := .rep mn mx g) (fun _ _ => rfl) hn h

theorem psteps_numbered {ts : List Tok} (ht : ∀ t ∈ ts, plainTok t = true) :
    ∀ {st st' : PSt}, st.Numbered → psteps st ts = .ok st' → st'.Numbered := by
  induction ts with
  | nil => intro st st' hn h; simp [psteps] at h; exact h ▸ hn
  | cons t ts ih =>
    intro st st' hn h
    simp only [psteps, go_bind_ok] at h
    obtain ⟨s1, h1, h2⟩ := h
    exact ih (fun t h => ht t (by simp [h])) (pstep_numbered (ht t (by simp)) hn h1) h2

/-! ## Parsing pieces -/

/-- The state at the start of a parse. -/
def PSt.init : PSt := ⟨⟨none, [], []⟩, [], 0, false⟩

/-- An expression on its own: tokens, the outermost group and the number of groups. -/
structure Parses (rs : List Rune) (ts : List Tok) (f : Frame) (k : Nat) (lr : Bool) : Prop where
  lex : lexFrom 0 rs = .ok ts
  steps : psteps PSt.init ts = .ok ⟨f, [], k, lr⟩

theorem parseRunes_iff {rs : List Rune} {r : Re} :
    parseRunes rs = .ok r ↔ ∃ ts f k lr, Parses rs ts f k lr ∧ r = f.body := by
  unfold parseRunes
  simp only [go_bind_ok]
  constructor
  · rintro ⟨ts, h1, ⟨f, st, k, lr⟩, h2, h3⟩
    cases st with
    | nil => simp at h3; exact ⟨ts, f, k, lr, ⟨h1, h2⟩, h3.symm⟩
    | cons a b => simp at h3
  · rintro ⟨ts, f, k, lr, ⟨h1, h2⟩, rfl⟩
    exact ⟨ts, h1, _, h2, rfl⟩

variable {rs : List Rune} {ts : List Tok} {f : Frame} {k : Nat} {lr : Bool}

theorem Parses.plain (h : Parses rs ts f k lr) : ∀ t ∈ ts, plainTok t = true := lexFrom_plain _ _ _ h.lex

theorem Parses.cap_none (h : Parses rs ts f k lr) : f.cap = none := by
  have := psteps_lift ⟨none, [], [], []⟩ h.steps (.inl rfl)
  have e : Ext.lift ⟨none, [], [], []⟩ PSt.init = PSt.init := rfl
  rw [e, h.steps] at this
  simp only [Go.ok.injEq, Ext.lift, Ext.bot, PSt.mk.injEq] at this
  rw [this.1]

theorem Parses.hasCap (h : Parses rs ts f k lr) (i : Nat) : HasCap i f.body = true ↔ 1 ≤ i ∧ i ≤ k := by
  have h0 : PSt.init.Numbered := by
    intro i
    simp only [PSt.init, PSt.hasCap, Frame.hasCap, HasCapList]
    simp; omega
  have := psteps_numbered h.plain h0 h.steps i
  simp only [PSt.hasCap, Frame.hasCap, h.cap_none] at this
  simp at this
  rw [← this, Frame.body, hasCap_mkAlt, HasCapList, hasCap_mkCat, Bool.or_eq_true]
  exact or_comm

theorem Parses.numCap (h : Parses rs ts f k lr) : numCap f.body = k := numCap_eq h.hasCap

theorem Parses.no_quest (h : Parses rs ts f k lr) : rs.head? ≠ some 0x3F := by
  intro hq
  cases rs with
  | nil => simp at hq
  | cons c t =>
    simp at hq
    subst hq
    have h1 := h.lex
    simp only [lexFrom, lexOne, go_bind_ok] at h1
    simp at h1
    obtain ⟨us, h1, h2⟩ := h1
    subst h2
    have h2 := h.steps
    simp [psteps, pstep, PSt.repeat, PSt.init, Go.bind] at h2

/-- The tokens of a group. -/
theorem Parses.lex_group (h : Parses rs ts f k lr) (x : List Rune) :
    lexFrom 0 (0x28 :: (rs ++ 0x29 :: x)) =
      (lexFrom 0 x).bind fun us => .ok (.open :: (ts ++ .close :: us)) := by
  have hq : (rs ++ 0x29 :: x).head? ≠ some 0x3F := by
    have := h.no_quest
    cases rs with
    | nil => simp
    | cons c t => simpa using this
  have hno : ∀ k (l : List Rune), l.head? = some 0x3F → k ≠ 0 → (rs ++ 0x29 :: x).take k ≠ l := by
    intro k l hl hk he
    apply hq
    rw [← hl, ← he]
    cases k with
    | zero => exact absurd rfl hk
    | succ k => cases h : rs ++ 0x29 :: x <;> simp
  have h0 : lexOne 0x28 (rs ++ 0x29 :: x) = .ok (.open, 0) := by
    unfold lexOne
    rw [if_pos rfl, if_neg (hno 2 _ rfl (by omega)), if_neg (hno 3 _ rfl (by omega)), if_neg hq]
  rw [lexFrom, h0]
  simp only [Go.bind]
  rw [lexFrom_append (.inr (.inl rfl)) x 0 rs ts (by omega) h.lex]
  rw [show lexFrom 0 (0x29 :: x) = (lexFrom 0 x).bind fun us => .ok (.close :: us) from rfl]
  cases lexFrom 0 x <;> rfl

/-- Parsing a group. -/
theorem Parses.steps_group (h : Parses rs ts f k lr) (st : PSt) (us : List Tok) :
    psteps st (.open :: (ts ++ .close :: us)) =
      psteps ⟨⟨st.cur.cap, st.cur.alts,
        .cap (st.ncap + 1) (shiftCap (st.ncap + 1) f.body) :: st.cur.cat⟩, st.stack, st.ncap + 1 + k, false⟩ us := by
  have h1 := psteps_shift (st.ncap + 1) h.plain h.steps
  have h2 := psteps_lift ⟨some (st.ncap + 1), [], [], st.cur :: st.stack⟩ h1 (.inl rfl)
  simp only [psteps, pstep, Go.bind]
  have e : Ext.lift ⟨some (st.ncap + 1), [], [], st.cur :: st.stack⟩ (PSt.init.shift (st.ncap + 1)) =
      ⟨⟨some (st.ncap + 1), [], []⟩, st.cur :: st.stack, st.ncap + 1, false⟩ := by
    simp [Ext.lift, PSt.init, PSt.shift, Frame.shift, Ext.bot, Ext.stk]
  rw [e] at h2
  rw [psteps_append, h2]
  simp only [Go.bind, psteps]
  simp only [pstep, Ext.lift, PSt.shift, List.map_nil, Ext.stk, Ext.bot, PSt.push, List.append_nil, Frame.close]
  have : (⟨some (st.ncap + 1), (f.shift (st.ncap + 1)).alts, (f.shift (st.ncap + 1)).cat⟩ : Frame).body =
      shiftCap (st.ncap + 1) f.body := by
    rw [← Frame.body_shift]; rfl
  rw [this, Nat.add_comm k]

/-- Parsing items without `|` into the current concatenation. -/
theorem Parses.steps_inline (h : Parses rs ts f k lr) (hb : barless 0 ts = true) (st : PSt)
    (hst : st.lastRep = false) (us : List Tok) :
    psteps st (ts ++ us) =
      psteps ⟨⟨st.cur.cap, f.alts.map (shiftCap st.ncap) ++ st.cur.alts,
        f.cat.map (shiftCap st.ncap) ++ st.cur.cat⟩, st.stack, st.ncap + k, lr⟩ us := by
  have h1 := psteps_shift st.ncap h.plain h.steps
  have h2 := psteps_lift ⟨st.cur.cap, st.cur.alts, st.cur.cat, st.stack⟩ h1 (.inr hb)
  have e : Ext.lift ⟨st.cur.cap, st.cur.alts, st.cur.cat, st.stack⟩ (PSt.init.shift st.ncap) = st := by
    obtain ⟨⟨c, a, b⟩, s, n, l⟩ := st
    simp only at hst
    subst hst
    simp [Ext.lift, PSt.init, PSt.shift, Frame.shift, Ext.bot, Ext.stk]
  rw [e] at h2
  rw [psteps_append, h2]
  simp only [Go.bind, Ext.lift, PSt.shift, List.map_nil, Ext.stk, Ext.bot, Nat.add_comm k]
  rfl

/-- The alternatives of the outermost group. -/
def PSt.bottomAlts (st : PSt) : List Re :=
  match st.stack.getLast? with
  | none => st.cur.alts
  | some f => f.alts

theorem repeat_bottomAlts {st st' : PSt} {f : Re → Re} (h : st.repeat f = .ok st') :
    st'.bottomAlts = st.bottomAlts := by
  obtain ⟨⟨c, as, cat⟩, stack, ncap, lr⟩ := st
  cases lr with
  | true => simp [PSt.repeat] at h
  | false =>
    cases cat with
    | nil => simp [PSt.repeat] at h
    | cons r rs => simp only [PSt.repeat, Go.ok.injEq] at h; subst h; rfl

theorem pstep_bottomAlts {st st' : PSt} {t : Tok} (h : pstep st t = .ok st')
    (hb : ¬ (t = .bar ∧ st.stack = [])) : st'.bottomAlts = st.bottomAlts := by
  obtain ⟨cur, stack, ncap, lr⟩ := st
  cases t with
  | lit r => simp only [pstep, Go.ok.injEq] at h; subst h; rfl
  | re r => simp only [pstep, Go.ok.injEq] at h; subst h; rfl
  | «open» =>
    simp only [pstep, Go.ok.injEq] at h; subst h
    cases stack with
    | nil => rfl
    | cons f t =>
      simp only [PSt.bottomAlts, List.getLast?_cons_cons]
      cases hg : (f :: t).getLast? with
      | none => simp at hg
      | some g => rfl
  | openNC =>
    simp only [pstep, Go.ok.injEq] at h; subst h
    cases stack with
    | nil => rfl
    | cons f t =>
      simp only [PSt.bottomAlts, List.getLast?_cons_cons]
      cases hg : (f :: t).getLast? with
      | none => simp at hg
      | some g => rfl
  | bar =>
    simp only [pstep, Go.ok.injEq] at h; subst h
    cases stack with
    | nil => exact absurd ⟨rfl, rfl⟩ hb
    | cons f t =>
      simp only [PSt.bottomAlts]
      cases hg : (f :: t).getLast? with
      | none => simp at hg
      | some g => rfl
  | close =>
    cases stack with
    | nil => simp [pstep] at h
    | cons f t =>
      simp only [pstep, Go.ok.injEq] at h; subst h
      cases t with
      | nil => rfl
      | cons g t =>
        simp only [PSt.bottomAlts, PSt.push, List.getLast?_cons_cons]
        cases hg : (g :: t).getLast? with
        | none => simp at hg
        | some g => rfl
  | star g => exact repeat_bottomAlts h
  | plus g => exact repeat_bottomAlts h
  | quest g => exact repeat_bottomAlts h
  | rep mn mx g => exact repeat_bottomAlts h

/-- Items without `|` form no alternatives. -/
theorem psteps_bottomAlts {ts : List Tok} : ∀ {st st' : PSt}, psteps st ts = .ok st' →
    barless st.stack.length ts = true → st'.bottomAlts = st.bottomAlts := by
  induction ts with
  | nil => intro st st' h _; simp [psteps] at h; rw [h]
  | cons t ts ih =>
    intro st st' h hb
    simp only [psteps, go_bind_ok] at h
    obtain ⟨s1, h1, h2⟩ := h
    obtain ⟨b1, b2⟩ := pstep_barless h1 hb
    rw [ih h2 b2, pstep_bottomAlts h1 b1]

theorem Parses.no_alts (h : Parses rs ts f k lr) (hb : barless 0 ts = true) : f.alts = [] :=
  psteps_bottomAlts h.steps hb

/-- Splitting at the first `|` outside of all groups. -/
theorem psteps_split_bar {ts : List Tok} : ∀ {st st' : PSt}, psteps st ts = .ok st' →
    barless st.stack.length ts = false →
    ∃ t1 t2 s1, ts = t1 ++ .bar :: t2 ∧ barless st.stack.length t1 = true ∧ psteps st t1 = .ok s1 ∧
      s1.stack = [] := by
  induction ts with
  | nil => intro st st' _ hb; simp [barless] at hb
  | cons t ts ih =>
    intro st st' h hb
    simp only [psteps, go_bind_ok] at h
    obtain ⟨s1, h1, h2⟩ := h
    by_cases hbar : t = .bar ∧ st.stack = []
    · exact ⟨[], ts, st, by simp [hbar.1], rfl, rfl, hbar.2⟩
    · have key : ∀ us, barless st.stack.length (t :: us) = barless s1.stack.length us := by
        intro us
        cases t with
        | lit r => simp only [pstep, Go.ok.injEq] at h1; subst h1; rfl
        | re r => simp only [pstep, Go.ok.injEq] at h1; subst h1; rfl
        | «open» => simp only [pstep, Go.ok.injEq] at h1; subst h1; rfl
        | openNC => simp only [pstep, Go.ok.injEq] at h1; subst h1; rfl
        | bar =>
          simp only [pstep, Go.ok.injEq] at h1; subst h1
          have : st.stack ≠ [] := fun h => hbar ⟨rfl, h⟩
          simp [barless, this]
        | close =>
          obtain ⟨cur, stack, ncap, lr⟩ := st
          cases stack with
          | nil => simp [pstep] at h1
          | cons f t => simp only [pstep, Go.ok.injEq] at h1; subst h1; rfl
        | star g => rw [repeat_stack h1]; rfl
        | plus g => rw [repeat_stack h1]; rfl
        | quest g => rw [repeat_stack h1]; rfl
        | rep mn mx g => rw [repeat_stack h1]; rfl
      rw [key] at hb
      obtain ⟨t1, t2, s2, e1, e2, e3, e4⟩ := ih h2 hb
      refine ⟨t :: t1, t2, s2, by simp [e1], by rw [key]; exact e2, ?_, e4⟩
      simp [psteps, h1, Go.bind, e3]

theorem pstep_unlift {as : List Re} {st s' : PSt} {t : Tok}
    (h : pstep (Ext.lift ⟨none, as, [], []⟩ st) t = .ok s') : ∃ st', pstep st t = .ok st' := by
  have hrep : ∀ f : Re → Re, (Ext.lift ⟨none, as, [], []⟩ st).repeat f = .ok s' → ∃ st', st.repeat f = .ok st' := by
    intro f h
    obtain ⟨⟨c, a, cat⟩, stack, ncap, lr⟩ := st
    cases lr with
    | true => simp [PSt.repeat, Ext.lift] at h
    | false =>
      cases cat with
      | nil => cases stack <;> simp [PSt.repeat, Ext.lift, Ext.bot] at h
      | cons r rs => exact ⟨_, rfl⟩
  cases t with
  | close =>
    obtain ⟨cur, stack, ncap, lr⟩ := st
    cases stack with
    | nil => simp [pstep, Ext.lift, Ext.stk] at h
    | cons f t => exact ⟨_, rfl⟩
  | star g => exact hrep _ h
  | plus g => exact hrep _ h
  | quest g => exact hrep _ h
  | rep mn mx g => exact hrep _ h
  | _ => exact ⟨_, rfl⟩

theorem psteps_unlift {as : List Re} {ts : List Tok} : ∀ {st s' : PSt},
    psteps (Ext.lift ⟨none, as, [], []⟩ st) ts = .ok s' →
      ∃ st', psteps st ts = .ok st' ∧ s' = Ext.lift ⟨none, as, [], []⟩ st' := by
  induction ts with
  | nil => intro st s' h; simp [psteps] at h; exact ⟨st, rfl, h.symm⟩
  | cons t ts ih =>
    intro st s' h
    simp only [psteps, go_bind_ok] at h
    obtain ⟨s1, h1, h2⟩ := h
    obtain ⟨st1, h3⟩ := pstep_unlift h1
    have h4 := pstep_lift ⟨none, as, [], []⟩ h3 (.inl rfl)
    rw [h1] at h4
    simp only [Go.ok.injEq] at h4
    subst h4
    obtain ⟨st', h5, h6⟩ := ih h2
    exact ⟨st', by simp [psteps, h3, Go.bind, h5], h6⟩

/-- Parsing items into the current concatenation: they extend it, or end it as an alternative. -/
theorem Parses.steps_any (h : Parses rs ts f k lr) (st : PSt) (hst : st.lastRep = false) (us : List Tok) :
    (f.alts = [] ∧ psteps st (ts ++ us) =
      psteps ⟨⟨st.cur.cap, st.cur.alts,
        f.cat.map (shiftCap st.ncap) ++ st.cur.cat⟩, st.stack, st.ncap + k, lr⟩ us) ∨
    (∃ B c1, f.alts = B ++ [mkCat c1] ∧ psteps st (ts ++ us) =
      psteps ⟨⟨st.cur.cap, B.map (shiftCap st.ncap) ++ mkCat (c1.map (shiftCap st.ncap) ++ st.cur.cat) :: st.cur.alts,
        f.cat.map (shiftCap st.ncap)⟩, st.stack, st.ncap + k, lr⟩ us) := by
  cases hb : barless 0 ts with
  | true =>
    left
    have := h.no_alts hb
    refine ⟨this, ?_⟩
    rw [h.steps_inline hb st hst, this]
    rfl
  | false =>
    right
    obtain ⟨t1, t2, s1, e1, e2, e3, e4⟩ := psteps_split_bar h.steps hb
    have hp1 : ∀ t ∈ t1, plainTok t = true := fun t ht => h.plain t (by simp [e1, ht])
    have hp2 : ∀ t ∈ t2, plainTok t = true := fun t ht => h.plain t (by simp [e1, ht])
    have hs := h.steps
    rw [e1, psteps_append, e3] at hs
    obtain ⟨⟨cap1, alts1, c1⟩, stack1, n1, lr1⟩ := s1
    simp only at e4
    subst e4
    have ha1 : alts1 = [] := psteps_bottomAlts e3 e2
    subst ha1
    have hc1 : cap1 = none := by
      have := psteps_lift ⟨none, [], [], []⟩ e3 (.inl rfl)
      rw [show Ext.lift ⟨none, [], [], []⟩ PSt.init = PSt.init from rfl, e3] at this
      simp only [Go.ok.injEq, Ext.lift, Ext.bot, PSt.mk.injEq, Frame.mk.injEq] at this
      exact this.1.1
    subst hc1
    simp only [Go.bind, psteps, pstep] at hs
    have el : (⟨⟨none, [mkCat c1], []⟩, [], n1, false⟩ : PSt) =
        Ext.lift ⟨none, [mkCat c1], [], []⟩ ⟨⟨none, [], []⟩, [], n1, false⟩ := rfl
    rw [el] at hs
    obtain ⟨⟨⟨cap2, B, c2⟩, stack2, n2, lr2⟩, h5, h6⟩ := psteps_unlift hs
    cases stack2 with
    | cons a b =>
      cases b <;> simp [Ext.lift, Ext.stk] at h6
    | nil =>
      simp only [Ext.lift, Ext.bot, Ext.stk, PSt.mk.injEq, List.append_nil] at h6
      obtain ⟨rfl, _, rfl, rfl⟩ := h6
      refine ⟨B, c1, rfl, ?_⟩
      -- the same in the context
      have g1 := psteps_lift ⟨st.cur.cap, st.cur.alts, st.cur.cat, st.stack⟩
        (psteps_shift st.ncap hp1 e3) (.inr e2)
      have e : Ext.lift ⟨st.cur.cap, st.cur.alts, st.cur.cat, st.stack⟩ (PSt.init.shift st.ncap) = st := by
        obtain ⟨⟨c, a, b⟩, s, n, l⟩ := st
        simp only at hst
        subst hst
        simp [Ext.lift, PSt.init, PSt.shift, Frame.shift, Ext.bot, Ext.stk]
      rw [e] at g1
      have g2 := psteps_lift ⟨st.cur.cap, mkCat (c1.map (shiftCap st.ncap) ++ st.cur.cat) :: st.cur.alts,
        [], st.stack⟩ (psteps_shift st.ncap hp2 h5) (.inl rfl)
      simp only [Ext.lift, PSt.shift, Ext.bot, Ext.stk, Frame.shift, List.map_nil, List.nil_append,
        List.append_nil] at g1 g2
      rw [e1, List.append_assoc, psteps_append, g1]
      simp only [Go.bind, List.cons_append, psteps, pstep]
      rw [psteps_append, g2]
      simp only [Go.bind, Nat.add_comm]



/-! ## The shape of expanded patterns -/

mutual
theorem ordOk_noA {a b : Nat} : ∀ (r : Re), HasCap a r = false → ordOk a b r = true
  | .cap i r, h => by
      simp only [HasCap] at h
      simp [ordOk, h]
  | .star _ r, h => by simp only [HasCap] at h; simp [ordOk, h]
  | .plus _ r, h => by simp only [HasCap] at h; simp [ordOk, h]
  | .rep _ _ _ r, h => by simp only [HasCap] at h; simp [ordOk, h]
  | .quest _ r, h => by simp only [HasCap] at h; simpa [ordOk] using ordOk_noA r h
  | .cat rs, h => by simp only [HasCap] at h; simp [ordOk, h]
  | .alt rs, h => by simp only [HasCap] at h; simp [ordOk, h]
  | .noMatch, _ | .empty, _ | .lit _, _ | .cls _ _, _ | .anyNotNL, _ | .any, _ | .beginLine, _
  | .endLine, _ | .beginText, _ | .endText, _ | .wordB, _ | .noWordB, _ => rfl
end

mutual
theorem ordOk_noB {a b : Nat} : ∀ (r : Re), HasCap b r = false → ordOk a b r = true
  | .cap i r, h => by
      simp only [HasCap] at h
      simp [ordOk, h]
  | .star _ r, h => by simp only [HasCap] at h; simp [ordOk, h]
  | .plus _ r, h => by simp only [HasCap] at h; simp [ordOk, h]
  | .rep _ _ _ r, h => by simp only [HasCap] at h; simp [ordOk, h]
  | .quest _ r, h => by simp only [HasCap] at h; simpa [ordOk] using ordOk_noB r h
  | .cat rs, h => by simp only [HasCap] at h; simp [ordOk, h]
  | .alt rs, h => by simp only [HasCap] at h; simp [ordOk, h]
  | .noMatch, _ | .empty, _ | .lit _, _ | .cls _ _, _ | .anyNotNL, _ | .any, _ | .beginLine, _
  | .endLine, _ | .beginText, _ | .endText, _ | .wordB, _ | .noWordB, _ => rfl
end

theorem hasCap_shift_iff {i k : Nat} {r : Re} :
    HasCap i (shiftCap k r) = true ↔ k ≤ i ∧ HasCap (i - k) r = true := by
  constructor
  · intro h
    have h1 := hasCap_shift_ge r h
    refine ⟨h1, ?_⟩
    rw [← hasCap_shift (k := k) r, Nat.sub_add_cancel h1]
    exact h
  · rintro ⟨h1, h2⟩
    rw [← hasCap_shift (k := k) r, Nat.sub_add_cancel h1] at h2
    exact h2

/-- `(a)(b)m(c)(d)`. -/
def pieces (a b m c d : List Rune) : List Rune :=
  0x28 :: (a ++ 0x29 :: 0x28 :: (b ++ 0x29 :: (m ++ 0x28 :: (c ++ 0x29 :: 0x28 :: (d ++ 0x29 :: [])))))

/-- Parsing `(a)(b)m(c)(d)` where no group occurs in `a`, `b`, `c` and `d`. -/
theorem parse_pieces {a b m c d : List Rune} {ta tb tm tc td : List Tok} {fa fb fm fc fd : Frame}
    {la lb lm lc ld : Bool} {k : Nat} (ha : Parses a ta fa 0 la) (hb : Parses b tb fb 0 lb)
    (hm : Parses m tm fm k lm) (hc : Parses c tc fc 0 lc) (hd : Parses d td fd 0 ld) :
    ∃ ts f l, Parses (pieces a b m c d) ts f (k + 4) l ∧
      ((fm.alts = [] ∧
        f.body = .cat ([.cap 1 (shiftCap 1 fa.body), .cap 2 (shiftCap 2 fb.body)] ++
          (fm.cat.map (shiftCap 2)).reverse ++
          [.cap (k + 3) (shiftCap (k + 3) fc.body), .cap (k + 4) (shiftCap (k + 4) fd.body)])) ∨
      (∃ B c1, fm.alts = B ++ [mkCat c1] ∧
        f.body = .alt (.cat ([.cap 1 (shiftCap 1 fa.body), .cap 2 (shiftCap 2 fb.body)] ++
            (c1.map (shiftCap 2)).reverse) :: ((B.map (shiftCap 2)).reverse ++
          [.cat ((fm.cat.map (shiftCap 2)).reverse ++
            [.cap (k + 3) (shiftCap (k + 3) fc.body), .cap (k + 4) (shiftCap (k + 4) fd.body)])])))) := by
  have hlex : lexFrom 0 (pieces a b m c d) = .ok (.open :: (ta ++ .close :: .open :: (tb ++ .close ::
      (tm ++ .open :: (tc ++ .close :: .open :: (td ++ .close :: [])))))) := by
    unfold pieces
    rw [ha.lex_group, hb.lex_group, lexFrom_append (.inl rfl) _ 0 m tm (by omega) hm.lex, hc.lex_group,
      hd.lex_group]
    rfl
  have hsteps : ∀ us, psteps PSt.init (.open :: (ta ++ .close :: .open :: (tb ++ .close :: us))) =
      psteps ⟨⟨none, [], [.cap 2 (shiftCap 2 fb.body), .cap 1 (shiftCap 1 fa.body)]⟩, [], 2, false⟩ us := by
    intro us
    rw [ha.steps_group, hb.steps_group]
    rfl
  rcases hm.steps_any ⟨⟨none, [], [.cap 2 (shiftCap 2 fb.body), .cap 1 (shiftCap 1 fa.body)]⟩, [], 2, false⟩ rfl
    (.open :: (tc ++ .close :: .open :: (td ++ .close :: []))) with ⟨h1, h2⟩ | ⟨B, c1, h1, h2⟩
  · refine ⟨_, ⟨none, [], .cap (k + 4) (shiftCap (k + 4) fd.body) :: .cap (k + 3) (shiftCap (k + 3) fc.body) ::
        (fm.cat.map (shiftCap 2) ++ [.cap 2 (shiftCap 2 fb.body), .cap 1 (shiftCap 1 fa.body)])⟩,
      false, ⟨hlex, ?_⟩, .inl ⟨h1, ?_⟩⟩
    · rw [hsteps, h2, hc.steps_group, hd.steps_group]
      have e1 : 2 + k + 1 = k + 3 := by omega
      have e2 : k + 3 + 0 + 1 = k + 4 := by omega
      simp only [psteps, e1, e2, Nat.add_zero]
    · simp only [Frame.body, mkAlt, mkCat]
      simp
  · refine ⟨_, ⟨none, B.map (shiftCap 2) ++ [mkCat (c1.map (shiftCap 2) ++
          [.cap 2 (shiftCap 2 fb.body), .cap 1 (shiftCap 1 fa.body)])],
        .cap (k + 4) (shiftCap (k + 4) fd.body) :: .cap (k + 3) (shiftCap (k + 3) fc.body) ::
        fm.cat.map (shiftCap 2)⟩,
      false, ⟨hlex, ?_⟩, .inr ⟨B, c1, h1, ?_⟩⟩
    · rw [hsteps, h2, hc.steps_group, hd.steps_group]
      have e1 : 2 + k + 1 = k + 3 := by omega
      have e2 : k + 3 + 0 + 1 = k + 4 := by omega
      simp only [psteps, e1, e2, Nat.add_zero]
    · have hmk : ∀ (x y : Re) (l : List Re), mkCat (l ++ [x, y]) = .cat (y :: x :: l.reverse) := by
        intro x y l
        have : ∃ p q r, l ++ [x, y] = p :: q :: r := by
          match l with
          | [] => exact ⟨_, _, _, rfl⟩
          | [p] => exact ⟨_, _, _, rfl⟩
          | p :: q :: r => exact ⟨_, _, _, rfl⟩
        obtain ⟨p, q, r, h⟩ := this
        have e : mkCat (p :: q :: r) = .cat (p :: q :: r).reverse := rfl
        rw [h, e, ← h]
        simp
      have hma : ∀ (x y : Re) (l : List Re), mkAlt (x :: (l ++ [y])) = .alt (y :: (l.reverse ++ [x])) := by
        intro x y l
        cases l with
        | nil => rfl
        | cons p q => simp [mkAlt]
      have hm2 : ∀ (x y : Re) (l : List Re), mkCat (x :: y :: l) = .cat (x :: y :: l).reverse :=
        fun _ _ _ => rfl
      simp only [Frame.body, hma, hmk, hm2]
      simp

theorem hasCapList_append {i : Nat} {xs ys : List Re} :
    HasCapList i (xs ++ ys) = (HasCapList i xs || HasCapList i ys) := by
  induction xs with
  | nil => rfl
  | cons x xs ih => simp [HasCapList, ih, Bool.or_assoc]

theorem ordOkCat_skip {a b : Nat} : ∀ (xs ys : List Re), HasCapList b xs = false →
    ordOkCat a b (xs ++ ys) = ordOkCat a b ys
  | [], ys, _ => rfl
  | x :: xs, ys, h => by
      simp only [HasCapList, Bool.or_eq_false_iff] at h
      simp only [List.cons_append, ordOkCat, h.1]
      exact ordOkCat_skip xs ys h.2

theorem ordOkAlt_of {a b : Nat} : ∀ (rs : List Re), (∀ r ∈ rs, ordOk a b r = true) → ordOkAlt a b rs = true
  | [], _ => rfl
  | r :: rs, h => by
      simp only [ordOkAlt, Bool.and_eq_true]
      exact ⟨h r (by simp), ordOkAlt_of rs (fun r' hr => h r' (by simp [hr]))⟩

/-- In `(a)(b)m(c)(d)` the second group ends before the last but one starts. -/
theorem ordOk_pieces {a b m c d : List Rune} {ta tb tm tc td : List Tok} {fa fb fm fc fd : Frame}
    {la lb lm lc ld : Bool} {k : Nat} (ha : Parses a ta fa 0 la) (hb : Parses b tb fb 0 lb)
    (hm : Parses m tm fm k lm) (hc : Parses c tc fc 0 lc) (hd : Parses d td fd 0 ld) {r : Re}
    (hr : parseRunes (pieces a b m c d) = .ok r) :
    numCap r = k + 4 ∧ ordOk 2 (numCap r - 1) r = true := by
  obtain ⟨ts, f, l, hp, hf⟩ := parse_pieces ha hb hm hc hd
  have : r = f.body := by
    have := parseRunes_iff.2 ⟨ts, f, _, l, hp, rfl⟩
    rw [hr] at this
    simpa using this
  subst this
  refine ⟨hp.numCap, ?_⟩
  rw [hp.numCap]
  have no0 : ∀ {rs ts f l} (_ : Parses rs ts f 0 l) (i j : Nat), HasCap i (shiftCap j f.body) = false := by
    intro rs ts f l h i j
    rw [Bool.eq_false_iff]
    intro h2
    have := (h.hasCap _).1 (hasCap_shift_iff.1 h2).2
    omega
  have hbody : ∀ i, HasCapList i fm.alts = true ∨ HasCapList i fm.cat = true → 1 ≤ i ∧ i ≤ k := by
    intro i h
    rw [← hm.hasCap, Frame.body, hasCap_mkAlt, HasCapList, hasCap_mkCat, Bool.or_eq_true]
    exact h.symm
  have mid : ∀ l : List Re, (∀ i, HasCapList i l = true → 1 ≤ i ∧ i ≤ k) → ∀ i,
      HasCapList i ((l.map (shiftCap 2)).reverse) = true → 3 ≤ i ∧ i ≤ k + 2 := by
    intro l hl i hi
    rw [hasCapList_iff] at hi
    obtain ⟨x, hx, hi⟩ := hi
    simp only [List.mem_reverse, List.mem_map] at hx
    obtain ⟨y, hy, rfl⟩ := hx
    obtain ⟨h1, h2⟩ := hasCap_shift_iff.1 hi
    have := hl (i - 2) (hasCapList_iff.2 ⟨y, hy, h2⟩)
    omega
  have hcat : ∀ i, HasCapList i ((fm.cat.map (shiftCap 2)).reverse) = true → 3 ≤ i ∧ i ≤ k + 2 :=
    mid _ (fun i h => hbody i (.inr h))
  have e1 : k + 4 - 1 = k + 3 := by omega
  rw [e1]
  have htail : ordOkCat 2 (k + 3)
      [.cap (k + 3) (shiftCap (k + 3) fc.body), .cap (k + 4) (shiftCap (k + 4) fd.body)] = true := by
    simp only [ordOkCat, HasCap, beq_self_eq_true, Bool.true_or, if_true, ordOk, HasCapList, no0 hc, no0 hd]
    simp
  rcases hf with ⟨_, hf⟩ | ⟨B, c1, hB, hf⟩
  · rw [hf, ordOk, ordOkCat_skip, htail]
    · simp
    · rw [hasCapList_append, Bool.or_eq_false_iff]
      constructor
      · simp [HasCapList, HasCap, no0 ha, no0 hb]
      · rw [Bool.eq_false_iff]
        intro h
        have := hcat _ h
        omega
  · have hc1 : ∀ i, HasCapList i ((c1.map (shiftCap 2)).reverse) = true → 3 ≤ i ∧ i ≤ k + 2 := by
      refine mid _ (fun i h => hbody i (.inl ?_))
      rw [hB, hasCapList_append]
      simp [HasCapList, hasCap_mkCat, h]
    have hBs : ∀ i, HasCapList i ((B.map (shiftCap 2)).reverse) = true → 3 ≤ i ∧ i ≤ k + 2 := by
      refine mid _ (fun i h => hbody i (.inl ?_))
      rw [hB, hasCapList_append]
      simp [h]
    rw [hf, ordOk]
    simp only [Bool.or_eq_true]
    right
    apply ordOkAlt_of
    intro x hx
    simp only [List.mem_cons, List.mem_append, List.not_mem_nil, or_false] at hx
    rcases hx with rfl | hx | rfl
    · apply ordOk_noB
      rw [HasCap, hasCapList_append, Bool.or_eq_false_iff]
      constructor
      · simp [HasCapList, HasCap, no0 ha, no0 hb]
      · rw [Bool.eq_false_iff]
        intro h
        have := hc1 _ h
        omega
    · apply ordOk_noB
      rw [Bool.eq_false_iff]
      intro h
      have := hBs _ (hasCapList_iff.2 ⟨x, hx, h⟩)
      omega
    · apply ordOk_noA
      rw [HasCap, hasCapList_append, Bool.or_eq_false_iff]
      constructor
      · rw [Bool.eq_false_iff]
        intro h
        have := hcat _ h
        omega
      · simp [HasCapList, HasCap, no0 hc, no0 hd]

end Verif.Rx
