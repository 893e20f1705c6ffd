import Verif.Proofs.Lang
import Verif.Proofs.NoRep
import Verif.Spec.Context

/-! The matcher reads exactly the texts that match where they stand. -/

namespace Verif.Rx

open Verif.Spec Verif.Hre

theorem chars_append (a b : List (Rune × Nat)) : chars (a ++ b) = chars a ++ chars b := List.map_append

theorem chars_nil : chars [] = [] := rfl

theorem prevAfter_getLast {b : List Rune} (l : List (Rune × Nat)) :
    prevAfter b.getLast? l = (b ++ chars l).getLast? := by
  induction l generalizing b with
  | nil => simp [prevAfter, chars]
  | cons c l ih =>
    obtain ⟨c, n⟩ := c
    have := ih (b := b ++ [c])
    simp only [List.getLast?_append, List.getLast?_singleton, Option.some_or] at this
    rw [prevAfter, this]
    simp [chars, List.getLast?_append, List.getLast?_cons]

/-- The text `u` is read from `s`, after `b`, to `s'`, before `a`. -/
def ReadsIn (b u a : List Rune) (s s' : St) : Prop :=
  s.prev = b.getLast? ∧ s'.prev = (b ++ u).getLast? ∧ chars s'.rest = a ∧ Reads u s s'

theorem ReadsIn.refl {b : List Rune} {s : St} (h : s.prev = b.getLast?) : ReadsIn b [] (chars s.rest) s s :=
  ⟨h, by simpa using h, rfl, .refl s⟩

theorem Reads.chars {u : List Rune} {s s' : St} (h : Reads u s s') : Spec.chars s.rest = u ++ Spec.chars s'.rest := by
  obtain ⟨l, h1, h2⟩ := h
  rw [h1, Spec.chars, List.map_append, h2]
  rfl

theorem ReadsIn.trans {b u v a a' : List Rune} {s t w : St} (h1 : ReadsIn b u a s t) (h2 : ReadsIn (b ++ u) v a' t w) :
    a = v ++ a' ∧ ReadsIn b (u ++ v) a' s w := by
  obtain ⟨p1, p2, p3, p4⟩ := h1
  obtain ⟨q1, q2, q3, q4⟩ := h2
  exact ⟨by rw [← p3, ← q3]; exact q4.chars, p1, by simpa using q2, q3, p4.trans q4⟩

theorem readsIn_of {b u : List Rune} {s s' : St} (h : s.prev = b.getLast?) (hr : Reads u s s') (ha : Adv s s') :
    ReadsIn b u (chars s'.rest) s s' := by
  refine ⟨h, ?_, rfl, hr⟩
  obtain ⟨l, h1, h2⟩ := hr
  obtain ⟨_, l', h3, _, h5⟩ := ha
  rw [h1] at h3
  have := List.append_cancel_right h3
  subst this
  rw [h5, h, prevAfter_getLast, ← h2]
  rfl

/-- The texts match one after another. -/
def Pieces (M : List Rune → List Rune → List Rune → Prop) (b : List Rune) (us : List (List Rune)) (a : List Rune) : Prop :=
  ∀ xs u ys, us = xs ++ u :: ys → M (b ++ xs.flatten) u (ys.flatten ++ a)

variable {M : List Rune → List Rune → List Rune → Prop} {f : St → List St}

theorem Pieces.nil {b a : List Rune} : Pieces M b [] a := by
  intro xs u ys h
  simp at h

theorem Pieces.cons {b u a : List Rune} {us : List (List Rune)} (h : M b u (us.flatten ++ a))
    (hs : Pieces M (b ++ u) us a) : Pieces M b (u :: us) a := by
  intro xs v ys he
  cases xs with
  | nil =>
    simp only [List.nil_append, List.cons.injEq] at he
    obtain ⟨rfl, rfl⟩ := he
    simpa using h
  | cons x xs =>
    simp only [List.cons_append, List.cons.injEq] at he
    obtain ⟨rfl, rfl⟩ := he
    simpa using hs xs v ys rfl

theorem Pieces.head {b u a : List Rune} {us : List (List Rune)} (h : Pieces M b (u :: us) a) : M b u (us.flatten ++ a) := by
  simpa using h [] u us rfl

theorem Pieces.tail {b u a : List Rune} {us : List (List Rune)} (h : Pieces M b (u :: us) a) : Pieces M (b ++ u) us a := by
  intro xs v ys he
  have := h (u :: xs) v ys (by simp [he])
  simpa using this

theorem Pieces.single {b u a : List Rune} (h : M b u a) : Pieces M b [u] a := .cons (by simpa using h) .nil

theorem Pieces.append {b a : List Rune} {us vs : List (List Rune)} (h1 : Pieces M b us (vs.flatten ++ a))
    (h2 : Pieces M (b ++ us.flatten) vs a) : Pieces M b (us ++ vs) a := by
  induction us generalizing b with
  | nil => simpa using h2
  | cons u us ih =>
    exact .cons (by simpa using h1.head) (ih h1.tail (by simpa using h2))

theorem Pieces.left {b a : List Rune} {us vs : List (List Rune)} (h : Pieces M b (us ++ vs) a) :
    Pieces M b us (vs.flatten ++ a) := by
  intro xs u ys he
  have := h xs u (ys ++ vs) (by simp [he])
  simpa using this

theorem Pieces.right {b a : List Rune} {us vs : List (List Rune)} (h : Pieces M b (us ++ vs) a) :
    Pieces M (b ++ us.flatten) vs a := by
  intro xs u ys he
  have := h (us ++ xs) u ys (by simp [he])
  simpa using this

/-- What the function reads matches. -/
def SoundIn (M : List Rune → List Rune → List Rune → Prop) (f : St → List St) : Prop :=
  ∀ b s s', s.prev = b.getLast? → s' ∈ f s → ∃ u a, M b u a ∧ ReadsIn b u a s s'

theorem plusLoop_match (hf : SoundIn M f) {g : Bool} {fuel : Nat} {b : List Rune} {s s' : St} (hb : s.prev = b.getLast?)
    (h : s' ∈ plusLoop g f fuel s) : ∃ us a, us ≠ [] ∧ Pieces M b us a ∧ ReadsIn b us.flatten a s s' := by
  induction fuel generalizing s b with
  | zero =>
    obtain ⟨u, a, hu, hr⟩ := hf _ _ _ hb h
    exact ⟨[u], a, by simp, .single hu, by simpa using hr⟩
  | succ fuel ih =>
    simp only [plusLoop, List.mem_flatMap] at h
    obtain ⟨t, ht, h⟩ := h
    obtain ⟨u, a, hu, hr⟩ := hf _ _ _ hb ht
    have key : s' = t ∨ s' ∈ plusLoop g f fuel t := by
      split at h
      · exact quest_mem h
      · exact .inl (by simpa using h)
    rcases key with rfl | h
    · exact ⟨[u], a, by simp, .single hu, by simpa using hr⟩
    · obtain ⟨us, a', _, h1, h2⟩ := ih hr.2.1 h
      obtain ⟨rfl, h3⟩ := hr.trans h2
      exact ⟨u :: us, a', by simp, .cons hu h1, by simpa using h3⟩

theorem starLoop_match (hf : SoundIn M f) {g : Bool} {b : List Rune} {s s' : St} (hb : s.prev = b.getLast?)
    (h : s' ∈ starLoop g f s) : ∃ us a, Pieces M b us a ∧ ReadsIn b us.flatten a s s' := by
  rcases quest_mem h with rfl | h
  · exact ⟨[], _, .nil, .refl hb⟩
  · obtain ⟨us, a, _, h⟩ := plusLoop_match hf hb h
    exact ⟨us, a, h⟩

theorem times_match (hf : SoundIn M f) {n : Nat} {b : List Rune} {s s' : St} (hb : s.prev = b.getLast?)
    (h : s' ∈ times f n s) : ∃ us a, us.length = n ∧ Pieces M b us a ∧ ReadsIn b us.flatten a s s' := by
  induction n generalizing s b with
  | zero => simp [times] at h; subst h; exact ⟨[], _, rfl, .nil, .refl hb⟩
  | succ n ih =>
    simp only [times, List.mem_flatMap] at h
    obtain ⟨t, ht, h⟩ := h
    obtain ⟨u, a, hu, hr⟩ := hf _ _ _ hb ht
    obtain ⟨us, a', h0, h1, h2⟩ := ih hr.2.1 h
    obtain ⟨rfl, h3⟩ := hr.trans h2
    exact ⟨u :: us, a', by simp [h0], .cons hu h1, by simpa using h3⟩

theorem upTo_match (hf : SoundIn M f) {g : Bool} {n : Nat} {b : List Rune} {s s' : St} (hb : s.prev = b.getLast?)
    (h : s' ∈ upTo g f n s) : ∃ us a, us.length ≤ n ∧ Pieces M b us a ∧ ReadsIn b us.flatten a s s' := by
  induction n generalizing s b with
  | zero => simp [upTo] at h; subst h; exact ⟨[], _, by simp, .nil, .refl hb⟩
  | succ n ih =>
    unfold upTo at h
    rcases quest_mem h with rfl | h
    · exact ⟨[], _, by simp, .nil, .refl hb⟩
    · obtain ⟨t, ht, h⟩ := List.mem_flatMap.1 h
      obtain ⟨u, a, hu, hr⟩ := hf _ _ _ hb ht
      obtain ⟨us, a', h0, h1, h2⟩ := ih hr.2.1 h
      obtain ⟨rfl, h3⟩ := hr.trans h2
      exact ⟨u :: us, a', by simpa using h0, .cons hu h1, by simpa using h3⟩

theorem Pieces.join {b a a' : List Rune} {us vs : List (List Rune)} {s t w : St} (h1 : Pieces M b us a)
    (r1 : ReadsIn b us.flatten a s t) (h2 : Pieces M (b ++ us.flatten) vs a')
    (r2 : ReadsIn (b ++ us.flatten) vs.flatten a' t w) :
    Pieces M b (us ++ vs) a' ∧ ReadsIn b (us ++ vs).flatten a' s w := by
  obtain ⟨rfl, h3⟩ := r1.trans r2
  exact ⟨h1.append h2, by simpa using h3⟩

theorem repLoop_match (hf : SoundIn M f) {g : Bool} {mn : Nat} {mx : Option Nat} (hm : ∀ m, mx = some m → mn ≤ m)
    {b : List Rune} {s s' : St} (hb : s.prev = b.getLast?) (h : s' ∈ repLoop mn mx g f s) :
    ∃ us a, mn ≤ us.length ∧ (∀ m, mx = some m → us.length ≤ m) ∧ Pieces M b us a ∧ ReadsIn b us.flatten a s s' := by
  unfold repLoop at h
  split at h
  · rename_i m
    have := hm m rfl
    obtain ⟨t, ht, h⟩ := List.mem_flatMap.1 h
    obtain ⟨us, a, h0, h1, h2⟩ := times_match hf hb ht
    obtain ⟨vs, a', k0, k1, k2⟩ := upTo_match hf h2.2.1 h
    obtain ⟨j1, j2⟩ := h1.join h2 k1 k2
    refine ⟨us ++ vs, a', by simp [h0], ?_, j1, j2⟩
    intro m' hm'
    cases hm'
    simp
    omega
  · split at h
    · obtain ⟨us, a, h1, h2⟩ := starLoop_match hf hb h
      exact ⟨us, a, Nat.zero_le _, by simp, h1, h2⟩
    · rename_i k
      obtain ⟨t, ht, h⟩ := List.mem_flatMap.1 h
      obtain ⟨us, a, h0, h1, h2⟩ := times_match hf hb ht
      obtain ⟨vs, a', k0, k1, k2⟩ := plusLoop_match hf h2.2.1 h
      obtain ⟨j1, j2⟩ := h1.join h2 k1 k2
      have : 0 < vs.length := List.length_pos_iff.2 k0
      exact ⟨us ++ vs, a', by simp [h0]; omega, by simp, j1, j2⟩

mutual
/-- The bounds of repetitions are in order. -/
def Bounded : Re → Bool
  | .cap _ r | .star _ r | .plus _ r | .quest _ r => Bounded r
  | .rep mn mx _ r => Bounded r && mx.all (fun m => decide (mn ≤ m))
  | .cat rs | .alt rs => BoundedList rs
  | _ => true
def BoundedList : List Re → Bool
  | [] => true
  | r :: rs => Bounded r && BoundedList rs
end

theorem isWord_iff {c : Rune} : isWord c = true ↔ WordChar c := by
  simp only [isWord, WordChar, Bool.or_eq_true, Bool.and_eq_true, decide_eq_true_eq, beq_iff_eq, or_assoc]

theorem head_chars (l : List (Rune × Nat)) : (chars l).head? = l.head?.map Prod.fst := by
  cases l <;> rfl

theorem atWordB_iff {b : List Rune} {s : St} (hb : s.prev = b.getLast?) :
    atWordB s = true ↔ WordEnd b (chars s.rest) := by
  have h1 : ∀ o : Option Rune, o.elim false isWord = true ↔ ∃ c, o = some c ∧ WordChar c := by
    intro o
    cases o with
    | none => simp
    | some c => simp [isWord_iff]
  have h2 : (s.rest.head?.elim false (fun p => isWord p.1)) = (chars s.rest).head?.elim false isWord := by
    rw [head_chars]
    cases s.rest.head? <;> rfl
  rw [atWordB, h2, hb, WordEnd, ← h1, ← h1]
  generalize b.getLast?.elim false isWord = x
  generalize (chars s.rest).head?.elim false isWord = y
  revert x y
  decide

theorem one_match {p : Rune → Bool} {b : List Rune} {s s' : St} (hb : s.prev = b.getLast?) (h : s' ∈ one p s) :
    ∃ c, p c = true ∧ ReadsIn b [c] (chars s'.rest) s s' := by
  obtain ⟨c, hc, hr⟩ := one_reads h
  exact ⟨c, hc, readsIn_of hb hr (adv_along.one h)⟩

mutual
/-- What is read matches where it stands. -/
theorem run_match : ∀ (r : Re), Bounded r = true → SoundIn (Match r) (run r)
  | .noMatch, _, b, s, s', hb, h => by simp [run] at h
  | .empty, _, b, s, s', hb, h => by simp [run] at h; subst h; exact ⟨[], _, .empty, .refl hb⟩
  | .lit rs, _, b, s, s', hb, h =>
    ⟨rs, _, .lit rs, readsIn_of hb (lits_reads (by simpa [run] using h)) (run_adv h)⟩
  | .cls _ _, _, b, s, s', hb, h => by
    obtain ⟨c, hc, hr⟩ := one_match hb (by simpa only [run] using h)
    exact ⟨_, _, .cls (cls_iff.1 hc), hr⟩
  | .anyNotNL, _, b, s, s', hb, h => by
    obtain ⟨c, hc, hr⟩ := one_match hb (by simpa only [run] using h)
    exact ⟨_, _, .anyNotNL (by simpa using hc), hr⟩
  | .any, _, b, s, s', hb, h => by
    obtain ⟨c, hc, hr⟩ := one_match hb (by simpa only [run] using h)
    exact ⟨_, _, .any c, hr⟩
  | .beginText, _, b, s, s', hb, h => by
    obtain ⟨rfl, hc⟩ := check_mem (by simpa only [run] using h)
    rw [hb] at hc
    have : b = [] := by simpa using hc
    subst this
    exact ⟨[], _, .beginText, .refl hb⟩
  | .endText, _, b, s, s', hb, h => by
    obtain ⟨rfl, hc⟩ := check_mem (by simpa only [run] using h)
    refine ⟨[], _, ?_, .refl hb⟩
    have : s'.rest = [] := by simpa using hc
    rw [this]
    exact .endText
  | .beginLine, _, b, s, s', hb, h => by
    obtain ⟨rfl, hc⟩ := check_mem (by simpa only [run] using h)
    refine ⟨[], _, .beginLine ?_, .refl hb⟩
    intro c he
    rw [hb, he] at hc
    simpa using hc
  | .endLine, _, b, s, s', hb, h => by
    obtain ⟨rfl, hc⟩ := check_mem (by simpa only [run] using h)
    refine ⟨[], _, .endLine ?_, .refl hb⟩
    intro c he
    rw [head_chars, Option.map_eq_some_iff] at he
    obtain ⟨q, h1, rfl⟩ := he
    rw [h1] at hc
    simpa using hc
  | .wordB, _, b, s, s', hb, h => by
    obtain ⟨rfl, hc⟩ := check_mem (by simpa only [run] using h)
    exact ⟨[], _, .wordB ((atWordB_iff hb).1 hc), .refl hb⟩
  | .noWordB, _, b, s, s', hb, h => by
    obtain ⟨rfl, hc⟩ := check_mem (by simpa only [run] using h)
    exact ⟨[], _, .noWordB (fun hw => by rw [(atWordB_iff hb).2 hw] at hc; simp at hc), .refl hb⟩
  | .cap i r, hp, b, s, s', hb, h => by
    rw [run, List.mem_map] at h
    obtain ⟨t, ht, rfl⟩ := h
    obtain ⟨u, a, hu, h1, h2, h3, h4⟩ := run_match r (by simpa [Bounded] using hp) b (setCap (2 * i) s) t hb ht
    exact ⟨u, a, .cap hu, h1, h2, h3, h4.congr rfl rfl⟩
  | .star g r, hp, b, s, s', hb, h => by
    obtain ⟨us, a, h1, h2⟩ := starLoop_match (run_match r (by simpa [Bounded] using hp)) hb (by simpa only [run] using h)
    exact ⟨_, a, .star us h1, h2⟩
  | .plus g r, hp, b, s, s', hb, h => by
    obtain ⟨us, a, h0, h1, h2⟩ := plusLoop_match (run_match r (by simpa [Bounded] using hp)) hb (by simpa only [run] using h)
    exact ⟨_, a, .plus us h0 h1, h2⟩
  | .quest g r, hp, b, s, s', hb, h => by
    rw [run] at h
    rcases quest_mem h with rfl | h
    · exact ⟨[], _, .skip, .refl hb⟩
    · obtain ⟨u, a, hu, hr⟩ := run_match r (by simpa [Bounded] using hp) _ _ _ hb h
      exact ⟨u, a, .quest hu, hr⟩
  | .rep mn mx g r, hp, b, s, s', hb, h => by
    simp only [Bounded, Bool.and_eq_true] at hp
    obtain ⟨us, a, h0, h1, h2, h3⟩ := repLoop_match (mn := mn) (mx := mx) (run_match r hp.1)
      (by intro m hm; subst hm; simpa using hp.2) hb (by simpa only [run] using h)
    exact ⟨_, a, .rep us h0 h1 h2, h3⟩
  | .cat rs, hp, b, s, s', hb, h => runCat_match rs (by simpa [Bounded] using hp) b s s' hb (by simpa only [run] using h)
  | .alt rs, hp, b, s, s', hb, h => by
    obtain ⟨r, hr, u, a, hu, hd⟩ := runAlt_match rs (by simpa [Bounded] using hp) b s s' hb (by simpa only [run] using h)
    exact ⟨u, a, .alt hr hu, hd⟩
theorem runCat_match : ∀ (rs : List Re), BoundedList rs = true → SoundIn (Match (.cat rs)) (runCat rs)
  | [], _, b, s, s', hb, h => by simp [runCat] at h; subst h; exact ⟨[], _, .nil, .refl hb⟩
  | r :: rs, hp, b, s, s', hb, h => by
    simp only [BoundedList, Bool.and_eq_true] at hp
    simp only [runCat, List.mem_flatMap] at h
    obtain ⟨t, ht, h⟩ := h
    obtain ⟨u, a, hu, hr⟩ := run_match r hp.1 _ _ _ hb ht
    obtain ⟨v, a', hv, hs⟩ := runCat_match rs hp.2 _ _ _ hr.2.1 h
    obtain ⟨rfl, h3⟩ := hr.trans hs
    exact ⟨u ++ v, a', .cons hu hv, h3⟩
theorem runAlt_match : ∀ (rs : List Re), BoundedList rs = true → ∀ b s s', s.prev = b.getLast? → s' ∈ runAlt rs s →
    ∃ r ∈ rs, ∃ u a, Match r b u a ∧ ReadsIn b u a s s'
  | [], _, b, s, s', hb, h => by simp [runAlt] at h
  | r :: rs, hp, b, s, s', hb, h => by
    simp only [BoundedList, Bool.and_eq_true] at hp
    simp only [runAlt, List.mem_append] at h
    rcases h with h | h
    · obtain ⟨u, a, hu, hr⟩ := run_match r hp.1 _ _ _ hb h
      exact ⟨r, by simp, u, a, hu, hr⟩
    · obtain ⟨r', hr', u, a, hu, hr⟩ := runAlt_match rs hp.2 _ _ _ hb h
      exact ⟨r', by simp [hr'], u, a, hu, hr⟩
end

/-! ## Every text that matches is read -/

/-- The function reads the text `u` between `b` and `a`. -/
def CoversIn (f : St → List St) (b u a : List Rune) : Prop :=
  ∀ (s : St) l t, s.prev = b.getLast? → s.rest = l ++ t → chars l = u → chars t = a →
    ∃ s' ∈ f s, s'.rest = t ∧ s'.prev = (b ++ u).getLast?

theorem coversIn_of_run {r : Re} {b u a : List Rune}
    (h : ∀ (s : St) l t, s.prev = b.getLast? → s.rest = l ++ t → chars l = u → chars t = a →
      ∃ s' ∈ run r s, s'.rest = t) : CoversIn (run r) b u a := by
  intro s l t h1 h2 h3 h4
  obtain ⟨s', h5, h6⟩ := h s l t h1 h2 h3 h4
  refine ⟨s', h5, h6, ?_⟩
  have := readsIn_of (b := b) h1 (u := u) ⟨l, by rw [h6, h2], h3⟩ (run_adv h5)
  exact this.2.1

theorem split_chars {a b : List Rune} {l : List (Rune × Nat)} (h : chars l = a ++ b) :
    ∃ l1 l2, l = l1 ++ l2 ∧ chars l1 = a ∧ chars l2 = b := split_text h

theorem plusLoop_coversIn_aux {g : Bool} : ∀ (us : List (List Rune)) (b a : List Rune), us ≠ [] →
    Pieces (CoversIn f) b us a → (∀ u ∈ us, u ≠ []) →
    ∀ (fuel : Nat), us.length ≤ fuel + 1 → CoversIn (plusLoop g f fuel) b us.flatten a
  | [], _, _, h, _, _, _, _ => absurd rfl h
  | [u], b, a, _, hf, hu, fuel, _ => by
    intro s l t hb h hl ht
    obtain ⟨s', h1, h2, h3⟩ := hf.head s l t hb h (by simpa using hl) (by simpa using ht)
    refine ⟨s', ?_, h2, by simpa using h3⟩
    cases fuel with
    | zero => exact h1
    | succ fuel =>
      simp only [plusLoop, List.mem_flatMap]
      refine ⟨s', h1, ?_⟩
      split
      · exact mem_greedy (.inl rfl)
      · simp
  | u :: u' :: us, b, a, _, hf, hu, fuel, hfl => by
    intro s l t hb h hl ht
    obtain ⟨fuel, rfl⟩ : ∃ k, fuel = k + 1 := ⟨fuel - 1, by simp at hfl; omega⟩
    rw [List.flatten_cons] at hl
    obtain ⟨l1, l2, rfl, hl1, hl2⟩ := split_chars hl
    obtain ⟨s1, h1, h2, h2'⟩ := hf.head s l1 (l2 ++ t) hb (by simpa using h) hl1
      (by rw [chars_append, hl2, ht])
    obtain ⟨s', h3, h4, h5⟩ := plusLoop_coversIn_aux (g := g) (u' :: us) (b ++ u) a (by simp) hf.tail
      (fun v hv => hu v (by simp at hv ⊢; exact .inr hv)) fuel (by simpa using hfl) s1 l2 t h2' h2 hl2 ht
    refine ⟨s', ?_, h4, by simpa using h5⟩
    simp only [plusLoop, List.mem_flatMap]
    refine ⟨s1, h1, ?_⟩
    have hlt : s1.rest.length < s.rest.length := by
      have hne : l1 ≠ [] := by
        intro h0; subst h0
        exact hu u (by simp) (by simpa [chars] using hl1.symm)
      have := List.length_pos_iff.2 hne
      rw [h2, h]; simp; omega
    rw [if_pos hlt]
    exact mem_greedy (.inr h3)

theorem pieces_filter {b a : List Rune} {us : List (List Rune)} (h : Pieces M b us a) :
    Pieces M b (us.filter (fun u => !u.isEmpty)) a := by
  induction us generalizing b with
  | nil => exact h
  | cons u us ih =>
    cases hu : u.isEmpty with
    | true =>
      have : u = [] := by simpa using hu
      subst this
      simpa using ih h.tail
    | false =>
      rw [List.filter_cons_of_pos (by simp [hu])]
      exact .cons (by rw [flatten_filter]; exact h.head) (ih h.tail)

theorem plusLoop_coversIn {g : Bool} {b a : List Rune} {us : List (List Rune)} (h0 : us ≠ [])
    (hf : Pieces (CoversIn f) b us a) : CoversIn (fun s => plusLoop g f s.rest.length s) b us.flatten a := by
  intro s l t hb h hl ht
  by_cases hn : us.filter (fun u => !u.isEmpty) = []
  · have hfl : us.flatten = [] := by rw [← flatten_filter, hn]; rfl
    rw [hfl] at hl
    have : l = [] := by simpa [chars] using hl
    subst this
    obtain ⟨u, us', rfl⟩ := List.exists_cons_of_ne_nil h0
    have hu : u = [] ∧ us'.flatten = [] := by
      rw [List.flatten_cons, List.append_eq_nil_iff] at hfl; exact hfl
    obtain ⟨rfl, hu'⟩ := hu
    obtain ⟨s', k1, k2, k3⟩ := hf.head s [] t hb (by simpa using h) rfl (by rw [hu']; simpa using ht)
    refine ⟨s', ?_, k2, by rw [hfl]; exact k3⟩
    show s' ∈ plusLoop g f s.rest.length s
    cases s.rest.length with
    | zero => exact k1
    | succ fuel =>
      simp only [plusLoop, List.mem_flatMap]
      refine ⟨s', k1, ?_⟩
      split
      · exact mem_greedy (.inl rfl)
      · simp
  · rw [← flatten_filter]
    refine plusLoop_coversIn_aux _ b a hn (pieces_filter hf) ?_ _ ?_ s l t hb h (by rw [flatten_filter]; exact hl) ht
    · intro u hu
      simp only [List.mem_filter, Bool.not_eq_true', List.isEmpty_eq_false_iff] at hu
      exact hu.2
    · have := length_le_flatten (us.filter (fun u => !u.isEmpty)) (by
        intro u hu
        simp only [List.mem_filter, Bool.not_eq_true', List.isEmpty_eq_false_iff] at hu
        exact hu.2)
      rw [flatten_filter, ← hl] at this
      rw [h]
      simp [chars] at this ⊢
      omega

theorem starLoop_coversIn {g : Bool} {b a : List Rune} {us : List (List Rune)}
    (hf : Pieces (CoversIn f) b us a) : CoversIn (starLoop g f) b us.flatten a := by
  intro s l t hb h hl ht
  unfold starLoop
  by_cases h0 : us = []
  · subst h0
    have : l = [] := by simpa [chars] using hl
    subst this
    exact ⟨s, mem_greedy (.inl rfl), by simpa using h, by simpa using hb⟩
  · obtain ⟨s', k1, k2⟩ := plusLoop_coversIn (g := g) h0 hf s l t hb h hl ht
    exact ⟨s', mem_greedy (.inr k1), k2⟩

theorem times_coversIn : ∀ (us : List (List Rune)) (b a : List Rune), Pieces (CoversIn f) b us a →
    CoversIn (times f us.length) b us.flatten a
  | [], b, a, _ => by
    intro s l t hb h hl ht
    have : l = [] := by simpa [chars] using hl
    subst this
    exact ⟨s, by simp [times], by simpa using h, by simpa using hb⟩
  | u :: us, b, a, hf => by
    intro s l t hb h hl ht
    rw [List.flatten_cons] at hl
    obtain ⟨l1, l2, rfl, hl1, hl2⟩ := split_chars hl
    obtain ⟨s1, h1, h2, h2'⟩ := hf.head s l1 (l2 ++ t) hb (by simpa using h) hl1 (by rw [chars_append, hl2, ht])
    obtain ⟨s', h3, h4, h5⟩ := times_coversIn us _ a hf.tail s1 l2 t h2' h2 hl2 ht
    exact ⟨s', by simp only [List.length_cons, times, List.mem_flatMap]; exact ⟨s1, h1, h3⟩, h4, by simpa using h5⟩

theorem upTo_coversIn {g : Bool} : ∀ (us : List (List Rune)) (n : Nat) (b a : List Rune), us.length ≤ n →
    Pieces (CoversIn f) b us a → CoversIn (upTo g f n) b us.flatten a
  | [], n, b, a, _, _ => by
    intro s l t hb h hl ht
    have : l = [] := by simpa [chars] using hl
    subst this
    refine ⟨s, ?_, by simpa using h, by simpa using hb⟩
    cases n with
    | zero => simp [upTo]
    | succ n => unfold upTo; exact mem_greedy (.inl rfl)
  | u :: us, n, b, a, hn, hf => by
    intro s l t hb h hl ht
    obtain ⟨n, rfl⟩ : ∃ k, n = k + 1 := ⟨n - 1, by simp at hn; omega⟩
    rw [List.flatten_cons] at hl
    obtain ⟨l1, l2, rfl, hl1, hl2⟩ := split_chars hl
    obtain ⟨s1, h1, h2, h2'⟩ := hf.head s l1 (l2 ++ t) hb (by simpa using h) hl1 (by rw [chars_append, hl2, ht])
    obtain ⟨s', h3, h4, h5⟩ := upTo_coversIn (g := g) us n _ a (by simpa using hn) hf.tail s1 l2 t h2' h2 hl2 ht
    refine ⟨s', ?_, h4, by simpa using h5⟩
    unfold upTo
    exact mem_greedy (.inr (List.mem_flatMap.2 ⟨s1, h1, h3⟩))

theorem repLoop_coversIn {g : Bool} {mn : Nat} {mx : Option Nat} {b a : List Rune} {us : List (List Rune)}
    (h0 : mn ≤ us.length) (hm : ∀ m, mx = some m → us.length ≤ m) (hf : Pieces (CoversIn f) b us a) :
    CoversIn (repLoop mn mx g f) b us.flatten a := by
  intro s l t hb h hl ht
  have cut : ∀ k, k ≤ us.length → ∃ l1 l2, l = l1 ++ l2 ∧ chars l1 = (us.take k).flatten ∧
      chars l2 = (us.drop k).flatten := by
    intro k _
    refine split_chars ?_
    rw [hl, ← List.flatten_append, List.take_append_drop]
  have two : ∀ k, Pieces (CoversIn f) b (us.take k) ((us.drop k).flatten ++ a) ∧
      Pieces (CoversIn f) (b ++ (us.take k).flatten) (us.drop k) a := by
    intro k
    have h' := hf
    rw [← List.take_append_drop k us] at h'
    exact ⟨h'.left, h'.right⟩
  have whole : ∀ k, b ++ (us.take k).flatten ++ (us.drop k).flatten = b ++ us.flatten := by
    intro k
    rw [List.append_assoc, ← List.flatten_append, List.take_append_drop]
  unfold repLoop
  split
  · rename_i m
    obtain ⟨l1, l2, rfl, hl1, hl2⟩ := cut mn h0
    obtain ⟨s1, h1, h2, h2'⟩ := times_coversIn (us.take mn) b _ (two mn).1 s l1 (l2 ++ t) hb (by simpa using h) hl1
      (by rw [chars_append, hl2, ht])
    rw [List.length_take, Nat.min_eq_left h0] at h1
    obtain ⟨s', h3, h4, h5⟩ := upTo_coversIn (g := g) (us.drop mn) (m - mn) _ a (by have := hm m rfl; simp; omega)
      (two mn).2 s1 l2 t h2' h2 hl2 ht
    exact ⟨s', List.mem_flatMap.2 ⟨s1, h1, h3⟩, h4, by rw [h5, whole]⟩
  · split
    · exact starLoop_coversIn hf s l t hb h hl ht
    · rename_i k
      obtain ⟨l1, l2, rfl, hl1, hl2⟩ := cut k (by omega)
      obtain ⟨s1, h1, h2, h2'⟩ := times_coversIn (us.take k) b _ (two k).1 s l1 (l2 ++ t) hb (by simpa using h) hl1
        (by rw [chars_append, hl2, ht])
      rw [List.length_take, Nat.min_eq_left (by omega)] at h1
      have hne : us.drop k ≠ [] := by
        intro hd
        have := List.drop_eq_nil_iff.1 hd
        omega
      obtain ⟨s', h3, h4, h5⟩ := plusLoop_coversIn (g := g) hne (two k).2 s1 l2 t h2' h2 hl2 ht
      exact ⟨s', List.mem_flatMap.2 ⟨s1, h1, h3⟩, h4, by rw [h5, whole]⟩

/-- Every text that matches where it stands is read there. -/
theorem run_coversIn {r : Re} {b u a : List Rune} (h : Match r b u a) : CoversIn (run r) b u a := by
  induction h with
  | empty =>
    intro s l t hb h hl ht
    have : l = [] := by simpa [chars] using hl
    subst this
    exact ⟨s, by simp [run], by simpa using h, by simpa using hb⟩
  | lit rs => exact coversIn_of_run fun s l t hb h hl ht => by simpa [run] using lits_covers h hl
  | cls hc => exact coversIn_of_run fun s l t hb h hl ht => by simpa only [run] using one_covers (cls_iff.2 hc) h hl
  | anyNotNL hc =>
    exact coversIn_of_run fun s l t hb h hl ht => by simpa only [run] using one_covers (by simpa using hc) h hl
  | any c =>
    exact coversIn_of_run fun s l t hb h hl ht => by simpa only [run] using one_covers (p := fun _ => true) rfl h hl
  | beginText =>
    intro s l t hb h hl ht
    have : l = [] := by simpa [chars] using hl
    subst this
    refine ⟨s, ?_, by simpa using h, by simpa using hb⟩
    have : s.prev = none := by simpa using hb
    simp [run, check, this]
  | endText =>
    intro s l t hb h hl ht
    have : l = [] := by simpa [chars] using hl
    subst this
    refine ⟨s, ?_, by simpa using h, by simpa using hb⟩
    have : t = [] := by simpa [chars] using ht
    subst this
    have : s.rest = [] := by simpa using h
    simp [run, check, this]
  | beginLine hc =>
    intro s l t hb h hl ht
    have : l = [] := by simpa [chars] using hl
    subst this
    refine ⟨s, ?_, by simpa using h, by simpa using hb⟩
    have : s.prev.elim true (· == 0x0A) = true := by
      rw [hb]
      cases he : (_ : List Rune).getLast? with
      | none => rfl
      | some c => simp [hc c he]
    simp [run, check, this]
  | endLine hc =>
    intro s l t hb h hl ht
    have : l = [] := by simpa [chars] using hl
    subst this
    have e : s.rest = t := by simpa using h
    refine ⟨s, ?_, e, by simpa using hb⟩
    have : s.rest.head?.elim true (·.1 == 0x0A) = true := by
      rw [e]
      cases he : t.head? with
      | none => rfl
      | some c => simp [hc c.1 (by rw [← ht, head_chars, he]; rfl)]
    simp [run, check, this]
  | wordB hc =>
    intro s l t hb h hl ht
    have : l = [] := by simpa [chars] using hl
    subst this
    have e : s.rest = t := by simpa using h
    refine ⟨s, ?_, e, by simpa using hb⟩
    have : atWordB s = true := (atWordB_iff hb).2 (by rw [e, ht]; exact hc)
    simp [run, check, this]
  | noWordB hc =>
    intro s l t hb h hl ht
    have : l = [] := by simpa [chars] using hl
    subst this
    have e : s.rest = t := by simpa using h
    refine ⟨s, ?_, e, by simpa using hb⟩
    have : atWordB s = false := by
      rw [Bool.eq_false_iff]
      intro hw
      have := (atWordB_iff hb).1 hw
      rw [e, ht] at this
      exact hc this
    simp [run, check, this]
  | @cap i r _ u _ _ ih =>
    refine coversIn_of_run fun s l t hb h hl ht => ?_
    obtain ⟨s', h1, h2, _⟩ := ih (setCap (2 * i) s) l t hb h hl ht
    exact ⟨setCap (2 * i + 1) s', by rw [run, List.mem_map]; exact ⟨s', h1, rfl⟩, h2⟩
  | star us hu ih =>
    intro s l t hb h hl ht
    rw [run]
    exact starLoop_coversIn ih s l t hb h hl ht
  | plus us h0 hu ih =>
    intro s l t hb h hl ht
    rw [run]
    exact plusLoop_coversIn h0 ih s l t hb h hl ht
  | quest _ ih =>
    intro s l t hb h hl ht
    obtain ⟨s', h1, h2⟩ := ih s l t hb h hl ht
    exact ⟨s', by rw [run]; exact mem_greedy (.inr h1), h2⟩
  | skip =>
    intro s l t hb h hl ht
    have : l = [] := by simpa [chars] using hl
    subst this
    exact ⟨s, by rw [run]; exact mem_greedy (.inl rfl), by simpa using h, by simpa using hb⟩
  | rep us h0 h1 hu ih =>
    intro s l t hb h hl ht
    rw [run]
    exact repLoop_coversIn h0 h1 ih s l t hb h hl ht
  | nil =>
    intro s l t hb h hl ht
    have : l = [] := by simpa [chars] using hl
    subst this
    exact ⟨s, by simp [run, runCat], by simpa using h, by simpa using hb⟩
  | cons _ _ ih1 ih2 =>
    intro s l t hb h hl ht
    obtain ⟨l1, l2, rfl, hl1, hl2⟩ := split_chars hl
    obtain ⟨s1, k1, k2, k2'⟩ := ih1 s l1 (l2 ++ t) hb (by simpa using h) hl1 (by rw [chars_append, hl2, ht])
    obtain ⟨s2, k3, k4, k5⟩ := ih2 s1 l2 t k2' k2 hl2 ht
    rw [run] at k3
    exact ⟨s2, by rw [run, runCat, List.mem_flatMap]; exact ⟨s1, k1, k3⟩, k4, by simpa using k5⟩
  | @alt r rs _ u _ hr _ ih =>
    intro s l t hb h hl ht
    obtain ⟨s', h1, h2⟩ := ih s l t hb h hl ht
    refine ⟨s', ?_, h2⟩
    rw [run]
    clear ih h
    induction rs with
    | nil => simp at hr
    | cons r' rs ih =>
      rw [runAlt, List.mem_append]
      rcases List.mem_cons.1 hr with rfl | hr
      · exact .inl h1
      · exact .inr (ih hr)

/-! ## Expressions have bounds in order -/

namespace Bounds

/-- A token that brings no repetition with bounds out of order. -/
def tokBounded : Tok → Bool
  | .rep mn mx _ => mx.all (fun m => decide (mn ≤ m))
  | .re r => Bounded r
  | _ => true

theorem escapeTok_bounded {c : Rune} {tok : Tok} (h : escapeTok c = .ok tok) : tokBounded tok = true := by
  unfold escapeTok at h
  split at h
  · simp at h; subst h; rfl
  · repeat' split at h
    all_goals first | (simp at h; done) | (simp at h; subst h; rfl) | skip
    simp only [go_bind_ok] at h
    obtain ⟨_, _, h⟩ := h
    simp at h; subst h; rfl

theorem lexClass_bounded {t : List Rune} {tok : Tok} {n : Nat} (h : lexClass t = .ok (tok, n)) :
    tokBounded tok = true := by
  unfold lexClass at h
  split at h
  all_goals
    simp only [go_bind_ok, Prod.exists, Go.ok.injEq, Prod.mk.injEq] at h
    obtain ⟨_, _, _, rfl, _⟩ := h
    rfl

theorem lexOne_bounded {c : Rune} {t : List Rune} {tok : Tok} {n : Nat}
    (h : lexOne c t = .ok (tok, n)) : tokBounded tok = true := by
  unfold lexOne at h
  by_cases c1 : c = 0x28
  · rw [if_pos c1] at h
    split at h
    · simp at h; obtain ⟨rfl, _⟩ := h; rfl
    · split at h
      · simp only [go_bind_ok, Go.ok.injEq, Prod.mk.injEq] at h
        obtain ⟨_, _, rfl, _⟩ := h; rfl
      · split at h
        · simp at h
        · simp at h; obtain ⟨rfl, _⟩ := h; rfl
  rw [if_neg c1] at h
  by_cases c2 : c = 0x29
  · rw [if_pos c2] at h; simp at h; obtain ⟨rfl, _⟩ := h; rfl
  rw [if_neg c2] at h
  by_cases c3 : c = 0x7C
  · rw [if_pos c3] at h; simp at h; obtain ⟨rfl, _⟩ := h; rfl
  rw [if_neg c3] at h
  by_cases c4 : c = 0x5E
  · rw [if_pos c4] at h; simp at h; obtain ⟨rfl, _⟩ := h; rfl
  rw [if_neg c4] at h
  by_cases c5 : c = 0x24
  · rw [if_pos c5] at h; simp at h; obtain ⟨rfl, _⟩ := h; rfl
  rw [if_neg c5] at h
  by_cases c6 : c = 0x2E
  · rw [if_pos c6] at h; simp at h; obtain ⟨rfl, _⟩ := h; rfl
  rw [if_neg c6] at h
  by_cases c7 : c = 0x2A
  · rw [if_pos c7] at h; simp at h; obtain ⟨rfl, _⟩ := h; rfl
  rw [if_neg c7] at h
  by_cases c8 : c = 0x2B
  · rw [if_pos c8] at h; simp at h; obtain ⟨rfl, _⟩ := h; rfl
  rw [if_neg c8] at h
  by_cases c9 : c = 0x3F
  · rw [if_pos c9] at h; simp at h; obtain ⟨rfl, _⟩ := h; rfl
  rw [if_neg c9] at h
  by_cases c10 : c = 0x5B
  · rw [if_pos c10] at h; exact lexClass_bounded h
  rw [if_neg c10] at h
  by_cases c11 : c = 0x7B
  · rw [if_pos c11] at h
    split at h
    · simp at h; obtain ⟨rfl, _⟩ := h; rfl
    · rename_i mn mx n _
      split at h
      · simp at h
      · rename_i hm
        simp only [Go.ok.injEq, Prod.mk.injEq] at h
        obtain ⟨rfl, _⟩ := h
        cases mx with
        | none => rfl
        | some m => simp at hm; simp [tokBounded]; omega
  rw [if_neg c11] at h
  by_cases c12 : c = 0x5C
  · rw [if_pos c12] at h
    cases t with
    | nil => simp at h
    | cons e t =>
      simp only [go_bind_ok, Go.ok.injEq, Prod.mk.injEq] at h
      obtain ⟨_, h0, rfl, _⟩ := h
      exact escapeTok_bounded h0
  · rw [if_neg c12] at h; simp at h; obtain ⟨rfl, _⟩ := h; rfl

theorem lexFrom_bounded : ∀ (k : Nat) (a : List Rune) (ts : List Tok),
    lexFrom k a = .ok ts → ∀ t ∈ ts, tokBounded t = true
  | _, [], ts, h => by simp [lexFrom] at h; subst h; simp
  | k + 1, c :: t, ts, h => lexFrom_bounded k t ts (by simpa [lexFrom] using h)
  | 0, c :: t, ts, h => by
      simp only [lexFrom, go_bind_ok] at h
      obtain ⟨⟨tok, n⟩, h1, us, h2, h3⟩ := h
      simp at h3
      subst h3
      intro x hx
      rcases List.mem_cons.1 hx with rfl | hx
      · exact lexOne_bounded h1
      · exact lexFrom_bounded n t us h2 x hx

theorem boundedList_iff {rs : List Re} : BoundedList rs = true ↔ ∀ r ∈ rs, Bounded r = true := by
  induction rs with
  | nil => simp [BoundedList]
  | cons r rs ih => simp [BoundedList, ih]

theorem mkCat_bounded {rs : List Re} (h : ∀ r ∈ rs, Bounded r = true) : Bounded (mkCat rs) = true := by
  unfold mkCat
  split
  · rfl
  · exact h _ (by simp)
  · simp only [Bounded, boundedList_iff]; exact fun r hr => h r (by simpa using hr)

theorem mkAlt_bounded {rs : List Re} (h : ∀ r ∈ rs, Bounded r = true) : Bounded (mkAlt rs) = true := by
  unfold mkAlt
  split
  · exact h _ (by simp)
  · simp only [Bounded, boundedList_iff]; exact fun r hr => h r (by simpa using hr)

/-- Everything parsed so far has its bounds in order. -/
def frameBounded (f : Frame) : Prop := (∀ r ∈ f.alts, Bounded r = true) ∧ ∀ r ∈ f.cat, Bounded r = true

theorem frameBounded.body {f : Frame} (h : frameBounded f) : Bounded f.body = true := by
  unfold Frame.body
  refine mkAlt_bounded fun r hr => ?_
  rcases List.mem_cons.1 hr with rfl | hr
  · exact mkCat_bounded h.2
  · exact h.1 r hr

theorem frameBounded.close {f : Frame} (h : frameBounded f) : Bounded f.close = true := by
  unfold Frame.close
  split
  · simpa [Bounded] using h.body
  · exact h.body

def pstBounded (st : PSt) : Prop := frameBounded st.cur ∧ ∀ f ∈ st.stack, frameBounded f

theorem pstBounded.push {st : PSt} {r : Re} (h : pstBounded st) (hr : Bounded r = true) : pstBounded (st.push r) := by
  refine ⟨⟨h.1.1, fun x hx => ?_⟩, h.2⟩
  rcases List.mem_cons.1 hx with rfl | hx
  · exact hr
  · exact h.1.2 x hx

theorem pstep_bounded {st st' : PSt} {t : Tok} (ht : tokBounded t = true) (hs : pstBounded st)
    (h : pstep st t = .ok st') : pstBounded st' := by
  have rep : ∀ f : Re → Re, (∀ r, Bounded r = true → Bounded (f r) = true) → st.repeat f = .ok st' → pstBounded st' := by
    intro f hf h
    unfold PSt.repeat at h
    split at h
    · rename_i r rs _ hc
      simp at h; rw [← h]
      refine ⟨⟨hs.1.1, fun x hx => ?_⟩, hs.2⟩
      rcases List.mem_cons.1 hx with rfl | hx
      · exact hf _ (hs.1.2 _ (by simp [hc]))
      · exact hs.1.2 x (by simp [hc, hx])
    · simp at h
  cases t with
  | «open» =>
    simp [pstep] at h; rw [← h]
    exact ⟨⟨by simp, by simp⟩, by simpa using ⟨hs.1, hs.2⟩⟩
  | lit r => simp [pstep] at h; rw [← h]; exact hs.push rfl
  | re r => simp [pstep] at h; rw [← h]; exact hs.push ht
  | openNC =>
    simp [pstep] at h; rw [← h]
    exact ⟨⟨by simp, by simp⟩, by simpa using ⟨hs.1, hs.2⟩⟩
  | bar =>
    simp [pstep] at h; rw [← h]
    refine ⟨⟨fun x hx => ?_, by simp⟩, hs.2⟩
    rcases List.mem_cons.1 hx with rfl | hx
    · exact mkCat_bounded hs.1.2
    · exact hs.1.1 x hx
  | close =>
    simp only [pstep] at h
    split at h
    · simp at h
    · rename_i f fs hst
      simp at h; rw [← h]
      exact pstBounded.push ⟨hs.2 f (by simp [hst]), fun g hg => hs.2 g (by simp [hst, hg])⟩ hs.1.close
  | star g => exact rep _ (fun r hr => by simpa [Bounded] using hr) h
  | plus g => exact rep _ (fun r hr => by simpa [Bounded] using hr) h
  | quest g => exact rep _ (fun r hr => by simpa [Bounded] using hr) h
  | rep mn mx g =>
    simp only [tokBounded] at ht
    exact rep _ (fun r hr => by simp [Bounded, hr, ht]) h

theorem psteps_bounded {ts : List Tok} (ht : ∀ t ∈ ts, tokBounded t = true) :
    ∀ {st st' : PSt}, pstBounded st → psteps st ts = .ok st' → pstBounded st' := by
  induction ts with
  | nil => intro st st' hs h; simp [psteps] at h; rw [← h]; exact hs
  | cons t ts ih =>
    intro st st' hs h
    simp only [psteps, go_bind_ok] at h
    obtain ⟨s1, h1, h2⟩ := h
    exact ih (fun t h => ht t (by simp [h])) (pstep_bounded (ht t (by simp)) hs h1) h2

/-- The bounds of repetitions are in order. -/
theorem compile_bounded {x : Bytes} {r : Re} (h : compile x = .ok r) : Bounded r = true := by
  unfold compile at h
  split at h
  · simp only [parseRunes, go_bind_ok] at h
    obtain ⟨ts, h1, st, h2, h3⟩ := h
    have := psteps_bounded (lexFrom_bounded 0 _ _ h1)
      (st := ⟨⟨none, [], []⟩, [], 0, false⟩) ⟨⟨by simp, by simp⟩, by simp⟩ h2
    split at h3
    · simp at h3; rw [← h3]; exact this.1.body
    · simp at h3
  · simp at h

end Bounds

/-! ## Matching does not depend on the numbers of the groups -/

theorem match_pieces_congr {r r' : Re} (h : ∀ b u a, Match r b u a ↔ Match r' b u a) {b a : List Rune} {us : List (List Rune)} :
    Pieces (Match r) b us a ↔ Pieces (Match r') b us a := by
  unfold Pieces
  simp only [h]

theorem match_cap_iff {i : Nat} {r : Re} {b u a : List Rune} : Match (.cap i r) b u a ↔ Match r b u a :=
  ⟨fun h => by cases h with | cap h => exact h, .cap⟩

theorem match_star_iff {g : Bool} {r : Re} {b u a : List Rune} :
    Match (.star g r) b u a ↔ ∃ us : List (List Rune), u = us.flatten ∧ Pieces (Match r) b us a :=
  ⟨fun h => by cases h with | star us h => exact ⟨us, rfl, h⟩, fun ⟨us, h1, h2⟩ => h1 ▸ .star us h2⟩

theorem match_plus_iff {g : Bool} {r : Re} {b u a : List Rune} :
    Match (.plus g r) b u a ↔ ∃ us : List (List Rune), us ≠ [] ∧ u = us.flatten ∧ Pieces (Match r) b us a :=
  ⟨fun h => by cases h with | plus us h0 h => exact ⟨us, h0, rfl, h⟩, fun ⟨us, h0, h1, h2⟩ => h1 ▸ .plus us h0 h2⟩

theorem match_rep_iff {mn : Nat} {mx : Option Nat} {g : Bool} {r : Re} {b u a : List Rune} :
    Match (.rep mn mx g r) b u a ↔ ∃ us : List (List Rune), mn ≤ us.length ∧ (∀ m, mx = some m → us.length ≤ m) ∧
      u = us.flatten ∧ Pieces (Match r) b us a :=
  ⟨fun h => by cases h with | rep us h0 h1 h => exact ⟨us, h0, h1, rfl, h⟩,
    fun ⟨us, h0, h1, h2, h3⟩ => h2 ▸ .rep us h0 h1 h3⟩

theorem match_quest_iff {g : Bool} {r : Re} {b u a : List Rune} : Match (.quest g r) b u a ↔ u = [] ∨ Match r b u a := by
  constructor
  · intro h
    cases h with
    | quest h => exact .inr h
    | skip => exact .inl rfl
  · rintro (rfl | h)
    · exact .skip
    · exact .quest h

theorem match_cat_nil {b u a : List Rune} : Match (.cat []) b u a ↔ u = [] :=
  ⟨fun h => by cases h; rfl, fun h => h ▸ .nil⟩

theorem match_cat_cons {r : Re} {rs : List Re} {b u a : List Rune} :
    Match (.cat (r :: rs)) b u a ↔ ∃ v w, u = v ++ w ∧ Match r b v (w ++ a) ∧ Match (.cat rs) (b ++ v) w a :=
  ⟨fun h => by cases h with | cons h hs => exact ⟨_, _, rfl, h, hs⟩, fun ⟨_, _, h, h1, h2⟩ => h ▸ .cons h1 h2⟩

theorem match_cat_append {as bs : List Re} {b u a : List Rune} :
    Match (.cat (as ++ bs)) b u a ↔
      ∃ v w, u = v ++ w ∧ Match (.cat as) b v (w ++ a) ∧ Match (.cat bs) (b ++ v) w a := by
  induction as generalizing b u with
  | nil =>
    constructor
    · intro h; exact ⟨[], u, rfl, .nil, by simpa using h⟩
    · rintro ⟨v, w, rfl, h1, h2⟩
      rw [match_cat_nil] at h1
      subst h1
      simpa using h2
  | cons c as ih =>
    rw [List.cons_append, match_cat_cons]
    constructor
    · rintro ⟨v, w, rfl, h1, h2⟩
      obtain ⟨x, y, rfl, h3, h4⟩ := ih.1 h2
      exact ⟨v ++ x, y, by simp, .cons (by simpa using h1) h3, by simpa using h4⟩
    · rintro ⟨v, w, rfl, h1, h2⟩
      obtain ⟨x, y, rfl, h3, h4⟩ := match_cat_cons.1 h1
      exact ⟨x, y ++ w, by simp, by simpa using h3, ih.2 ⟨y, w, rfl, h4, by simpa using h2⟩⟩

theorem match_alt_iff {rs : List Re} {b u a : List Rune} : Match (.alt rs) b u a ↔ ∃ r ∈ rs, Match r b u a :=
  ⟨fun h => by cases h with | alt hr h => exact ⟨_, hr, h⟩, fun ⟨_, hr, h⟩ => .alt hr h⟩

mutual
theorem match_shift {k : Nat} : ∀ (r : Re) {b u a : List Rune}, Match (shiftCap k r) b u a ↔ Match r b u a
  | .noMatch, _, _, _ | .empty, _, _, _ | .lit _, _, _, _ | .cls _ _, _, _, _ | .anyNotNL, _, _, _ | .any, _, _, _
  | .beginLine, _, _, _ | .endLine, _, _, _ | .beginText, _, _, _ | .endText, _, _, _ | .wordB, _, _, _
  | .noWordB, _, _, _ => Iff.rfl
  | .cap i r, b, u, a => by simp only [shiftCap, match_cap_iff, match_shift r]
  | .star g r, b, u, a => by
    simp only [shiftCap, match_star_iff, match_pieces_congr (fun b u a => match_shift (k := k) r (b := b) (u := u) (a := a))]
  | .plus g r, b, u, a => by
    simp only [shiftCap, match_plus_iff, match_pieces_congr (fun b u a => match_shift (k := k) r (b := b) (u := u) (a := a))]
  | .quest g r, b, u, a => by simp only [shiftCap, match_quest_iff, match_shift r]
  | .rep mn mx g r, b, u, a => by
    simp only [shiftCap, match_rep_iff, match_pieces_congr (fun b u a => match_shift (k := k) r (b := b) (u := u) (a := a))]
  | .cat rs, b, u, a => by simp only [shiftCap]; exact matchCat_shift rs
  | .alt rs, b, u, a => by simp only [shiftCap, match_alt_iff]; exact matchAlt_shift rs
theorem matchCat_shift {k : Nat} : ∀ (rs : List Re) {b u a : List Rune},
    Match (.cat (shiftCapList k rs)) b u a ↔ Match (.cat rs) b u a
  | [], _, _, _ => Iff.rfl
  | r :: rs, b, u, a => by simp only [shiftCapList, match_cat_cons, match_shift r, matchCat_shift rs]
theorem matchAlt_shift {k : Nat} : ∀ (rs : List Re) {b u a : List Rune},
    (∃ r ∈ shiftCapList k rs, Match r b u a) ↔ ∃ r ∈ rs, Match r b u a
  | [], _, _, _ => by simp [shiftCapList]
  | r :: rs, b, u, a => by simp only [shiftCapList, List.mem_cons, exists_eq_or_imp, match_shift r, matchAlt_shift rs]
end

theorem match_mkCat {l : List Re} {b u a : List Rune} : Match (mkCat l) b u a ↔ Match (.cat l.reverse) b u a := by
  match l with
  | [] => exact ⟨fun h => by cases h; exact .nil, fun h => by rw [match_cat_nil.1 h]; exact .empty⟩
  | [r] =>
    simp only [mkCat, List.reverse_singleton, match_cat_cons, match_cat_nil]
    constructor
    · intro h
      exact ⟨u, [], by simp, by simpa using h, rfl⟩
    · rintro ⟨v, w, h, h1, h2⟩
      subst h2
      simp at h
      subst h
      simpa using h1
  | c :: d :: l => simp only [mkCat]

mutual
theorem bounded_shift {k : Nat} : ∀ (r : Re), Bounded (shiftCap k r) = Bounded r
  | .noMatch | .empty | .lit _ | .cls _ _ | .anyNotNL | .any | .beginLine | .endLine
  | .beginText | .endText | .wordB | .noWordB => rfl
  | .cap i r => by simp only [shiftCap, Bounded, bounded_shift r]
  | .star g r => by simp only [shiftCap, Bounded, bounded_shift r]
  | .plus g r => by simp only [shiftCap, Bounded, bounded_shift r]
  | .quest g r => by simp only [shiftCap, Bounded, bounded_shift r]
  | .rep mn mx g r => by simp only [shiftCap, Bounded, bounded_shift r]
  | .cat rs => by simp only [shiftCap, Bounded, boundedList_shift rs]
  | .alt rs => by simp only [shiftCap, Bounded, boundedList_shift rs]
theorem boundedList_shift {k : Nat} : ∀ (rs : List Re), BoundedList (shiftCapList k rs) = BoundedList rs
  | [] => rfl
  | r :: rs => by simp only [shiftCapList, BoundedList, bounded_shift r, boundedList_shift rs]
end

theorem bounded_mkCat {l : List Re} (h : Bounded (mkCat l) = true) : BoundedList l.reverse = true := by
  match l with
  | [] => rfl
  | [r] => simpa [mkCat, BoundedList] using h
  | a :: b :: l => simpa only [mkCat, Bounded] using h

end Verif.Rx
