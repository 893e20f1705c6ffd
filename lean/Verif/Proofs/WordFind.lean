import Verif.Proofs.WordShape

/-! Searching in a text of two parts separated by a space. -/

namespace Verif.Words

open Verif.Rx

open Verif.Hre

/-! ## Within the second word -/

/-- The same text at another place; what was recorded before the match proper does not matter. -/
def Late (d : Nat) (s s' : St) : Prop :=
  s'.pos = s.pos + d ∧ s'.rest = s.rest ∧ ∀ i, 5 ≤ i → s'.caps[i]? = (s.caps[i]?).map fun o => o.map (· + d)

theorem late_length {d : Nat} {s s' : St} (h : Late d s s') (i : Nat) (hi : 5 ≤ i) : i < s'.caps.length ↔ i < s.caps.length := by
  have := h.2.2 i hi
  have h1 := List.getElem?_eq_none_iff (l := s'.caps) (i := i)
  have h2 := List.getElem?_eq_none_iff (l := s.caps) (i := i)
  rw [this, Option.map_eq_none_iff, h2] at h1
  omega

theorem late_sim (d : Nat) : Sim (fun _ => True) (Late d) where
  len := by
    rintro s s' t t' ⟨_, h1, _⟩ ⟨_, h2, _⟩
    rw [h1, h2]
  one := by
    rintro s s' p ⟨h1, h2, h3⟩ _
    unfold one
    rw [h2]
    cases e : s.rest with
    | nil => exact .nil
    | cons a t =>
      obtain ⟨c, n⟩ := a
      simp only
      split
      · exact .one ⟨by simp [h1]; omega, rfl, h3⟩
      · exact .nil
  set := by
    rintro s s' i h
    refine ⟨h.1, h.2.1, fun j hj => ?_⟩
    simp only [setCap, List.getElem?_set]
    by_cases e : i = j
    · subst e
      rw [if_pos rfl, if_pos rfl]
      have := late_length h i hj
      by_cases hl : i < s.caps.length
      · rw [if_pos hl, if_pos (this.2 hl), h.1]; rfl
      · rw [if_neg hl, if_neg (fun x => hl (this.1 x))]; rfl
    · rw [if_neg e, if_neg e]
      exact h.2.2 j hj

theorem late_blanks {d : Nat} {s s' : St} (h : Late d s s') : Pairs (Late d) (run blanks s) (run blanks s') := by
  rw [run_blanks, run_blanks]
  exact steps_plusLoop (late_sim d) (fun h => (late_sim d).one _ h fun _ _ => trivial) true _ _ h (Nat.le_refl _) (Nat.le_refl _)

theorem late_inner {d : Nat} {r : Re} (hi : inner r = true) {s s' : St} (h : Late d s s') :
    Pairs (Late d) (run r s) (run r s') := steps_inner (late_sim d) (fun _ _ => trivial) r hi h

theorem late_right {d : Nat} {s s' : St} (h : Late d s s') : Pairs (Late d) (run rightEdge s) (run rightEdge s') := by
  rw [run_right, run_right]
  refine Pairs.append ?_ ((late_blanks h).append (late_inner inner_hint h))
  rw [h.2.1]
  unfold check
  split
  · exact .one h
  · exact .nil

mutual
theorem tail_late {d : Nat} : ∀ (r : Re), tail r = true → ∀ {s s' : St}, Late d s s' → Pairs (Late d) (run r s) (run r s')
  | .alt rs, ht, s, s', h => by
    simp only [tail, Bool.or_eq_true] at ht
    rcases ht with ht | ht
    · rw [isRight_eq ht]
      exact late_right h
    · simp only [run]
      exact tailAlt_late rs ht h
  | .cat rs, ht, s, s', h => by
    simp only [run]
    exact tailCat_late rs (by simpa [tail] using ht) h
  | .noMatch, ht, s, s', h => late_inner (by simpa [tail] using ht) h
  | .empty, ht, s, s', h => late_inner (by simpa [tail] using ht) h
  | .lit _, ht, s, s', h => late_inner (by simpa [tail] using ht) h
  | .cls _ _, ht, s, s', h => late_inner (by simpa [tail] using ht) h
  | .anyNotNL, ht, s, s', h => late_inner (by simpa [tail] using ht) h
  | .any, ht, s, s', h => late_inner (by simpa [tail] using ht) h
  | .beginLine, ht, s, s', h => late_inner (by simpa [tail] using ht) h
  | .endLine, ht, s, s', h => late_inner (by simpa [tail] using ht) h
  | .beginText, ht, s, s', h => late_inner (by simpa [tail] using ht) h
  | .endText, ht, s, s', h => late_inner (by simpa [tail] using ht) h
  | .wordB, ht, s, s', h => late_inner (by simpa [tail] using ht) h
  | .noWordB, ht, s, s', h => late_inner (by simpa [tail] using ht) h
  | .cap _ _, ht, s, s', h => late_inner (by simpa [tail] using ht) h
  | .star _ _, ht, s, s', h => late_inner (by simpa [tail] using ht) h
  | .plus _ _, ht, s, s', h => late_inner (by simpa [tail] using ht) h
  | .quest _ _, ht, s, s', h => late_inner (by simpa [tail] using ht) h
  | .rep _ _ _ _, ht, s, s', h => late_inner (by simpa [tail] using ht) h
theorem tailAlt_late {d : Nat} : ∀ (rs : List Re), tailAlt rs = true → ∀ {s s' : St}, Late d s s' →
    Pairs (Late d) (runAlt rs s) (runAlt rs s')
  | [], _, s, s', h => by simpa [runAlt] using Pairs.nil
  | r :: rs, ht, s, s', h => by
    simp only [tailAlt, Bool.and_eq_true] at ht
    simp only [runAlt]
    exact (tail_late r ht.1 h).append (tailAlt_late rs ht.2 h)
theorem tailCat_late {d : Nat} : ∀ (rs : List Re), tailCat rs = true → ∀ {s s' : St}, Late d s s' →
    Pairs (Late d) (runCat rs s) (runCat rs s')
  | [], _, s, s', h => by simpa [runCat] using Pairs.one h
  | [r], ht, s, s', h => by
    have := tail_late r (by simpa [tailCat] using ht) h
    simpa [runCat] using this
  | r :: r' :: rs, ht, s, s', h => by
    simp only [tailCat, Bool.and_eq_true] at ht
    rw [runCat, runCat]
    exact (late_inner ht.1 h).flatMap fun a _ b _ hab => tailCat_late (r' :: rs) ht.2 hab
end

/-! ## Marks -/

/-- The offset is recorded. -/
def Marked (i : Nat) (s : St) : Prop := ∃ p, s.caps[i]? = some (some p)

theorem marked_set {i : Nat} {s : St} (h : i < s.caps.length) : Marked i (setCap i s) := by
  exact ⟨s.pos, by simp [setCap, h]⟩

theorem Marked.set {i : Nat} {s : St} (h : Marked i s) (j : Nat) : Marked i (setCap j s) := by
  obtain ⟨p, h⟩ := h
  obtain ⟨hl, _⟩ := List.getElem?_eq_some_iff.1 h
  unfold Marked setCap
  rw [List.getElem?_set]
  split
  · subst_vars; exact ⟨_, by rw [if_pos hl]⟩
  · exact ⟨p, h⟩

theorem Marked.run {i : Nat} {r : Re} {s t : St} (h : Marked i s) (ht : t ∈ Rx.run r s) : Marked i t := by
  rcases (run_marks i ht).2 with e | ⟨u, v, _, e⟩
  · unfold Marked at *
    rwa [e]
  · exact ⟨_, e⟩

theorem Marked.runCat {i : Nat} : ∀ {rs : List Re} {s t : St}, Marked i s → t ∈ Rx.runCat rs s → Marked i t
  | [], s, t, h, ht => by simp [Rx.runCat] at ht; rwa [ht]
  | r :: rs, s, t, h, ht => by
    simp only [Rx.runCat, List.mem_flatMap] at ht
    obtain ⟨u, hu, ht⟩ := ht
    exact Marked.runCat (h.run hu) ht

/-! ## Patterns -/

/-- What is reported of two matches inside the first word agrees. -/
def Alike (n : Nat) (s s' : St) : Prop := Agree (2 * (n - 1)) s s' ∧ coreStop n s' = coreStop n s

theorem alike_of_marked {n : Nat} {s s' : St} (h : Agree (2 * (n - 1)) s s') (hm : Marked (2 * (n - 1)) s) : Alike n s s' := by
  obtain ⟨p, hp⟩ := hm
  refine ⟨h, ?_⟩
  simp [coreStop, h _ (Nat.le_refl _), hp]

theorem Ext.alike {β : List (Rune × Nat)} {s s' : St} (h : Ext β s s') (n : Nat) : Alike n s s' :=
  ⟨h.agree _, by simp [coreStop, h.2.1, h.2.2.2.1]⟩

/-- A pattern behind its left edge. -/
structure Core (n : Nat) (F : St → List St) : Prop where
  stuck : ∀ {s}, Stuck s → F s = []
  late : ∀ {d s s'}, Late d s s' → Pairs (Late d) (F s) (F s')
  ext : ∀ {β s s'}, Ext β s s' → 2 * n ≤ s.caps.length → Heads (Alike n) (F s) (F s')

/-- A pattern which matches inside a word. -/
inductive Within (n : Nat) (re : Re) : Prop
  | direct (core : Core n (run re))
  | edged (G : St → St) (F : St → List St) (core : Core n F) (eq : ∀ s, run re s = (run leftEdge (G s)).flatMap F)
      (prev : ∀ s, (G s).prev = s.prev) (rest : ∀ s, (G s).rest = s.rest) (pos : ∀ s, (G s).pos = s.pos)
      (len : ∀ s, (G s).caps.length = s.caps.length)
      (ext : ∀ {β s s'}, Ext β s s' → Ext β (G s) (G s')) (caps : ∀ s i, 5 ≤ i → (G s).caps[i]? = s.caps[i]?)
      (marked : ∀ {s t}, 5 < s.caps.length → t ∈ F s → Marked 5 t)

theorem runCat_append (a b : List Re) (s : St) : runCat (a ++ b) s = (runCat a s).flatMap (runCat b) := by
  induction a generalizing s with
  | nil => simp [runCat]
  | cons r a ih =>
    simp only [List.cons_append, runCat, List.flatMap_assoc]
    congr 1
    funext u
    exact ih u

def isEmpty : Re → Bool
  | .empty => true
  | _ => false

theorem isEmpty_eq {r : Re} (h : isEmpty r = true) : r = .empty := by
  cases r <;> simp [isEmpty] at h ⊢

/-- The last two groups: one of them is empty, the other one may look at the end of the word. -/
def ends (n : Nat) : List Re → Bool
  | [.cap a t1, .cap b t2] => Nat.beq (a + 1) n && Nat.beq b n && (isEmpty t2 && tail t1 || isEmpty t1 && tail t2)
  | _ => false

/-- What follows the first two groups. -/
def body (n : Nat) (rest : List Re) : Bool :=
  ends n (rest.drop (rest.length - 2)) && innerList (rest.take (rest.length - 2)) && eatsAny (rest.take (rest.length - 2))

/-- The second group, if the first one is empty. -/
def head2 : Re → Bool
  | .cat (l :: pre) => isLeft l && innerList pre || inner (.cat (l :: pre))
  | r => isLeft r || inner r

/-- The expression of a pattern which matches inside a word. -/
def within (n : Nat) : Re → Bool
  | .cat (.cap i h1 :: .cap j h2 :: rest) =>
    Nat.beq i 1 && Nat.beq j 2 && body n rest && (isLeft h1 && isEmpty h2 || isEmpty h1 && head2 h2) ||
      inner (.cat (.cap i h1 :: .cap j h2 :: rest)) && eats (.cat (.cap i h1 :: .cap j h2 :: rest))
  | r => inner r && eats r

theorem ends_late {n d : Nat} {l : List Re} (h : ends n l = true) {s s' : St} (hs : Late d s s') :
    Pairs (Late d) (runCat l s) (runCat l s') := by
  unfold ends at h
  split at h
  · rename_i a t1 b t2
    simp only [Bool.and_eq_true, Bool.or_eq_true] at h
    obtain ⟨_, h⟩ := h
    have h1 : tail t1 = true ∧ tail t2 = true := by
      rcases h with ⟨h, h'⟩ | ⟨h, h'⟩
      · rw [isEmpty_eq h]; exact ⟨h', by decide⟩
      · rw [isEmpty_eq h]; exact ⟨by decide, h'⟩
    simp only [runCat, run]
    have S := @(late_sim d).set
    refine ((tail_late t1 h1.1 (S _ hs)).map fun _ _ => S _).flatMap fun x _ y _ hxy => ?_
    refine ((tail_late t2 h1.2 (S _ hxy)).map fun _ _ => S _).flatMap fun x _ y _ hxy => ?_
    exact .one hxy
  · simp at h

theorem Agree.set {n i : Nat} (h : n < i) {s s' : St} (ha : Agree n s s') : Agree n (setCap i s) (setCap i s') := by
  intro j hj
  simp only [setCap, List.getElem?_set]
  rw [if_neg (by omega), if_neg (by omega)]
  exact ha j hj

theorem ends_ext {n : Nat} {l : List Re} (h : ends n l = true) {β : List (Rune × Nat)} {s s' : St} (hs : Ext β s s')
    (hl : 2 * n ≤ s.caps.length) : Heads (Alike n) (runCat l s) (runCat l s') := by
  unfold ends at h
  split at h
  · rename_i a t1 b t2
    simp only [Bool.and_eq_true, Bool.or_eq_true] at h
    obtain ⟨⟨ha, hb⟩, h⟩ := h
    have ha := Nat.eq_of_beq_eq_true ha
    have hb := Nat.eq_of_beq_eq_true hb
    subst hb
    have hn : 2 * (b - 1) = 2 * a := by omega
    have S := @(ext_sim β).set
    have hm : Marked (2 * a) (setCap (2 * a) s) := marked_set (by omega)
    suffices H : Heads (fun u u' => Agree (2 * (b - 1)) u u' ∧ Marked (2 * (b - 1)) u)
        (runCat [.cap a t1, .cap b t2] s) (runCat [.cap a t1, .cap b t2] s') by
      exact H.mono fun u u' h => alike_of_marked h.1 h.2
    have HM : ∀ u ∈ runCat [.cap a t1, .cap b t2] s, Marked (2 * (b - 1)) u := by
      intro u hu
      simp only [runCat, run, List.mem_flatMap, List.mem_map] at hu
      obtain ⟨v, ⟨w, hw, rfl⟩, x, ⟨y, hy, rfl⟩, hu⟩ := hu
      simp at hu
      rw [hu, hn]
      exact ((((hm.run hw).set _).set _).run hy).set _
    have H : Heads (Agree (2 * (b - 1))) (runCat [.cap a t1, .cap b t2] s) (runCat [.cap a t1, .cap b t2] s') := by
      rcases h with ⟨h, h'⟩ | ⟨h, h'⟩
      · rw [isEmpty_eq h]
        have e : ∀ s, runCat [.cap a t1, .cap b .empty] s =
            (run t1 (setCap (2 * a) s)).map fun u => setCap (2 * b + 1) (setCap (2 * b) (setCap (2 * a + 1) u)) := by
          intro s
          simp [runCat, run, List.map_eq_flatMap, List.flatMap_assoc]
        rw [e, e]
        exact (tail_ext (n := 2 * (b - 1)) t1 h' (S _ hs)).map fun _ _ h =>
          ((h.set (by omega)).set (by omega)).set (by omega)
      · rw [isEmpty_eq h]
        have e : ∀ s, runCat [.cap a .empty, .cap b t2] s =
            (run t2 (setCap (2 * b) (setCap (2 * a + 1) (setCap (2 * a) s)))).map (setCap (2 * b + 1)) := by
          intro s
          simp [runCat, run]
        rw [e, e]
        exact (tail_ext (n := 2 * (b - 1)) t2 h' (S _ (S _ (S _ hs)))).map fun _ _ h => h.set (by omega)
    rcases H with H | ⟨x, l, y, m, e1, e2, H⟩
    · exact .inl H
    · refine .inr ⟨x, l, y, m, e1, e2, H, HM x ?_⟩
      rw [e1]; simp
  · simp at h

theorem caps_runCat {rs : List Re} {s t : St} (h : t ∈ runCat rs s) : t.caps.length = s.caps.length := (runCat_adv h).1

theorem body_core {n : Nat} {rest : List Re} (h : body n rest = true) : Core n (runCat rest) := by
  simp only [body, Bool.and_eq_true] at h
  obtain ⟨⟨h1, h2⟩, h3⟩ := h
  have e : ∀ s, runCat rest s = (runCat (rest.take (rest.length - 2)) s).flatMap (runCat (rest.drop (rest.length - 2))) := by
    intro s
    rw [← runCat_append, List.take_append_drop]
  refine ⟨?_, ?_, ?_⟩
  · intro s hs
    rw [e, eatsAny_stuck _ h2 h3 hs]
    rfl
  · intro d s s' hs
    rw [e, e]
    exact (steps_innerCat (late_sim d) (fun _ _ => trivial) _ h2 hs).flatMap fun _ _ _ _ h => ends_late h1 h
  · intro β s s' hs hl
    rw [e, e]
    exact Heads.flatMap (steps_innerCat (ext_sim β) (fun _ h => h) _ h2 hs) fun a ha _ _ h =>
      ends_ext h1 h (by rw [caps_runCat ha]; exact hl)

/-- Recording offsets before. -/
theorem Core.comp {n : Nat} {F : St → List St} (h : Core n F) (i : Nat) : Core n fun s => F (setCap i s) where
  stuck hs := h.stuck (hs.same rfl)
  late hs := h.late ((late_sim _).set i hs)
  ext hs hl := h.ext ((ext_sim _).set i hs) (by simpa [setCap] using hl)

/-- Matching something before. -/
theorem Core.after {n : Nat} {F : St → List St} (h : Core n F) {rs : List Re} (hi : innerList rs = true) :
    Core n fun s => (runCat rs s).flatMap F where
  stuck hs := by
    rw [List.flatMap_eq_nil_iff]
    intro u hu
    exact h.stuck (hs.same (still_innerCat rs hi _ hs u hu))
  late hs := (steps_innerCat (late_sim _) (fun _ _ => trivial) rs hi hs).flatMap fun _ _ _ _ h' => h.late h'
  ext hs hl := Heads.flatMap (steps_innerCat (ext_sim _) (fun _ h => h) rs hi hs) fun _ ha _ _ h' =>
    h.ext h' (by rw [caps_runCat ha]; exact hl)

theorem inner_core {n : Nat} {r : Re} (h1 : inner r = true) (h2 : eats r = true) : Core n (run r) where
  stuck hs := eats_stuck r h1 h2 hs
  late hs := late_inner h1 hs
  ext hs _ := (steps_inner (ext_sim _) (fun _ h => h) r h1 hs).heads.mono fun _ _ h => h.alike n

theorem within_sound {n : Nat} {re : Re} (h : within n re = true) : Within n re := by
  unfold within at h
  split at h
  · rename_i i h1 j h2 rest
    rw [Bool.or_eq_true] at h
    rcases h with h | h
    · simp only [Bool.and_eq_true, Bool.or_eq_true] at h
      obtain ⟨⟨⟨hi, hj⟩, hb⟩, h⟩ := h
      have hi := Nat.eq_of_beq_eq_true hi
      have hj := Nat.eq_of_beq_eq_true hj
      subst hi hj
      have hc := body_core hb
      rcases h with ⟨h, h'⟩ | ⟨h, h'⟩
      · rw [isLeft_eq h, isEmpty_eq h']
        refine .edged (setCap 2) (fun s => runCat rest (setCap 5 (setCap 4 (setCap 3 s)))) (((hc.comp 5).comp 4).comp 3)
          ?_ (fun _ => rfl) (fun _ => rfl) (fun _ => rfl) (by simp [setCap]) (fun h => (ext_sim _).set _ h)
          (fun s i hi => by simp only [setCap]; repeat rw [List.getElem?_set_ne (by omega)]) ?_
        · intro s
          simp [run, runCat, List.flatMap_map]
        · intro s t hl ht
          exact Marked.runCat (marked_set (by simpa [setCap] using hl)) ht
      · rw [isEmpty_eq h]
        have edge : head2 h2 = true → (h2 = leftEdge ∨ (∃ pre, h2 = .cat (leftEdge :: pre) ∧ innerList pre = true) ∨
            inner h2 = true) := by
          intro h
          unfold head2 at h
          split at h
          · simp only [Bool.or_eq_true, Bool.and_eq_true] at h
            rcases h with h | h
            · exact .inr (.inl ⟨_, by rw [isLeft_eq h.1], h.2⟩)
            · exact .inr (.inr h)
          · simp only [Bool.or_eq_true] at h
            rcases h with h | h
            · exact .inl (isLeft_eq h)
            · exact .inr (.inr h)
        rcases edge h' with rfl | ⟨pre, rfl, hp⟩ | hp
        · refine .edged (fun s => setCap 4 (setCap 3 (setCap 2 s))) (fun s => runCat rest (setCap 5 s)) (hc.comp 5)
            ?_ (fun _ => rfl) (fun _ => rfl) (fun _ => rfl) (by simp [setCap])
            (fun h => (ext_sim _).set _ ((ext_sim _).set _ ((ext_sim _).set _ h)))
            (fun s i hi => by simp only [setCap]; repeat rw [List.getElem?_set_ne (by omega)]) ?_
          · intro s
            simp [run, runCat, List.flatMap_map]
          · intro s t hl ht
            exact Marked.runCat (marked_set (by simpa [setCap] using hl)) ht
        · refine .edged (fun s => setCap 4 (setCap 3 (setCap 2 s)))
            (fun s => (runCat pre s).flatMap fun s => runCat rest (setCap 5 s)) ((hc.comp 5).after hp)
            ?_ (fun _ => rfl) (fun _ => rfl) (fun _ => rfl) (by simp [setCap])
            (fun h => (ext_sim _).set _ ((ext_sim _).set _ ((ext_sim _).set _ h)))
            (fun s i hi => by simp only [setCap]; repeat rw [List.getElem?_set_ne (by omega)]) ?_
          · intro s
            simp [run, runCat, List.flatMap_map, List.flatMap_assoc, List.map_flatMap]
          · intro s t hl ht
            simp only [List.mem_flatMap] at ht
            obtain ⟨u, hu, ht⟩ := ht
            exact Marked.runCat (marked_set (by rw [caps_runCat hu]; exact hl)) ht
        · refine .direct ?_
          have e : run (.cat (.cap 1 .empty :: .cap 2 h2 :: rest)) =
              fun s => (fun s => (runCat [h2] s).flatMap fun s => runCat rest (setCap 5 s)) (setCap 4 (setCap 3 (setCap 2 s))) := by
            funext s
            simp [run, runCat, List.flatMap_map]
          rw [e]
          exact ((((hc.comp 5).after (rs := [h2]) (by simp [innerList, hp])).comp 4).comp 3).comp 2
    · simp only [Bool.and_eq_true] at h
      exact .direct (inner_core h.1 h.2)
  · simp only [Bool.and_eq_true] at h
    exact .direct (inner_core h.1 h.2)

end Verif.Words
