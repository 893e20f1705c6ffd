import Verif.Proofs.Regexp
import Verif.Model.Hre

/-! Expressions which match only texts with certain letters or signs. -/

namespace Verif.Foreign

open Verif.Rx Verif.Hre

/-! ## What is checked -/

/-- A list begins with another one. -/
def starts : List Rune → List Rune → Bool
  | [], _ => true
  | a :: s, b :: t => Nat.beq a b && starts s t
  | _ :: _, [] => false

/-- A list is part of another one. -/
def inside (s : List Rune) : List Rune → Bool
  | [] => s.isEmpty
  | b :: t => starts s (b :: t) || inside s t

/-- The literals at the beginning. -/
def lead : List Re → List Rune
  | .lit a :: rs => a ++ lead rs
  | _ => []

mutual
/-- Whatever is matched has a letter of `L` or a sign of `P`. -/
def alive (L : Rune → Bool) (P : List (List Rune)) : Re → Bool
  | .noMatch => true
  | .lit rs => rs.any L || P.any fun s => inside s rs
  | .cls neg ranges => !neg && ranges.all fun p => (List.range (p.2 + 1 - p.1)).all fun k => L (p.1 + k) || P.any (starts · [p.1 + k])
  | .cap _ r | .plus _ r => alive L P r
  | .rep mn _ _ r => Nat.blt 0 mn && alive L P r
  | .cat rs => aliveCat L P rs
  | .alt rs => aliveAlt L P rs
  | _ => false
/-- The same for a sequence. -/
def aliveCat (L : Rune → Bool) (P : List (List Rune)) : List Re → Bool
  | [] => false
  | r :: rs => alive L P r || aliveCat L P rs || P.any fun s => starts s (lead (r :: rs))
/-- The same for alternatives. -/
def aliveAlt (L : Rune → Bool) (P : List (List Rune)) : List Re → Bool
  | [] => true
  | r :: rs => alive L P r && aliveAlt L P rs
end

/-! ## Texts -/

/-- A text with a letter of `L` or a sign of `P`. -/
def Alive (L : Rune → Bool) (P : List (List Rune)) (cs : List Rune) : Prop := (∃ c ∈ cs, L c = true) ∨ ∃ s ∈ P, s <:+: cs

variable {L : Rune → Bool} {P : List (List Rune)}

theorem Alive.mono {a b : List Rune} (h : a <:+: b) : Alive L P a → Alive L P b
  | .inl ⟨c, hc, hl⟩ => .inl ⟨c, h.subset hc, hl⟩
  | .inr ⟨s, hs, hi⟩ => .inr ⟨s, hs, hi.trans h⟩

theorem Alive.left {a : List Rune} (h : Alive L P a) (b : List Rune) : Alive L P (a ++ b) := h.mono ⟨[], b, by simp⟩

theorem Alive.right {b : List Rune} (h : Alive L P b) (a : List Rune) : Alive L P (a ++ b) := h.mono ⟨a, [], by simp⟩

theorem starts_sound : ∀ {s t : List Rune}, starts s t = true → s <+: t
  | [], _, _ => List.nil_prefix
  | a :: s, b :: t, h => by
    simp only [starts, Bool.and_eq_true, Nat.beq_eq] at h
    obtain ⟨rfl, h⟩ := h
    exact List.cons_prefix_cons.2 ⟨rfl, starts_sound h⟩
  | _ :: _, [], h => by simp [starts] at h

theorem inside_sound {s : List Rune} : ∀ {t : List Rune}, inside s t = true → s <:+: t
  | [], h => by
    simp only [inside, List.isEmpty_iff] at h
    simp [h]
  | b :: t, h => by
    simp only [inside, Bool.or_eq_true] at h
    rcases h with h | h
    · exact (starts_sound h).isInfix
    · exact (inside_sound h).trans ⟨[b], [], by simp⟩

/-! ## Matches -/

/-- The letters between two states are alive. -/
def Lively (L : Rune → Bool) (P : List (List Rune)) (s s' : St) : Prop := ∃ u, s.rest = u ++ s'.rest ∧ Alive L P (u.map (·.1))

theorem Lively.before {s t s' : St} (h : Adv s t) (k : Lively L P t s') : Lively L P s s' := by
  obtain ⟨_, u, h1, _⟩ := h
  obtain ⟨v, k1, k2⟩ := k
  exact ⟨u ++ v, by rw [h1, k1, List.append_assoc], by rw [List.map_append]; exact k2.right _⟩

theorem Lively.after {s t s' : St} (k : Lively L P s t) (h : Adv t s') : Lively L P s s' := by
  obtain ⟨_, u, h1, _⟩ := h
  obtain ⟨v, k1, k2⟩ := k
  exact ⟨v ++ u, by rw [k1, h1, List.append_assoc], by rw [List.map_append]; exact k2.left _⟩

theorem lits_read {rs : List Rune} : ∀ {s s' : St}, s' ∈ lits rs s → ∃ u, s.rest = u ++ s'.rest ∧ u.map (·.1) = rs := by
  induction rs with
  | nil =>
    intro s s' h
    simp only [lits, List.mem_singleton] at h
    subst h
    exact ⟨[], rfl, rfl⟩
  | cons r rs ih =>
    intro s s' h
    simp only [lits, List.mem_flatMap] at h
    obtain ⟨t, h1, h2⟩ := h
    obtain ⟨c, n, v, k1, k2, rfl⟩ := one_mem h1
    obtain ⟨u, k3, k4⟩ := ih h2
    simp only [beq_iff_eq] at k2
    exact ⟨(c, n) :: u, by rw [k1, List.cons_append, ← k3], by simp [k2, k4]⟩

theorem lead_read {rs : List Re} : ∀ {s s' : St}, s' ∈ runCat rs s → ∃ u, s.rest = u ++ s'.rest ∧ lead rs <+: u.map (·.1) := by
  induction rs with
  | nil =>
    intro s s' h
    simp only [runCat, List.mem_singleton] at h
    subst h
    exact ⟨[], rfl, by simp [lead]⟩
  | cons r rs ih =>
    intro s s' h
    cases r with
    | lit a =>
      simp only [runCat, List.mem_flatMap, run] at h
      obtain ⟨t, h1, h2⟩ := h
      obtain ⟨u, k1, k2⟩ := lits_read h1
      obtain ⟨v, k3, k4⟩ := ih h2
      refine ⟨u ++ v, by rw [k1, k3, List.append_assoc], ?_⟩
      simp only [lead, List.map_append, k2]
      exact (List.prefix_append_right_inj a).2 k4
    | _ =>
      obtain ⟨_, u, k, _⟩ := runCat_adv h
      exact ⟨u, k, by simp [lead]⟩

theorem plusLoop_lively {g : Bool} {f : St → List St} (hf : ∀ {s s'}, s' ∈ f s → Lively L P s s')
    (ha : ∀ {s s'}, s' ∈ f s → Adv s s') : ∀ {fuel : Nat} {s s' : St}, s' ∈ plusLoop g f fuel s → Lively L P s s' := by
  intro fuel
  induction fuel with
  | zero => intro s s' h; exact hf (by simpa [plusLoop] using h)
  | succ fuel ih =>
    intro s s' h
    simp only [plusLoop, List.mem_flatMap] at h
    obtain ⟨t, h1, h2⟩ := h
    split at h2
    · split at h2
      · rcases List.mem_append.1 h2 with h2 | h2
        · exact (ih h2).before (ha h1)
        · simp only [List.mem_singleton] at h2
          exact h2 ▸ hf h1
      · rcases List.mem_cons.1 h2 with rfl | h2
        · exact hf h1
        · exact (ih h2).before (ha h1)
    · simp only [List.mem_singleton] at h2
      exact h2 ▸ hf h1

theorem repLoop_lively {mn : Nat} {mx : Option Nat} {g : Bool} {r : Re} (hf : ∀ {s s'}, s' ∈ run r s → Lively L P s s') (hn : 0 < mn)
    {s s' : St} (h : s' ∈ repLoop mn mx g (run r) s) : Lively L P s s' := by
  have ht : ∀ {n : Nat} {s s' : St}, s' ∈ times (run r) n s → Adv s s' := fun h => times_rel adv_along (fun _ _ h => run_adv h) h
  have hu : ∀ {n : Nat} {s s' : St}, s' ∈ upTo g (run r) n s → Adv s s' := fun h => upTo_rel adv_along (fun _ _ h => run_adv h) h
  obtain ⟨k, rfl⟩ : ∃ k, mn = k + 1 := ⟨mn - 1, by omega⟩
  unfold repLoop at h
  split at h
  · simp only [List.mem_flatMap, times] at h
    obtain ⟨t, ⟨q, h1, h2⟩, h3⟩ := h
    exact ((hf h1).after (ht h2)).after (hu h3)
  · simp only [List.mem_flatMap] at h
    obtain ⟨t, h1, h2⟩ := h
    exact (plusLoop_lively hf (fun h => run_adv h) h2).before (ht h1)

mutual
theorem run_lively : ∀ (r : Re), alive L P r = true → ∀ {s s' : St}, s' ∈ run r s → Lively L P s s'
  | .noMatch, _, s, s', hm => by simp [run] at hm
  | .lit rs, h, s, s', hm => by
    obtain ⟨u, h1, h2⟩ := lits_read (by simpa [run] using hm)
    refine ⟨u, h1, ?_⟩
    rw [h2]
    simp only [alive, Bool.or_eq_true, List.any_eq_true] at h
    rcases h with ⟨c, hc, hl⟩ | ⟨t, ht, hi⟩
    · exact .inl ⟨c, hc, hl⟩
    · exact .inr ⟨t, ht, inside_sound hi⟩
  | .cls neg ranges, h, s, s', hm => by
    simp only [run] at hm
    obtain ⟨c, n, t, h1, h2, rfl⟩ := one_mem hm
    simp only [alive, Bool.and_eq_true, Bool.not_eq_true'] at h
    obtain ⟨rfl, h⟩ := h
    refine ⟨[(c, n)], by simp [h1], ?_⟩
    simp only [bne_iff_ne, ne_eq, Bool.not_eq_false, inRanges, List.any_eq_true, Bool.and_eq_true, decide_eq_true_eq] at h2
    obtain ⟨p, hp, h2, h3⟩ := h2
    have := List.all_eq_true.1 (List.all_eq_true.1 h p hp) (c - p.1) (by simp; omega)
    rw [show p.1 + (c - p.1) = c by omega] at this
    simp only [Bool.or_eq_true, List.any_eq_true] at this
    rcases this with h | ⟨t, ht, hi⟩
    · exact .inl ⟨c, by simp, h⟩
    · exact .inr ⟨t, ht, (starts_sound hi).isInfix⟩
  | .cap i r, h, s, s', hm => by
    simp only [run, List.mem_map] at hm
    obtain ⟨t, h1, rfl⟩ := hm
    exact ((run_lively r (by simpa [alive] using h) h1).before (adv_setCap _ s)).after (adv_setCap _ t)
  | .plus g r, h, s, s', hm => by
    simp only [run] at hm
    exact plusLoop_lively (run_lively r (by simpa [alive] using h)) (fun h => run_adv h) hm
  | .rep mn mx g r, h, s, s', hm => by
    simp only [run] at hm
    simp only [alive, Bool.and_eq_true, Nat.blt_eq] at h
    exact repLoop_lively (run_lively r h.2) h.1 hm
  | .cat rs, h, s, s', hm => runCat_lively rs (by simpa [alive] using h) (by simpa [run] using hm)
  | .alt rs, h, s, s', hm => runAlt_lively rs (by simpa [alive] using h) (by simpa [run] using hm)
  | .empty, h, _, _, _ | .anyNotNL, h, _, _, _ | .any, h, _, _, _ | .beginLine, h, _, _, _ | .endLine, h, _, _, _
  | .beginText, h, _, _, _ | .endText, h, _, _, _ | .wordB, h, _, _, _ | .noWordB, h, _, _, _ | .star .., h, _, _, _
  | .quest .., h, _, _, _ => by simp [alive] at h
theorem runCat_lively : ∀ (rs : List Re), aliveCat L P rs = true → ∀ {s s' : St}, s' ∈ runCat rs s → Lively L P s s'
  | [], h, _, _, _ => by simp [aliveCat] at h
  | r :: rs, h, s, s', hm => by
    simp only [aliveCat, Bool.or_eq_true] at h
    rcases h with (h | h) | h
    · simp only [runCat, List.mem_flatMap] at hm
      obtain ⟨t, h1, h2⟩ := hm
      exact (run_lively r h h1).after (runCat_adv h2)
    · simp only [runCat, List.mem_flatMap] at hm
      obtain ⟨t, h1, h2⟩ := hm
      exact (runCat_lively rs h h2).before (run_adv h1)
    · obtain ⟨u, h1, h2⟩ := lead_read hm
      obtain ⟨p, hp, hi⟩ := List.any_eq_true.1 h
      exact ⟨u, h1, .inr ⟨p, hp, ((starts_sound hi).trans h2).isInfix⟩⟩
theorem runAlt_lively : ∀ (rs : List Re), aliveAlt L P rs = true → ∀ {s s' : St}, s' ∈ runAlt rs s → Lively L P s s'
  | [], _, _, _, hm => by simp [runAlt] at hm
  | r :: rs, h, s, s', hm => by
    simp only [aliveAlt, Bool.and_eq_true] at h
    simp only [runAlt, List.mem_append] at hm
    rcases hm with hm | hm
    · exact run_lively r h.1 hm
    · exact runAlt_lively rs h.2 hm
end

/-- A rule whose expression is alive finds nothing in any other text. -/
theorem replacements_dead {r : Rule} (h : alive L P r.pat.re = true) {w : Bytes} (hw : ¬ Alive L P (runes w)) :
    r.replacements w = .ok [] := by
  have key : findSubmatch r.pat.re w = none := by
    unfold findSubmatch
    rw [Option.map_eq_none_iff]
    cases hs : searchFrom r.pat.re (decode w) none 0 with
    | none => rfl
    | some x =>
      obtain ⟨u, v, h1, _, h3⟩ := searchFrom_some (p := x.1) (s := x.2) hs
      obtain ⟨y, h4, h5⟩ := run_lively _ h h3
      refine absurd (h5.mono (b := runes w) ⟨u.map (·.1), x.2.rest.map (·.1), ?_⟩) hw
      rw [← List.map_append, ← List.map_append, List.append_assoc, ← h4, runes, h1]
      rfl
  have hf : find r.pat w (-1) = .ok [] := by
    unfold find findLoop
    split
    · simp [findStep, key]
    · rfl
  rw [Rule.replacements, hf]
  rfl

end Verif.Foreign
