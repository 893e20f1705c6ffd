import Verif.Spec.Script
import Verif.Model.Script
import Verif.Proofs.Tables

/-! Properties C61 and C62: scripts. -/

namespace Verif.Props

open Verif.Unicode Verif.Spec.Script

/-! ## C61 -/

/-- C61: each registered name stands for a script which knows its alphabet. -/
theorem C61_alphabets : ∀ a ∈ alphabets, ∃ sc, getScript (str a.1) = some sc ∧
    ∀ r ∈ a.2, ∀ c, r.1 ≤ c → c ≤ r.2 → sc.is c = true := by
  have key : ∀ a ∈ alphabets, ((getScript (str a.1)).any fun sc =>
      a.2.all fun r => (List.range (r.2 - r.1 + 1)).all fun k => sc.is (r.1 + k)) = true := by decide +kernel
  intro a ha
  have := key a ha
  rw [Option.any_eq_true] at this
  obtain ⟨sc, h1, h2⟩ := this
  refine ⟨sc, h1, fun r hr c hc1 hc2 => ?_⟩
  simp only [List.all_eq_true, List.mem_range] at h2
  have := h2 r hr (c - r.1) (by omega)
  rwa [show r.1 + (c - r.1) = c by omega] at this

/-- C61: there are no other names. -/
theorem C61_names {name : Bytes} {sc : Script} (h : getScript name = some sc) : ∃ a ∈ alphabets, name = str a.1 := by
  have e : str "" = [] := rfl
  unfold getScript at h
  simp only [alphabets, List.mem_cons, List.not_mem_nil, or_false, exists_eq_or_imp, exists_eq_left, e]
  repeat' split at h
  all_goals simp_all

/-- C61: no letter belongs to two scripts, apart from marks. -/
theorem C61_disjoint {sc sc' : Script} (hne : sc ≠ sc') {c : Rune} (h : sc.is c = true) (h' : sc'.is c = true) :
    isMark c = true := by
  by_cases hm : isMark c = true
  · exact hm
  have hm : isMark c = false := by simpa using hm
  have long : ∀ t ∈ [latinTable, cyrillicTable, georgianTable, greekTable], inTable t 0x30FC = false := by decide +kernel
  have key : ∀ t ∈ [latinTable, cyrillicTable, georgianTable, greekTable, hiraganaTable, katakanaTable],
      ∀ u ∈ [latinTable, cyrillicTable, georgianTable, greekTable, hiraganaTable, katakanaTable], t ≠ u →
      tablesDisjoint t u = true := by decide +kernel
  have dis : ∀ t ∈ [latinTable, cyrillicTable, georgianTable, greekTable, hiraganaTable, katakanaTable],
      ∀ u ∈ [latinTable, cyrillicTable, georgianTable, greekTable, hiraganaTable, katakanaTable], t ≠ u →
      inTable t c = true → inTable u c = true → False := by
    intro t ht u hu hn h1 h2
    rw [not_inTable (key t ht u hu hn) h1] at h2
    simp at h2
  have n1 : latinTable ≠ cyrillicTable := by decide +kernel
  have n2 : latinTable ≠ georgianTable := by decide +kernel
  have n3 : latinTable ≠ greekTable := by decide +kernel
  have n4 : latinTable ≠ hiraganaTable := by decide +kernel
  have n5 : latinTable ≠ katakanaTable := by decide +kernel
  have n6 : cyrillicTable ≠ georgianTable := by decide +kernel
  have n7 : cyrillicTable ≠ greekTable := by decide +kernel
  have n8 : cyrillicTable ≠ hiraganaTable := by decide +kernel
  have n9 : cyrillicTable ≠ katakanaTable := by decide +kernel
  have n10 : georgianTable ≠ greekTable := by decide +kernel
  have n11 : georgianTable ≠ hiraganaTable := by decide +kernel
  have n12 : georgianTable ≠ katakanaTable := by decide +kernel
  have n13 : greekTable ≠ hiraganaTable := by decide +kernel
  have n14 : greekTable ≠ katakanaTable := by decide +kernel
  have lat := long latinTable (by simp)
  have cyr := long cyrillicTable (by simp)
  have geo := long georgianTable (by simp)
  have gre := long greekTable (by simp)
  exfalso
  cases sc <;> cases sc' <;> first | exact hne rfl | skip
  all_goals simp only [Script.is, hm, Bool.or_false, Bool.or_eq_true, beq_iff_eq] at h h'
  · exact dis _ (by simp) _ (by simp) n1 h h'
  · exact dis _ (by simp) _ (by simp) n2 h h'
  · exact dis _ (by simp) _ (by simp) n3 h h'
  · rcases h' with (rfl | h') | h'
    · rw [lat] at h; simp at h
    · exact dis _ (by simp) _ (by simp) n4 h h'
    · exact dis _ (by simp) _ (by simp) n5 h h'
  · exact dis _ (by simp) _ (by simp) n1 h' h
  · exact dis _ (by simp) _ (by simp) n6 h h'
  · exact dis _ (by simp) _ (by simp) n7 h h'
  · rcases h' with (rfl | h') | h'
    · rw [cyr] at h; simp at h
    · exact dis _ (by simp) _ (by simp) n8 h h'
    · exact dis _ (by simp) _ (by simp) n9 h h'
  · exact dis _ (by simp) _ (by simp) n2 h' h
  · exact dis _ (by simp) _ (by simp) n6 h' h
  · exact dis _ (by simp) _ (by simp) n10 h h'
  · rcases h' with (rfl | h') | h'
    · rw [geo] at h; simp at h
    · exact dis _ (by simp) _ (by simp) n11 h h'
    · exact dis _ (by simp) _ (by simp) n12 h h'
  · exact dis _ (by simp) _ (by simp) n3 h' h
  · exact dis _ (by simp) _ (by simp) n7 h' h
  · exact dis _ (by simp) _ (by simp) n10 h' h
  · rcases h' with (rfl | h') | h'
    · rw [gre] at h; simp at h
    · exact dis _ (by simp) _ (by simp) n13 h h'
    · exact dis _ (by simp) _ (by simp) n14 h h'
  · rcases h with (rfl | h) | h
    · rw [lat] at h'; simp at h'
    · exact dis _ (by simp) _ (by simp) n4 h' h
    · exact dis _ (by simp) _ (by simp) n5 h' h
  · rcases h with (rfl | h) | h
    · rw [cyr] at h'; simp at h'
    · exact dis _ (by simp) _ (by simp) n8 h' h
    · exact dis _ (by simp) _ (by simp) n9 h' h
  · rcases h with (rfl | h) | h
    · rw [geo] at h'; simp at h'
    · exact dis _ (by simp) _ (by simp) n11 h' h
    · exact dis _ (by simp) _ (by simp) n12 h' h
  · rcases h with (rfl | h) | h
    · rw [gre] at h'; simp at h'
    · exact dis _ (by simp) _ (by simp) n13 h' h
    · exact dis _ (by simp) _ (by simp) n14 h' h

example : Script.cyrl.is 'д'.toNat = true ∧ Script.cyrl.is 0x301 = true ∧ isMark 0x301 = true ∧
    Script.latn.is 'д'.toNat = false ∧ Script.grek.is 0x1D242 = true ∧ Script.cyrl.is 0x1D242 = true := by decide +kernel

/-! ## C62 -/

/-- C62: capital letters become small. -/
theorem C62_capitals : ∀ r ∈ cases, ∃ sc, getScript (str r.1) = some sc ∧
    ∀ c, r.2.1 ≤ c → c ≤ r.2.2.1 → sc.normalize c = c + r.2.2.2 := by
  have key : ∀ r ∈ cases, ((getScript (str r.1)).any fun sc => (List.range (r.2.2.1 - r.2.1 + 1)).all fun k =>
      sc.normalize (r.2.1 + k) == r.2.1 + k + r.2.2.2) = true := by decide +kernel
  intro r hr
  have := key r hr
  rw [Option.any_eq_true] at this
  obtain ⟨sc, h1, h2⟩ := this
  refine ⟨sc, h1, fun c hc1 hc2 => ?_⟩
  simp only [List.all_eq_true, List.mem_range, beq_iff_eq] at h2
  have := h2 (c - r.2.1) (by omega)
  rwa [show r.2.1 + (c - r.2.1) = c by omega] at this

/-- C62: small letters stay. -/
theorem C62_small : ∀ r ∈ small, ∃ sc, getScript (str r.1) = some sc ∧
    ∀ c, r.2.1 ≤ c → c ≤ r.2.2 → sc.normalize c = c := by
  have key : ∀ r ∈ small, ((getScript (str r.1)).any fun sc => (List.range (r.2.2 - r.2.1 + 1)).all fun k =>
      sc.normalize (r.2.1 + k) == r.2.1 + k) = true := by decide +kernel
  intro r hr
  have := key r hr
  rw [Option.any_eq_true] at this
  obtain ⟨sc, h1, h2⟩ := this
  refine ⟨sc, h1, fun c hc1 hc2 => ?_⟩
  simp only [List.all_eq_true, List.mem_range, beq_iff_eq] at h2
  have := h2 (c - r.2.1) (by omega)
  rwa [show r.2.1 + (c - r.2.1) = c by omega] at this

/-- A range of `lowerTable` with the image of a letter. -/
theorem toLower_cases (c : Rune) : toLower c = c ∨ ∃ e ∈ lowerTable, e.1 ≤ c ∧ c ≤ e.2.1 ∧ (c - e.1) % e.2.2.1 = 0 ∧
    toLower c = e.2.2.2 + (c - e.1) := by
  cases hf : lowerTable.find? (fun (lo, hi, stride, _) => lo ≤ c && c ≤ hi && (c - lo) % stride == 0) with
  | none => left; unfold toLower; rw [hf]
  | some e =>
    obtain ⟨lo, hi, st, img⟩ := e
    right
    have hm := List.mem_of_find?_eq_some hf
    have hr := List.find?_some hf
    simp only [Bool.and_eq_true, decide_eq_true_eq, beq_iff_eq] at hr
    exact ⟨_, hm, hr.1.1, hr.1.2, hr.2, by unfold toLower; rw [hf]⟩

/-- The images of a range do not meet another range. -/
def apart (e f : Nat × Nat × Nat × Nat) : Bool :=
  e.2.2.2 + (e.2.1 - e.1) < f.1 || f.2.1 < e.2.2.2 || (e.2.2.1 == 2 && f.2.2.1 == 2 && e.2.2.2 % 2 != f.1 % 2) ||
    (e.1 == e.2.1 && (e.2.2.2 - f.1) % f.2.2.1 != 0)

theorem lower_apart : (lowerTable.all fun e => lowerTable.all fun f => apart e f) = true := by decide +kernel

theorem toLower_toLower (c : Rune) : toLower (toLower c) = toLower c := by
  rcases toLower_cases c with hc | ⟨e, he, h1, h2, h3, h4⟩
  · rw [hc, hc]
  · rcases toLower_cases (toLower c) with hc | ⟨f, hf, g1, g2, g3, _⟩
    · exact hc
    · exfalso
      have := lower_apart
      rw [List.all_eq_true] at this
      have := this e he
      rw [List.all_eq_true] at this
      have := this f hf
      simp only [apart, Bool.or_eq_true, decide_eq_true_eq, Bool.and_eq_true, beq_iff_eq, bne_iff_ne, ne_eq] at this
      rw [h4] at g1 g2 g3
      rcases this with ((h | h) | ⟨⟨ha, hb⟩, h⟩) | ⟨ha, h⟩
      · omega
      · omega
      · rw [ha] at h3
        rw [hb] at g3
        omega
      · rw [show e.2.2.2 + (c - e.1) = e.2.2.2 by omega] at g3
        exact h g3

/-- If a range meets a table, its images are in the table. -/
def kept (t : List (Nat × Nat)) (e : Nat × Nat × Nat × Nat) : Bool :=
  t.all (fun p => p.2 < e.1 || e.2.1 < p.1) || (t.any fun q => q.1 ≤ e.2.2.2 && e.2.2.2 + (e.2.1 - e.1) ≤ q.2) ||
    (List.range (e.2.1 - e.1 + 1)).all fun k => k % e.2.2.1 != 0 || !inTable t (e.1 + k) || inTable t (e.2.2.2 + k)

theorem inTable_toLower {t : List (Nat × Nat)} (ht : (lowerTable.all (kept t)) = true) {c : Rune}
    (h : inTable t c = true) : inTable t (toLower c) = true := by
  rcases toLower_cases c with hc | ⟨e, he, h1, h2, h3, h4⟩
  · rw [hc]; exact h
  · rw [List.all_eq_true] at ht
    have := ht e he
    simp only [kept, Bool.or_eq_true] at this
    rw [h4]
    rcases this with (hk | hk) | hk
    · exfalso
      rw [inTable, List.any_eq_true] at h
      obtain ⟨p, hp, h⟩ := h
      rw [List.all_eq_true] at hk
      have := hk p hp
      simp only [Bool.or_eq_true, Bool.and_eq_true, decide_eq_true_eq] at this h
      omega
    · rw [List.any_eq_true] at hk
      obtain ⟨q, hq, hk⟩ := hk
      rw [inTable, List.any_eq_true]
      refine ⟨q, hq, ?_⟩
      simp only [Bool.and_eq_true, decide_eq_true_eq] at hk ⊢
      omega
    · rw [List.all_eq_true] at hk
      have := hk (c - e.1) (by rw [List.mem_range]; omega)
      rw [h3, show e.1 + (c - e.1) = c by omega, h] at this
      simpa using this

theorem is_toLower (sc : Script) (c : Rune) (h : sc.is c = true) : sc.is (toLower c) = true := by
  have k1 : (lowerTable.all (kept latinTable)) = true := by decide +kernel
  have k2 : (lowerTable.all (kept cyrillicTable)) = true := by decide +kernel
  have k3 : (lowerTable.all (kept georgianTable)) = true := by decide +kernel
  have k4 : (lowerTable.all (kept greekTable)) = true := by decide +kernel
  have k5 : (lowerTable.all (kept hiraganaTable)) = true := by decide +kernel
  have k6 : (lowerTable.all (kept katakanaTable)) = true := by decide +kernel
  have k7 : (lowerTable.all (kept markTable)) = true := by decide +kernel
  cases sc with
  | latn => exact inTable_toLower k1 h
  | cyrl =>
    simp only [Script.is, isMark, Bool.or_eq_true] at h ⊢
    exact h.imp (inTable_toLower k2) (inTable_toLower k7)
  | geor => exact inTable_toLower k3 h
  | grek => exact inTable_toLower k4 h
  | hrkt =>
    simp only [Script.is, Bool.or_eq_true, beq_iff_eq] at h ⊢
    refine h.imp (Or.imp (fun h => ?_) (inTable_toLower k5)) (inTable_toLower k6)
    subst h
    decide +kernel

/-- C62: normalizing again changes nothing, for Latin letters see below. -/
theorem C62_idempotent {sc : Script} (h : sc ≠ .latn) (c : Rune) : sc.normalize (sc.normalize c) = sc.normalize c := by
  cases sc with
  | latn => contradiction
  | cyrl => exact toLower_toLower c
  | geor => rfl
  | grek => exact toLower_toLower c
  | hrkt =>
    simp only [Script.normalize]
    split
    · rw [if_neg (by omega)]
    · rfl

/-- Latin letters which are not normal after one normalization. -/
def twice : List Rune := "ǢǣǯǼǽǾǿẛ".toList.map Char.toNat

/-- If an image of a range can be decomposed, the letter itself can. -/
def both (e : Nat × Nat × Nat × Nat) (f : Nat × Nat × Nat) : Bool :=
  e.2.2.2 + (e.2.1 - e.1) < f.1 || f.2.1 < e.2.2.2 ||
    (List.range (e.2.1 - e.1 + 1)).all fun k => k % e.2.2.1 != 0 || !(f.1 ≤ e.2.2.2 + k && e.2.2.2 + k ≤ f.2.1) ||
      latinDecompTable.any fun g => g.1 ≤ e.1 + k && e.1 + k ≤ g.2.1

theorem lower_both : (lowerTable.all fun e => latinDecompTable.all fun f => both e f) = true := by decide +kernel

theorem decomp_lower {c : Rune} (h : latinDecomp c = none) : latinDecomp (toLower c) = none := by
  rw [latinDecomp, Option.map_eq_none_iff, List.find?_eq_none] at h
  rcases toLower_cases c with hc | ⟨e, he, h1, h2, h3, h4⟩
  · rw [hc, latinDecomp, Option.map_eq_none_iff, List.find?_eq_none]; exact h
  · rw [latinDecomp, Option.map_eq_none_iff, List.find?_eq_none]
    rintro ⟨f1, f2, f3⟩ hf hx
    have := lower_both
    rw [List.all_eq_true] at this
    have := this e he
    rw [List.all_eq_true] at this
    have := this _ hf
    simp only [both, Bool.or_eq_true, decide_eq_true_eq] at this
    simp only [h4, Bool.and_eq_true, decide_eq_true_eq] at hx
    rcases this with (h | h) | hk
    · omega
    · omega
    · rw [List.all_eq_true] at hk
      have := hk (c - e.1) (by rw [List.mem_range]; omega)
      simp only [h3, hx.1, hx.2, show e.1 + (c - e.1) = c by omega, bne_self_eq_false, decide_true, Bool.and_self,
        Bool.not_true, Bool.false_or, List.any_eq_true] at this
      obtain ⟨g, hg, hg'⟩ := this
      exact h g hg hg'

/-- C62: for Latin letters it may take two normalizations, but only for eight letters. -/
theorem C62_latn (c : Rune) : Script.latn.normalize (Script.latn.normalize c) = Script.latn.normalize c ↔
    c ∉ twice := by
  constructor
  · intro h hc
    have key : ∀ c ∈ twice, Script.latn.normalize (Script.latn.normalize c) ≠ Script.latn.normalize c := by decide +kernel
    exact key c hc h
  · intro hc
    cases hd : latinDecomp c with
    | none =>
      have h1 : Script.latn.normalize c = toLower c := by simp only [Script.normalize, hd, Option.getD_none]
      rw [h1]
      simp only [Script.normalize, decomp_lower hd, Option.getD_none, toLower_toLower]
    | some b =>
      have h1 : Script.latn.normalize c = toLower b := by simp only [Script.normalize, hd, Option.getD_some]
      rw [h1]
      rw [latinDecomp, Option.map_eq_some_iff] at hd
      obtain ⟨⟨lo, hi, b⟩, h2, rfl⟩ := hd
      have hm := List.mem_of_find?_eq_some h2
      have hr := List.find?_some h2
      simp only [Bool.and_eq_true, decide_eq_true_eq] at hr
      have k1 : (latinDecompTable.all fun e => ('A'.toNat ≤ e.2.2 && e.2.2 ≤ 'z'.toNat) || e.2.2 == 0xC6 ||
        (List.range (e.2.1 - e.1 + 1)).all fun k => twice.contains (e.1 + k)) = true := by decide +kernel
      have k2 : ∀ k < 58, Script.latn.normalize (toLower ('A'.toNat + k)) = toLower ('A'.toNat + k) := by decide +kernel
      have k3 : Script.latn.normalize (toLower 0xC6) = toLower 0xC6 := by decide +kernel
      rw [List.all_eq_true] at k1
      have := k1 _ hm
      simp only [Bool.or_eq_true, Bool.and_eq_true, decide_eq_true_eq, beq_iff_eq] at this
      rcases this with (h | h) | h
      · have := k2 (b - 'A'.toNat) (by have : 'A'.toNat = 65 := rfl; have : 'z'.toNat = 122 := rfl; omega)
        rwa [show 'A'.toNat + (b - 'A'.toNat) = b by omega] at this
      · simp only [h]; exact k3
      · rw [List.all_eq_true] at h
        have := h (c - lo) (by rw [List.mem_range]; omega)
        rw [show lo + (c - lo) = c by omega, List.contains_iff_mem] at this
        exact absurd this hc

/-- C62: normalized letters are still letters of the script. -/
theorem C62_stays {sc : Script} {c : Rune} (h : sc.is c = true) : sc.is (sc.normalize c) = true := by
  cases sc with
  | latn =>
    cases hd : latinDecomp c with
    | none => simp only [Script.normalize, hd, Option.getD_none]; exact is_toLower _ _ h
    | some b =>
      simp only [Script.normalize, hd, Option.getD_some]
      rw [latinDecomp, Option.map_eq_some_iff] at hd
      obtain ⟨e, h1, rfl⟩ := hd
      have hm := List.mem_of_find?_eq_some h1
      have key : ∀ e ∈ latinDecompTable, Script.latn.is (toLower e.2.2) = true := by decide +kernel
      exact key e hm
  | cyrl => exact is_toLower _ _ h
  | geor => exact h
  | grek => exact is_toLower _ _ h
  | hrkt =>
    simp only [Script.normalize]
    split
    · rename_i hr
      have key : ∀ k < 0x60, Script.hrkt.is (0x3040 + k) = true → Script.hrkt.is (0x3040 + k + 96) = true := by decide +kernel
      have := key (c - 0x3040) (by omega)
      rw [show 0x3040 + (c - 0x3040) = c by omega] at this
      exact this h
    · exact h

example : "ÀЖΩゔ".toList.map (fun c => [Script.latn, .cyrl, .grek, .hrkt].map fun sc => (sc.is c.toNat, sc.normalize c.toNat)) =
    [[(true, 97), (false, 224), (false, 224), (false, 192)], [(false, 1078), (true, 1078), (false, 1078), (false, 1046)],
     [(false, 969), (false, 969), (true, 969), (false, 937)], [(false, 0x3094), (false, 0x3094), (false, 0x3094), (true, 0x30F4)]] := by
  decide +kernel

end Verif.Props
