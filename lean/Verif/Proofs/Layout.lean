import Verif.Proofs.Lang
import Verif.Proofs.Shape

/-! How the groups of a pattern without top-level bars follow one another. -/

namespace Verif.Hre

open Verif.Rx Verif.Spec.Hre

/-- A regular expression without a bar at its top level. -/
def NoBar (x : Bytes) : Prop := ValidUtf8 x ∧ ∃ ts f k l, Parses (runes x) ts f k l ∧ f.alts = []

mutual
theorem shiftCap_id {k : Nat} : ∀ (r : Re), (∀ i, HasCap i r = false) → shiftCap k r = r
  | .noMatch, _ | .empty, _ | .lit _, _ | .cls _ _, _ | .anyNotNL, _ | .any, _ | .beginLine, _ | .endLine, _
  | .beginText, _ | .endText, _ | .wordB, _ | .noWordB, _ => rfl
  | .cap i r, h => by have := h i; simp [HasCap] at this
  | .star g r, h => by simp only [shiftCap, shiftCap_id r (by simpa [HasCap] using h)]
  | .plus g r, h => by simp only [shiftCap, shiftCap_id r (by simpa [HasCap] using h)]
  | .quest g r, h => by simp only [shiftCap, shiftCap_id r (by simpa [HasCap] using h)]
  | .rep mn mx g r, h => by simp only [shiftCap, shiftCap_id r (by simpa [HasCap] using h)]
  | .cat rs, h => by simp only [shiftCap, shiftCapList_id rs (by simpa [HasCap] using h)]
  | .alt rs, h => by simp only [shiftCap, shiftCapList_id rs (by simpa [HasCap] using h)]
theorem shiftCapList_id {k : Nat} : ∀ (rs : List Re), (∀ i, HasCapList i rs = false) → shiftCapList k rs = rs
  | [], _ => rfl
  | r :: rs, h => by
    simp only [HasCapList, Bool.or_eq_false_iff] at h
    simp only [shiftCapList, shiftCap_id r (fun i => (h i).1), shiftCapList_id rs (fun i => (h i).2)]
end

/-- `(edge)(look)core(look)(edge)`, with `k` groups in the core. -/
structure Layout (p : Pattern) (e1 lb : Re) (core : List Re) (k : Nat) (la e2 : Re) : Prop where
  re : p.re = .cat ([.cap 1 e1, .cap 2 lb] ++ core ++ [.cap (k + 3) la, .cap (k + 4) e2])
  num : numCap p.re = k + 4
  e1 : ∀ i, HasCap i e1 = false
  lb : ∀ i, HasCap i lb = false
  la : ∀ i, HasCap i la = false
  e2 : ∀ i, HasCap i e2 = false
  core : ∀ i, HasCapList i core = true → 3 ≤ i ∧ i ≤ k + 2

/-- The items of a core, whose groups come after two others, have the language of the core. -/
theorem core_lang {l : List Re} : (∀ u, Spec.Lang (.cat (l.map (shiftCap 2)).reverse) u ↔ Spec.Lang (mkCat l) u) ∧
    (Spec.Plain (mkCat l) = true → Spec.PlainList (l.map (shiftCap 2)).reverse = true) := by
  rw [← List.map_reverse, ← shiftCapList_eq, plainList_shift]
  exact ⟨fun u => by rw [lang_mkCat, langCat_shift], plain_mkCat⟩

theorem layout_of_pieces {p : Pattern} {a b m c d : Bytes} {ra rb rc rd : Re}
    (hp : compile (paren a ++ (paren b ++ (m ++ (paren c ++ paren d)))) = .ok p.re)
    (ha : compile a = .ok ra) (hb : compile b = .ok rb) (hm : NoBar m)
    (hc : compile c = .ok rc) (hd : compile d = .ok rd)
    (na : numCap ra = 0) (nb : numCap rb = 0) (nc : numCap rc = 0) (nd : numCap rd = 0) :
    ∃ core k, Layout p ra rb core k rc rd ∧
      ∀ rm, compile m = .ok rm → ∃ l, rm = mkCat l ∧ core = (l.map (shiftCap 2)).reverse := by
  have get : ∀ {x : Bytes} {r : Re}, compile x = .ok r → numCap r = 0 →
      ValidUtf8 x ∧ ∃ ts f l, Parses (runes x) ts f 0 l ∧ r = f.body := by
    intro x r h hn
    unfold compile at h
    split at h
    · rename_i hv
      obtain ⟨ts, f, k, l, h1, rfl⟩ := parseRunes_iff.1 h
      rw [h1.numCap] at hn
      subst hn
      exact ⟨hv, ts, f, l, h1, rfl⟩
    · simp at h
  obtain ⟨va, ta, fa, la, pa, rfl⟩ := get ha na
  obtain ⟨vb, tb, fb, lb, pb, rfl⟩ := get hb nb
  obtain ⟨vc, tc, fc, lc, pc, rfl⟩ := get hc nc
  obtain ⟨vd, td, fd, ld, pd, rfl⟩ := get hd nd
  obtain ⟨vm, tm, fm, k, lm, hm, hbar⟩ := hm
  have no0 : ∀ {rs ts f l} (_ : Parses rs ts f 0 l) (i : Nat), HasCap i f.body = false := by
    intro rs ts f l h i
    rw [Bool.eq_false_iff]
    intro h2
    have := (h.hasCap _).1 h2
    omega
  unfold compile at hp
  split at hp
  · have vo : ValidUtf8 [0x28] := ⟨[0x28], by decide, by decide⟩
    have vx : ValidUtf8 [0x29] := ⟨[0x29], by decide, by decide⟩
    have ro : runes [0x28] = [0x28] := by decide
    have rx : runes [0x29] = [0x29] := by decide
    have : runes (paren a ++ (paren b ++ (m ++ (paren c ++ paren d)))) =
        pieces (runes a) (runes b) (runes m) (runes c) (runes d) := by
      simp only [paren, List.append_assoc]
      simp only [runes_append va, runes_append vb, runes_append vm, runes_append vc, runes_append vd,
        runes_append vo, runes_append vx, ro, rx, pieces]
      simp
    rw [this] at hp
    obtain ⟨ts, f, l, hq, hf⟩ := parse_pieces pa pb hm pc pd
    have hre : p.re = f.body := by
      have := parseRunes_iff.2 ⟨ts, f, _, l, hq, rfl⟩
      rw [hp] at this
      simpa using this
    rcases hf with ⟨_, hf⟩ | ⟨B, c1, hB, _⟩
    · refine ⟨(fm.cat.map (shiftCap 2)).reverse, k, ⟨?_, ?_, no0 pa, no0 pb, no0 pc, no0 pd, ?_⟩, ?_⟩
      · rw [hre, hf, shiftCap_id _ (no0 pa), shiftCap_id _ (no0 pb), shiftCap_id _ (no0 pc), shiftCap_id _ (no0 pd)]
      · rw [hre, hq.numCap]
      · intro i hi
        rw [hasCapList_iff] at hi
        obtain ⟨x, hx, hi⟩ := hi
        simp only [List.mem_reverse, List.mem_map] at hx
        obtain ⟨y, hy, rfl⟩ := hx
        obtain ⟨h1, h2⟩ := hasCap_shift_iff.1 hi
        have : HasCap (i - 2) fm.body = true := by
          rw [Frame.body, hasCap_mkAlt, HasCapList, hasCap_mkCat, Bool.or_eq_true]
          exact .inl (hasCapList_iff.2 ⟨y, hy, h2⟩)
        have := (hm.hasCap _).1 this
        omega
      · intro rm hrm
        have hrm : rm = fm.body := by
          rw [compile, if_pos vm] at hrm
          have := parseRunes_iff.2 ⟨_, _, _, _, hm, rfl⟩
          rw [hrm] at this
          simpa using this
        exact ⟨fm.cat, by rw [hrm, Frame.body, hbar, mkAlt], rfl⟩
    · rw [hbar] at hB
      simp at hB
  · simp at hp

theorem runCat_append (xs ys : List Re) (s : St) :
    runCat (xs ++ ys) s = (runCat xs s).flatMap (runCat ys) := by
  induction xs generalizing s with
  | nil => simp [runCat]
  | cons x xs ih =>
    have : runCat (xs ++ ys) = fun s => (runCat xs s).flatMap (runCat ys) := funext ih
    simp [runCat, List.flatMap_assoc, this]

/-- What a group records. -/
theorem run_cap_mem {i : Nat} {r : Re} (hr : HasCap i r = false) {s s' : St} (h : s' ∈ run (.cap i r) s) :
    (2 * i < s.caps.length → s'.caps[2 * i]? = some (some s.pos)) ∧
    (2 * i + 1 < s.caps.length → s'.caps[2 * i + 1]? = some (some s'.pos)) ∧
    ∃ t, t ∈ run r (setCap (2 * i) s) ∧ s' = setCap (2 * i + 1) t := by
  simp only [run, List.mem_map] at h
  obtain ⟨t, ht, rfl⟩ := h
  have hk := run_keeps hr ht
  have hl := (run_adv ht).1
  refine ⟨fun hi => ?_, fun hi => ?_, t, ht, rfl⟩
  · simp only [setCap]
    rw [List.getElem?_set_ne (by omega), hk.1]
    simp [setCap, hi]
  · simp only [setCap] at hl ⊢
    rw [List.getElem?_set_self (by simpa [hl] using hi)]

/-- A final state of a laid out expression, with the states between its parts. -/
theorem Layout.path {p : Pattern} {e1 lb la e2 : Re} {core : List Re} {k : Nat} (h : Layout p e1 lb core k la e2)
    {prev : Option Rune} {pos : Nat} {rest : List (Rune × Nat)} {s : St}
    (hs : s ∈ run p.re (start p.re prev pos rest)) :
    ∃ s1 s2 s3 s4, s1 ∈ run (.cap 1 e1) (start p.re prev pos rest) ∧ s2 ∈ run (.cap 2 lb) s1 ∧
      s3 ∈ runCat core s2 ∧ s4 ∈ run (.cap (k + 3) la) s3 ∧ s ∈ run (.cap (k + 4) e2) s4 ∧
      coreStart pos s = s2.pos ∧ coreStop (numCap p.re) s = s3.pos ∧ s.caps[5]? = some (some s2.pos) ∧
      s.caps[2 * (numCap p.re - 1)]? = some (some s3.pos) := by
  have hl : s.caps.length = 2 * (numCap p.re + 1) := run_start_length hs
  rw [h.num] at hl
  rw [h.re, run] at hs
  rw [← h.re] at hs
  simp only [List.cons_append, List.nil_append, runCat, List.mem_flatMap] at hs
  obtain ⟨s1, h1, s2, h2, hs⟩ := hs
  rw [runCat_append, List.mem_flatMap] at hs
  obtain ⟨s3, h3, hs⟩ := hs
  simp only [runCat, List.mem_flatMap, List.mem_singleton] at hs
  obtain ⟨s4, h4, s5, h5, rfl⟩ := hs
  have hnum := h.num
  have l1 := (run_adv h1).1
  have l2 := (run_adv h2).1
  have l3 := (runCat_adv h3).1
  have l4 := (run_adv h4).1
  have l5 := (run_adv h5).1
  have k5 : s.caps[5]? = some (some s2.pos) := by
    have q3 := (runCat_keeps (i := 2) (by
      rw [Bool.eq_false_iff]; intro hc; have := h.core _ hc; omega) h3).2
    have q4 := (run_keeps (r := .cap (k + 3) la) (i := 2) (by simp [HasCap, h.la]) h4).2
    have q5 := (run_keeps (r := .cap (k + 4) e2) (i := 2) (by simp [HasCap, h.e2]) h5).2
    have := (run_cap_mem (h.lb 2) h2).2.1 (by omega)
    exact (q5.trans (q4.trans q3)).trans this
  have kA : s.caps[2 * (numCap p.re - 1)]? = some (some s3.pos) := by
    have e : numCap p.re - 1 = k + 3 := by omega
    rw [e]
    have q5 := (run_keeps (r := .cap (k + 4) e2) (i := k + 3) (by simp [HasCap, h.e2]) h5).1
    exact q5.trans ((run_cap_mem (h.la (k + 3)) h4).1 (by omega))
  exact ⟨s1, s2, s3, s4, h1, h2, h3, h4, h5, by simp [coreStart, k5], by simp [coreStop, kA], k5, kA⟩

/-- The layout of a pattern without a top-level bar. -/
theorem Shape.layout {x : Bytes} {p : Pattern} (h : Shape x p) {rb ra : Re}
    (hb : compile (expandEdges (posLook h.lookB)) = .ok rb) (hc : NoBar (expandEdges h.core))
    (ha : compile (expandEdges (posLook h.lookA)) = .ok ra) :
    ∃ r1 r2 core k, compile (expandEdges (List.replicate h.nb 0x5E)) = .ok r1 ∧
      compile (expandEdges (List.replicate h.na 0x24)) = .ok r2 ∧ Layout p r1 rb core k ra r2 ∧
      ∀ rm, compile (expandEdges h.core) = .ok rm → ∃ l, rm = mkCat l ∧ core = (l.map (shiftCap 2)).reverse := by
  have hq : ∀ l, quiet (expandEdges (posLook l)) = true := by
    intro l
    apply quiet_expandEdges
    unfold posLook
    split
    · rfl
    · exact quiet_noCapture l
  have hl : ∃ r, compile (expandEdges (List.replicate h.nb 0x5E)) = .ok r ∧ numCap r = 0 := by
    rw [expandEdges_carets]
    split
    · exact ⟨_, rfl, rfl⟩
    · split <;> exact ⟨_, rfl, rfl⟩
  have hr : ∃ r, compile (expandEdges (List.replicate h.na 0x24)) = .ok r ∧ numCap r = 0 := by
    rw [expandEdges_dollars]
    split
    · exact ⟨_, rfl, rfl⟩
    · split <;> exact ⟨_, rfl, rfl⟩
  obtain ⟨r1, hl1, hl2⟩ := hl
  obtain ⟨r2, hr1, hr2⟩ := hr
  obtain ⟨core, k, hL, hl⟩ := layout_of_pieces h.re hl1 hb hc ha hr1 hl2 (numCap_of_quiet (hq _) hb)
    (numCap_of_quiet (hq _) ha) hr2
  exact ⟨r1, r2, core, k, hl1, hr1, hL, hl⟩

theorem prevAfter_none {u : List (Rune × Nat)} (h : prevAfter none u = none) : u = [] := by
  have : ∀ (u : List (Rune × Nat)) (c : Rune), prevAfter (some c) u ≠ none := by
    intro u
    induction u with
    | nil => intro c; simp [prevAfter]
    | cons a u ih => intro c; exact ih _
  cases u with
  | nil => rfl
  | cons a u => exact absurd h (this u _)

/-- A pattern beginning with `^^` finds the next match where the search begins. -/
theorem findStep_anchored {p : Pattern} {la e2 : Re} {core : List Re} {k : Nat}
    (h : Layout p .beginText .empty core k la e2) {word : Bytes} {offset o' : Nat} {m : List Int}
    (hs : findStep p word offset = .ok (some (o', some m))) :
    ∃ groups, m = (offset : Int) :: (o' : Int) :: groups := by
  obtain ⟨u, v, s, _, h2, _, h4, _, h6⟩ := (findStep_some hs).found
  obtain ⟨_, _, h7⟩ := h6 m rfl
  obtain ⟨s1, s2, s3, s4, k1, k2, _, _, _, k3, _, _, _⟩ := h.path h2
  obtain ⟨_, _, t1, ht1, rfl⟩ := run_cap_mem (h.e1 1) k1
  obtain ⟨_, _, t2, ht2, rfl⟩ := run_cap_mem (h.lb 2) k2
  simp only [run, check, setCap, start] at ht1
  by_cases hp : (prevAfter none u).isNone = true
  · simp only [hp, ↓reduceIte, List.mem_singleton] at ht1
    subst ht1
    simp [run, setCap] at ht2
    subst ht2
    have hu : u = [] := prevAfter_none (by simpa using hp)
    subst hu
    have hk : coreStart (width []) s = 0 := k3
    obtain ⟨g, hg⟩ : ∃ g, m = ((coreStart (width []) s + offset : Nat) : Int) ::
      ((coreStop (numCap p.re) s + offset : Nat) : Int) :: g := ⟨_, h7⟩
    exact ⟨g, by rw [hg, hk, h4]; simp⟩
  · simp [hp] at ht1

/-- Without negative lookarounds every match found is reported. -/
theorem findStep_reported {p : Pattern} (ha : p.negA = none) (hb : p.negB = none) {word : Bytes} {offset o' : Nat} :
    findStep p word offset ≠ .ok (some (o', none)) := by
  unfold findStep
  split
  · simp
  · dsimp only
    split
    · simp
    · intro h
      rw [Go.bind_eq_ok] at h
      obtain ⟨⟨a, b⟩, _, h⟩ := h
      simp only at h
      split at h
      · simp at h
      · simp only [Go.bind_eq_ok] at h
        obtain ⟨x, _, y, _, h⟩ := h
        simp [hitsAhead, hitsBehind, ha, hb] at h

theorem findLoop_tiled {p : Pattern} {la e2 : Re} {core : List Re} {k : Nat}
    (h : Layout p .beginText .empty core k la e2) (ha : p.negA = none) (hb : p.negB = none) {word : Bytes} {n : Int} :
    ∀ {fuel offset count : Nat} {ms : List (List Int)}, findLoop p word n fuel offset count = .ok ms →
      Tiled offset ms := by
  intro fuel
  induction fuel with
  | zero => intro offset count ms h; simp [findLoop] at h
  | succ fuel ih =>
    intro offset count ms hf
    unfold findLoop at hf
    split at hf
    · rw [Go.bind_eq_ok] at hf
      obtain ⟨x, hx, hf⟩ := hf
      split at hf
      · simp at hf; subst hf; trivial
      · exact absurd hx (findStep_reported ha hb)
      · rename_i o' m
        rw [Go.bind_eq_ok] at hf
        obtain ⟨ms', hf, hms⟩ := hf
        simp at hms
        subst hms
        obtain ⟨g, hg⟩ := findStep_anchored h hx
        exact ⟨o', g, hg, ih hf⟩
    · simp at hf; subst hf; trivial

/-- A pattern `^^...` without top-level bars and negative lookahead finds matches one after another. -/
theorem Shape.tiled {x : Bytes} {p : Pattern} (h : Shape x p) (hn : 2 ≤ h.nb)
    (hc : NoBar (expandEdges h.core)) {ra : Re} (ha : compile (expandEdges (posLook h.lookA)) = .ok ra)
    (hA : p.negA = none) {word : Bytes} {n : Int} {ms : List (List Int)} (hf : find p word n = .ok ms) :
    Tiled 0 ms := by
  have hp : posLook h.lookB = [] := h.edgeB (by omega)
  have hb : compile (expandEdges (posLook h.lookB)) = .ok .empty := by rw [hp, expandEdges_nil]; rfl
  obtain ⟨r1, r2, core, k, h1, h2, hL, _⟩ := h.layout hb hc ha
  rw [expandEdges_carets, if_neg (by omega), if_neg (by omega)] at h1
  have : compile [0x5E] = .ok .beginText := by rfl
  rw [this] at h1
  simp at h1
  subst h1
  have hB : p.negB = none := by
    have := h.negB
    unfold NegOf at this
    rw [if_neg (by omega)] at this
    exact this.1
  exact findLoop_tiled hL hA hB hf

end Verif.Hre
