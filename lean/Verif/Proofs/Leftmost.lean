import Verif.Proofs.Negative
import Verif.Spec.Leftmost

/-! `Find` takes the leftmost matches and skips none. -/

namespace Verif.Hre

open Verif.Rx Verif.Spec Verif.Spec.Hre

theorem bytes_eq (l : List (Rune × Nat)) : bytes l = width l := rfl

/-- The match found is the leftmost one and the preferred one there. -/
theorem searchFrom_first {r : Re} {rest : List (Rune × Nat)} {prev : Option Rune} {pos p : Nat} {s : St}
    (h : searchFrom r rest prev pos = some (p, s)) :
    ∃ u v, rest = u ++ v ∧ p = pos + width u ∧ (run r (start r (prevAfter prev u) p v)).head? = some s ∧
      ∀ u' v', rest = u' ++ v' → u'.length < u.length →
        run r (start r (prevAfter prev u') (pos + width u') v') = [] := by
  induction rest generalizing prev pos with
  | nil =>
    simp only [searchFrom, Option.map_eq_some_iff] at h
    obtain ⟨s', hs, h⟩ := h
    cases h
    exact ⟨[], [], rfl, by simp, by simpa [prevAfter] using hs, by simp⟩
  | cons a t ih =>
    obtain ⟨c, n⟩ := a
    simp only [searchFrom] at h
    split at h
    · rename_i s' l hr
      cases h
      exact ⟨[], (c, n) :: t, rfl, by simp, by simp [prevAfter, hr], by simp⟩
    · rename_i hr
      obtain ⟨u, v, h1, h2, h3, h4⟩ := ih h
      refine ⟨(c, n) :: u, v, by simp [h1], by simp [h2]; omega, by simpa [prevAfter] using h3, ?_⟩
      intro u' v' he hl
      cases u' with
      | nil =>
        simp at he
        subst he
        simpa [prevAfter] using hr
      | cons b u' =>
        simp only [List.cons_append, List.cons.injEq] at he
        obtain ⟨rfl, he⟩ := he
        have := h4 u' v' he (by simpa using hl)
        simpa [prevAfter, Nat.add_assoc] using this

/-- What one iteration of the loop of `Find` has searched and decided. -/
theorem findStep_search {p : Pattern} {word : Bytes} {offset o' : Nat} {x : Option (List Int)}
    (h : findStep p word offset = .ok (some (o', x))) :
    ∃ pos s, searchFrom p.re (decode (word.drop offset)) none 0 = some (pos, s) ∧
      o' = coreStop (numCap p.re) s + offset ∧ coreStart pos s ≠ coreStop (numCap p.re) s ∧
      (let veto := hitsAhead p word (shift offset (toInt ((s.caps[2 * (numCap p.re - 1)]?).getD none))) ||
        hitsBehind p word (shift offset (toInt ((s.caps[5]?).getD none)))
      (x = none ∧ veto = true) ∨ (veto = false ∧ x = some (((coreStart pos s + offset : Nat) : Int) ::
        ((coreStop (numCap p.re) s + offset : Nat) : Int) ::
        ((((subs pos s).map (shift offset)).drop 6).take (2 * (numCap p.re + 1) - 4 - 6))))) := by
  unfold findStep at h
  split at h
  · simp at h
  · rename_i m₀ hm₀
    simp only [findSubmatch, Option.map_eq_some_iff, Prod.exists] at hm₀
    obtain ⟨pos, s, hsearch, rfl⟩ := hm₀
    obtain ⟨u, v, h1, h2, h3⟩ := searchFrom_some hsearch
    have hmap : (fun i : Int => if i ≠ -1 then i + (offset : Int) else i) = shift offset := by
      funext i; rfl
    simp only [hmap] at h
    have hl : (subs pos s).length = 2 * (numCap p.re + 1) := subs_length h3
    split at h
    · simp at h
    · rename_i hlen
      have hk : 4 ≤ numCap p.re := by simp [hl] at hlen; omega
      obtain ⟨k1, k2, k3⟩ := pickStartStop_subs (offset := offset) h3 hk
      rw [k1] at h
      simp only [Go.bind_ok] at h
      split at h
      · simp at h
      · rename_i hne
        rw [k2, k3] at h
        simp only [Go.bind_ok, Go.pure_eq] at h
        split at h
        · rename_i hv
          simp only [Go.ok.injEq, Option.some.injEq, Prod.mk.injEq, Int.toNat_natCast] at h
          obtain ⟨rfl, rfl⟩ := h
          exact ⟨pos, s, hsearch, rfl, by omega, .inl ⟨rfl, hv⟩⟩
        · rename_i hno
          simp only [Go.ok.injEq, Option.some.injEq, Prod.mk.injEq, Int.toNat_natCast] at h
          obtain ⟨rfl, rfl⟩ := h
          refine ⟨pos, s, hsearch, rfl, by omega, .inr ⟨by simpa using hno, ?_⟩⟩
          rw [List.length_map, hl]

theorem findStep_none {p : Pattern} {word : Bytes} {offset : Nat} (h : findStep p word offset = .ok none) :
    searchFrom p.re (decode (word.drop offset)) none 0 = none := by
  unfold findStep at h
  split at h
  · rename_i hm
    simpa [findSubmatch] using hm
  · dsimp only at h
    split at h
    · simp at h
    · rw [Go.bind_eq_ok] at h
      obtain ⟨⟨a, b⟩, _, h⟩ := h
      simp only at h
      split at h
      · simp at h
      · simp only [Go.bind_eq_ok] at h
        obtain ⟨x, _, y, _, h⟩ := h
        split at h <;> simp at h

/-- The characters before a boundary. -/
theorem boundary_split {word : Bytes} {o : Nat} (h : Boundary word o) :
    ∃ d, decode word = d ++ decode (word.drop o) ∧ o = width d := by
  obtain ⟨u, v, h1, h2⟩ := h
  refine ⟨u, ?_, h2⟩
  have := decode_drop h1
  rw [show width u = o from h2.symm] at this
  rw [this, h1]

theorem width_pos_decode {word : Bytes} {a b : List (Rune × Nat)} (h : decode word = a ++ b) :
    ∀ x ∈ a, 1 ≤ x.2 := fun x hx => decode_width_pos word x (by rw [h]; simp [hx])

/-- Of two prefixes of a text the one with fewer bytes has fewer characters. -/
theorem prefix_of_width {word : Bytes} {a b c d : List (Rune × Nat)} (h1 : decode word = a ++ b)
    (h2 : decode word = c ++ d) (h : width a < width c) : ∃ e, c = a ++ e ∧ e ≠ [] := by
  rw [h1] at h2
  rcases List.append_eq_append_iff.1 h2 with ⟨e, h3, h4⟩ | ⟨e, h3, h4⟩
  · refine ⟨e, h3, ?_⟩
    rintro rfl
    rw [h3] at h
    simp at h
  · rw [h3] at h
    simp at h
    omega

theorem prefix_of_width_le {word : Bytes} {a b c d : List (Rune × Nat)} (h1 : decode word = a ++ b)
    (h2 : decode word = c ++ d) (h : width a ≤ width c) : ∃ e, c = a ++ e := by
  have h0 := h2
  rw [h1] at h2
  rcases List.append_eq_append_iff.1 h2 with ⟨e, h3, h4⟩ | ⟨e, h3, h4⟩
  · exact ⟨e, h3⟩
  · rw [h3] at h
    simp at h
    have : e = [] := by
      cases e with
      | nil => rfl
      | cons q e =>
        have := width_pos_decode h1 q (by rw [h3]; simp)
        simp at h
        omega
    exact ⟨[], by rw [h3, this]; simp⟩

variable {p : Pattern} {lb la : Re} {core : List Re} {c : Nat}

/-- An occurrence makes the search succeed where it begins. -/
theorem Layout.run_ne_nil (h : Layout p .empty lb core c la .empty) {x y z t : List (Rune × Nat)}
    (hx : Lang lb (x.map Prod.fst)) (hy : Lang (.cat core) (y.map Prod.fst)) (hz : Lang la (z.map Prod.fst))
    (prev : Option Rune) (pos : Nat) : run p.re (start p.re prev pos (x ++ (y ++ (z ++ t)))) ≠ [] := by
  have hl : Lang p.re ((x ++ (y ++ z)).map Prod.fst) := by
    rw [h.re, List.map_append, List.map_append]
    refine .cons (u := []) (.cap .empty) (.cons (.cap hx) ?_)
    show Lang (.cat (core ++ [_, _])) _
    rw [lang_cat_append]
    refine ⟨_, _, rfl, hy, ?_⟩
    rw [← List.append_nil (z.map Prod.fst)]
    exact .cons (.cap hz) (.cons (u := []) (v := []) (.cap .empty) .nil)
  obtain ⟨s', h1, _⟩ := run_covers hl (start p.re prev pos (x ++ (y ++ (z ++ t)))) (x ++ (y ++ z)) t
    (by simp [start]) rfl
  exact List.ne_nil_of_mem h1

theorem run_cap_reads {i : Nat} {r : Re} (hp : Plain r = true) {s s' : St} (h : s' ∈ run (.cap i r) s) :
    ∃ u, Lang r u ∧ Reads u s s' := by
  obtain ⟨u, h1, h2⟩ := run_reads (.cap i r) (by simpa [Plain] using hp) s s' h
  exact ⟨u, lang_cap_iff.1 h1, h2⟩

theorem reads_width {u : List Rune} {s s' : St} (h : Reads u s s') (ha : Adv s s') :
    ∃ l, s.rest = l ++ s'.rest ∧ l.map Prod.fst = u ∧ s'.pos = s.pos + width l := by
  obtain ⟨l, h1, h2⟩ := h
  obtain ⟨_, l', h3, h4, _⟩ := ha
  rw [h1] at h3
  have := List.append_cancel_right h3
  subst this
  exact ⟨l, h1, h2, h4⟩

/-- The veto of the negative lookarounds. -/
def vetoes (p : Pattern) (word : Bytes) (j k : Nat) : Prop :=
  (hitsAhead p word k || hitsBehind p word j) = true

theorem Layout.step (h : Layout p .empty lb core c la .empty) {rc : Re}
    (hc : ∀ u, Lang (.cat core) u ↔ Lang rc u) (p1 : Plain lb = true) (p2 : PlainList core = true)
    (p3 : Plain la = true) {word : Bytes} {o o' : Nat} (hb : Boundary word o) {x : Option (List Int)}
    (hs : findStep p word o = .ok (some (o', x))) :
    ∃ i j k, Occurs lb rc la word i j k ∧ o ≤ i ∧ j < k ∧ Nothing (Occurs lb rc la word) o i ∧ o' = k ∧
      Boundary word k ∧
      ((x = none ∧ vetoes p word j k) ∨ (¬ vetoes p word j k ∧ ∃ g, x = some ((j : Int) :: (k : Int) :: g))) := by
  obtain ⟨pos, s, h1, h2, h3, h4⟩ := findStep_search hs
  obtain ⟨u, v, k1, k2, k3, k4⟩ := searchFrom_first h1
  simp only [Nat.zero_add] at k2
  subst k2
  have hmem : s ∈ run p.re (start p.re (prevAfter none u) (width u) v) := List.mem_of_mem_head? k3
  obtain ⟨s1, s2, s3, s4, a1, a2, a3, a4, a5, b1, b2, b3, b4⟩ := h.path hmem
  obtain ⟨d, hd, ho⟩ := boundary_split hb
  -- the parts
  have e1 : s1.rest = v ∧ s1.pos = width u := by
    obtain ⟨_, _, t, ht, rfl⟩ := run_cap_mem (h.e1 1) a1
    simp [run, setCap, start] at ht
    subst ht
    exact ⟨rfl, rfl⟩
  obtain ⟨x', lx, rx⟩ := run_cap_reads p1 a2
  obtain ⟨lx', ex, mx, wx⟩ := reads_width rx (run_adv a2)
  obtain ⟨y', ly, ry⟩ := runCat_reads core p2 _ _ a3
  obtain ⟨ly', ey, my, wy⟩ := reads_width ry (runCat_adv a3)
  obtain ⟨z', lz, rz⟩ := run_cap_reads p3 a4
  obtain ⟨lz', ez, mz, wz⟩ := reads_width rz (run_adv a4)
  have hv : v = lx' ++ (ly' ++ (lz' ++ s4.rest)) := by
    rw [← e1.1, ex, ey, ez]
  have hword : decode word = (d ++ u) ++ (lx' ++ (ly' ++ (lz' ++ s4.rest))) := by
    rw [hd, k1, hv]; simp
  have hlt : s2.pos < s3.pos := by
    rw [b1, b2] at h3
    omega
  refine ⟨o + width u, s2.pos + o, s3.pos + o, ?_, by omega, by omega, ?_, ?_, ?_, ?_⟩
  · refine ⟨d ++ u, lx', ly', lz', s4.rest, hword, ?_, ?_, ?_, ?_, ?_, ?_⟩
    · rw [bytes_eq, width_append, ho]
    · rw [bytes_eq, wx, e1.2]; omega
    · rw [bytes_eq, wy]; omega
    · rw [mx]; exact lx
    · rw [my]; exact (hc _).1 ly
    · rw [mz]; exact lz
  · rintro i j k hi hi' ⟨w0, x0, y0, z0, t0, q1, q2, q3, q4, q5, q6, q7⟩
    obtain ⟨e, rfl⟩ := prefix_of_width_le hd q1 (by rw [← ho]; rw [bytes_eq] at q2; omega)
    have q8 : decode (word.drop o) = e ++ (x0 ++ (y0 ++ (z0 ++ t0))) := by
      rw [hd, List.append_assoc] at q1
      exact List.append_cancel_left q1
    have q9 : e.length < u.length := by
      rw [bytes_eq, width_append, ← ho] at q2
      obtain ⟨e', h5, h6⟩ := prefix_of_width q8 k1 (by omega)
      rw [h5]
      have := List.length_pos_iff.2 h6
      simp; omega
    exact h.run_ne_nil q5 ((hc _).2 q6) q7 _ _ (k4 e _ q8 q9)
  · rw [h2, b2]
  · refine ⟨d ++ u ++ lx' ++ ly', lz' ++ s4.rest, by rw [hword]; simp, ?_⟩
    have : width (d ++ u ++ lx' ++ ly') = s3.pos + o := by
      simp only [width_append]; rw [wy, wx, e1.2, ← ho]; omega
    exact this.symm
  · have f1 : shift o (toInt ((s.caps[2 * (numCap p.re - 1)]?).getD none)) = ((s3.pos + o : Nat) : Int) := by
      rw [b4, shift_toInt]; rfl
    have f2 : shift o (toInt ((s.caps[5]?).getD none)) = ((s2.pos + o : Nat) : Int) := by
      rw [b3, shift_toInt]; rfl
    rw [f1, f2, b1, b2] at h4
    unfold vetoes
    rcases h4 with ⟨h5, h6⟩ | ⟨h5, h6⟩
    · exact .inl ⟨h5, h6⟩
    · exact .inr ⟨by rw [h5]; simp, _, h6⟩

theorem Layout.none (h : Layout p .empty lb core c la .empty) {rc : Re}
    (hc : ∀ u, Lang (.cat core) u ↔ Lang rc u) {word : Bytes} {o : Nat} (hb : Boundary word o)
    (hs : findStep p word o = .ok none) {hi : Nat} : Nothing (Occurs lb rc la word) o hi := by
  have h1 := searchFrom_none.1 (findStep_none hs)
  obtain ⟨d, hd, ho⟩ := boundary_split hb
  rintro i j k hi hi' ⟨w0, x0, y0, z0, t0, q1, q2, q3, q4, q5, q6, q7⟩
  obtain ⟨e, rfl⟩ := prefix_of_width_le hd q1 (by rw [← ho]; rw [bytes_eq] at q2; omega)
  have q8 : decode (word.drop o) = e ++ (x0 ++ (y0 ++ (z0 ++ t0))) := by
    rw [hd, List.append_assoc] at q1
    exact List.append_cancel_left q1
  exact h.run_ne_nil q5 ((hc _).2 q6) q7 _ _ (h1 e _ q8)

theorem Layout.leftmost (h : Layout p .empty lb core c la .empty) {rc : Re}
    (hc : ∀ u, Lang (.cat core) u ↔ Lang rc u) (p1 : Plain lb = true) (p2 : PlainList core = true)
    (p3 : Plain la = true) {word : Bytes} : ∀ {fuel o count : Nat} {ms : List (List Int)}, Boundary word o →
    findLoop p word (-1) fuel o count = .ok ms →
    Leftmost (Occurs lb rc la word) (vetoes p word) word.length o ms := by
  intro fuel
  induction fuel with
  | zero => intro o count ms _ hf; simp [findLoop] at hf
  | succ fuel ih =>
    intro o count ms hb hf
    unfold findLoop at hf
    split at hf
    · rw [Go.bind_eq_ok] at hf
      obtain ⟨x, hx, hf⟩ := hf
      split at hf
      · simp at hf; subst hf; exact .done (h.none hc hb hx)
      · obtain ⟨i, j, k, h1, h2, h3, h4, rfl, h6, h7⟩ := h.step hc p1 p2 p3 hb hx
        rcases h7 with ⟨_, h7⟩ | ⟨_, g, h7⟩
        · exact .vetoed h1 h2 h3 h4 h7 (ih h6 hf)
        · simp at h7
      · rename_i o' m
        rw [Go.bind_eq_ok] at hf
        obtain ⟨ms', hf, hms⟩ := hf
        simp at hms
        subst hms
        obtain ⟨i, j, k, h1, h2, h3, h4, rfl, h6, h7⟩ := h.step hc p1 p2 p3 hb hx
        rcases h7 with ⟨h7, _⟩ | ⟨h7, g, h8⟩
        · simp at h7
        · simp at h8
          subst h8
          exact .found h1 h2 h3 h4 h7 (ih h6 hf)
    · rename_i hlt
      simp at hf
      subst hf
      refine .done ?_
      intro i j k hi hi'
      exact absurd ⟨by omega, .inl (by omega)⟩ hlt

/-! ## The vetoes -/

/-- What `^(e)` hits begins with a matching text. -/
theorem ahead_hits_iff {re : Re} (hp : Plain re = true) {w : Bytes} :
    matchString (.cat [.beginText, .cap 1 re]) w = true ↔ ∃ u, u <+: runes w ∧ Lang re u := by
  refine ⟨fun h => ?_, fun ⟨u, h1, h2⟩ => ahead_hits h1 h2⟩
  unfold matchString at h
  obtain ⟨⟨pos, s⟩, hs⟩ := Option.isSome_iff_exists.1 h
  obtain ⟨u, v, h1, h2, h3⟩ := searchFrom_some hs
  rw [run, runCat] at h3
  simp only [runCat, List.mem_flatMap, List.mem_singleton, exists_eq_right'] at h3
  obtain ⟨s1, h3, h4⟩ := h3
  have : prevAfter none u = none := by
    rw [run, check] at h3
    split at h3
    · rename_i hc; simpa [start] using hc
    · simp at h3
  have hu := prevAfter_none this
  subst hu
  have h5 : s1.rest = decode w := by
    rw [run, check] at h3
    split at h3
    · simp at h3; subst h3; simpa [start] using h1.symm
    · simp at h3
  obtain ⟨x, h6, h7⟩ := run_cap_reads hp h4
  obtain ⟨l, h8, h9⟩ := h7
  refine ⟨x, ⟨s.rest.map Prod.fst, ?_⟩, h6⟩
  rw [← h9, ← List.map_append, ← h8, h5]
  rfl

/-- What `(e)$` hits ends with a matching text. -/
theorem behind_hits_iff {re : Re} (hp : Plain re = true) {w : Bytes} :
    matchString (.cat [.cap 1 re, .endText]) w = true ↔ ∃ u, u <:+ runes w ∧ Lang re u := by
  refine ⟨fun h => ?_, fun ⟨u, h1, h2⟩ => behind_hits h1 h2⟩
  unfold matchString at h
  obtain ⟨⟨pos, s⟩, hs⟩ := Option.isSome_iff_exists.1 h
  obtain ⟨u, v, h1, h2, h3⟩ := searchFrom_some hs
  rw [run, runCat] at h3
  simp only [runCat, List.mem_flatMap, List.mem_singleton, exists_eq_right'] at h3
  obtain ⟨s1, h3, h4⟩ := h3
  have h5 : s1.rest = [] := by
    rw [run, check] at h4
    split at h4
    · rename_i hc; simpa using hc
    · simp at h4
  obtain ⟨x, h6, h7⟩ := run_cap_reads hp h3
  obtain ⟨l, h8, h9⟩ := h7
  refine ⟨x, ⟨u.map Prod.fst, ?_⟩, h6⟩
  rw [← h9, ← List.map_append]
  rw [h5, List.append_nil] at h8
  rw [← h8]
  simp [start, runes, h1]

/-- In an ASCII word the window of a negative lookahead is exact. -/
theorem hitsAhead_iff {p : Pattern} {re : Re} (hn : p.negA = some (.cat [.beginText, .cap 1 re]))
    (hw : p.negAWidth = maxWidth re) (hr : RepSafe re = true) (hp : Plain re = true) {word : Bytes} {i : Nat}
    (ha : maxWidth re = -1 ∨ ∀ b ∈ word, b.toNat < 0x80) :
    hitsAhead p word i = true ↔ FollowedBy re word i := by
  constructor
  · intro h
    unfold hitsAhead at h
    rw [hn] at h
    simp only [hw, ahead_hits_iff hp] at h
    obtain ⟨u, hu, hl⟩ := h
    refine ⟨u, ?_, hl⟩
    by_cases hm : maxWidth re = -1
    · rwa [if_pos hm, substr_nat, List.take_of_length_le (by simp)] at hu
    · have hasc := ha.resolve_left hm
      have hge := maxWidth_ge re hr
      rw [if_neg hm, show (i : Int) + maxWidth re = ((i + (maxWidth re).toNat : Nat) : Int) by omega, substr_nat] at hu
      have a1 : ∀ b ∈ word.drop i, b.toNat < 0x80 := fun b hb => hasc b (List.mem_of_mem_drop hb)
      rw [runes_ascii (fun b hb => a1 b (List.mem_of_mem_take hb)), List.map_take, ← runes_ascii a1] at hu
      exact hu.trans (List.take_prefix _ _)
  · intro h
    rw [← Bool.not_eq_false]
    exact fun h' => ahead_window hn hw hr ha h' h

/-- In an ASCII word the window of a negative lookbehind is exact, except that there is none where it
would begin before the word. -/
theorem hitsBehind_iff {p : Pattern} {re : Re} (hn : p.negB = some (.cat [.cap 1 re, .endText]))
    (hw : p.negBWidth = maxWidth re) (hr : RepSafe re = true) (hp : Plain re = true) {word : Bytes} {i : Nat}
    (ha : maxWidth re = -1 ∨ ∀ b ∈ word, b.toNat < 0x80) (hi : i ≤ word.length) :
    hitsBehind p word i = true ↔ PrecededBy re word i ∧ (maxWidth re ≤ i ∨ Lang re []) := by
  by_cases hlt : maxWidth re ≤ i
  · simp only [hlt, true_or, and_true]
    constructor
    · intro h
      unfold hitsBehind at h
      rw [hn] at h
      simp only [hw, behind_hits_iff hp] at h
      obtain ⟨u, hu, hl⟩ := h
      refine ⟨u, ?_, hl⟩
      by_cases hm : maxWidth re = -1
      · rw [if_pos hm, show (0 : Int) = ((0 : Nat) : Int) from rfl, substr_nat] at hu
        simpa using hu
      · have hasc := ha.resolve_left hm
        have hge := maxWidth_ge re hr
        rw [if_neg hm, show (i : Int) - maxWidth re = ((i - (maxWidth re).toNat : Nat) : Int) by omega, substr_nat,
          ← List.drop_take] at hu
        have a1 : ∀ b ∈ word.take i, b.toNat < 0x80 := fun b hb => hasc b (List.mem_of_mem_take hb)
        rw [runes_ascii (fun b hb => a1 b (List.mem_of_mem_drop hb)), List.map_drop, ← runes_ascii a1] at hu
        exact hu.trans (List.drop_suffix _ _)
    · intro h
      rw [← Bool.not_eq_false]
      intro h'
      refine behind_window hn hw hr ?_ hi h' h
      rcases ha with ha | ha
      · exact .inl ha
      · exact .inr ⟨hlt, ha⟩
  · have hm : maxWidth re ≠ -1 := by omega
    unfold hitsBehind
    rw [hn]
    simp only [hw, behind_hits_iff hp, if_neg hm, hlt, false_or]
    have : substr word ((i : Int) - maxWidth re) i = [] := by
      unfold substr
      rw [if_pos (by omega)]
    rw [this]
    constructor
    · rintro ⟨u, h1, h2⟩
      have : u = [] := by simpa [show runes [] = [] from rfl] using h1
      subst this
      exact ⟨⟨[], List.nil_suffix, h2⟩, h2⟩
    · rintro ⟨_, h⟩
      exact ⟨[], List.nil_suffix, h⟩

/-- Vetoes that agree on the occurrences give the same scans. -/
theorem leftmost_congr {occ : Nat → Nat → Nat → Prop} {v v' : Nat → Nat → Prop} {len lo : Nat} {ms : List (List Int)}
    (h : ∀ i j k, occ i j k → (v j k ↔ v' j k)) (hl : Leftmost occ v len lo ms) : Leftmost occ v' len lo ms := by
  induction hl with
  | done hn => exact .done hn
  | found h1 h2 h3 h4 h5 _ ih => exact .found h1 h2 h3 h4 (fun hv => h5 ((h _ _ _ h1).2 hv)) ih
  | vetoed h1 h2 h3 h4 h5 _ ih => exact .vetoed h1 h2 h3 h4 ((h _ _ _ h1).1 h5) ih

/-! ## A limited number of matches -/

theorem findLoop_take {p : Pattern} {word : Bytes} {n : Int} (hn : 0 ≤ n) : ∀ {fuel fuel' o count c : Nat}
    {ms : List (List Int)}, fuel ≤ fuel' → findLoop p word (-1) fuel o count = .ok ms → (c : Int) ≤ n →
    findLoop p word n fuel' o c = .ok (ms.take (n.toNat - c)) := by
  intro fuel
  induction fuel with
  | zero => intro fuel' o count c ms _ hf; simp [findLoop] at hf
  | succ fuel ih =>
    intro fuel' o count c ms hle hf hc
    obtain ⟨fuel', rfl⟩ := Nat.exists_eq_add_of_le' (Nat.lt_of_lt_of_le (Nat.succ_pos _) hle)
    unfold findLoop at hf ⊢
    by_cases hcn : (c : Int) < n
    · split at hf
      · rename_i hlt
        rw [if_pos ⟨hlt.1, .inr hcn⟩]
        rw [Go.bind_eq_ok] at hf
        obtain ⟨x, hx, hf⟩ := hf
        rw [hx, Go.bind_ok]
        split at hf
        · simp at hf; subst hf; simp
        · exact ih (by omega) hf hc
        · rw [Go.bind_eq_ok] at hf
          obtain ⟨ms', hf, hms⟩ := hf
          simp at hms
          subst hms
          rw [ih (by omega) hf (c := c + 1) (by omega), Go.bind_ok,
            show n.toNat - c = (n.toNat - (c + 1)) + 1 by omega, List.take_succ_cons]
          rfl
      · rename_i hlt
        simp at hf
        subst hf
        rw [if_neg (by rintro ⟨h1, h2⟩; exact hlt ⟨h1, .inl (by omega)⟩)]
        simp
    · rw [if_neg (by rintro ⟨h1, h2⟩; omega), show n.toNat - c = 0 by omega]
      simp

theorem find_take {p : Pattern} {word : Bytes} {n : Nat} {ms : List (List Int)} (h : find p word (-1) = .ok ms) :
    find p word n = .ok (ms.take n) := by
  have := findLoop_take (n := n) (by omega) (fuel' := (word.length + 1) * ((n : Int).toNat + 1) + 1) (c := 0) ?_ h (by omega)
  · simpa [find] using this
  · have : (word.length + 1) * 1 ≤ (word.length + 1) * ((n : Int).toNat + 1) := Nat.mul_le_mul_left _ (by omega)
    simp
    simpa using this

/-! ## Patterns -/

theorem Layout.empty_edges {x : Bytes} {p : Pattern} (sh : Shape x p) (h1 : sh.nb = 0) (h2 : sh.na = 0) {rb rc ra : Re}
    (hb : compile (expandEdges (posLook sh.lookB)) = .ok rb) (hn : NoBar (expandEdges sh.core))
    (hc : compile (expandEdges sh.core) = .ok rc) (ha : compile (expandEdges (posLook sh.lookA)) = .ok ra) :
    ∃ core k, Layout p .empty rb core k ra .empty ∧ (∀ u, Lang (.cat core) u ↔ Lang rc u) ∧
      (Plain rc = true → PlainList core = true) := by
  obtain ⟨r1, r2, core, k, k1, k2, hL, hm⟩ := sh.layout hb hn ha
  rw [h1] at k1
  rw [h2] at k2
  have : compile (expandEdges []) = .ok .empty := by rw [expandEdges_nil]; rfl
  simp only [List.replicate_zero, this, Go.ok.injEq] at k1 k2
  subst k1 k2
  obtain ⟨l, rfl, rfl⟩ := hm rc hc
  exact ⟨_, k, hL, core_lang⟩

end Verif.Hre
