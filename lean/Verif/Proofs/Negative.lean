import Verif.Proofs.Lang
import Verif.Proofs.Layout
import Verif.Proofs.SpecFile
import Verif.Proofs.Utf8Ascii

/-! Negative lookarounds. -/

namespace Verif.Hre

open Verif.Rx Verif.Spec Verif.Spec.Hre

theorem compile_parses0 {x : Bytes} {r : Re} (h : compile x = .ok r) (hn : numCap r = 0) :
    ValidUtf8 x ∧ ∃ ts f l, Parses (runes x) ts f 0 l ∧ r = f.body := by
  unfold compile at h
  split at h
  · rename_i hv
    obtain ⟨ts, f, k, l, h1, rfl⟩ := parseRunes_iff.1 h
    rw [h1.numCap] at hn
    subst hn
    exact ⟨hv, ts, f, l, h1, rfl⟩
  · simp at h

theorem Parses.noCap {rs : List Rune} {ts : List Tok} {f : Frame} {l : Bool} (h : Parses rs ts f 0 l) (i : Nat) :
    HasCap i f.body = false := by
  rw [Bool.eq_false_iff]
  intro h2
  have := (h.hasCap _).1 h2
  omega

/-- The expression of a negative lookahead. -/
theorem compile_ahead {e : Bytes} {re r : Re} (he : compile e = .ok re) (hn : numCap re = 0)
    (hr : compile ([0x5E] ++ paren e) = .ok r) : r = .cat [.beginText, .cap 1 re] := by
  obtain ⟨hv, ts, f, l, hp, rfl⟩ := compile_parses0 he hn
  unfold compile at hr
  split at hr
  · have v0 : ValidUtf8 [0x5E] := ⟨[0x5E], by decide, by decide⟩
    have vo : ValidUtf8 [0x28] := ⟨[0x28], by decide, by decide⟩
    have r0 : runes [0x5E] = [0x5E] := by decide
    have ro : runes [0x28] = [0x28] := by decide
    have rx : runes [0x29] = [0x29] := by decide
    have : runes ([0x5E] ++ paren e) = 0x5E :: 0x28 :: (runes e ++ 0x29 :: []) := by
      simp only [paren, List.append_assoc, runes_append v0, runes_append vo, runes_append hv, r0, ro, rx]
      simp
    rw [this] at hr
    have hl : lexFrom 0 (0x5E :: 0x28 :: (runes e ++ 0x29 :: [])) = .ok (.re .beginText :: .open :: (ts ++ .close :: [])) := by
      have := hp.lex_group []
      rw [show lexFrom 0 (0x5E :: 0x28 :: (runes e ++ 0x29 :: [])) =
        (lexFrom 0 (0x28 :: (runes e ++ 0x29 :: []))).bind fun us => .ok (.re .beginText :: us) from rfl, this]
      rfl
    have hs : psteps PSt.init (.re .beginText :: .open :: (ts ++ .close :: [])) =
        .ok ⟨⟨none, [], [.cap 1 f.body, .beginText]⟩, [], 1, false⟩ := by
      rw [show psteps PSt.init (.re .beginText :: .open :: (ts ++ .close :: [])) =
        psteps ⟨⟨none, [], [.beginText]⟩, [], 0, false⟩ (.open :: (ts ++ .close :: [])) from rfl, hp.steps_group]
      simp only [psteps, Nat.zero_add, Nat.add_zero]
      rw [shiftCap_id _ (Parses.noCap hp)]
    have := parseRunes_iff.2 ⟨_, _, _, _, ⟨hl, hs⟩, rfl⟩
    rw [hr] at this
    simpa [Frame.body, mkAlt, mkCat] using this
  · simp at hr

/-- The expression of a negative lookbehind. -/
theorem compile_behind {e : Bytes} {re r : Re} (he : compile e = .ok re) (hn : numCap re = 0)
    (hr : compile (paren e ++ [0x24]) = .ok r) : r = .cat [.cap 1 re, .endText] := by
  obtain ⟨hv, ts, f, l, hp, rfl⟩ := compile_parses0 he hn
  unfold compile at hr
  split at hr
  · have vo : ValidUtf8 [0x28] := ⟨[0x28], by decide, by decide⟩
    have vx : ValidUtf8 [0x29] := ⟨[0x29], by decide, by decide⟩
    have r0 : runes [0x24] = [0x24] := by decide
    have ro : runes [0x28] = [0x28] := by decide
    have rx : runes [0x29] = [0x29] := by decide
    have : runes (paren e ++ [0x24]) = 0x28 :: (runes e ++ 0x29 :: [0x24]) := by
      simp only [paren, List.append_assoc, runes_append vx, runes_append vo, runes_append hv, r0, ro, rx]
      simp
    rw [this] at hr
    have hl : lexFrom 0 (0x28 :: (runes e ++ 0x29 :: [0x24])) = .ok (.open :: (ts ++ .close :: [.re .endText])) := by
      rw [hp.lex_group [0x24]]
      rfl
    have hs : psteps PSt.init (.open :: (ts ++ .close :: [.re .endText])) =
        .ok ⟨⟨none, [], [.endText, .cap 1 f.body]⟩, [], 1, false⟩ := by
      rw [hp.steps_group, shiftCap_id _ (Parses.noCap hp)]
      rfl
    have := parseRunes_iff.2 ⟨_, _, _, _, ⟨hl, hs⟩, rfl⟩
    rw [hr] at this
    simpa [Frame.body, mkAlt, mkCat] using this
  · simp at hr

theorem map_prefix {l : List (Rune × Nat)} {u : List Rune} (h : u <+: l.map Prod.fst) :
    ∃ l1 l2, l = l1 ++ l2 ∧ l1.map Prod.fst = u := by
  obtain ⟨v, hv⟩ := h
  obtain ⟨l1, l2, h1, h2, _⟩ := split_text hv.symm
  exact ⟨l1, l2, h1, h2⟩

theorem map_suffix {l : List (Rune × Nat)} {u : List Rune} (h : u <:+ l.map Prod.fst) :
    ∃ l1 l2, l = l1 ++ l2 ∧ l2.map Prod.fst = u := by
  obtain ⟨v, hv⟩ := h
  obtain ⟨l1, l2, h1, _, h2⟩ := split_text hv.symm
  exact ⟨l1, l2, h1, h2⟩

/-- A text that begins with a matching one is hit by `^(e)`. -/
theorem ahead_hits {re : Re} {w : Bytes} {u : List Rune} (hu : u <+: runes w) (hl : Lang re u) :
    matchString (.cat [.beginText, .cap 1 re]) w = true := by
  rw [← Bool.not_eq_false]
  intro h
  have h0 : searchFrom (.cat [.beginText, .cap 1 re]) (decode w) none 0 = none := by
    unfold matchString at h
    simpa using h
  obtain ⟨l1, l2, h1, h2⟩ := map_prefix (l := decode w) hu
  have := searchFrom_none.1 h0 [] (decode w) rfl
  obtain ⟨s', h3, _⟩ := run_covers (.cap (i := 1) hl) (start (.cat [.beginText, .cap 1 re]) none 0 (decode w)) l1 l2 h1 h2
  have : s' ∈ run (.cat [.beginText, .cap 1 re]) (start (.cat [.beginText, .cap 1 re]) none 0 (decode w)) := by
    rw [run, runCat, run, check, if_pos (by rfl)]
    simp only [runCat, List.mem_flatMap, List.mem_singleton]
    exact ⟨_, rfl, s', h3, rfl⟩
  simp_all [prevAfter]

/-- A text that ends with a matching one is hit by `(e)$`. -/
theorem behind_hits {re : Re} {w : Bytes} {u : List Rune} (hu : u <:+ runes w) (hl : Lang re u) :
    matchString (.cat [.cap 1 re, .endText]) w = true := by
  rw [← Bool.not_eq_false]
  intro h
  have h0 : searchFrom (.cat [.cap 1 re, .endText]) (decode w) none 0 = none := by
    unfold matchString at h
    simpa using h
  obtain ⟨l1, l2, h1, h2⟩ := map_suffix (l := decode w) hu
  have h4 := searchFrom_none.1 h0 l1 l2 h1
  obtain ⟨s', h3, h5⟩ := run_covers (.cap (i := 1) hl) (start (.cat [.cap 1 re, .endText]) (prevAfter none l1)
    (0 + width l1) l2) l2 [] (by simp [start]) h2
  have : s' ∈ run (.cat [.cap 1 re, .endText]) (start (.cat [.cap 1 re, .endText]) (prevAfter none l1)
      (0 + width l1) l2) := by
    rw [run, runCat]
    simp only [runCat, List.mem_flatMap, List.mem_singleton]
    refine ⟨s', h3, s', ?_, rfl⟩
    rw [run, check, h5]
    simp
  rw [h4] at this
  simp at this

/-- The texts of a language are no longer than its width. -/
theorem lang_length {re : Re} (hr : RepSafe re = true) (hw : maxWidth re ≠ -1) {u : List Rune} (h : Lang re u) :
    (u.length : Int) ≤ maxWidth re := by
  let s : St := ⟨none, 0, u.map (fun c => (c, 1)), List.replicate (2 * (numCap re + 1)) none⟩
  obtain ⟨s', h1, h2⟩ := run_covers h s (u.map (fun c => (c, 1))) [] (by simp [s]) (by simp [Function.comp_def])
  have := run_within re hr hw h1
  simp only [Within, h2, s] at this
  simpa using this

theorem substr_nat (word : Bytes) (a b : Nat) : substr word a b = (word.drop a).take (b - a) := by
  unfold substr
  rw [if_neg (by omega)]
  by_cases h : (a : Int) ≥ word.length
  · rw [if_pos h, List.drop_eq_nil_of_le (by omega)]
    simp
  · rw [if_neg h]
    dsimp only
    by_cases hb : (b : Int) > word.length
    · rw [if_pos hb, if_pos (by omega)]
      rw [List.take_of_length_le (by simp), List.take_of_length_le (by simp; omega)]
      simp
    · rw [if_neg hb]
      split
      · simp
      · rw [show b - a = 0 by omega]; simp

theorem runes_ascii {w : Bytes} (h : ∀ b ∈ w, b.toNat < 0x80) : runes w = w.map UInt8.toNat := by
  induction w with
  | nil => rfl
  | cons c t ih =>
    have hd : decode (c :: t) = (c.toNat, 1) :: decode t := decode_cons_ascii (h c (by simp)) t
    have := ih (fun b hb => h b (by simp [hb]))
    unfold runes at this ⊢
    rw [hd]
    simp [this]

/-- Where reported matches come from. -/
theorem findLoop_mem {p : Pattern} {word : Bytes} {n : Int} {m : List Int} : ∀ {fuel offset count : Nat} {ms : List (List Int)},
    findLoop p word n fuel offset count = .ok ms → m ∈ ms →
    ∃ o o', o < word.length ∧ findStep p word o = .ok (some (o', some m)) := by
  intro fuel
  induction fuel with
  | zero => intro offset count ms h; simp [findLoop] at h
  | succ fuel ih =>
    intro offset count ms hf hm
    unfold findLoop at hf
    split at hf
    · rename_i hlt
      rw [Go.bind_eq_ok] at hf
      obtain ⟨x, hx, hf⟩ := hf
      split at hf
      · simp at hf; subst hf; simp at hm
      · exact ih hf hm
      · rename_i o' m'
        rw [Go.bind_eq_ok] at hf
        obtain ⟨ms', hf, hms⟩ := hf
        simp at hms
        subst hms
        rcases List.mem_cons.1 hm with rfl | hm
        · exact ⟨_, _, hlt.1, hx⟩
        · exact ih hf hm
    · simp at hf; subst hf; simp at hm

/-- In a laid out pattern the negative expressions are tried at both ends of a match. -/
theorem Layout.tried {p : Pattern} {e1 lb la e2 : Re} {core : List Re} {k : Nat} (h : Layout p e1 lb core k la e2)
    {word : Bytes} {n : Int} {ms : List (List Int)} (hf : find p word n = .ok ms) {m : List Int} (hm : m ∈ ms) :
    ∃ (start stop : Nat) (groups : List Int), m = (start : Int) :: (stop : Int) :: groups ∧
      start ≤ word.length ∧ hitsAhead p word stop = false ∧ hitsBehind p word start = false := by
  obtain ⟨o, o', ho, hs⟩ := findLoop_mem hf hm
  obtain ⟨u, v, s, h1, h2, h3, _, _, h6⟩ := (findStep_some hs).found
  obtain ⟨h7, h8, h9⟩ := h6 m rfl
  obtain ⟨s1, s2, s3, s4, _, _, q3, q4, q5, k1, k2, k3, k4⟩ := h.path h2
  rw [k4] at h7
  rw [k3] at h8
  refine ⟨_, _, _, h9, ?_, ?_, ?_⟩
  · have a1 := (runCat_adv q3).pos_le
    have a2 := (run_adv q4).pos_le
    have a3 := (run_adv q5).pos_le
    obtain ⟨_, x, a4, a5, _⟩ := run_adv h2
    have a6 : width (u ++ v) = (word.drop o).length := by rw [← h1]; exact decode_width_sum _
    simp only [start] at a4 a5
    rw [a4] at a6
    simp only [width_append, List.length_drop] at a6
    omega
  · rw [k2]
    have : shift o (toInt (some s3.pos)) = ((s3.pos + o : Nat) : Int) := by
      have h0 : ((s3.pos : Nat) : Int) ≠ -1 := by omega
      simp [shift, toInt, h0]
    rw [← this]
    exact h7
  · rw [k1]
    have : shift o (toInt (some s2.pos)) = ((s2.pos + o : Nat) : Int) := by
      have h0 : ((s2.pos : Nat) : Int) ≠ -1 := by omega
      simp [shift, toInt, h0]
    rw [← this]
    exact h8

/-- The window of a negative lookahead is large enough. -/
theorem ahead_window {p : Pattern} {re : Re} (hn : p.negA = some (.cat [.beginText, .cap 1 re]))
    (hw : p.negAWidth = maxWidth re) (hr : RepSafe re = true) {word : Bytes} {i : Nat}
    (ha : maxWidth re = -1 ∨ ∀ b ∈ word, b.toNat < 0x80) (h : hitsAhead p word i = false) :
    ¬ FollowedBy re word i := by
  rintro ⟨u, hu, hl⟩
  unfold hitsAhead at h
  rw [hn] at h
  simp only [hw] at h
  by_cases hm : maxWidth re = -1
  · rw [if_pos hm, substr_nat, List.take_of_length_le (by simp)] at h
    rw [ahead_hits hu hl] at h
    simp at h
  · have hasc := ha.resolve_left hm
    have hge := maxWidth_ge re hr
    have hlen := lang_length hr hm hl
    rw [if_neg hm, show (i : Int) + maxWidth re = ((i + (maxWidth re).toNat : Nat) : Int) by omega, substr_nat] at h
    have : u <+: runes ((word.drop i).take (i + (maxWidth re).toNat - i)) := by
      have a1 : ∀ b ∈ word.drop i, b.toNat < 0x80 := fun b hb => hasc b (List.mem_of_mem_drop hb)
      rw [runes_ascii (fun b hb => a1 b (List.mem_of_mem_take hb)), List.map_take, ← runes_ascii a1]
      rw [List.prefix_take_iff]
      exact ⟨hu, by omega⟩
    rw [ahead_hits this hl] at h
    simp at h

/-- The window of a negative lookbehind is large enough if the word does not begin within it. -/
theorem behind_window {p : Pattern} {re : Re} (hn : p.negB = some (.cat [.cap 1 re, .endText]))
    (hw : p.negBWidth = maxWidth re) (hr : RepSafe re = true) {word : Bytes} {i : Nat}
    (ha : maxWidth re = -1 ∨ (maxWidth re ≤ i ∧ ∀ b ∈ word, b.toNat < 0x80)) (hi' : i ≤ word.length) (h : hitsBehind p word i = false) :
    ¬ PrecededBy re word i := by
  rintro ⟨u, hu, hl⟩
  unfold hitsBehind at h
  rw [hn] at h
  simp only [hw] at h
  by_cases hm : maxWidth re = -1
  · rw [if_pos hm, show (0 : Int) = ((0 : Nat) : Int) from rfl, substr_nat] at h
    simp only [List.drop_zero, Nat.sub_zero] at h
    rw [behind_hits hu hl] at h
    simp at h
  · obtain ⟨hi, hasc⟩ := ha.resolve_left hm
    have hge := maxWidth_ge re hr
    have hlen := lang_length hr hm hl
    rw [if_neg hm, show (i : Int) - maxWidth re = ((i - (maxWidth re).toNat : Nat) : Int) by omega, substr_nat] at h
    have : u <:+ runes ((word.drop (i - (maxWidth re).toNat)).take (i - (i - (maxWidth re).toNat))) := by
      rw [← List.drop_take]
      have a1 : ∀ b ∈ word.take i, b.toNat < 0x80 := fun b hb => hasc b (List.mem_of_mem_take hb)
      rw [runes_ascii (fun b hb => a1 b (List.mem_of_mem_drop hb)), List.map_drop, ← runes_ascii a1]
      have hdrop : (runes (word.take i)).length = (word.take i).length := by rw [runes_ascii a1]; simp
      have hle := hu.length_le
      refine List.suffix_of_suffix_length_le hu (List.drop_suffix _ _) ?_
      rw [List.length_drop, hdrop, List.length_take]
      rw [hdrop, List.length_take] at hle
      omega
    rw [behind_hits this hl] at h
    simp at h

end Verif.Hre
