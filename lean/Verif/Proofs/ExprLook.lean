import Verif.Proofs.ExprPattern
import Verif.Proofs.Split
import Verif.Proofs.Negative

/-! Lookarounds of the expressions of `Spec/Expr.lean`. -/

namespace Verif.Spec.Expr

open Verif.Rx Verif.Spec Verif.Spec.Vars Verif.Hre

/-! ## What an expression is compiled to -/

theorem compile_raw {e : Expr} (h : Raw e) : ∃ ts f k l, Parses (text e) ts f k l ∧ Same e f.body ∧
    compile (encode (text e)) = .ok f.body ∧ (isOr e = false → f.alts = []) := by
  have hf := fine_text h
  have hv : ∀ r ∈ text e, validRune r = true := fun r hr => (hf r hr).1
  obtain ⟨st, a, as, hp, hi⟩ := (parse_toks e h).2 PSt.init rfl
  have hlex : lexFrom 0 (text e) = .ok (toks e) := by
    have := lex_text (x := []) h (.inr (by simp))
    simpa [lexFrom, Go.bind] using this
  have hpar : Parses (text e) (toks e) st.cur st.ncap st.lastRep := by
    refine ⟨hlex, ?_⟩
    rw [hp]
    have := hi.stack
    obtain ⟨cur, stack, n, l⟩ := st
    simp only [PSt.init] at this
    subst this
    rfl
  have hb : st.cur.body = mkAlt (a :: as) := by
    rw [Frame.body, hi.cat, hi.alts, PSt.init, List.append_nil]
  refine ⟨_, _, _, _, hpar, ?_, ?_, ?_⟩
  · rw [hb]
    refine ⟨fun u => by rw [lang_mkAlt, hi.lang], plain_mkAlt hi.plain, fun hn => minW_mkAlt (hi.width hn), ?_, fun k s => ?_⟩
    · rw [maxWidth_mkAlt (hi.least _ (by simp))]
      have := hi.wide 0
      simp only [Nat.zero_max, Option.map_id'] at this
      exact this
    · have := hi.ord k s
      rw [shiftCap_mkAlt, List.map_cons, run_mkAlt, ← List.map_cons, ← List.map_reverse, this]
  · rw [compile, if_pos ⟨_, hv, rfl⟩, runes_encode hv]
    exact parseRunes_iff.2 ⟨_, _, _, _, hpar, rfl⟩
  · intro ho
    obtain ⟨st', rs, hp', hi'⟩ := (parse_toks e h).1 ho PSt.init
    rw [hp] at hp'
    cases hp'
    exact hi'.alts

/-! ## Expressions without assertions in a context -/

theorem match_of_lang : ∀ {r : Re} {u : List Rune}, Lang r u → ∀ b a, Match r b u a := by
  intro r u h
  induction h with
  | empty => intro _ _; exact .empty
  | lit rs => intro _ _; exact .lit rs
  | cls h => intro _ _; exact .cls h
  | anyNotNL h => intro _ _; exact .anyNotNL h
  | any c => intro _ _; exact .any c
  | cap _ ih => intro b a; exact .cap (ih b a)
  | star us _ ih => intro b a; exact .star us fun xs u ys e => ih u (by simp [e]) _ _
  | plus us h0 _ ih => intro b a; exact .plus us h0 fun xs u ys e => ih u (by simp [e]) _ _
  | quest _ ih => intro b a; exact .quest (ih b a)
  | skip => intro _ _; exact .skip
  | rep us h0 h1 _ ih => intro b a; exact .rep us h0 h1 fun xs u ys e => ih u (by simp [e]) _ _
  | nil => intro _ _; exact .nil
  | cons _ _ ih1 ih2 => intro b a; exact .cons (ih1 _ _) (ih2 _ _)
  | alt hr _ ih => intro b a; exact .alt hr (ih b a)

theorem lang_of_match : ∀ {r : Re} {b u a : List Rune}, Match r b u a → Plain r = true → Lang r u := by
  intro r b u a h
  induction h with
  | empty => intro _; exact .empty
  | lit rs => intro _; exact .lit rs
  | cls h => intro _; exact .cls h
  | anyNotNL h => intro _; exact .anyNotNL h
  | any c => intro _; exact .any c
  | beginText | endText | beginLine _ | endLine _ | wordB _ | noWordB _ => intro h; simp [Plain] at h
  | cap _ ih => intro h; exact .cap (ih (by simpa [Plain] using h))
  | star us _ ih =>
    intro h
    refine .star us fun u hu => ?_
    obtain ⟨xs, ys, e⟩ := List.append_of_mem hu
    exact ih xs u ys e (by simpa [Plain] using h)
  | plus us h0 _ ih =>
    intro h
    refine .plus us h0 fun u hu => ?_
    obtain ⟨xs, ys, e⟩ := List.append_of_mem hu
    exact ih xs u ys e (by simpa [Plain] using h)
  | quest _ ih => intro h; exact .quest (ih (by simpa [Plain] using h))
  | skip => intro _; exact .skip
  | rep us h0 h1 _ ih =>
    intro h
    refine .rep us h0 h1 fun u hu => ?_
    obtain ⟨xs, ys, e⟩ := List.append_of_mem hu
    simp only [Plain, Bool.and_eq_true] at h
    exact ih xs u ys e h.1
  | nil => intro _; exact .nil
  | cons _ _ ih1 ih2 =>
    intro h
    simp only [Plain, PlainList, Bool.and_eq_true] at h
    exact .cons (ih1 h.1) (ih2 (by simpa [Plain] using h.2))
  | alt hr _ ih =>
    intro h
    exact .alt hr (ih (plainList_iff.1 (by simpa [Plain] using h) _ hr))

theorem match_plain {r : Re} (h : Plain r = true) {b u a : List Rune} : Match r b u a ↔ Lang r u :=
  ⟨fun hm => lang_of_match hm h, fun hl => match_of_lang hl b a⟩

/-! ## Groups that do not capture -/

/-- The expression with groups that do not capture. -/
def mute : Expr → Expr
  | .seq a b => .seq (mute a) (mute b)
  | .or a b => .or (mute a) (mute b)
  | .group _ a => .group false (mute a)
  | .opt g a => .opt g (mute a)
  | .many g a => .many g (mute a)
  | .more g a => .more g (mute a)
  | e => e

theorem isOr_mute (e : Expr) : isOr (mute e) = isOr e := by cases e <;> rfl
theorem isAtom_mute (e : Expr) : isAtom (mute e) = isAtom e := by cases e <;> rfl

theorem raw_mute : ∀ {e : Expr}, Raw e → Raw (mute e)
  | .nothing, _ | .any, _ => trivial
  | .char _, h => h
  | .oneOf _, h => h
  | .var _ _, h => h
  | .seq a b, h => ⟨raw_mute h.1, raw_mute h.2.1, (isOr_mute a).trans h.2.2.1, (isOr_mute b).trans h.2.2.2⟩
  | .or _ _, h => ⟨raw_mute h.1, raw_mute h.2⟩
  | .group _ a, h => raw_mute (e := a) h
  | .opt _ a, h | .many _ a, h | .more _ a, h => ⟨raw_mute h.1, (isAtom_mute a).trans h.2⟩

theorem means_mute : ∀ {e : Expr} {u : List Rune}, Means (mute e) u ↔ Means e u
  | .nothing, _ | .any, _ | .char _, _ | .oneOf _, _ | .var _ _, _ => Iff.rfl
  | .seq a b, u => by simp only [mute, Means, means_mute (e := a), means_mute (e := b)]
  | .or a b, u => by simp only [mute, Means, means_mute (e := a), means_mute (e := b)]
  | .group c a, u => by simp only [mute, Means, means_mute (e := a)]
  | .opt g a, u => by simp only [mute, Means, means_mute (e := a)]
  | .many g a, u => by simp only [mute, Means, means_mute (e := a)]
  | .more g a, u => by simp only [mute, Means, means_mute (e := a)]

theorem rests_mute : ∀ (e : Expr), rests (mute e) = rests e
  | .nothing | .any | .char _ | .oneOf _ | .var _ _ => rfl
  | .seq a b => by funext x; simp only [mute, rests, rests_mute a, rests_mute b]
  | .or a b => by funext x; simp only [mute, rests, rests_mute a, rests_mute b]
  | .group c a => by funext x; simp only [mute, rests, rests_mute a]
  | .opt g a => by funext x; simp only [mute, rests, rests_mute a]
  | .many g a => by funext x; simp only [mute, rests, rests_mute a]
  | .more g a => by funext x; simp only [mute, rests, rests_mute a]

theorem width_mute : ∀ (e : Expr), width (mute e) = width e
  | .nothing | .any | .char _ | .oneOf _ | .var _ _ => rfl
  | .seq a b => by simp only [mute, width, width_mute a, width_mute b]
  | .or a b => by simp only [mute, width, width_mute a, width_mute b]
  | .group c a => by simp only [mute, width, width_mute a]
  | .opt g a => by simp only [mute, width, width_mute a]
  | .many g a => rfl
  | .more g a => rfl

theorem width_chars (v : List Rune) : width (chars v) = some v.length := by
  induction v with
  | nil => rfl
  | cons c v ih => simp [chars, width, ih, Nat.add_comm]

theorem width_these : ∀ (vs : List (List Rune)), width (oneOfThese vs) = some ((vs.map List.length).foldr max 0)
  | [] => rfl
  | [v] => by simp [oneOfThese, width_chars]
  | v :: w :: vs => by
    have ih := width_these (w :: vs)
    simp only [oneOfThese, width, width_chars, ih]
    simp

theorem width_core : ∀ (e : Expr), width (core e) = width e
  | .nothing | .any | .char _ | .oneOf _ => rfl
  | .var _ v => by simp only [core, width, width_these]
  | .seq a b => by simp only [core, width, width_core a, width_core b]
  | .or a b => by simp only [core, width, width_core a, width_core b]
  | .group c a => by simp only [core, width, width_core a]
  | .opt g a => by simp only [core, width, width_core a]
  | .many g a => rfl
  | .more g a => rfl

theorem mild_chars {v : List Rune} (h : ∀ c ∈ v, c ≠ 0x28 ∧ c ≠ 0x7D) : Mild (chars v) := by
  induction v with
  | nil => exact trivial
  | cons c v ih => exact ⟨h c (by simp), ih fun x hx => h x (by simp [hx])⟩

theorem mild_these : ∀ {vs : List (List Rune)}, (∀ v ∈ vs, ∀ c ∈ v, c ≠ 0x28 ∧ c ≠ 0x7D) → Mild (oneOfThese vs)
  | [], _ => trivial
  | [v], h => mild_chars (h v (by simp))
  | v :: w :: vs, h => ⟨mild_chars (h v (by simp)), mild_these (vs := w :: vs) fun x hx => h x (by simp [hx])⟩

theorem mild_core : ∀ {e : Expr}, Mild e → Mild (core e)
  | .nothing, _ | .any, _ => trivial
  | .char _, h => h
  | .oneOf _, h => h
  | .var _ v, h => ⟨rfl, mild_these (vs := v) h⟩
  | .seq _ _, h | .or _ _, h => ⟨mild_core h.1, mild_core h.2⟩
  | .group _ _, h => ⟨h.1, mild_core h.2⟩
  | .opt _ a, h | .many _ a, h | .more _ a, h => mild_core (e := a) h

/-- Each `(` is made `(?:`. -/
def silence (u : List Rune) : List Rune := u.flatMap fun c => if c = 0x28 then [0x28, 0x3F, 0x3A] else [c]

theorem silence_append (u v : List Rune) : silence (u ++ v) = silence u ++ silence v := by simp [silence]

theorem silence_none {u : List Rune} (h : 0x28 ∉ u) : silence u = u := by
  induction u with
  | nil => rfl
  | cons c u ih =>
    simp only [List.mem_cons, not_or] at h
    have := ih h.2
    simp only [silence, List.flatMap_cons, if_neg (Ne.symm h.1)] at this ⊢
    rw [this]
    rfl

theorem noCapture_append (a b : Bytes) : noCapture (a ++ b) = noCapture a ++ noCapture b := by simp [noCapture_eq]

theorem noCapture_none {x : Bytes} (h : 0x28 ∉ x) : noCapture x = x := by
  induction x with
  | nil => exact noCapture_nil
  | cons c x ih =>
    simp only [List.mem_cons, not_or] at h
    rw [noCapture_cons _ _ (Ne.symm h.1), ih h.2]

theorem noCapture_encode {u : List Rune} (hv : ∀ r ∈ u, validRune r = true) : noCapture (encode u) = encode (silence u) := by
  induction u with
  | nil => rfl
  | cons c u ih =>
    rw [show c :: u = [c] ++ u from rfl, encode_append, noCapture_append, silence_append, encode_append, ih fun r hr => hv r (by simp [hr])]
    congr 1
    by_cases hc : c = 0x28
    · subst hc
      decide
    · rw [silence_none (by simpa using Ne.symm hc)]
      refine noCapture_none fun hm => ?_
      have := ascii_mem (c := 0x28) (u := [c]) (by simpa using hv c (by simp)) (by decide) hm
      simp at this
      exact hc this.symm

/-- The characters of a mild text. -/
theorem mild_range {p : Rune × Rune} {c : Rune} (hc : c ≠ 0x5C) (hd : c ≠ 0x2D) (h1 : p.1 ≠ c) (h2 : p.2 ≠ c) : c ∉ rangeText p := by
  unfold rangeText memberText
  repeat' split
  all_goals (simp; omega)

theorem mild_text : ∀ {e : Expr}, Mild e → Raw e → 0x7D ∉ text e ∧ silence (text e) = text (mute e)
  | .nothing, _, _ => ⟨by simp [text], rfl⟩
  | .any, _, _ => ⟨by decide, rfl⟩
  | .char c, h, _ => by
    obtain ⟨h1, h2⟩ := h
    refine ⟨?_, silence_none ?_⟩ <;>
    · simp only [text, charText]
      split <;> simp <;> omega
  | .oneOf r, h, _ => by
    have key : ∀ c, c ≠ 0x5C → c ≠ 0x2D → c ≠ 0x5B → c ≠ 0x5D → (∀ p ∈ r, p.1 ≠ c ∧ p.2 ≠ c) → c ∉ text (.oneOf r) := by
      intro c k1 k2 k3 k4 k5
      simp only [text, List.mem_cons, List.mem_append, List.mem_flatMap, not_or]
      refine ⟨k3, ?_, k4, by simp⟩
      rintro ⟨p, hp, hm⟩
      exact mild_range k1 k2 (k5 p hp).1 (k5 p hp).2 hm
    exact ⟨key _ (by decide) (by decide) (by decide) (by decide) fun p hp => ⟨(h p hp).2.1, (h p hp).2.2.2⟩,
      silence_none (key _ (by decide) (by decide) (by decide) (by decide) fun p hp => ⟨(h p hp).1, (h p hp).2.2.1⟩)⟩
  | .var _ _, _, h => h.elim
  | .seq a b, h, hr => by
    obtain ⟨a1, a2⟩ := mild_text h.1 hr.1
    obtain ⟨b1, b2⟩ := mild_text h.2 hr.2.1
    exact ⟨by simp [text, a1, b1], by rw [text, silence_append, a2, b2]; rfl⟩
  | .or a b, h, hr => by
    obtain ⟨a1, a2⟩ := mild_text h.1 hr.1
    obtain ⟨b1, b2⟩ := mild_text h.2 hr.2
    refine ⟨by simp [text, a1, b1], ?_⟩
    rw [text, show 0x7C :: text b = [0x7C] ++ text b from rfl, silence_append, silence_append, a2, b2]
    rfl
  | .group c a, h, hr => by
    obtain ⟨a1, a2⟩ := mild_text (e := a) h.2 hr
    obtain rfl := h.1
    refine ⟨by simp [text, a1], ?_⟩
    rw [text, silence_append, silence_append, a2]
    rfl
  | .opt g a, h, hr | .many g a, h, hr | .more g a, h, hr => by
    obtain ⟨a1, a2⟩ := mild_text (e := a) h hr.1
    refine ⟨by cases g <;> simp [text, a1, mark], ?_⟩
    rw [text, silence_append, a2, mute, text]
    cases g <;> rfl

theorem head_core {vars : List (Bytes × List Bytes)} : ∀ {e : Expr}, Fit vars e →
    (text (core e)).head? = if (text e).head? = some 0x3C then some 0x28 else (text e).head?
  | .nothing, _ => by simp [core, text]
  | .any, _ => by simp [core, text]
  | .char c, h => by
    have hc : (text (.char c)).head? ≠ some 0x3C := by
      simp only [text, charText]
      split
      · simp
      · simpa using h.2
    rw [if_neg hc]
    rfl
  | .oneOf r, h => by simp [core, text]
  | .var n v, h => by simp [core, text]
  | .seq a b, h => by
    simp only [core, text, List.head?_append, head_core h.1, head_core h.2.1]
    cases (text a).head? with
    | none => by_cases hb : (text b).head? = some 0x3C <;> simp [hb]
    | some c => by_cases hc : c = 0x3C <;> simp [hc]
  | .or a b, h => by
    simp only [core, text, List.head?_append, head_core h.1]
    cases (text a).head? with
    | none => simp
    | some c => by_cases hc : c = 0x3C <;> simp [hc]
  | .group c a, h => by cases c <;> simp [core, text]
  | .opt g a, h | .many g a, h | .more g a, h => by
    simp only [core, text, List.head?_append, head_core h.1]
    cases (text a).head? with
    | none => simp
    | some c => by_cases hc : c = 0x3C <;> simp [hc]

/-- The expression of a lookaround. -/
theorem look_raw {vars : List (Bytes × List Bytes)} {a : Expr} (h : Fit vars a) (hm : Mild a) :
    ∃ r, compile (noCapture (encode (text (core a)))) = .ok r ∧ numCap r = 0 ∧ Same a r ∧
      0x7D ∉ encode (text (core a)) ∧ Fine (text (core a)) ∧ Fine (text (mute (core a))) ∧
      noCapture (encode (text (core a))) = encode (text (mute (core a))) := by
  have hr := raw_core h
  have hf := fine_text hr
  have hv : ∀ r ∈ text (core a), validRune r = true := fun r hr => (hf r hr).1
  obtain ⟨m1, m2⟩ := mild_text (mild_core hm) hr
  obtain ⟨ts, f, k, l, _, h2, h3, _⟩ := compile_raw (raw_mute hr)
  have e : noCapture (encode (text (core a))) = encode (text (mute (core a))) := by rw [noCapture_encode hv, m2]
  refine ⟨f.body, by rw [e, h3], ?_, ?_, ?_, hf, fine_text (raw_mute hr), e⟩
  · exact numCap_of_quiet (quiet_noCapture _) (by rw [e, h3])
  · refine ⟨fun u => by rw [h2.lang, means_mute, means_core h], h2.plain, fun hn => h2.width (by rwa [means_mute, means_core h]), ?_, fun k => ?_⟩
    · rw [h2.wide, width_mute, width_core]
    · have := h2.ord k
      rwa [rests_mute, rests_core h] at this
  · exact fun hm => m1 (ascii_mem (c := 0x7D) hv (by decide) hm)

/-! ## Negative lookarounds -/

theorem ahead_compiles {e : Bytes} {re : Re} (he : compile e = .ok re) (hn : numCap re = 0) :
    compile ([0x5E] ++ paren e) = .ok (.cat [.beginText, .cap 1 re]) := by
  obtain ⟨hv, ts, f, l, hp, rfl⟩ := compile_parses0 he hn
  have v0 : ValidUtf8 [0x5E] := ⟨[0x5E], by decide, by decide⟩
  have vo : ValidUtf8 [0x28] := ⟨[0x28], by decide, by decide⟩
  have vx : ValidUtf8 [0x29] := ⟨[0x29], by decide, by decide⟩
  have r0 : runes [0x5E] = [0x5E] := by decide
  have ro : runes [0x28] = [0x28] := by decide
  have rx : runes [0x29] = [0x29] := by decide
  have : runes ([0x5E] ++ paren e) = 0x5E :: 0x28 :: (runes e ++ 0x29 :: []) := by
    simp only [paren, List.append_assoc, runes_append v0, runes_append vo, runes_append hv, r0, ro, rx]
    simp
  rw [compile, if_pos (show ValidUtf8 ([0x5E] ++ paren e) from v0.append ((vo.append hv).append vx)), this]
  have hl : lexFrom 0 (0x5E :: 0x28 :: (runes e ++ 0x29 :: [])) = .ok (.re .beginText :: .open :: (ts ++ .close :: [])) := by
    have := hp.lex_group []
    rw [show lexFrom 0 (0x5E :: 0x28 :: (runes e ++ 0x29 :: [])) =
      (lexFrom 0 (0x28 :: (runes e ++ 0x29 :: []))).bind fun us => .ok (.re .beginText :: us) from rfl, this]
    rfl
  have hs : psteps PSt.init (.re .beginText :: .open :: (ts ++ .close :: [])) =
      .ok ⟨⟨none, [], [.cap 1 f.body, .beginText]⟩, [], 1, false⟩ := by
    rw [show psteps PSt.init (.re .beginText :: .open :: (ts ++ .close :: [])) =
      psteps ⟨⟨none, [], [.beginText]⟩, [], 0, false⟩ (.open :: (ts ++ .close :: [])) from rfl, hp.steps_group]
    simp only [psteps, Nat.zero_add, Nat.add_zero]
    rw [shiftCap_id _ (Parses.noCap hp)]
  have := parseRunes_iff.2 ⟨_, _, _, _, ⟨hl, hs⟩, rfl⟩
  simpa [Frame.body, mkAlt, mkCat] using this

theorem behind_compiles {e : Bytes} {re : Re} (he : compile e = .ok re) (hn : numCap re = 0) :
    compile (paren e ++ [0x24]) = .ok (.cat [.cap 1 re, .endText]) := by
  obtain ⟨hv, ts, f, l, hp, rfl⟩ := compile_parses0 he hn
  have v0 : ValidUtf8 [0x24] := ⟨[0x24], by decide, by decide⟩
  have vo : ValidUtf8 [0x28] := ⟨[0x28], by decide, by decide⟩
  have vx : ValidUtf8 [0x29] := ⟨[0x29], by decide, by decide⟩
  have r0 : runes [0x24] = [0x24] := by decide
  have ro : runes [0x28] = [0x28] := by decide
  have rx : runes [0x29] = [0x29] := by decide
  have : runes (paren e ++ [0x24]) = 0x28 :: (runes e ++ 0x29 :: [0x24]) := by
    simp only [paren, List.append_assoc, runes_append vx, runes_append vo, runes_append hv, r0, ro, rx]
    simp
  rw [compile, if_pos (show ValidUtf8 (paren e ++ [0x24]) from ((vo.append hv).append vx).append v0), this]
  have hl : lexFrom 0 (0x28 :: (runes e ++ 0x29 :: [0x24])) = .ok (.open :: (ts ++ .close :: [.re .endText])) := by
    rw [hp.lex_group [0x24]]
    rfl
  have hs : psteps PSt.init (.open :: (ts ++ .close :: [.re .endText])) =
      .ok ⟨⟨none, [], [.endText, .cap 1 f.body]⟩, [], 1, false⟩ := by
    rw [hp.steps_group, shiftCap_id _ (Parses.noCap hp)]
    rfl
  have := parseRunes_iff.2 ⟨_, _, _, _, ⟨hl, hs⟩, rfl⟩
  simpa [Frame.body, mkAlt, mkCat] using this

end Verif.Spec.Expr
