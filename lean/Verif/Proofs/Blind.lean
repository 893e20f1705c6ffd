import Verif.Proofs.WordPattern

/-! Rules which do not tell the kinds of white space apart. -/

namespace Verif.Blind

open Verif.Rx Verif.Hre Verif.Words

/-! ## White space as spaces -/

/-- A byte, where white space becomes a space. -/
def tame (b : UInt8) : UInt8 := if blank b.toNat then 0x20 else b

/-- A rune, where white space becomes a space. -/
def tameR (c : Rune) : Rune := if blank c then 0x20 else c

theorem blank_iff {c : Rune} : blank c = true ↔ c = 9 ∨ c = 10 ∨ c = 12 ∨ c = 13 ∨ c = 32 := by
  simp only [blank, Bool.or_eq_true, beq_iff_eq]
  omega

theorem tame_toNat (b : UInt8) : (tame b).toNat = tameR b.toNat := by
  unfold tame tameR
  split <;> rfl

theorem tameR_high {c : Rune} (h : 0x80 ≤ c) : tameR c = c := by
  rw [tameR, if_neg]
  rw [blank_iff]
  omega

theorem tame_high {b : UInt8} (h : 0x80 ≤ b.toNat) : tame b = b := by
  rw [tame, if_neg]
  rw [blank_iff]
  omega

theorem tameR_blank (c : Rune) : blank (tameR c) = blank c := by
  unfold tameR
  split
  next h => rw [h]; decide
  next => rfl

theorem tame_cont (b : UInt8) : isCont (tame b) = isCont b := by
  by_cases h : 0x80 ≤ b.toNat
  · rw [tame_high h]
  · have h2 : (tame b).toNat < 0x80 := by
      rw [tame_toNat, tameR]
      split <;> omega
    simp only [isCont]
    rw [Bool.eq_iff_iff]
    simp only [Bool.and_eq_true, decide_eq_true_eq]
    omega

theorem tame_of_cont {b : UInt8} (h : isCont b = true) : tame b = b := by
  simp only [isCont, Bool.and_eq_true, decide_eq_true_eq] at h
  exact tame_high h.1

theorem decodeRune_tame (b : UInt8) (t : Bytes) :
    decodeRune (tame b) (t.map tame) = (tameR (decodeRune b t).1, (decodeRune b t).2) := by
  have he : tameR runeError = runeError := by decide
  by_cases h : b.toNat < 0x80
  · have h2 : (tame b).toNat < 0x80 := by
      rw [tame_toNat, tameR]
      split <;> omega
    simp only [decodeRune, h, h2, if_true]
    rw [tame_toNat]
  · rw [tame_high (by omega)]
    simp only [decodeRune, if_neg h]
    split
    · simp [he]
    split
    · cases t with
      | nil => simp [he]
      | cons b1 t =>
        simp only [List.map_cons, tame_cont]
        split
        next hc =>
          rw [tame_of_cont hc]
          simp only [Prod.mk.injEq, and_true]
          rw [tameR_high (by omega)]
        next => simp [he]
    split
    · cases t with
      | nil => simp [he]
      | cons b1 t =>
        cases t with
        | nil => simp [he]
        | cons b2 t =>
          simp only [List.map_cons, tame_cont]
          by_cases h1 : isCont b1 = true
          · by_cases h2 : isCont b2 = true
            · rw [tame_of_cont h1, tame_of_cont h2]
              split
              next hc =>
                simp only [Bool.and_eq_true, decide_eq_true_eq] at hc
                simp only [Prod.mk.injEq, and_true]
                rw [tameR_high (by omega)]
              next => simp [he]
            · simp [h2, he]
          · simp [h1, he]
    split
    · cases t with
      | nil => simp [he]
      | cons b1 t =>
        cases t with
        | nil => simp [he]
        | cons b2 t =>
          cases t with
          | nil => simp [he]
          | cons b3 t =>
            simp only [List.map_cons, tame_cont]
            by_cases h1 : isCont b1 = true
            · by_cases h2 : isCont b2 = true
              · by_cases h3 : isCont b3 = true
                · rw [tame_of_cont h1, tame_of_cont h2, tame_of_cont h3]
                  split
                  next hc =>
                    simp only [Bool.and_eq_true, decide_eq_true_eq] at hc
                    simp only [Prod.mk.injEq, and_true]
                    rw [tameR_high (by omega)]
                  next => simp [he]
                · simp [h3, he]
              · simp [h2, he]
            · simp [h1, he]
    · simp [he]

/-- The runes of a text with their widths. -/
def tameD (p : Rune × Nat) : Rune × Nat := (tameR p.1, p.2)

theorem decode_tame (w : Bytes) : decode (w.map tame) = (decode w).map tameD := by
  have key : ∀ (w : Bytes) (k : Nat), decodeFrom k (w.map tame) = (decodeFrom k w).map tameD := by
    intro w
    induction w with
    | nil =>
      intro k
      cases k <;> rfl
    | cons b t ih =>
      intro k
      cases k with
      | zero => simp only [List.map_cons, decodeFrom, decodeRune_tame, ih, tameD]
      | succ k => simp only [List.map_cons, decodeFrom, ih]
  exact key w 0

theorem runes_tame (w : Bytes) : runes (w.map tame) = (runes w).map tameR := by
  rw [runes, decode_tame, runes, List.map_map, List.map_map]
  rfl

/-! ## Expressions -/

/-- `.^^`, which matches nothing. -/
def never : List Re → Bool
  | [.anyNotNL, .beginText, .beginText] => true
  | _ => false

mutual
/-- An expression which does not tell the kinds of white space apart. -/
def blind : Re → Bool
  | .noMatch | .empty | .any | .beginText | .endText | .wordB | .noWordB => true
  | .anyNotNL | .beginLine | .endLine => false
  | .lit rs => rs.all fun c => !blank c
  | .cls _ ranges => [9, 10, 12, 13].all fun c => inRanges ranges c == inRanges ranges 32
  | .cap _ r | .star _ r | .plus _ r | .quest _ r | .rep _ _ _ r => blind r
  | .cat rs => never rs || blindAll rs
  | .alt rs => blindAll rs
def blindAll : List Re → Bool
  | [] => true
  | r :: rs => blind r && blindAll rs
end

/-- A position in the tame text. -/
def tameS (s : St) : St := ⟨s.prev.map tameR, s.pos, s.rest.map tameD, s.caps⟩

theorem one_tame {p : Rune → Bool} (hp : ∀ c, p (tameR c) = p c) (s : St) : one p (tameS s) = (one p s).map tameS := by
  obtain ⟨prev, pos, rest, caps⟩ := s
  cases rest with
  | nil => rfl
  | cons a t =>
    obtain ⟨c, n⟩ := a
    simp only [one, tameS, List.map_cons, tameD, hp]
    split <;> rfl

theorem flatMap_tame {f : St → List St} (hf : ∀ s, f (tameS s) = (f s).map tameS) (l : List St) :
    (l.map tameS).flatMap f = (l.flatMap f).map tameS := by
  induction l with
  | nil => rfl
  | cons s l ih => rw [List.map_cons, List.flatMap_cons, List.flatMap_cons, List.map_append, ih, hf]

theorem lits_tame : ∀ {rs : List Rune}, (∀ c ∈ rs, blank c = false) → ∀ s, lits rs (tameS s) = (lits rs s).map tameS
  | [], _, s => rfl
  | r :: rs, h, s => by
    have hr := h r (by simp)
    rw [lits, lits, one_tame, flatMap_tame (lits_tame fun c hc => h c (by simp [hc]))]
    intro c
    unfold tameR
    split
    next hc =>
      rw [Bool.eq_iff_iff, beq_iff_eq, beq_iff_eq]
      constructor
      · rintro rfl
        exact absurd hr (by decide)
      · rintro rfl
        rw [hr] at hc
        contradiction
    next => rfl

theorem check_tame {b b' : Bool} (h : b = b') (s : St) : check b (tameS s) = (check b' s).map tameS := by
  subst h
  unfold check
  split <;> rfl

theorem isWord_tame (c : Rune) : isWord (tameR c) = isWord c := by
  unfold tameR
  split
  next h =>
    rw [blank_iff] at h
    rcases h with rfl | rfl | rfl | rfl | rfl <;> decide
  next => rfl

theorem atWordB_tame (s : St) : atWordB (tameS s) = atWordB s := by
  obtain ⟨prev, pos, rest, caps⟩ := s
  cases prev <;> cases rest <;> simp [atWordB, tameS, tameD, isWord_tame]

theorem plusLoop_tame {g : Bool} {f : St → List St} (hf : ∀ s, f (tameS s) = (f s).map tameS) :
    ∀ (n : Nat) (s : St), plusLoop g f n (tameS s) = (plusLoop g f n s).map tameS
  | 0, s => hf s
  | n + 1, s => by
    have ih := plusLoop_tame (g := g) hf n
    rw [plusLoop, plusLoop, hf]
    induction f s with
    | nil => rfl
    | cons t l il =>
      rw [List.map_cons, List.flatMap_cons, List.flatMap_cons, List.map_append, il]
      congr 1
      simp only [tameS, List.length_map]
      have := ih t
      simp only [tameS] at this
      split
      · split <;> simp [this, tameS]
      · rfl

theorem times_tame {f : St → List St} (hf : ∀ s, f (tameS s) = (f s).map tameS) :
    ∀ (n : Nat) (s : St), times f n (tameS s) = (times f n s).map tameS
  | 0, _ => rfl
  | n + 1, s => by rw [times, times, hf, flatMap_tame (times_tame hf n)]

theorem upTo_tame {g : Bool} {f : St → List St} (hf : ∀ s, f (tameS s) = (f s).map tameS) :
    ∀ (n : Nat) (s : St), upTo g f n (tameS s) = (upTo g f n s).map tameS
  | 0, _ => rfl
  | n + 1, s => by
    rw [upTo, upTo, hf, flatMap_tame (upTo_tame hf n)]
    split <;> simp

theorem starLoop_tame {g : Bool} {f : St → List St} (hf : ∀ s, f (tameS s) = (f s).map tameS) (s : St) :
    starLoop g f (tameS s) = (starLoop g f s).map tameS := by
  rw [starLoop, starLoop, show (tameS s).rest.length = s.rest.length from by simp [tameS], plusLoop_tame hf]
  split <;> simp

theorem repLoop_tame {mn : Nat} {mx : Option Nat} {g : Bool} {f : St → List St} (hf : ∀ s, f (tameS s) = (f s).map tameS) (s : St) :
    repLoop mn mx g f (tameS s) = (repLoop mn mx g f s).map tameS := by
  unfold repLoop
  split
  · rw [times_tame hf, flatMap_tame (upTo_tame hf _)]
  · split
    · exact starLoop_tame hf s
    · rw [times_tame hf, flatMap_tame]
      intro t
      rw [show (tameS t).rest.length = t.rest.length from by simp [tameS], plusLoop_tame hf]

theorem never_run {rs : List Re} (h : never rs = true) (s : St) : runCat rs s = [] := by
  unfold never at h
  split at h
  · simp only [runCat, run, one]
    split
    · split <;> simp [check]
    · rfl
  · contradiction

theorem setCap_tame (i : Nat) (s : St) : setCap i (tameS s) = tameS (setCap i s) := rfl

mutual
theorem run_tame : ∀ (r : Re), blind r = true → ∀ s, run r (tameS s) = (run r s).map tameS
  | .noMatch, _, s => rfl
  | .empty, _, s => rfl
  | .any, _, s => by simp only [run]; exact one_tame (fun _ => rfl) s
  | .beginText, _, s => by
    simp only [run]
    exact check_tame (by obtain ⟨p, _⟩ := s; cases p <;> rfl) s
  | .endText, _, s => by
    simp only [run]
    exact check_tame (by obtain ⟨_, _, r, _⟩ := s; cases r <;> rfl) s
  | .wordB, _, s => by simp only [run]; exact check_tame (atWordB_tame s) s
  | .noWordB, _, s => by simp only [run]; exact check_tame (by rw [atWordB_tame]) s
  | .lit rs, h, s => by
    simp only [run]
    exact lits_tame (by simpa [blind] using h) s
  | .cls neg ranges, h, s => by
    simp only [run]
    refine one_tame (fun c => ?_) s
    unfold tameR
    split
    next hc =>
      have : inRanges ranges c = inRanges ranges 32 := by
        simp only [blind, List.all_cons, List.all_nil, Bool.and_eq_true, beq_iff_eq] at h
        rw [blank_iff] at hc
        obtain ⟨h1, h2, h3, h4, _⟩ := h
        rcases hc with rfl | rfl | rfl | rfl | rfl <;> first | assumption | rfl
      rw [this]
    next => rfl
  | .cap i r, h, s => by
    simp only [run]
    rw [setCap_tame, run_tame r (by simpa [blind] using h), List.map_map, List.map_map]
    rfl
  | .star g r, h, s => by simp only [run]; exact starLoop_tame (run_tame r (by simpa [blind] using h)) s
  | .plus g r, h, s => by
    simp only [run]
    rw [show (tameS s).rest.length = s.rest.length from by simp [tameS]]
    exact plusLoop_tame (run_tame r (by simpa [blind] using h)) _ s
  | .quest g r, h, s => by
    simp only [run]
    rw [run_tame r (by simpa [blind] using h)]
    split <;> simp
  | .rep mn mx g r, h, s => by simp only [run]; exact repLoop_tame (run_tame r (by simpa [blind] using h)) s
  | .cat rs, h, s => by
    simp only [run]
    simp only [blind, Bool.or_eq_true] at h
    rcases h with h | h
    · rw [never_run h, never_run h]
      rfl
    · exact runCat_tame rs h s
  | .alt rs, h, s => by simp only [run]; exact runAlt_tame rs (by simpa [blind] using h) s
  | .anyNotNL, h, _ | .beginLine, h, _ | .endLine, h, _ => by simp [blind] at h
theorem runCat_tame : ∀ (rs : List Re), blindAll rs = true → ∀ s, runCat rs (tameS s) = (runCat rs s).map tameS
  | [], _, s => rfl
  | r :: rs, h, s => by
    simp only [blindAll, Bool.and_eq_true] at h
    rw [runCat, runCat, run_tame r h.1, flatMap_tame (runCat_tame rs h.2)]
theorem runAlt_tame : ∀ (rs : List Re), blindAll rs = true → ∀ s, runAlt rs (tameS s) = (runAlt rs s).map tameS
  | [], _, s => rfl
  | r :: rs, h, s => by
    simp only [blindAll, Bool.and_eq_true] at h
    rw [runAlt, runAlt, run_tame r h.1, runAlt_tame rs h.2, List.map_append]
end

theorem search_tame {r : Re} (h : blind r = true) : ∀ (rest : List (Rune × Nat)) (prev : Option Rune) (pos : Nat),
    searchFrom r (rest.map tameD) (prev.map tameR) pos = (searchFrom r rest prev pos).map fun x => (x.1, tameS x.2)
  | [], prev, pos => by
    have := run_tame r h (start r prev pos [])
    rw [List.map_nil, searchFrom, searchFrom, show start r (prev.map tameR) pos [] = tameS (start r prev pos []) from rfl, this]
    simp only [List.head?_map, Option.map_map]
    rfl
  | (c, n) :: t, prev, pos => by
    have := run_tame r h (start r prev pos ((c, n) :: t))
    have ih := search_tame h t (some c) (pos + n)
    rw [List.map_cons, show tameD (c, n) = (tameR c, n) from rfl, searchFrom, searchFrom,
      show start r (prev.map tameR) pos ((tameR c, n) :: t.map tameD) = tameS (start r prev pos ((c, n) :: t)) from rfl, this]
    cases run r (start r prev pos ((c, n) :: t)) with
    | nil => exact ih
    | cons s l => rfl

theorem findSubmatch_tame {r : Re} (h : blind r = true) (w : Bytes) : findSubmatch r (w.map tame) = findSubmatch r w := by
  have := search_tame h (decode w) none 0
  rw [findSubmatch, findSubmatch, decode_tame, show (none : Option Rune) = none.map tameR from rfl, this, Option.map_map]
  rfl

theorem matchString_tame {r : Re} (h : blind r = true) (w : Bytes) : matchString r (w.map tame) = matchString r w := by
  have := search_tame h (decode w) none 0
  rw [matchString, matchString, decode_tame, show (none : Option Rune) = none.map tameR from rfl, this, Option.isSome_map]
  rfl

/-! ## Patterns -/

/-- No white space. -/
def blankless (w : Bytes) : Bool := w.all fun b => !blank b.toNat

/-- A rule which does not tell the kinds of white space apart, and writes none. -/
def blindCheck (r : Rule) : Bool :=
  blind r.pat.re && r.pat.negA.all blind && r.pat.negB.all blind && (r.pat.usedVars.all fun vs => vs.all blankless) &&
    r.to.parts.all fun p => match p with
      | .plain t => blankless t
      | .toVar vals => vals.all blankless

theorem substr_tame (w : Bytes) (a b : Int) : substr (w.map tame) a b = (substr w a b).map tame := by
  simp only [substr, List.length_map]
  split
  · rfl
  · split
    · rfl
    · split <;> split <;> simp [List.map_take, List.map_drop]

variable {r : Rule}

theorem blindCheck_parts (h : blindCheck r = true) : blind r.pat.re = true ∧ (∀ x, r.pat.negA = some x → blind x = true) ∧
    (∀ x, r.pat.negB = some x → blind x = true) ∧ (∀ vs ∈ r.pat.usedVars, ∀ v ∈ vs, blankless v = true) ∧
    ∀ p ∈ r.to.parts, match p with
      | .plain t => blankless t = true
      | .toVar vals => ∀ v ∈ vals, blankless v = true := by
  simp only [blindCheck, Bool.and_eq_true, List.all_eq_true] at h
  obtain ⟨⟨⟨⟨h1, h2⟩, h3⟩, h4⟩, h5⟩ := h
  refine ⟨h1, fun x e => ?_, fun x e => ?_, h4, fun p hp => ?_⟩
  · rw [e] at h2
    simpa using h2
  · rw [e] at h3
    simpa using h3
  · have := h5 p hp
    cases p with
    | plain t => exact this
    | toVar vals => simpa using this

theorem find_tame (h : blindCheck r = true) (w : Bytes) (n : Int) : find r.pat (w.map tame) n = find r.pat w n := by
  obtain ⟨h1, h2, h3, _, _⟩ := blindCheck_parts h
  have e1 : ∀ at_, hitsAhead r.pat (w.map tame) at_ = hitsAhead r.pat w at_ := by
    intro at_
    unfold hitsAhead
    cases hn : r.pat.negA with
    | none => rfl
    | some x => simp only [List.length_map, substr_tame, matchString_tame (h2 x hn)]
  have e2 : ∀ at_, hitsBehind r.pat (w.map tame) at_ = hitsBehind r.pat w at_ := by
    intro at_
    unfold hitsBehind
    cases hn : r.pat.negB with
    | none => rfl
    | some x => simp only [substr_tame, matchString_tame (h3 x hn)]
  have e3 : ∀ k, findStep r.pat (w.map tame) k = findStep r.pat w k := by
    intro k
    simp only [findStep, ← List.map_drop, findSubmatch_tame h1, e1, e2]
  have e4 : ∀ fuel k c, findLoop r.pat (w.map tame) n fuel k c = findLoop r.pat w n fuel k c := by
    intro fuel
    induction fuel with
    | zero => intro k c; rfl
    | succ fuel ih =>
      intro k c
      simp only [findLoop, List.length_map, e3, ih]
  simp only [find, List.length_map, e4]

theorem blankless_tame {v : Bytes} (h : blankless v = true) : v.map tame = v := by
  simp only [blankless, List.all_eq_true, Bool.not_eq_true'] at h
  rw [List.map_congr_left (g := id) (fun b hb => ?_), List.map_id]
  rw [tame, h b hb]
  rfl

theorem tame_eq {v w : Bytes} (h : blankless v = true) : v = w.map tame ↔ v = w := by
  constructor
  · rintro rfl
    simp only [blankless, List.all_map, List.all_eq_true, Function.comp, Bool.not_eq_true', tame_toNat, tameR_blank] at h
    refine blankless_tame ?_
    simpa [blankless] using h
  · rintro rfl
    exact (blankless_tame h).symm

theorem indexOf_tame {w : Bytes} : ∀ {vs : List Bytes}, (∀ v ∈ vs, blankless v = true) → indexOf (w.map tame) vs = indexOf w vs
  | [], _ => rfl
  | v :: vs, h => by
    have ih := indexOf_tame (w := w) (vs := vs) fun u hu => h u (by simp [hu])
    simp only [indexOf, ih, tame_eq (h v (by simp))]

theorem interpolate_tame {p : Pattern} (hu : ∀ vs ∈ p.usedVars, ∀ v ∈ vs, blankless v = true) (w : Bytes) (m : List Int) :
    ∀ (ps : List RPart) (k : Nat), interpolateParts p (w.map tame) m k ps = interpolateParts p w m k ps
  | [], k => rfl
  | .plain t :: ps, k => by simp only [interpolateParts, interpolate_tame hu w m ps k]
  | .toVar vals :: ps, k => by
    simp only [interpolateParts, interpolate_tame hu w m ps (k + 1)]
    split
    · rfl
    · cases hx : index p.usedVars k with
      | ok vs =>
        have hm : vs ∈ p.usedVars := by
          unfold index at hx
          split at hx
          next a ha =>
            cases hx
            exact List.mem_of_getElem? ha
          next => contradiction
        have hc : captured (w.map tame) m (k + 1) = (captured w m (k + 1)).bind fun x => .ok (x.map tame) := by
          unfold captured
          cases index m ((k + 1) * 2) <;> try rfl
          cases index m ((k + 1) * 2 + 1) <;> try rfl
          show Go.ok _ = Go.ok _
          rw [substr_tame]
        rw [hc]
        cases captured w m (k + 1) with
        | ok x =>
          simp only [Go.bind_ok, Go.bind, indexOf_tame (hu vs hm)]
        | _ => rfl
      | _ => rfl

/-- Such a rule finds the same, whichever the white space. -/
theorem replacements_tame (h : blindCheck r = true) (w : Bytes) : r.replacements (w.map tame) = r.replacements w := by
  obtain ⟨_, _, _, h4, _⟩ := blindCheck_parts h
  have key : ∀ ms, r.replacementsLoop (w.map tame) ms = r.replacementsLoop w ms := by
    intro ms
    induction ms with
    | nil => rfl
    | cons m ms ih => simp only [Rule.replacementsLoop, interpolate, interpolate_tame h4, ih]
  simp only [Rule.replacements, find_tame h, key]

end Verif.Blind
