import Verif.Proofs.Reference
import Verif.Proofs.Checked
import Verif.Proofs.Leftmost
import Mathlib.Data.List.SplitBy

/-! Texts made of segments: what holds for each segment is kept by the steps of the procedure. -/

namespace Verif

open Spec.Subword Spec.Procedure Spec.Reference Spec.Hre Hre Rx

/-- Segments with their levels. -/
abbrev Segs := List (Int × List Rune)

/-- The text of segments. -/
def segText (segs : Segs) : Tagged := segs.flatMap fun s => at_ s.1 (encode s.2)

/-- A segment of valid characters with a property. -/
def Sat (G : Int → List Rune → Prop) (s : Int × List Rune) : Prop := (∀ r ∈ s.2, validRune r = true) ∧ G s.1 s.2

/-- A text made of segments with a property. -/
def Made (G : Int → List Rune → Prop) (t : Tagged) : Prop := ∃ segs : Segs, (∀ s ∈ segs, Sat G s) ∧ t = segText segs

theorem segText_cons (s : Int × List Rune) (segs : Segs) : segText (s :: segs) = at_ s.1 (encode s.2) ++ segText segs := rfl

theorem segText_append (a b : Segs) : segText (a ++ b) = segText a ++ segText b := by simp [segText]

theorem Made.nil {G : Int → List Rune → Prop} : Made G [] := ⟨[], by simp, rfl⟩

theorem Made.append {G : Int → List Rune → Prop} {a b : Tagged} (ha : Made G a) (hb : Made G b) : Made G (a ++ b) := by
  obtain ⟨x, hx, rfl⟩ := ha
  obtain ⟨y, hy, rfl⟩ := hb
  refine ⟨x ++ y, ?_, (segText_append x y).symm⟩
  intro s hs
  rcases List.mem_append.1 hs with hs | hs
  · exact hx s hs
  · exact hy s hs

theorem Made.one {G : Int → List Rune → Prop} {l : Int} {rs : List Rune} (h : Sat G (l, rs)) : Made G (at_ l (encode rs)) :=
  ⟨[(l, rs)], by simpa using h, by simp [segText]⟩

theorem Made.mono {G H : Int → List Rune → Prop} (hg : ∀ l rs, G l rs → H l rs) {t : Tagged} (h : Made G t) : Made H t := by
  obtain ⟨x, hx, rfl⟩ := h
  exact ⟨x, fun s hs => ⟨(hx s hs).1, hg _ _ (hx s hs).2⟩, rfl⟩

@[simp] theorem length_at (l : Int) (w : Bytes) : (at_ l w).length = w.length := by simp [at_]

theorem hidden_append (a b : Tagged) : hidden (a ++ b) = hidden a ++ hidden b := by simp [Spec.Procedure.hidden]

theorem hidden_at_if (l : Int) (w : Bytes) : hidden (at_ l w) = if l = 2 then List.replicate w.length 0 else w := by
  unfold Spec.Procedure.hidden at_
  split
  · rename_i h
    subst h
    simp [Function.comp_def, List.map_const']
  · rename_i h
    simp [Function.comp_def, h]

theorem zeros_valid (n : Nat) : ValidUtf8 (List.replicate n 0) := by
  induction n with
  | zero => exact ValidUtf8.nil
  | succ n ih =>
    have h : ValidUtf8 [0] := ⟨[0], by decide, by decide⟩
    exact h.append ih

theorem hidden_at_valid (l : Int) (rs : List Rune) : ValidUtf8 (hidden (at_ l (encode rs))) := by
  rw [hidden_at_if]
  split
  · exact zeros_valid _
  · exact encode_validUtf8 rs

@[simp] theorem length_hidden (t : Tagged) : (hidden t).length = t.length := by simp [Spec.Procedure.hidden]

/-! ### Boundaries -/

theorem boundary_right {a b : Bytes} (ha : ValidUtf8 a) {p : Nat} (h : Boundary (a ++ b) p) (hp : a.length ≤ p) :
    Boundary b (p - a.length) := by
  obtain ⟨u, v, h1, h2⟩ := h
  rw [decode_append ha] at h1
  have hw := decode_width_sum a
  rcases List.append_eq_append_iff.1 h1 with ⟨e, h3, h4⟩ | ⟨e, h3, h4⟩
  · refine ⟨e, v, h4, ?_⟩
    rw [h3] at h2
    simp only [List.map_append, List.sum_append] at h2
    omega
  · rw [h3] at hw
    simp only [List.map_append, List.sum_append] at hw
    refine ⟨[], decode b, rfl, ?_⟩
    simp
    omega

theorem boundary_left {rs : List Rune} (hv : ∀ r ∈ rs, validRune r = true) {b : Bytes} {p : Nat}
    (h : Boundary (encode rs ++ b) p) (hp : p < (encode rs).length) : ∃ x y, rs = x ++ y ∧ p = (encode x).length := by
  obtain ⟨u, v, h1, h2⟩ := h
  rw [decode_encode_append hv] at h1
  have hw : ∀ xs : List Rune, ((xs.map fun r => (r, (encodeRune r).length)).map (·.2)).sum = (encode xs).length := by
    intro xs
    induction xs with
    | nil => rfl
    | cons x xs ih => simp only [List.map_cons, List.sum_cons, ih, encode_cons, List.length_append]
  rcases List.append_eq_append_iff.1 h1 with ⟨e, h3, h4⟩ | ⟨e, h3, h4⟩
  · have := hw rs
    rw [h3] at h2
    simp only [List.map_append, List.sum_append] at h2
    omega
  · obtain ⟨x, y, rfl, h5, h6⟩ := List.map_eq_append_iff.1 h3
    refine ⟨x, y, rfl, ?_⟩
    rw [h2, ← h5, hw]

theorem boundary_between {w : Bytes} {i j : Nat} (hi : Boundary w i) (hj : Boundary w j) (h : i ≤ j) :
    Boundary (w.drop i) (j - i) := by
  obtain ⟨d, h1, h2⟩ := boundary_split hi
  obtain ⟨u, v, h3, h4⟩ := hj
  rw [h1] at h3
  simp only [width] at h2
  rcases List.append_eq_append_iff.1 h3 with ⟨e, h5, h6⟩ | ⟨e, h5, h6⟩
  · refine ⟨e, v, h6, ?_⟩
    rw [h5] at h4
    simp only [List.map_append, List.sum_append] at h4
    omega
  · rw [h5] at h2
    simp only [List.map_append, List.sum_append] at h2
    refine ⟨[], _, rfl, ?_⟩
    simp
    omega

/-! ### Cutting -/

/-- Segments which are not transcribed can be cut. -/
def Divisible (G : Int → List Rune → Prop) : Prop := ∀ l a b, l ≠ 2 → G l (a ++ b) → G l a ∧ G l b

/-- A position beside a byte which is not transcribed, or at an end. -/
def Beside (t : Tagged) (p : Nat) : Prop :=
  p = 0 ∨ (∀ x, t[p]? = some x → x.2 ≠ 2) ∨ ∃ x, t[p - 1]? = some x ∧ x.2 ≠ 2

theorem Made.cut {G : Int → List Rune → Prop} (hG : Divisible G) : ∀ (segs : Segs), (∀ s ∈ segs, Sat G s) → ∀ (p : Nat),
    Boundary (hidden (segText segs)) p → p ≤ (segText segs).length → Beside (segText segs) p →
    Made G ((segText segs).take p) ∧ Made G ((segText segs).drop p)
  | [], _, p, _, hp, _ => by
    simp only [segText, List.flatMap_nil, List.take_nil, List.drop_nil]
    exact ⟨.nil, .nil⟩
  | (l, rs) :: segs, hs, p, hb, hp, hq => by
    have h0 := hs (l, rs) (by simp)
    have hs' : ∀ s ∈ segs, Sat G s := fun s h => hs s (by simp [h])
    rw [segText_cons] at hb hp hq ⊢
    simp only at hb hp hq ⊢
    rw [List.length_append, length_at] at hp
    by_cases hn : (encode rs).length ≤ p
    · have hb' : Boundary (hidden (segText segs)) (p - (encode rs).length) := by
        rw [hidden_append] at hb
        have := boundary_right (hidden_at_valid l rs) hb (by simpa using hn)
        simpa using this
      have hq' : Beside (segText segs) (p - (encode rs).length) := by
        rcases hq with hq | hq | ⟨x, hx, hx'⟩
        · exact .inl (by omega)
        · refine .inr (.inl fun x hx => hq x ?_)
          rw [List.getElem?_append_right (by simpa using hn)]
          simpa using hx
        · by_cases hz : p = (encode rs).length
          · exact .inl (by omega)
          · refine .inr (.inr ⟨x, ?_, hx'⟩)
            rw [List.getElem?_append_right (by simp; omega)] at hx
            rw [← hx]
            simp
            congr 1
            omega
      obtain ⟨h1, h2⟩ := Made.cut hG segs hs' _ hb' (by omega) hq'
      rw [List.take_append, List.drop_append, List.take_of_length_le (by simpa using hn),
        List.drop_eq_nil_of_le (by simpa using hn)]
      simp only [length_at, List.nil_append]
      exact ⟨(Made.one h0).append h1, h2⟩
    · by_cases hz : p = 0
      · subst hz
        simp only [List.take_zero, List.drop_zero]
        exact ⟨.nil, (Made.one h0).append ⟨segs, hs', rfl⟩⟩
      · have hl : l ≠ 2 := by
          have hx : ∀ i, i < (encode rs).length → ∀ x, (at_ l (encode rs) ++ segText segs)[i]? = some x → x.2 = l := by
            intro i hi x hx
            rw [List.getElem?_append_left (by simpa using hi)] at hx
            simp only [at_, List.getElem?_map, Option.map_eq_some_iff] at hx
            obtain ⟨y, _, rfl⟩ := hx
            rfl
          rcases hq with hq | hq | ⟨x, h1, h2⟩
          · exact absurd hq hz
          · have hlt : p < (at_ l (encode rs) ++ segText segs).length := by simp; omega
            have := hx p (by omega) _ (List.getElem?_eq_getElem hlt)
            have h3 := hq _ (List.getElem?_eq_getElem hlt)
            rwa [this] at h3
          · rw [hx _ (by omega) x h1] at h2
            exact h2
        rw [hidden_append, hidden_at hl] at hb
        obtain ⟨x, y, rfl, rfl⟩ := boundary_left (rs := rs) h0.1 hb (by omega)
        obtain ⟨g1, g2⟩ := hG l x y hl h0.2
        have e : at_ l (encode (x ++ y)) = at_ l (encode x) ++ at_ l (encode y) := by
          simp [at_, encode_append]
        rw [e, List.append_assoc, List.take_append_of_le_length (by simp), List.drop_append_of_le_length (by simp)]
        rw [List.take_of_length_le (by simp), List.drop_eq_nil_of_le (by simp), List.nil_append]
        exact ⟨Made.one ⟨fun r hr => h0.1 r (by simp [hr]), g1⟩,
          (Made.one ⟨fun r hr => h0.1 r (by simp [hr]), g2⟩).append ⟨segs, hs', rfl⟩⟩

/-! ### Replacing -/

/-- Replacements of whole characters which were not transcribed, by segments of level `lvl`. -/
inductive Clean (G : Int → List Rune → Prop) (lvl : Int) (t : Tagged) : Nat → List Repl → Prop
  | nil {off : Nat} : off ≤ t.length → Clean G lvl t off []
  | cons {off : Nat} {r : Repl} {rs : List Repl} (h1 : off ≤ r.start) (h2 : r.start < r.stop) (h3 : r.stop ≤ t.length)
      (b1 : Boundary (hidden t) r.start) (b2 : Boundary (hidden t) r.stop) (fresh : Fresh t r)
      (word : ∃ ws, r.word = encode ws ∧ Sat G (lvl, ws)) (rest : Clean G lvl t r.stop rs) : Clean G lvl t off (r :: rs)

theorem Clean.splice {G : Int → List Rune → Prop} (hG : Divisible G) {lvl : Int} {t : Tagged} :
    ∀ {rs : List Repl} {off : Nat}, Clean G lvl t off rs → Boundary (hidden t) off → Made G (t.drop off) →
      Made G (Spec.Procedure.splice (at_ lvl) t off rs)
  | [], off, _, _, h => by simpa [Spec.Procedure.splice] using h
  | r :: rs, off, .cons h1 h2 h3 b1 b2 fresh ⟨ws, hw, hg⟩ rest, hb, h => by
    obtain ⟨segs, hs, e⟩ := h
    have hh : hidden (t.drop off) = (hidden t).drop off := by simp [Spec.Procedure.hidden]
    have hx : ∀ p x, (t.drop off)[p]? = some x → t[off + p]? = some x := by
      intro p x hx
      rwa [List.getElem?_drop] at hx
    have c1 := Made.cut hG segs hs (r.start - off)
      (by rw [← e, hh]; exact boundary_between hb b1 h1) (by rw [← e]; simp; omega)
      (by
        rw [← e]
        refine .inr (.inl fun x hx' => ?_)
        have := hx _ x hx'
        exact fresh (off + (r.start - off)) (by omega) (by omega) x this)
    have c2 := Made.cut hG segs hs (r.stop - off)
      (by rw [← e, hh]; exact boundary_between hb b2 (by omega)) (by rw [← e]; simp; omega)
      (by
        rw [← e]
        have hlt : r.stop - off - 1 < (t.drop off).length := by simp; omega
        refine .inr (.inr ⟨_, List.getElem?_eq_getElem hlt, ?_⟩)
        have := hx _ _ (List.getElem?_eq_getElem hlt)
        exact fresh (off + (r.stop - off - 1)) (by omega) (by omega) _ this)
    rw [← e] at c1 c2
    rw [List.drop_drop] at c2
    have e2 : off + (r.stop - off) = r.stop := by omega
    rw [e2] at c2
    rw [Spec.Procedure.splice, hw]
    exact (c1.1.append (Made.one hg)).append (Clean.splice hG rest b2 c2.2)

/-! ### Rules -/

theorem interpolateParts_texts {Q : Bytes → Prop} (h0 : Q []) (ha : ∀ a b, Q a → Q b → Q (a ++ b)) {p : Pattern}
    {word : Bytes} {m : List Int} : ∀ (ps : List RPart) (k : Nat) {w : Bytes},
      (∀ t, RPart.plain t ∈ ps → Q t) → (∀ vals, RPart.toVar vals ∈ ps → ∀ v ∈ vals, Q v) →
      interpolateParts p word m k ps = .ok w → Q w
  | [], k, w, _, _, h => by
    simp only [interpolateParts, Go.ok.injEq] at h
    subst h
    exact h0
  | .plain t :: ps, k, w, h1, h2, h => by
    simp only [interpolateParts, Go.bind_eq_ok, Go.pure_eq, Go.ok.injEq] at h
    obtain ⟨rest, h3, rfl⟩ := h
    exact ha _ _ (h1 t (by simp)) (interpolateParts_texts h0 ha ps k (fun t ht => h1 t (by simp [ht]))
      (fun v hv => h2 v (by simp [hv])) h3)
  | .toVar vals :: ps, k, w, h1, h2, h => by
    simp only [interpolateParts] at h
    split at h
    · simp at h
    · simp only [Go.bind_eq_ok] at h
      obtain ⟨_, _, _, _, h⟩ := h
      split at h
      · simp at h
      · split at h
        · simp at h
        · simp only [Go.bind_eq_ok, Go.pure_eq, Go.ok.injEq] at h
          obtain ⟨v, hv, rest, h3, rfl⟩ := h
          have hm : v ∈ vals := by
            unfold index at hv
            split at hv
            · simp only [Go.ok.injEq] at hv
              subst hv
              rename_i hi
              exact List.mem_of_getElem? hi
            · simp at hv
          exact ha _ _ (h2 vals (by simp) v hm) (interpolateParts_texts h0 ha ps (k + 1)
            (fun t ht => h1 t (by simp [ht])) (fun v hv => h2 v (by simp [hv])) h3)

/-- The replacements of a checked rule are clean. -/
theorem replacements_clean {G : Int → List Rune → Prop} {lvl : Int} {r : Rule} (hf : firm r.pat = true)
    (hw : ∀ word m w, interpolate r.to r.pat word m = .ok w → ∃ ws, w = encode ws ∧ Sat G (lvl, ws)) {t : Tagged}
    {rs : List Repl} (h : r.replacements (hidden t) = .ok rs) (fresh : ∀ x ∈ rs, Fresh t x) : Clean G lvl t 0 rs := by
  obtain ⟨ms, h1, h2⟩ := find_firm hf (hidden t) (-1)
  simp only [Rule.replacements, h1, Go.bind_ok] at h
  have key : ∀ (ms : List (List Int)) (off : Nat) (rs : List Repl), ProperMatches (hidden t) off ms → off ≤ t.length →
      r.replacementsLoop (hidden t) ms = .ok rs → (∀ x ∈ rs, Fresh t x) → Clean G lvl t off rs := by
    intro ms
    induction ms with
    | nil =>
      intro off rs _ ho h _
      simp only [Rule.replacementsLoop, Go.ok.injEq] at h
      subst h
      exact .nil ho
    | cons m ms ih =>
      intro off rs hp ho h hfr
      obtain ⟨start, stop, groups, rfl, p1, p2, p3, p4, p5, p6⟩ := hp
      rw [length_hidden] at p3
      simp only [Rule.replacementsLoop, index, List.getElem?_cons_zero, List.getElem?_cons_succ, Go.bind_ok] at h
      split at h
      · rename_i w hi
        simp only [Go.bind_eq_ok, Go.pure_eq, Go.ok.injEq] at h
        obtain ⟨rest, h3, rfl⟩ := h
        exact .cons p1 p2 p3 p4 p5 (hfr _ (by simp)) (hw _ _ _ hi) (ih stop rest p6 p3 h3 fun x hx => hfr x (by simp [hx]))
      · have := ih stop rs p6 p3 h hfr
        cases this with
        | nil h => exact .nil ho
        | cons c1 c2 c3 c4 c5 c6 c7 c8 => exact .cons (by omega) c2 c3 c4 c5 c6 c7 c8
      · simp at h
      · simp at h
  exact key ms 0 rs h2 (by omega) h fresh

theorem applied_made {G : Int → List Rune → Prop} (hG : Divisible G) {lvl : Int} {view : Tagged → Bytes}
    (hview : ∀ t, Made G t → view t = hidden t) :
    ∀ {rules : List Rule} {t : Tagged} {ws : List Bytes} {t' : Tagged}, Applied lvl view rules t ws t' →
      (∀ r ∈ rules, firm r.pat = true ∧
        (∀ word m w, interpolate r.to r.pat word m = .ok w → ∃ ws, w = encode ws ∧ Sat G (lvl, ws)) ∧
        ∀ t, Made G t → ∀ rs, r.replacements (hidden t) = .ok rs → ∀ x ∈ rs, Fresh t x) →
      Made G t → Made G t' := by
  intro rules t ws t' h
  induction h with
  | done t => intro _ ht; exact ht
  | rule rs seen inside rest ih =>
    rename_i r rules t t' words
    intro hr ht
    obtain ⟨h1, h2, h3⟩ := hr r (by simp)
    rw [hview t ht] at seen
    have hc := replacements_clean h1 h2 seen (h3 t ht rs seen)
    refine ih (fun r hr' => hr r (by simp [hr'])) ?_
    exact hc.splice hG (boundary_zero _) (by simpa using ht)

/-! ### Pieces -/

/-- The text of leveled characters. -/
def runesText (cs : LChars) : Tagged := cs.flatMap fun c => at_ c.2 (encodeRune c.1)

theorem segText_runes (segs : Segs) : segText segs = runesText (segs.flatMap fun s => s.2.map fun c => (c, s.1)) := by
  induction segs with
  | nil => rfl
  | cons s segs ih =>
    rw [segText_cons, ih]
    simp only [runesText, List.flatMap_cons, List.flatMap_append]
    congr 1
    obtain ⟨l, rs⟩ := s
    simp only
    induction rs with
    | nil => rfl
    | cons r rs ih' => simp only [encode_cons, List.map_cons, List.flatMap_cons, ← ih']; simp [at_]

theorem letters_runesText {cs : LChars} (hv : ∀ c ∈ cs, validRune c.1 = true) : letters (runesText cs) = cs := by
  have key : ∀ (cs : LChars) (pre : Tagged), (∀ c ∈ cs, validRune c.1 = true) →
      (rangeFrom pre.length (decode (text (runesText cs)))).map
        (fun p => (p.2, ((pre ++ runesText cs)[p.1]?.map (·.2)).getD 0)) = cs := by
    intro cs
    induction cs with
    | nil => intro pre _; rfl
    | cons c cs ih =>
      intro pre hv
      obtain ⟨r, l⟩ := c
      have hr := hv (r, l) (by simp)
      have e : runesText ((r, l) :: cs) = at_ l (encodeRune r) ++ runesText cs := rfl
      have et : text (at_ l (encodeRune r) ++ runesText cs) = encodeRune r ++ text (runesText cs) := by
        simp [text, at_, Function.comp_def]
      rw [e, et, decode_encodeRune_append hr]
      simp only [rangeFrom, List.map_cons]
      congr 1
      · congr 1
        rw [List.getElem?_append_right (by omega), Nat.sub_self]
        have hne := encodeRune_ne_nil r
        cases hx : encodeRune r with
        | nil => exact absurd hx hne
        | cons b bs => simp [at_]
      · have := ih (pre ++ at_ l (encodeRune r)) fun c hc => hv c (by simp [hc])
        simp only [List.length_append, length_at, List.append_assoc] at this
        exact this
  have := key cs [] hv
  simpa [letters, rangeStr] using this

theorem tagged_chunks (cs : LChars) : tagged (chunks cs) = runesText cs := by
  have hg : ∀ g ∈ cs.splitBy sameLevel, tagged [chunk g] = runesText g := by
    intro g hg
    have hc := List.isChain_of_mem_splitBy hg
    have hl : ∀ (a : Rune × Int) (g : LChars), List.IsChain (fun x y => sameLevel x y = true) (a :: g) →
        ∀ c ∈ g, c.2 = a.2 := by
      intro a g
      induction g generalizing a with
      | nil => simp
      | cons b g ih =>
        intro h c hc
        rw [List.isChain_cons_cons] at h
        have h1 : a.2 = b.2 := by simpa [sameLevel] using h.1
        rcases List.mem_cons.1 hc with rfl | hc
        · exact h1.symm
        · rw [ih b h.2 c hc, h1]
    cases g with
    | nil => simp [tagged, chunk, runesText]
    | cons a g =>
      have h := hl a g hc
      have : ∀ (g' : LChars), (∀ c ∈ g', c.2 = a.2) → at_ a.2 (encode (g'.map (·.1))) = runesText g' := by
        intro g'
        induction g' with
        | nil => intro _; rfl
        | cons c g' ih =>
          intro h'
          have e := ih fun c hc => h' c (by simp [hc])
          simp only [runesText, List.flatMap_cons, List.map_cons, encode_cons, h' c (by simp)] at e ⊢
          rw [← e]
          simp [at_]
      have e := this (a :: g) (by
        intro c hc
        rcases List.mem_cons.1 hc with rfl | hc
        · rfl
        · exact h c hc)
      rw [← e]
      simp [tagged, chunk, at_]
  have hf : (cs.splitBy sameLevel).flatten = cs := List.flatten_splitBy _ _
  have : ∀ gs : List LChars, (∀ g ∈ gs, tagged [chunk g] = runesText g) →
      tagged (gs.map chunk) = runesText gs.flatten := by
    intro gs
    induction gs with
    | nil => intro _; rfl
    | cons g gs ih =>
      intro h
      have h1 := h g (by simp)
      have h2 := ih fun g hg => h g (by simp [hg])
      simp only [tagged, List.map_cons, List.flatMap_cons, List.flatMap_nil, List.append_nil, List.flatten_cons,
        runesText, List.flatMap_append] at h1 h2 ⊢
      rw [h1, h2]
  have := this _ hg
  rwa [hf] at this

theorem tagged_pieces {G : Int → List Rune → Prop} {t : Tagged} (h : Made G t) : tagged (Spec.Reference.pieces t) = t := by
  obtain ⟨segs, hs, rfl⟩ := h
  rw [Spec.Reference.pieces, segText_runes, letters_runesText, tagged_chunks]
  intro c hc
  simp only [List.mem_flatMap, List.mem_map] at hc
  obtain ⟨s, h1, r, h2, rfl⟩ := hc
  exact (hs s h1).1 r h2

theorem tagged_append (a b : List Subword) : tagged (a ++ b) = tagged a ++ tagged b := by simp [tagged]

/-- Each block of a text is a segment. -/
theorem blocks_sat {G : Int → List Rune → Prop} (ha : ∀ l a b, G l a → G l b → G l (a ++ b)) : ∀ (segs : Segs),
    (∀ s ∈ segs, Sat G s) → ∀ b ∈ blocks (segText segs), ∃ rs, b.word = encode rs ∧ Sat G (b.level, rs)
  | [], _, b, hb => by simp [segText, blocks] at hb
  | (l, rs) :: segs, hs, b, hb => by
    have h0 := hs (l, rs) (by simp)
    have ih := blocks_sat ha segs fun s h => hs s (by simp [h])
    rw [segText_cons] at hb
    by_cases hz : encode rs = []
    · simp only [hz, at_, List.map_nil, List.nil_append] at hb
      exact ih b hb
    · rw [blocks_at hz] at hb
      cases hbs : blocks (segText segs) with
      | nil =>
        rw [hbs] at hb
        simp only [List.mem_singleton] at hb
        subst hb
        exact ⟨rs, rfl, h0⟩
      | cons s rest =>
        rw [hbs] at hb ih
        simp only at hb
        split at hb
        · rename_i hl
          rcases List.mem_cons.1 hb with rfl | hb
          · obtain ⟨rs', e1, e2⟩ := ih s (by simp)
            refine ⟨rs ++ rs', by rw [encode_append, e1], ?_, ?_⟩
            · intro r hr
              rcases List.mem_append.1 hr with hr | hr
              · exact h0.1 r hr
              · exact e2.1 r hr
            · have := e2.2
              rw [← hl] at this
              exact ha _ _ _ h0.2 this
          · exact ih b (by simp [hb])
        · rcases List.mem_cons.1 hb with rfl | hb
          · exact ⟨rs, rfl, h0⟩
          · exact ih b hb

theorem joined_sat {G : Int → List Rune → Prop} (ha : ∀ l a b, G l a → G l b → G l (a ++ b)) {sws : List Subword}
    (h : Made G (tagged sws)) : ∀ b ∈ joined sws, ∃ rs, b.word = encode rs ∧ Sat G (b.level, rs) := by
  obtain ⟨segs, hs, e⟩ := h
  rw [joined, e]
  exact blocks_sat ha segs hs

theorem made_of_sat {G : Int → List Rune → Prop} : ∀ {sws : List Subword},
    (∀ b ∈ sws, ∃ rs, b.word = encode rs ∧ Sat G (b.level, rs)) → Made G (tagged sws)
  | [], _ => .nil
  | b :: sws, h => by
    obtain ⟨rs, h1, h2⟩ := h b (by simp)
    have : tagged (b :: sws) = at_ b.level b.word ++ tagged sws := rfl
    rw [this, h1]
    exact (Made.one h2).append (made_of_sat fun b hb => h b (by simp [hb]))

theorem each_made {G H : Int → List Rune → Prop} {R : Subword → Option (List Bytes) → List Subword → Prop}
    (hR : ∀ p ws out, R p ws out → (∃ rs, p.word = encode rs ∧ Sat G (p.level, rs)) → Made H (tagged out)) :
    ∀ {ps : List Subword} {rows : List (Option (List Bytes))} {out : List Subword}, Each R ps rows out →
      (∀ p ∈ ps, ∃ rs, p.word = encode rs ∧ Sat G (p.level, rs)) → Made H (tagged out) := by
  intro ps rows out h
  induction h with
  | nil => intro _; exact .nil
  | cons one rest ih =>
    intro hp
    rw [tagged_append]
    exact (hR _ _ _ one (hp _ (by simp))).append (ih fun p h => hp p (by simp [h]))

end Verif
