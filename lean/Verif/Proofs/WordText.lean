import Verif.Proofs.WordMatch
import Verif.Proofs.Made
import Verif.Proofs.Jamo

/-! The steps of the procedure on a text of two parts separated by a space. -/

namespace Verif.Words

open Verif.Hre Verif.Spec.Subword Verif.Spec.Procedure Verif.Spec.Reference

/-- The space between the parts. -/
def gap : UInt8 × Int := (0x20, 1)

/-! ## Rules -/

theorem splice_second {α : Type} (new : Bytes → List α) (tx : List α) (g : α) (ty : List α) : ∀ (rs : List Repl) (off : Nat),
    splice new (tx ++ g :: ty) (tx.length + 1 + off) (rs.map (move (tx.length + 1))) = splice new ty off rs
  | [], off => by
    simp only [List.map_nil, splice]
    rw [List.drop_append, List.drop_eq_nil_of_le (by omega), List.nil_append,
      show tx.length + 1 + off - tx.length = off + 1 by omega]
    rfl
  | r :: rs, off => by
    simp only [List.map_cons, splice, move]
    have ih := splice_second new tx g ty rs r.stop
    rw [ih, List.drop_append, List.drop_eq_nil_of_le (by omega), List.nil_append,
      show tx.length + 1 + off - tx.length = off + 1 by omega,
      show tx.length + 1 + r.start - (tx.length + 1 + off) = r.start - off by omega]
    rfl

theorem splice_both {α : Type} (new : Bytes → List α) (tx : List α) (g : α) (ty : List α) (b : List Repl) (hb : Inside ty.length 0 b) :
    ∀ (a : List Repl) (off : Nat), Inside tx.length off a →
    splice new (tx ++ g :: ty) off (a ++ b.map (move (tx.length + 1))) = splice new tx off a ++ g :: splice new ty 0 b
  | [], off, h => by
    simp only [Inside] at h
    cases b with
    | nil =>
      simp only [List.map_nil, List.append_nil, splice, List.drop_zero]
      rw [List.drop_append_of_le_length h]
    | cons r rs =>
      simp only [Inside] at hb
      have e := splice_second new tx g ty rs r.stop
      simp only [List.nil_append, List.map_cons, splice, move, e, List.drop_zero]
      rw [List.drop_append_of_le_length h,
        show tx.length + 1 + r.start - off = (tx.drop off).length + (r.start + 1) by simp; omega,
        List.take_length_add_append]
      simp
  | r :: rs, off, h => by
    simp only [Inside] at h
    obtain ⟨h1, h2, h3⟩ := h
    simp only [List.cons_append, splice]
    rw [splice_both new tx g ty b hb rs r.stop h3, List.drop_append_of_le_length (by omega),
      List.take_append_of_le_length (by simp; omega)]
    simp

theorem splice_all {α : Type} {Q : α → Prop} {new : Bytes → List α} {t : List α} (ht : ∀ x ∈ t, Q x) :
    ∀ {rs : List Repl} (off : Nat), (∀ r ∈ rs, ∀ x ∈ new r.word, Q x) → ∀ x ∈ splice new t off rs, Q x
  | [], off, _, x, hx => ht x (List.mem_of_mem_drop hx)
  | r :: rs, off, h, x, hx => by
    simp only [splice, List.mem_append] at hx
    rcases hx with (hx | hx) | hx
    · exact ht x (List.mem_of_mem_drop (List.mem_of_mem_take hx))
    · exact h r (by simp) x hx
    · exact splice_all ht r.stop (fun r hr => h r (by simp [hr])) x hx

theorem replacementsLoop_mem {r : Rule} {w : Bytes} : ∀ {ms : List (List Int)} {rs : List Repl},
    r.replacementsLoop w ms = .ok rs → ∀ x ∈ rs, ∃ m, interpolate r.to r.pat w m = .ok x.word
  | [], rs, h, x, hx => by
    simp only [Rule.replacementsLoop, Go.ok.injEq] at h
    subst h
    simp at hx
  | m :: ms, rs, h, x, hx => by
    simp only [Rule.replacementsLoop, Go.bind_eq_ok] at h
    obtain ⟨s, hs, t, ht, h⟩ := h
    split at h
    · rename_i v hv
      simp only [Go.bind_eq_ok, Go.pure_eq, Go.ok.injEq] at h
      obtain ⟨z, hz, rfl⟩ := h
      rcases List.mem_cons.1 hx with rfl | hx
      · exact ⟨m, hv⟩
      · exact replacementsLoop_mem hz x hx
    · exact replacementsLoop_mem h x hx
    · simp at h
    · simp at h

theorem replacements_mem {r : Rule} {w : Bytes} {rs : List Repl} (h : r.replacements w = .ok rs) :
    ∀ x ∈ rs, ∃ m, interpolate r.to r.pat w m = .ok x.word := by
  simp only [Rule.replacements, Go.bind_eq_ok] at h
  obtain ⟨ms, _, h⟩ := h
  exact replacementsLoop_mem h

theorem firm_cap {p : Pattern} (h : firm p = true) : 4 ≤ Rx.numCap p.re := by
  simp only [firm, Bool.and_eq_true, decide_eq_true_eq] at h
  exact h.1

theorem replacements_nil {r : Rule} (h : firm r.pat = true) : r.replacements [] = .ok [] := by
  obtain ⟨ms, h1, h2⟩ := find_firm h [] (-1)
  cases ms with
  | nil => simp only [Rule.replacements, h1, Go.bind_ok, Rule.replacementsLoop]
  | cons m ms =>
    obtain ⟨a, b, g, _, _, h3, h4, _⟩ := h2
    simp at h4
    omega

/-- Rules which treat words one by one. -/
def Local (lvl : Int) (Q : UInt8 × Int → Prop) (rules : List Rule) : Prop :=
  ∀ r ∈ rules, firm r.pat = true ∧ wordly r.pat = true ∧
    ∀ w m v, interpolate r.to r.pat w m = .ok v → ∀ b ∈ v, Q (b, lvl)

theorem applied_nil {lvl : Int} {f : UInt8 × Int → UInt8} : ∀ {rules : List Rule}, (∀ r ∈ rules, firm r.pat = true) →
    ∃ ws, Applied lvl (List.map f) rules [] ws []
  | [], _ => ⟨[], .done []⟩
  | r :: rules, h => by
    obtain ⟨ws, hw⟩ := applied_nil (lvl := lvl) (f := f) (rules := rules) fun r hr => h r (by simp [hr])
    refine ⟨_, .rule [] ?_ (by simp [Inside]) hw⟩
    rw [List.map_nil, replacements_nil (h r (by simp))]

theorem applied_unique {lvl : Int} {view : Tagged → Bytes} {rules : List Rule} {t : Tagged} {ws ws' : List Bytes} {a b : Tagged}
    (ha : Applied lvl view rules t ws a) (hb : Applied lvl view rules t ws' b) : b = a := by
  induction ha generalizing ws' with
  | done t => cases hb; rfl
  | rule rs seen inside rest ih =>
    cases hb with
    | rule rs' seen' inside' rest' =>
      rw [seen] at seen'
      simp only [Go.ok.injEq] at seen'
      subst seen'
      exact ih rest'

theorem applied_both {lvl : Int} {f : UInt8 × Int → UInt8} {Q : UInt8 × Int → Prop} (hf : f gap = 0x20)
    (hQ : ∀ x, Q x → blank (f x).toNat = false) {rules : List Rule} (hr : Local lvl Q rules) {tx ty : Tagged} (hx : ∀ x ∈ tx, Q x)
    {wx wy w : List Bytes} {tx' ty' t' : Tagged} (ax : Applied lvl (List.map f) rules tx wx tx')
    (ay : Applied lvl (List.map f) rules ty wy ty') (a : Applied lvl (List.map f) rules (tx ++ gap :: ty) w t') :
    t' = tx' ++ gap :: ty' ∧ ∀ x ∈ tx', Q x := by
  induction rules generalizing tx ty wx wy w with
  | nil =>
    cases ax
    cases ay
    cases a
    exact ⟨rfl, hx⟩
  | cons r rules ih =>
    cases ax with | rule ra sa ia ta =>
    cases ay with | rule rb sb ib tb =>
    cases a with | rule rc sc ic tc =>
    obtain ⟨h1, h2, h3⟩ := hr r (by simp)
    have hs : Solid (tx.map f) := by
      intro b hb
      obtain ⟨x, hx', rfl⟩ := List.mem_map.1 hb
      exact hQ x (hx x hx')
    have e : (tx ++ gap :: ty).map f = both (tx.map f) (ty.map f) := by simp [both, hf]
    rw [e] at sc
    have := replacements_both h2 (by have := firm_cap h1; omega) hs sa sb sc
    rw [List.length_map] at this
    subst this
    rw [splice_both _ tx gap ty rb ib ra 0 ia] at tc
    refine ih (fun r hr' => hr r (by simp [hr'])) (splice_all hx 0 ?_) ta tb tc
    intro x hx' y hy
    obtain ⟨m, hm⟩ := replacements_mem sa x hx'
    simp only [at_, List.mem_map] at hy
    obtain ⟨b, hb, rfl⟩ := hy
    exact h3 _ _ _ hm b hb

/-! ## Blocks -/

/-- A piece of meaningful text, or nothing. -/
def opt (w : Bytes) : List Subword := if w = [] then [] else [⟨w, 1⟩]

theorem opt_cons (c : UInt8) (w : Bytes) : opt (c :: w) = [⟨c :: w, 1⟩] := by simp [opt]

/-- The blocks of two parts: those beside the space grow together. -/
theorem blocks_both (B : Tagged) : ∀ (A : Tagged), ∃ (A0 : List Subword) (a b : Bytes) (B0 : List Subword),
    blocks A = A0 ++ opt a ∧ blocks B = opt b ++ B0 ∧ blocks (A ++ gap :: B) = A0 ++ ⟨a ++ 0x20 :: b, 1⟩ :: B0 ∧
    ∀ x ∈ a, (x, 1) ∈ A
  | [] => by
    cases hb : blocks B with
    | nil => exact ⟨[], [], [], [], rfl, rfl, by simp [blocks, gap, hb], by simp⟩
    | cons s rest =>
      by_cases hl : s.level = 1
      · have hn : s.word ≠ [] := blocks_nonempty B s (by simp [hb])
        refine ⟨[], [], s.word, rest, rfl, ?_, by simp [blocks, gap, hb, hl], by simp⟩
        rw [opt, if_neg hn, ← hl]
        rfl
      · exact ⟨[], [], [], s :: rest, rfl, rfl, by simp [blocks, gap, hb, Ne.symm hl], by simp⟩
  | (c, l) :: A => by
    obtain ⟨A0, a, b, B0, h1, h2, h3, h4⟩ := blocks_both B A
    cases A0 with
    | cons s A0 =>
      rw [List.cons_append] at h1 h3
      by_cases hl : l = s.level
      · refine ⟨⟨c :: s.word, l⟩ :: A0, a, b, B0, ?_, h2, ?_, fun x hx => by simp [h4 x hx]⟩
        · simp [blocks, h1, hl]
        · simp [blocks, h3, hl]
      · refine ⟨⟨[c], l⟩ :: s :: A0, a, b, B0, ?_, h2, ?_, fun x hx => by simp [h4 x hx]⟩
        · simp [blocks, h1, hl]
        · simp [blocks, h3, hl]
    | nil =>
      rw [List.nil_append] at h1 h3
      by_cases hl : l = 1
      · refine ⟨[], c :: a, b, B0, ?_, h2, ?_, ?_⟩
        · cases a with
          | nil => simp [blocks, h1, opt, hl]
          | cons d a => simp [blocks, h1, opt, hl]
        · simp [blocks, h3, hl]
        · intro x hx
          rcases List.mem_cons.1 hx with rfl | hx
          · simp [hl]
          · simp [h4 x hx]
      · refine ⟨[⟨[c], l⟩], a, b, B0, ?_, h2, ?_, fun x hx => by simp [h4 x hx]⟩
        · cases a with
          | nil => simp [blocks, h1, opt]
          | cons d a => simp [blocks, h1, opt, hl]
        · simp [blocks, h3, hl]

theorem tagged_blocks : ∀ (t : Tagged), tagged (blocks t) = t
  | [] => rfl
  | (b, l) :: t => by
    have ih := tagged_blocks t
    cases hb : blocks t with
    | nil =>
      rw [hb] at ih
      simp only [blocks, hb]
      rw [← ih]
      rfl
    | cons s rest =>
      rw [hb] at ih
      simp only [blocks, hb]
      split
      · rename_i hl
        conv => rhs; rw [← ih]
        simp [tagged, hl]
      · conv => rhs; rw [← ih]
        simp [tagged]

/-- Pieces of different levels are the blocks of their text. -/
theorem blocks_tagged : ∀ (sws : List Subword), (∀ s ∈ sws, s.word ≠ []) → Alternating sws → blocks (tagged sws) = sws
  | [], _, _ => rfl
  | s :: sws, hn, ha => by
    have ih := blocks_tagged sws (fun s hs => hn s (by simp [hs])) (by
      cases sws with
      | nil => trivial
      | cons b t => exact ha.2)
    have e : tagged (s :: sws) = at_ s.level s.word ++ tagged sws := rfl
    rw [e, blocks_at (hn s (by simp)), ih]
    cases sws with
    | nil => rfl
    | cons b t =>
      simp only
      rw [if_neg ha.1]

/-! ## Stages -/

/-- All pieces of a text, from left to right. -/
inductive Through (R : Subword → Tagged → Prop) : List Subword → Tagged → Prop
  | nil : Through R [] []
  | cons {p : Subword} {ps : List Subword} {t t' : Tagged} (one : R p t) (rest : Through R ps t') : Through R (p :: ps) (t ++ t')

theorem Through.split {R : Subword → Tagged → Prop} : ∀ {a b : List Subword} {t : Tagged}, Through R (a ++ b) t →
    ∃ x y, Through R a x ∧ Through R b y ∧ t = x ++ y
  | [], b, t, h => ⟨[], t, .nil, h, rfl⟩
  | p :: a, b, _, .cons one rest => by
    obtain ⟨x, y, h1, h2, rfl⟩ := rest.split
    exact ⟨_, y, .cons one h1, h2, by simp⟩

theorem Through.unique {R : Subword → Tagged → Prop} {ps : List Subword} (hu : ∀ p ∈ ps, ∀ t t', R p t → R p t' → t' = t) {t t' : Tagged}
    (h : Through R ps t) (h' : Through R ps t') : t' = t := by
  induction h generalizing t' with
  | nil => cases h'; rfl
  | cons one rest ih =>
    cases h' with
    | cons one' rest' => rw [hu _ (by simp) _ _ one one', ih (fun p hp => hu p (by simp [hp])) rest']

/-- A stage which treats words one by one. -/
structure Stage (R : Subword → Tagged → Prop) (Q : UInt8 × Int → Prop) : Prop where
  unique : ∀ p t t', R p t → R p t' → t' = t
  empty : R ⟨[], 1⟩ []
  both : ∀ a b x y z, (∀ c ∈ a, Q (c, 1)) → R ⟨a, 1⟩ x → R ⟨b, 1⟩ y → R ⟨a ++ 0x20 :: b, 1⟩ z → z = x ++ gap :: y

theorem Stage.opt {R : Subword → Tagged → Prop} {Q : UInt8 × Int → Prop} (h : Stage R Q) {a : Bytes} {t : Tagged}
    (ht : Through R (opt a) t) : R ⟨a, 1⟩ t := by
  unfold Words.opt at ht
  split at ht
  · rename_i e
    subst e
    cases ht
    exact h.empty
  · cases ht with
    | cons one rest =>
      cases rest
      simpa using one

theorem Stage.through {R : Subword → Tagged → Prop} {Q : UInt8 × Int → Prop} (h : Stage R Q) {A B A' B' C : Tagged}
    (hA : ∀ x ∈ A, Q x) (ha : Through R (blocks A) A') (hb : Through R (blocks B) B') (hc : Through R (blocks (A ++ gap :: B)) C) :
    C = A' ++ gap :: B' := by
  obtain ⟨A0, a, b, B0, h1, h2, h3, h4⟩ := blocks_both B A
  rw [h1] at ha
  rw [h2] at hb
  rw [h3] at hc
  obtain ⟨x1, x2, k1, k2, rfl⟩ := ha.split
  obtain ⟨y1, y2, k3, k4, rfl⟩ := hb.split
  obtain ⟨z1, z2, k5, k6, rfl⟩ := hc.split
  cases k6 with
  | cons one rest =>
    have e1 := k1.unique (fun p _ => h.unique p) k5
    have e2 := k4.unique (fun p _ => h.unique p) rest
    have e3 := h.both a b _ _ _ (fun c hc => hA _ (h4 c hc)) (h.opt k2) (h.opt k3) one
    rw [e1, e2, e3]
    simp

/-! ## The end of the procedure -/

/-- Syllables of a text. -/
def syllables : Bytes → Tagged → Bytes
  | buf, [] => Jamo.composeHangul buf
  | buf, (b, l) :: t => if l = 0 then Jamo.composeHangul buf ++ b :: syllables [] t else syllables (buf ++ [b]) t

theorem compose_empty : Jamo.composeHangul [] = [] := by decide +kernel

theorem syllables_zero {w : Bytes} (hw : w ≠ []) (buf : Bytes) (t : Tagged) :
    syllables buf (at_ 0 w ++ t) = Jamo.composeHangul buf ++ w ++ syllables [] t := by
  induction w generalizing buf with
  | nil => exact absurd rfl hw
  | cons b w ih =>
    cases w with
    | nil => simp [at_, syllables]
    | cons c w =>
      have := ih (by simp) []
      rw [compose_empty] at this
      simp only [at_, List.map_cons, List.cons_append, syllables, if_true] at this ⊢
      rw [this]
      simp

theorem syllables_other {l : Int} (hl : l ≠ 0) (w buf : Bytes) (t : Tagged) :
    syllables buf (at_ l w ++ t) = syllables (buf ++ w) t := by
  induction w generalizing buf with
  | nil => simp [at_]
  | cons b w ih =>
    have := ih (buf ++ [b])
    simp only [at_, List.map_cons, List.cons_append, syllables, hl, if_false, List.append_assoc] at this ⊢
    simpa using this

theorem syllabifyLoop_tagged : ∀ (sws : List Subword) (buf : Bytes), (∀ s ∈ sws, s.word ≠ []) →
    syllabifyLoop buf sws = syllables buf (tagged sws)
  | [], buf, _ => rfl
  | s :: sws, buf, h => by
    have e : tagged (s :: sws) = at_ s.level s.word ++ tagged sws := rfl
    rw [e, syllabifyLoop]
    split
    · rename_i hl
      rw [hl, syllables_zero (h s (by simp)), syllabifyLoop_tagged sws [] fun s hs => h s (by simp [hs])]
    · rename_i hl
      rw [syllables_other hl, syllabifyLoop_tagged sws _ fun s hs => h s (by simp [hs])]

theorem runes_both (x y : Bytes) : runes (x ++ 0x20 :: y) = runes x ++ 0x20 :: runes y := by
  have := decode_split x (c := 0x20) (by decide) y
  simp only [runes, this, List.map_append, List.map_cons]
  rfl

theorem encode_both (x y : List Rune) : encode (x ++ 0x20 :: y) = encode x ++ 0x20 :: encode y := by
  rw [encode_append, encode_cons]
  rfl

theorem compose_both (x y : Bytes) : Jamo.composeHangul (x ++ 0x20 :: y) = Jamo.composeHangul x ++ 0x20 :: Jamo.composeHangul y := by
  rw [Jamo.composeHangul_eq, Jamo.composeHangul_eq, Jamo.composeHangul_eq, runes_both,
    Jamo.compose_append_other (by decide) (by unfold Spec.Jamo.IsSyllable; omega) (by unfold Spec.Jamo.IsJamo; omega), encode_both]

theorem syllables_gap (x : Bytes) : ∀ (t : Tagged) (y : Bytes),
    syllables (x ++ 0x20 :: y) t = Jamo.composeHangul x ++ 0x20 :: syllables y t
  | [], y => compose_both x y
  | (b, l) :: t, y => by
    simp only [syllables]
    split
    · rw [compose_both]
      simp
    · have := syllables_gap x t (y ++ [b])
      rw [← this]
      simp

theorem syllables_both (B : Tagged) : ∀ (A : Tagged) (buf : Bytes),
    syllables buf (A ++ gap :: B) = syllables buf A ++ 0x20 :: syllables [] B
  | [], buf => by
    simp only [List.nil_append, gap, syllables]
    rw [if_neg (by omega)]
    exact syllables_gap buf B []
  | (b, l) :: A, buf => by
    simp only [List.cons_append, syllables]
    split
    · rw [syllables_both B A []]
      simp
    · rw [syllables_both B A]

theorem composed_tagged {sws : List Subword} {x : Bytes} (h : Composed (joined sws) x) : x = syllables [] (tagged sws) := by
  rw [composed_iff.1 h, joined, syllabifyLoop_tagged _ _ (blocks_nonempty _), tagged_blocks]

theorem japanesePieces_both (ys : List Rune) : ∀ (xs : List Rune) (prev : Option Rune),
    (japanesePieces prev (xs ++ 0x20 :: ys)).flatten = (japanesePieces prev xs).flatten ++ 0x20 :: (japanesePieces none ys).flatten
  | [], prev => by
    have hsp : Unicode.isSpace 0x20 = true := by decide +kernel
    have h1 : NoSpace none := by intro x hx; simp at hx
    have h2 : NoSpace (some 0x20) := by
      intro x hx
      simp only [Option.some.injEq] at hx
      subst hx
      exact .inr hsp
    have hz : ∀ next, japanesePiece prev 0x20 next = [0x20] := by
      intro next
      have : japanese.lookup 0x20 = none := by decide +kernel
      simp [japanesePiece, zwsp, this]
    cases ys with
    | nil => simp [japanesePieces, hz]
    | cons y ys =>
      have : japanesePiece (some 0x20) y ys.head? = japanesePiece none y ys.head? := by
        unfold japanesePiece
        simp only [h1, h2]
      simp [japanesePieces, hz, this]
  | x :: xs, prev => by
    have ih := japanesePieces_both ys xs (some x)
    have h1 : NoSpace none := by intro x hx; simp at hx
    have h2 : NoSpace (some 0x20) := by
      intro x hx
      simp only [Option.some.injEq] at hx
      subst hx
      exact .inr (by decide +kernel)
    have : japanesePiece prev x (xs ++ 0x20 :: ys).head? = japanesePiece prev x xs.head? := by
      cases xs with
      | cons c xs => rfl
      | nil =>
        unfold japanesePiece
        simp only [List.nil_append, List.head?_cons, List.head?_nil, h1, h2]
    simp only [List.cons_append, japanesePieces, List.flatten_cons, this, ih]
    simp

theorem localized_both (sc : Script) (xs ys : List Rune) : localized sc (xs ++ 0x20 :: ys) = localized sc xs ++ 0x20 :: localized sc ys := by
  unfold localized
  split
  · exact japanesePieces_both ys xs none
  · simp [zwsp]

/-- White space in what was left of a text. -/
theorem cleaned_both {A B : Tagged} (hA : ∀ s ∈ blocks A, s.level = 1 → ∀ c ∈ runes s.word, Unicode.isSpace c = false) :
    cleaned (blocks (A ++ gap :: B)) = cleaned (blocks A) ++ ⟨[0x20], 1⟩ :: cleaned (blocks B) ∨
    (∃ C, cleaned (blocks B) = ⟨[0x20], 1⟩ :: C ∧
      cleaned (blocks (A ++ gap :: B)) = cleaned (blocks A) ++ cleaned (blocks B)) := by
  obtain ⟨A0, a, b, B0, h1, h2, h3, h4⟩ := blocks_both B A
  have hsp : Unicode.isSpace 0x20 = true := by decide +kernel
  have happ : ∀ x y : List Subword, cleaned (x ++ y) = cleaned x ++ cleaned y := by
    intro x y; simp only [cleaned, List.flatMap_append]
  have hcons : ∀ (s : Subword) (y : List Subword), cleaned (s :: y) = cleaned [s] ++ cleaned y := by
    intro s y; exact happ [s] y
  have ha : cleaned (opt a) = [] := by
    unfold opt
    split
    · rfl
    · rename_i hn
      have := hA ⟨a, 1⟩ (by rw [h1]; simp [opt, hn]) rfl
      simp only [cleaned, List.flatMap_cons, List.flatMap_nil, List.append_nil, ne_eq, not_true, if_false]
      rw [if_neg]
      rintro ⟨c, hc, hc'⟩
      rw [this c hc] at hc'
      simp at hc'
  have hm : cleaned [⟨a ++ 0x20 :: b, 1⟩] = [⟨[0x20], 1⟩] := by
    simp only [cleaned, List.flatMap_cons, List.flatMap_nil, List.append_nil, ne_eq, not_true, if_false]
    rw [if_pos ⟨0x20, by rw [runes_both]; simp, hsp⟩]
    rfl
  rw [h1, h2, h3, happ A0, happ A0, happ (opt b), hcons, hm, ha, List.append_nil]
  by_cases hb : ∃ c ∈ runes b, Unicode.isSpace c = true
  · refine .inr ⟨cleaned B0, ?_, ?_⟩
    all_goals
      have hn : b ≠ [] := by
        rintro rfl
        obtain ⟨c, hc, _⟩ := hb
        simp [runes, decode_nil] at hc
      have : cleaned (opt b) = [⟨[0x20], 1⟩] := by
        rw [opt, if_neg hn]
        simp only [cleaned, List.flatMap_cons, List.flatMap_nil, List.append_nil, ne_eq, not_true, if_false]
        rw [if_pos hb]
        rfl
      simp [this]
  · refine .inl ?_
    have : cleaned (opt b) = [] := by
      unfold opt
      split
      · rfl
      · simp only [cleaned, List.flatMap_cons, List.flatMap_nil, List.append_nil, ne_eq, not_true, if_false]
        rw [if_neg hb]
    simp [this]

end Verif.Words
