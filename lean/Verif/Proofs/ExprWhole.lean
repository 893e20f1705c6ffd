import Verif.Proofs.ExprLook

/-! Patterns of expressions with edges and lookarounds. -/

namespace Verif.Hre

open Verif.Rx Verif.Spec

theorem expandLookahead_at {pre core look : Bytes} {n : Nat} (hpre : ValidUtf8 (pre ++ core)) (hlook : ValidUtf8 look) (hl : 0x7D ∉ look)
    (hp : 0x7B ∉ pre ∨ pre.getLast? = some 0x7D) (hc : core ≠ []) (h1 : 0x24 ∉ core) (h2 : 0x7B ∉ core) {pos neg : Bytes} {wd : Int}
    (hd : dissolveLookaround (fun e => [0x5E] ++ paren e) (noCapture look) (decide (n ≠ 0)) = .ok (some (pos, neg, wd))) :
    expandLookahead (pre ++ core ++ (braced look ++ List.replicate n 0x24)) =
      .ok (pre ++ core ++ (paren pos ++ paren (List.replicate n 0x24)), neg, wd) := by
  obtain ⟨m, hm, e2, e3, e4⟩ := lookahead_at (n := n) hpre hlook hl hp hc h1 h2
  simp only [expandLookahead, hm, Option.getD_some, e2, e3, e4, Go.bind_ok, Int.toNat_natCast,
    noCapture_replicate (c := 0x24) (by decide), isEmpty_replicate, hd]
  rw [List.take_left]
  simp

theorem expandLookbehind_at {look t : Bytes} {n : Nat} (hlook : ValidUtf8 look) (hl : 0x7D ∉ look)
    (ht : look = [] → t.head? ≠ some 0x5E ∧ t.head? ≠ some 0x7B) {pos neg : Bytes} {wd : Int}
    (hd : dissolveLookaround (fun e => paren e ++ [0x24]) (noCapture look) (decide (n ≠ 0)) = .ok (some (pos, neg, wd))) :
    expandLookbehind (List.replicate n 0x5E ++ (braced look ++ t)) =
      .ok (paren (List.replicate n 0x5E) ++ (paren pos ++ t), neg, wd) := by
  obtain ⟨m, hm, e2, e3, e4⟩ := lookbehind_at (n := n) hlook hl ht
  simp only [expandLookbehind, hm, Option.getD_some, e2, e3, e4, Go.bind_ok, Int.toNat_natCast,
    noCapture_replicate (c := 0x5E) (by decide), isEmpty_replicate, hd]
  rw [← List.append_assoc (List.replicate n 0x5E), List.drop_left]
  simp

end Verif.Hre

namespace Verif.Spec.Expr

open Verif.Rx Verif.Spec Verif.Spec.Vars Verif.Hre

/-- What is between the braces once the vars are expanded. -/
def Look.bytes : Look → Bytes
  | .nothing => []
  | .yes a => encode (Expr.text (core a))
  | .no a => 0x7E :: encode (Expr.text (core a))

def Look.items : Look → List Item
  | .nothing => []
  | .yes a => .text [0x7B] :: (pieces a ++ [.text [0x7D]])
  | .no a => .text [0x7B, 0x7E] :: (pieces a ++ [.text [0x7D]])

theorem encode_ne_nil {u : List Rune} (h : u ≠ []) : encode u ≠ [] := by
  cases u with
  | nil => exact absurd rfl h
  | cons c u =>
    rw [encode_cons]
    intro h
    exact encodeRune_ne_nil c (List.append_eq_nil_iff.1 h).1

theorem encode_head {u : List Rune} (hv : ∀ r ∈ u, validRune r = true) {c : UInt8} (hc : c.toNat < 0x80)
    (h : (encode u).head? = some c) : u.head? = some c.toNat := by
  cases u with
  | nil => simp at h
  | cons r u =>
    have hm : c ∈ encode [r] := by
      rw [encode_cons, List.head?_append] at h
      cases he : (encodeRune r).head? with
      | none => exact absurd (List.head?_eq_none_iff.1 he) (encodeRune_ne_nil r)
      | some b =>
        rw [he] at h
        simp at h
        subst h
        rw [encode_cons]
        exact List.mem_append_left _ (List.mem_of_head? he)
    have := ascii_mem (u := [r]) (by simpa using hv r (by simp)) hc hm
    simp at this
    simp [this]

theorem Look.written {l : Look} : written l.items = encode l.text := by
  cases l with
  | nothing => rfl
  | yes a =>
    simp only [Look.items, Look.text, Vars.written, written_append, written_pieces, encode_cons, encode_append]
    rfl
  | no a =>
    simp only [Look.items, Look.text, Vars.written, written_append, written_pieces, encode_cons, encode_append]
    rfl

theorem core_ne_nil {vars : List (Bytes × List Bytes)} {e : Expr} (h : Fit vars e) (hne : text e ≠ []) : text (core e) ≠ [] := by
  intro h0
  have := head_core h
  rw [h0] at this
  split at this
  · simp at this
  · exact hne (List.head?_eq_none_iff.1 this.symm)

theorem Look.expanded {vars : List (Bytes × List Bytes)} {l : Look} (h : l.Fit vars) : expanded l.items = braced l.bytes := by
  cases l with
  | nothing => rfl
  | yes a =>
    obtain ⟨h1, h2, h3, h4⟩ := h
    rw [Look.bytes, braced_cons (encode_ne_nil (core_ne_nil h1 h3))]
    simp only [Look.items, Hre.expanded, expanded_append, expanded_pieces]
    rfl
  | no a =>
    rw [Look.bytes, braced_cons (by simp)]
    simp only [Look.items, Hre.expanded, expanded_append, expanded_pieces]
    rfl

theorem Look.defined {vars : List (Bytes × List Bytes)} {l : Look} (h : l.Fit vars) : ∀ it ∈ l.items, it.Defined vars := by
  have d1 : (Item.text [0x7B]).Defined vars := ⟨⟨[0x7B], by decide, by decide⟩, by decide⟩
  have d2 : (Item.text [0x7B, 0x7E]).Defined vars := ⟨⟨[0x7B, 0x7E], by decide, by decide⟩, by decide⟩
  have d3 : (Item.text [0x7D]).Defined vars := ⟨⟨[0x7D], by decide, by decide⟩, by decide⟩
  intro it hi
  cases l with
  | nothing => simp [Look.items] at hi
  | yes a =>
    simp only [Look.items, List.mem_cons, List.mem_append, List.not_mem_nil, or_false] at hi
    rcases hi with rfl | hi | rfl
    · exact d1
    · exact defined_pieces h.1 it hi
    · exact d3
  | no a =>
    simp only [Look.items, List.mem_cons, List.mem_append, List.not_mem_nil, or_false] at hi
    rcases hi with rfl | hi | rfl
    · exact d2
    · exact defined_pieces h.1 it hi
    · exact d3

theorem Look.valid {vars : List (Bytes × List Bytes)} {l : Look} (h : l.Fit vars) : ValidUtf8 l.bytes ∧ 0x7D ∉ l.bytes := by
  cases l with
  | nothing => exact ⟨.nil, by simp [Look.bytes]⟩
  | yes a =>
    obtain ⟨r, _, _, _, h4, h5, _⟩ := look_raw h.1 h.2.1
    exact ⟨⟨_, fun r hr => (h5 r hr).1, rfl⟩, h4⟩
  | no a =>
    obtain ⟨r, _, _, _, h4, h5, _⟩ := look_raw h.1 h.2
    refine ⟨?_, by simp [Look.bytes, h4]⟩
    exact ValidUtf8.append (a := [0x7E]) ⟨[0x7E], by decide, by decide⟩ ⟨_, fun r hr => (h5 r hr).1, rfl⟩

theorem Look.noTilde {vars : List (Bytes × List Bytes)} {a : Expr} (h : (Look.yes a).Fit vars) :
    (encode (Expr.text (core a))).head? ≠ some 0x7E := by
  intro h0
  have hv : ∀ r ∈ Expr.text (core a), validRune r = true := fun r hr => (fine_text (raw_core h.1) r hr).1
  have := encode_head hv (c := 0x7E) (by decide) h0
  rw [head_core h.1] at this
  split at this
  · simp at this
  · exact h.2.2.2 this

theorem fine_bytes {u : List Rune} (h : Fine u) : 0x5E ∉ encode u ∧ 0x24 ∉ encode u ∧ 0x7B ∉ encode u := by
  have hv : ∀ r ∈ u, validRune r = true := fun r hr => (h r hr).1
  exact ⟨fun hh => (h _ (ascii_mem (c := 0x5E) hv (by decide) hh)).2.1 rfl,
    fun hh => (h _ (ascii_mem (c := 0x24) hv (by decide) hh)).2.2.1 rfl,
    fun hh => (h _ (ascii_mem (c := 0x7B) hv (by decide) hh)).2.2.2 rfl⟩

/-- The positive part of a lookaround. -/
theorem Look.pos {vars : List (Bytes × List Bytes)} {l : Look} (h : l.Fit vars) :
    ∃ r, compile (posLook l.bytes) = .ok r ∧ numCap r = 0 ∧ Plain r = true ∧ (∀ u, Lang r u ↔ l.Asks u) ∧
      0x5E ∉ posLook l.bytes ∧ 0x24 ∉ posLook l.bytes ∧ 0x7B ∉ posLook l.bytes := by
  have none_ : ∃ r, compile ([] : Bytes) = .ok r ∧ numCap r = 0 ∧ Plain r = true ∧ (∀ u, Lang r u ↔ u = []) :=
    ⟨.empty, rfl, rfl, rfl, fun u => ⟨fun h => by cases h; rfl, fun h => h ▸ .empty⟩⟩
  cases l with
  | nothing =>
    obtain ⟨r, h1, h2, h3, h4⟩ := none_
    exact ⟨r, h1, h2, h3, h4, by simp [Look.bytes, posLook, noCapture_nil]⟩
  | yes a =>
    obtain ⟨r, h1, h2, h3, _, h5, h6, h7⟩ := look_raw h.1 h.2.1
    have e : posLook (Look.yes a).bytes = noCapture (encode (Expr.text (core a))) := by
      rw [posLook, if_neg (show ¬ (Look.yes a).bytes.head? = some 0x7E from Look.noTilde h)]
      rfl
    have := fine_bytes h6
    rw [e]
    refine ⟨r, h1, h2, h3.plain, h3.lang, ?_⟩
    rw [h7]
    exact this
  | no a =>
    obtain ⟨r, h1, h2, h3, h4⟩ := none_
    exact ⟨r, h1, h2, h3, h4, by simp [Look.bytes, posLook]⟩

/-- The expression of a positive lookaround. -/
def Look.want : Look → Expr
  | .yes a => a
  | _ => .nothing

theorem Look.pos_ord {vars : List (Bytes × List Bytes)} {l : Look} (h : l.Fit vars) :
    ∃ r, compile (posLook l.bytes) = .ok r ∧ ∀ k, Ord (run (shiftCap k r)) (rests l.want) := by
  have none_ : ∀ k, Ord (run (shiftCap k .empty)) (rests .nothing) := fun k s => by simp [shiftCap, run, rests]
  cases l with
  | nothing => exact ⟨.empty, by rw [show posLook Look.nothing.bytes = [] by simp [Look.bytes, posLook, noCapture_nil]]; rfl, none_⟩
  | yes a =>
    obtain ⟨r, h1, h2, h3, _, h5, h6, h7⟩ := look_raw h.1 h.2.1
    have e : posLook (Look.yes a).bytes = noCapture (encode (Expr.text (core a))) := by
      rw [posLook, if_neg (show ¬ (Look.yes a).bytes.head? = some 0x7E from Look.noTilde h)]
      rfl
    exact ⟨r, by rw [e, h1], h3.ord⟩
  | no a => exact ⟨.empty, by rw [show posLook (Look.no a).bytes = [] by simp [Look.bytes, posLook]]; rfl, none_⟩

/-- The negative part of a lookaround. -/
theorem Look.neg {vars : List (Bytes × List Bytes)} {l : Look} (h : l.Fit vars) {n : Nat} (hn : n ≠ 0 → l = .nothing)
    {format : Bytes → Bytes} (hf : ∀ e re, compile e = .ok re → numCap re = 0 → ∃ r, compile (format e) = .ok r)
    (hne : ∀ e, format e ≠ []) :
    ∃ neg wd o, dissolveLookaround format (noCapture l.bytes) (decide (n ≠ 0)) = .ok (some (posLook l.bytes, neg, wd)) ∧
      compileOpt neg = .ok o ∧ NegOf format l.bytes n o wd := by
  cases l with
  | nothing =>
    refine ⟨[], 0, none, ?_, rfl, ?_⟩
    · simp [Look.bytes, noCapture_nil, dissolveLookaround, posLook]
    · simp [NegOf, Look.bytes]
  | yes a =>
    have h0 : n = 0 := by
      by_contra hh
      exact absurd (hn hh) (by simp)
    subst h0
    obtain ⟨_, h2, h3, h4⟩ := id h
    have hne2 := encode_ne_nil (core_ne_nil h.1 h3)
    have ht := Look.noTilde h
    obtain ⟨d, s, hd, hd2⟩ : ∃ d s, noCapture (encode (Expr.text (core a))) = d :: s ∧ d ≠ 0x7E := by
      cases hx : encode (Expr.text (core a)) with
      | nil => exact absurd hx hne2
      | cons c t =>
        rw [hx] at ht
        by_cases h28 : c = 0x28
        · exact ⟨0x28, _, by rw [noCapture_eq, List.flatMap_cons, if_pos h28]; rfl, by decide⟩
        · exact ⟨c, _, noCapture_cons c t h28, by simpa using ht⟩
    refine ⟨[], 0, none, ?_, rfl, ?_⟩
    · rw [posLook, Look.bytes, if_neg ht, hd]
      simp [dissolveLookaround, hd2]
    · simp [NegOf, Look.bytes, ht]
  | no a =>
    have h0 : n = 0 := by
      by_contra hh
      exact absurd (hn hh) (by simp)
    subst h0
    obtain ⟨r, h1, h2, _⟩ := look_raw h.1 h.2
    obtain ⟨r', hr'⟩ := hf _ _ h1 h2
    refine ⟨format (noCapture (encode (Expr.text (core a)))), maxWidth r', some r', ?_, ?_, ?_⟩
    · rw [Look.bytes, noCapture_cons _ _ (by decide)]
      simp [dissolveLookaround, posLook, hr']
    · rw [compileOpt, if_neg (by simpa using hne _), hr']
      rfl
    · rw [NegOf, if_pos ⟨rfl, rfl⟩]
      exact ⟨r', hr', rfl, rfl⟩

theorem parses_of {e : Bytes} {re : Re} (he : compile e = .ok re) (hn : numCap re = 0) :
    ValidUtf8 e ∧ ∃ ts f l, Parses (runes e) ts f 0 l ∧ re = f.body := by
  obtain ⟨hv, ts, f, l, hp, rfl⟩ := compile_parses0 he hn
  exact ⟨hv, ts, f, l, hp, rfl⟩

/-- The five parts together. -/
theorem compile_five {a b m c d : Bytes} {ra rb rc rd : Re} (ha : compile a = .ok ra) (na : numCap ra = 0)
    (hb : compile b = .ok rb) (nb : numCap rb = 0) (hm : NoBar m) (hc : compile c = .ok rc) (nc : numCap rc = 0)
    (hd : compile d = .ok rd) (nd : numCap rd = 0) :
    ∃ re, compile (paren a ++ (paren b ++ (m ++ (paren c ++ paren d)))) = .ok re := by
  obtain ⟨va, ta, fa, la, pa, rfl⟩ := parses_of ha na
  obtain ⟨vb, tb, fb, lb, pb, rfl⟩ := parses_of hb nb
  obtain ⟨vc, tc, fc, lc, pc, rfl⟩ := parses_of hc nc
  obtain ⟨vd, td, fd, ld, pd, rfl⟩ := parses_of hd nd
  obtain ⟨vm, tm, fm, k, lm, hm, hbar⟩ := hm
  have vo : ValidUtf8 [0x28] := ⟨[0x28], by decide, by decide⟩
  have vx : ValidUtf8 [0x29] := ⟨[0x29], by decide, by decide⟩
  have ro : runes [0x28] = [0x28] := by decide
  have rx : runes [0x29] = [0x29] := by decide
  have vp : ∀ {x}, ValidUtf8 x → ValidUtf8 (paren x) := fun hx => (vo.append hx).append vx
  have : runes (paren a ++ (paren b ++ (m ++ (paren c ++ paren d)))) =
      Rx.pieces (runes a) (runes b) (runes m) (runes c) (runes d) := by
    simp only [paren, List.append_assoc]
    simp only [runes_append va, runes_append vb, runes_append vm, runes_append vc, runes_append vd,
      runes_append vo, runes_append vx, ro, rx, Rx.pieces]
    simp
  obtain ⟨ts, f, l, hq, _⟩ := parse_pieces pa pb hm pc pd
  refine ⟨f.body, ?_⟩
  rw [compile, if_pos ((vp va).append ((vp vb).append (vm.append ((vp vc).append (vp vd))))), this]
  exact parseRunes_iff.2 ⟨_, _, _, _, hq, rfl⟩

theorem edges_ready (n : Nat) : (∃ r, compile (expandEdges (List.replicate n 0x5E)) = .ok r ∧ numCap r = 0) ∧
    ∃ r, compile (expandEdges (List.replicate n 0x24)) = .ok r ∧ numCap r = 0 := by
  constructor
  · rw [expandEdges_carets]
    split
    · exact ⟨_, rfl, rfl⟩
    · split <;> exact ⟨_, rfl, rfl⟩
  · rw [expandEdges_dollars]
    split
    · exact ⟨_, rfl, rfl⟩
    · split <;> exact ⟨_, rfl, rfl⟩

theorem replicate_encode (n : Nat) (c : UInt8) (hc : c.toNat < 0x80) : encode (List.replicate n c.toNat) = List.replicate n c := by
  induction n with
  | zero => rfl
  | succ n ih =>
    rw [List.replicate_succ, encode_cons, ih, encodeRune_ascii hc, List.replicate_succ]
    simp

/-- The whole text, with the vars expanded. -/
def Whole.bytes (w : Whole) : Bytes :=
  List.replicate w.carets 0x5E ++ (braced w.behind.bytes ++ (encode (Expr.text (core w.mid)) ++
    (braced w.ahead.bytes ++ List.replicate w.dollars 0x24)))

theorem Whole.expandVars {vars : List (Bytes × List Bytes)} {w : Whole} (h : w.Fit vars) :
    (Hre.expandVars (encode w.text) vars).1 = w.bytes := by
  have d : ∀ (n : Nat) (c : UInt8), c.toNat < 0x80 → c ≠ 0x3C → (Item.text (List.replicate n c)).Defined vars := by
    intro n c h1 h2
    refine ⟨replicate_valid n c h1, fun hm => ?_⟩
    exact h2 (List.eq_of_mem_replicate hm).symm
  have hx := expandVars_written (vars := vars) (items := .text (List.replicate w.carets 0x5E) :: (w.behind.items ++ (pieces w.mid ++
    (w.ahead.items ++ [.text (List.replicate w.dollars 0x24)])))) (by
      intro it hi
      simp only [List.mem_cons, List.mem_append, List.not_mem_nil, or_false] at hi
      rcases hi with rfl | hi | hi | hi | rfl
      · exact d _ _ (by decide) (by decide)
      · exact Look.defined h.behind it hi
      · exact defined_pieces h.mid it hi
      · exact Look.defined h.ahead it hi
      · exact d _ _ (by decide) (by decide))
  have e : encode w.text = written (.text (List.replicate w.carets 0x5E) :: (w.behind.items ++ (pieces w.mid ++
    (w.ahead.items ++ [.text (List.replicate w.dollars 0x24)])))) := by
    simp only [Whole.text, written, written_append, Look.written, written_pieces, encode_append, List.append_nil]
    rw [show (0x5E : Rune) = (0x5E : UInt8).toNat from rfl, show (0x24 : Rune) = (0x24 : UInt8).toNat from rfl,
      replicate_encode _ _ (by decide), replicate_encode _ _ (by decide)]
  rw [e, hx]
  simp only [Hre.expanded, expanded_append, Look.expanded h.behind, Look.expanded h.ahead, expanded_pieces, List.append_nil]
  rfl

theorem whole_pattern {vars : List (Bytes × List Bytes)} {macros : List (Bytes × Bytes)} {w : Whole} (h : w.Fit vars)
    (hm : ∀ m ∈ macros, m.1 ≠ [] ∧ ¬ m.1 <:+: encode w.text) :
    ∃ (p : Pattern) (sh : Shape (Hre.expandVars (expandMacros (encode w.text) macros) vars).1 p) (rc : Re),
      newPattern (encode w.text) macros vars = .ok p ∧ sh.nb = w.carets ∧ sh.na = w.dollars ∧
      sh.lookB = w.behind.bytes ∧ sh.lookA = w.ahead.bytes ∧ NoBar (expandEdges sh.core) ∧
      compile (expandEdges sh.core) = .ok rc ∧ Same w.mid rc := by
  rw [expandMacros_unused hm, Whole.expandVars h]
  have hr := raw_core h.mid
  have hf := fine_text hr
  have hv : ∀ r ∈ text (core w.mid), validRune r = true := fun r hr => (hf r hr).1
  obtain ⟨ts, f, k, l, hpar, hsame, hcomp, hbar⟩ := compile_raw hr
  have hbar := hbar ((isOr_core w.mid).trans h.noOr)
  obtain ⟨c1, c2, c3⟩ := fine_bytes hf
  have cne := encode_ne_nil (core_ne_nil h.mid h.some)
  generalize hC : encode (text (core w.mid)) = C at c1 c2 c3 cne hcomp
  have hCv : ValidUtf8 C := ⟨_, hv, hC.symm⟩
  have hno : NoBar C := ⟨hCv, ts, f, k, l, by rw [← hC, runes_encode hv]; exact hpar, hbar⟩
  have eC : expandEdges C = C := expandEdges_plain c1 c2
  obtain ⟨vB, nB⟩ := Look.valid h.behind
  obtain ⟨vA, nA⟩ := Look.valid h.ahead
  obtain ⟨rb, hb1, hb2, hb3, hb4, hb5, hb6, hb7⟩ := Look.pos h.behind
  obtain ⟨ra, ha1, ha2, ha3, ha4, ha5, ha6, ha7⟩ := Look.pos h.ahead
  obtain ⟨ngB, wB, oB, dB, kB, sB⟩ := Look.neg h.behind (n := w.carets) h.left (format := fun e => paren e ++ [0x24])
    (fun e re h1 h2 => ⟨_, behind_compiles h1 h2⟩) (by simp)
  obtain ⟨ngA, wA, oA, dA, kA, sA⟩ := Look.neg h.ahead (n := w.dollars) h.right (format := fun e => [0x5E] ++ paren e)
    (fun e re h1 h2 => ⟨_, ahead_compiles h1 h2⟩) (by simp)
  have lkB : braced w.behind.bytes = [] ∨ (braced w.behind.bytes).getLast? = some 0x7D := by
    by_cases h0 : w.behind.bytes = []
    · exact .inl (by rw [h0, braced_nil])
    · right
      rw [braced_cons h0]
      rw [← List.cons_append, List.getLast?_append]
      simp
  have vbr : ValidUtf8 (braced w.behind.bytes) := by
    by_cases h0 : w.behind.bytes = []
    · rw [h0, braced_nil]; exact .nil
    · rw [braced_cons h0]
      exact ValidUtf8.append (a := [0x7B]) ⟨[0x7B], by decide, by decide⟩ (vB.append ⟨[0x7D], by decide, by decide⟩)
  have stepA := expandLookahead_at (pre := List.replicate w.carets 0x5E ++ braced w.behind.bytes) (core := C) (look := w.ahead.bytes)
    (n := w.dollars) (((replicate_valid _ _ (by decide)).append vbr).append hCv) vA nA (by
      rcases lkB with h0 | h0
      · left
        rw [h0, List.append_nil]
        intro hm
        exact absurd (List.eq_of_mem_replicate hm) (by decide)
      · right
        rw [List.getLast?_append, h0]
        rfl) cne c2 c3 dA
  have stepB := expandLookbehind_at (n := w.carets) (t := C ++ (paren (posLook w.ahead.bytes) ++ paren (List.replicate w.dollars 0x24)))
    vB nB (fun _ => by
      cases C with
      | nil => exact absurd rfl cne
      | cons c C =>
        simp only [List.mem_cons, not_or] at c1 c3
        simp only [List.cons_append, List.head?_cons, ne_eq, Option.some.injEq]
        exact ⟨fun e => c1.1 e.symm, fun e => c3.1 e.symm⟩) dB
  obtain ⟨⟨r1, e1a, e1b⟩, -⟩ := edges_ready w.carets
  obtain ⟨-, ⟨r2, e2a, e2b⟩⟩ := edges_ready w.dollars
  have pB : expandEdges (posLook w.behind.bytes) = posLook w.behind.bytes := expandEdges_plain hb5 hb6
  have pA : expandEdges (posLook w.ahead.bytes) = posLook w.ahead.bytes := expandEdges_plain ha5 ha6
  obtain ⟨re, hre⟩ := compile_five e1a e1b (by rw [pB]; exact hb1) hb2 (by rw [eC]; exact hno) (by rw [pA]; exact ha1) ha2 e2a e2b
    (b := expandEdges (posLook w.behind.bytes)) (m := expandEdges C) (c := expandEdges (posLook w.ahead.bytes))
  have eq1 : w.bytes = List.replicate w.carets 0x5E ++ braced w.behind.bytes ++ C ++
      (braced w.ahead.bytes ++ List.replicate w.dollars 0x24) := by
    rw [Whole.bytes, hC]
    simp
  have el : expandLookaround w.bytes = .ok ⟨paren (List.replicate w.carets 0x5E) ++ (paren (posLook w.behind.bytes) ++
      (C ++ (paren (posLook w.ahead.bytes) ++ paren (List.replicate w.dollars 0x24)))), ngA, ngB, wA, wB⟩ := by
    rw [expandLookaround, eq1, stepA]
    simp only [Go.bind_ok, List.append_assoc] at stepB ⊢
    rw [stepB]
    simp only [Go.bind_ok]
    rw [no_zeroWidth]
    · rfl
    · simp [paren, c3, ha7, hb7]
  have ee : expandEdges (paren (List.replicate w.carets 0x5E) ++ (paren (posLook w.behind.bytes) ++
      (C ++ (paren (posLook w.ahead.bytes) ++ paren (List.replicate w.dollars 0x24))))) =
      paren (expandEdges (List.replicate w.carets 0x5E)) ++ (paren (expandEdges (posLook w.behind.bytes)) ++
      (expandEdges C ++ (paren (expandEdges (posLook w.ahead.bytes)) ++ paren (expandEdges (List.replicate w.dollars 0x24))))) := by
    rw [expandEdges_paren, expandEdges_paren, expandEdges_before_paren, expandEdges_paren]
    have e := expandEdges_paren (List.replicate w.dollars 0x24) []
    rw [List.append_nil, expandEdges_nil, List.append_nil] at e
    rw [e]
  have h0 : (encode w.text).isEmpty = false := by
    rw [List.isEmpty_eq_false_iff]
    refine encode_ne_nil fun hh => ?_
    simp only [Whole.text, List.append_eq_nil_iff] at hh
    exact h.some hh.2.2.1
  have hex := Whole.expandVars h
  obtain ⟨letters, used, hnew⟩ : ∃ letters used, newPattern (encode w.text) macros vars =
      .ok ⟨encode w.text, re, oA, oB, wA, wB, letters, used⟩ := by
    cases hev : Hre.expandVars (encode w.text) vars with
    | mk x used =>
      rw [hev] at hex
      simp only at hex
      subst hex
      refine ⟨sortRunes (splitLetters (regexpLetters ((paren (expandEdges (List.replicate w.carets 0x5E)) ++
        (paren (expandEdges (posLook w.behind.bytes)) ++ (expandEdges C ++ (paren (expandEdges (posLook w.ahead.bytes)) ++
          paren (expandEdges (List.replicate w.dollars 0x24)))))) ++ ngA ++ ngB))), used, ?_⟩
      simp only [newPattern, h0, expandMacros_unused hm, hev, el, Go.bind_ok, ee, hre, kA, kB]
      rfl
  refine ⟨_, ⟨w.carets, w.behind.bytes, C, w.ahead.bytes, w.dollars, ?_, nB, nA, ?_, ?_, hre, sB, sA⟩, f.body, hnew, rfl, rfl, rfl, rfl, ?_⟩
  · rw [Whole.bytes, hC]
  · intro hn
    rw [h.left hn]
    simp [Look.bytes, posLook, noCapture_nil]
  · intro hn
    rw [h.right hn]
    simp [Look.bytes, posLook, noCapture_nil]
  · show NoBar (expandEdges C) ∧ compile (expandEdges C) = .ok f.body ∧ _
    rw [eC]
    refine ⟨hno, hcomp, fun u => by rw [hsame.lang, means_core h.mid], hsame.plain, fun hn => hsame.width (by rwa [means_core h.mid]), ?_, fun k => ?_⟩
    · rw [hsame.wide, width_core]
    · have := hsame.ord k
      rwa [rests_core h.mid] at this

end Verif.Spec.Expr
