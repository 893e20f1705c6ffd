import Verif.Proofs.Shape
import Verif.Proofs.NoRep
import Verif.Model.SpecFile

namespace Verif.Hre
open Verif.Rx

/-- The recorded width of a negative lookaround is that of its expression, which has no counted repetitions. -/
theorem newPattern_negWidths {expr : Bytes} {macros : List (Bytes × Bytes)} {vars : List (Bytes × List Bytes)}
    {p : Pattern} (h : newPattern expr macros vars = .ok p) :
    (∀ re, p.negA = some re → p.negAWidth = maxWidth re ∧ RepSafe re = true) ∧
      (∀ re, p.negB = some re → p.negBWidth = maxWidth re ∧ RepSafe re = true) := by
  obtain ⟨e, h1, h2, h3, h4, h5, h6, _⟩ := newPattern_parts h
  simp only [expandLookaround, Go.bind_eq_ok] at h1
  obtain ⟨ra, hA, rb, hB, h1⟩ := h1
  obtain ⟨posA, negA, wA⟩ := ra
  obtain ⟨posB, negB, wB⟩ := rb
  simp only at h1 hB
  split at h1
  · simp at h1
  simp only [Go.pure_eq, Go.ok.injEq] at h1
  subst h1
  simp only at h2 h3 h4 h5 h6
  have key : ∀ {neg : Bytes} {w : Int} {o : Option Re}, compileOpt neg = .ok o →
      ((neg = [] ∧ w = 0) ∨ 0x7D ∉ neg ∧ ∃ re, compile neg = .ok re ∧ w = maxWidth re) →
      ∀ re, o = some re → w = maxWidth re ∧ RepSafe re = true := by
    intro neg w o ho hn re hre
    subst hre
    rcases hn with ⟨rfl, _⟩ | ⟨q0, re', q1, q2⟩
    · rw [compileOpt_nil] at ho; simp at ho
    · have hne : neg ≠ [] := by
        rintro rfl
        rw [compileOpt_nil] at ho; simp at ho
      obtain ⟨re'', r1, r2⟩ := compileOpt_cons hne ho
      simp at r2
      subst r2
      refine ⟨?_, compile_repSafe q0 r1⟩
      rw [q1] at r1
      simp at r1
      rw [q2, r1]
  constructor
  · rw [h5]
    refine key h3 ?_
    rcases expandLookahead_spec hA with h | ⟨_, look, _, n0, _, _, _, h⟩
    · simp only [Prod.mk.injEq] at h; exact .inl ⟨h.2.1, h.2.2⟩
    · rcases h with ⟨_, _, q0, re, q1, q2⟩ | ⟨_, q1, q2⟩
      · have := noCapture_not_mem (c := 0x7D) (by decide) (by decide) (by decide)
          (fun hm => n0 (List.mem_of_mem_tail hm))
        refine .inr ⟨?_, re, q1, q2⟩
        simp only at q0
        rw [q0]
        simp [paren, this]
      · exact .inl ⟨q1, q2⟩
  · rw [h6]
    refine key h4 ?_
    rcases expandLookbehind_spec hB with h | ⟨_, look, _, n0, _, _, _, h⟩
    · simp only [Prod.mk.injEq] at h; exact .inl ⟨h.2.1, h.2.2⟩
    · rcases h with ⟨_, _, q0, re, q1, q2⟩ | ⟨_, q1, q2⟩
      · have := noCapture_not_mem (c := 0x7D) (by decide) (by decide) (by decide)
          (fun hm => n0 (List.mem_of_mem_tail hm))
        refine .inr ⟨?_, re, q1, q2⟩
        simp only at q0
        rw [q0]
        simp [paren, this]
      · exact .inl ⟨q1, q2⟩

end Verif.Hre

namespace Verif
open Hre

/-- The rules of a section: where each comes from. -/
theorem newRulesLoop_mem {o : Nat → Side → List (Bytes × Bytes) → List (Bytes × Bytes)}
    {macros : List (Bytes × Bytes)} {vars : List (Bytes × List Bytes)} :
    ∀ {ps : List Hsl.Pair} {i : Nat} {rules : List Rule}, newRulesLoop o macros vars i ps = .ok rules →
      ∀ r ∈ rules, ∃ left m, newPattern left m vars = .ok r.pat ∧ r.pat.negAWidth ≠ -1 ∧ r.pat.negBWidth ≠ -1 := by
  intro ps
  induction ps with
  | nil => intro i rules h; simp [newRulesLoop] at h; subst h; simp
  | cons p ps ih =>
    intro i rules h
    simp only [newRulesLoop, Go.bind_eq_ok] at h
    obtain ⟨pat, h1, h⟩ := h
    split at h
    · simp at h
    · rename_i hw
      simp only [Go.bind_eq_ok, Go.pure_eq, Go.ok.injEq] at h
      obtain ⟨r0, _, rest, h2, rfl⟩ := h
      intro r hr
      rcases List.mem_cons.1 hr with rfl | hr
      · exact ⟨_, _, h1, fun h => hw (.inl h), fun h => hw (.inr h)⟩
      · exact ih h2 r hr

theorem parseSpec_rules {o : Ord} {src : Bytes} {sp : Spec} (h : parseSpec o src = .ok sp) :
    ∃ ps qs, newRulesLoop (o.macros .rewrite) sp.macros sp.vars 0 ps = .ok sp.rewrite ∧
      newRulesLoop (o.macros .transcribe) sp.macros sp.vars 0 qs = .ok sp.transcribe := by
  unfold parseSpec at h
  simp only [Go.bind_eq_ok] at h
  obtain ⟨hd, _, lang, _, config, _, macros, _, vars, _, norm, _, rp, _, rewrite, hr, tp, _,
    transcribe, ht, test, _, h⟩ := h
  split at h
  · simp at h
  · simp at h
    subst h
    exact ⟨_, _, hr, ht⟩
end Verif
namespace Verif
open Hre Hsl

/-! ## What `ParseSpec` returns -/

/-- The pairs of a list section, or none. -/
def sectionPairs (d : Doc) (name : Bytes) : List Pair := ((d.lookup name).map (·.pairs)).getD []

theorem fromSection_ok {α : Type} {d : Doc} {name : Bytes} {k : Kind} {zero : α} {f : Section → Go α} {v : α}
    (h : fromSection d name k zero f = .ok v) :
    (d.lookup name = none ∧ v = zero) ∨ ∃ s, d.lookup name = some s ∧ s.kind = k ∧ f s = .ok v := by
  unfold fromSection assertKind at h
  cases hl : d.lookup name with
  | none => simp [hl, Go.bind] at h; exact Or.inl ⟨rfl, h.symm⟩
  | some s =>
    rw [hl] at h
    simp only at h
    split at h
    · rename_i hk
      exact Or.inr ⟨s, rfl, hk, h⟩
    · simp [Go.bind] at h

theorem newRulesLoop_spec {o : Nat → Side → List (Bytes × Bytes) → List (Bytes × Bytes)}
    {macros : List (Bytes × Bytes)} {vars : List (Bytes × List Bytes)} :
    ∀ {ps : List Pair} {i : Nat} {rules : List Rule}, newRulesLoop o macros vars i ps = .ok rules →
      rules.length = ps.length ∧
      ∀ j (hj : j < ps.length) (hr : j < rules.length), (rules[j]).id = i + j ∧
        newPattern (ps[j]).left (o (i + j) .left macros) vars = .ok (rules[j]).pat ∧
        ∃ r0 rest, (ps[j]).right = r0 :: rest ∧ (rules[j]).to = newRPattern r0 (o (i + j) .right macros) vars := by
  intro ps
  induction ps with
  | nil => intro i rules h; simp [newRulesLoop] at h; subst h; simp
  | cons p ps ih =>
    intro i rules h
    simp only [newRulesLoop, Go.bind_eq_ok] at h
    obtain ⟨pat, h1, h⟩ := h
    split at h
    · simp at h
    · simp only [Go.bind_eq_ok, Go.pure_eq, Go.ok.injEq] at h
      obtain ⟨r0, hr0, rest, h2, rfl⟩ := h
      obtain ⟨hlen, ih⟩ := ih h2
      refine ⟨by simp [hlen], ?_⟩
      intro j hj hr
      cases j with
      | zero =>
        refine ⟨rfl, h1, ?_⟩
        cases hp : p.right with
        | nil => rw [hp] at hr0; simp [index] at hr0
        | cons a b =>
          rw [hp] at hr0
          simp [index] at hr0
          subst hr0
          exact ⟨a, b, by simp [hp], rfl⟩
      | succ j =>
        simp only [List.length_cons, Nat.add_lt_add_iff_right] at hj hr
        have := ih j hj hr
        simpa [Nat.add_assoc, Nat.add_comm 1 j] using this

theorem newPattern_expr {expr : Bytes} {m : List (Bytes × Bytes)} {v : List (Bytes × List Bytes)} {p : Pattern}
    (h : newPattern expr m v = .ok p) : p.expr = expr := by
  unfold newPattern at h
  split at h
  · simp at h
  · simp only [Go.bind_eq_ok, Go.pure_eq, Go.ok.injEq] at h
    obtain ⟨_, _, _, _, _, _, _, _, rfl⟩ := h
    rfl

theorem testPairs_spec : ∀ {ps : List Pair} {t : List (Bytes × Bytes)}, testPairs ps = .ok t →
    t = ps.map (fun p => (p.left, p.right.headD [])) ∧ ∀ p ∈ ps, p.right ≠ [] := by
  intro ps
  induction ps with
  | nil => intro t h; simp [testPairs] at h; subst h; simp
  | cons p ps ih =>
    intro t h
    simp only [testPairs, Go.bind_eq_ok, Go.pure_eq, Go.ok.injEq] at h
    obtain ⟨r, hr, rest, h2, rfl⟩ := h
    obtain ⟨h3, h4⟩ := ih h2
    cases hp : p.right with
    | nil => rw [hp] at hr; simp [index] at hr
    | cons a b =>
      rw [hp] at hr
      simp [index] at hr
      subst hr
      refine ⟨by simp [hp, h3], ?_⟩
      intro q hq
      rcases List.mem_cons.1 hq with rfl | hq
      · simp [hp]
      · exact h4 q hq

/-- The fields of a parsed spec. -/
theorem parseSpec_fields {o : Ord} {src : Bytes} {sp : Spec} (h : parseSpec o src = .ok sp) :
    ∃ d, Hsl.parse src = .ok d ∧
      fromSection d (str "lang") .dict ⟨[], ([], []), [], [], [], []⟩ newLanguage = .ok sp.lang ∧
      fromSection d (str "config") .dict ⟨[], []⟩ (fun sec => .ok (newConfig sec)) = .ok sp.config ∧
      fromSection d (str "macros") .dict [] (fun sec =>
        match sec.injective with
        | some m => .ok m
        | none => .err .invalidSpec) = .ok sp.macros ∧
      fromSection d (str "vars") .dict [] (fun sec => .ok sec.map) = .ok sp.vars ∧
      fromSection d (str "normalize") .dict [] (fun sec => .ok sec.map) = .ok sp.normalize ∧
      (∃ ps, fromSection d (str "rewrite") .list [] (fun sec => .ok sec.pairs) = .ok ps ∧
        newRulesLoop (o.macros .rewrite) sp.macros sp.vars 0 ps = .ok sp.rewrite) ∧
      (∃ ps, fromSection d (str "transcribe") .list [] (fun sec => .ok sec.pairs) = .ok ps ∧
        newRulesLoop (o.macros .transcribe) sp.macros sp.vars 0 ps = .ok sp.transcribe) ∧
      fromSection d (str "test") .list [] (fun sec => testPairs sec.pairs) = .ok sp.test ∧
      getScript sp.lang.script = some sp.script ∧ sp.source = src ∧
      sp.puncts = collectPuncts sp.rewrite sp.transcribe ∧
      sp.normPairs = normArgs (o.norm sp.normalize) ∧
      sp.normLetters = sp.normalize.flatMap fun x => lettersOf x.1 := by
  unfold parseSpec at h
  simp only [Go.bind_eq_ok] at h
  obtain ⟨d, hd, lang, h1, config, h2, macros, h3, vars, h4, norm, h5, rp, h6, rewrite, hr, tp, h7,
    transcribe, ht, test, h8, h⟩ := h
  split at h
  · simp at h
  · rename_i sc hsc
    simp only [Go.pure_eq, Go.ok.injEq] at h
    subst h
    exact ⟨d, hd, h1, h2, h3, h4, h5, ⟨rp, h6, hr⟩, ⟨tp, h7, ht⟩, h8, hsc, rfl, rfl, rfl, rfl⟩

/-! ## Punctuation -/

theorem collectRewrite_mem (c : Rune) : ∀ (rs : List Rule) (rl : List Rune),
    (c ∈ (collectRewrite rl rs).1 ↔ ∃ a r b, rs = a ++ r :: b ∧ c ∈ r.pat.letters ∧ Unicode.isPunct c = true ∧
      c ∉ rl ∧ c ∉ r.to.letters ∧ ∀ q ∈ a, c ∉ q.to.letters) ∧
    (collectRewrite rl rs).2 = rl ++ rs.flatMap (·.to.letters)
  | [], rl => by simp [collectRewrite]
  | r :: rs, rl => by
    obtain ⟨ih1, ih2⟩ := collectRewrite_mem c rs (rl ++ r.to.letters)
    simp only [collectRewrite, ih2, List.flatMap_cons, List.append_assoc, and_true, List.mem_append, ih1]
    constructor
    · rintro (h | ⟨a, q, b, rfl, h1, h2, h3, h4, h5⟩)
      · simp only [collectFrom, List.mem_filter, Bool.and_eq_true, Bool.not_eq_true', List.contains_eq_mem,
          decide_eq_false_iff_not, List.mem_append, not_or] at h
        exact ⟨[], r, rs, rfl, h.1, h.2.1, h.2.2.1, h.2.2.2, by simp⟩
      · simp only [not_or] at h3
        refine ⟨r :: a, q, b, rfl, h1, h2, h3.1, h4, ?_⟩
        intro x hx
        rcases List.mem_cons.1 hx with rfl | hx
        · exact h3.2
        · exact h5 x hx
    · rintro ⟨a, q, b, he, h1, h2, h3, h4, h5⟩
      cases a with
      | nil =>
        simp only [List.nil_append, List.cons.injEq] at he
        obtain ⟨rfl, rfl⟩ := he
        left
        simp [collectFrom, h1, h2, h3, h4]
      | cons x a =>
        simp only [List.cons_append, List.cons.injEq] at he
        obtain ⟨rfl, rfl⟩ := he
        right
        refine ⟨a, q, b, rfl, h1, h2, ?_, h4, fun y hy => h5 y (by simp [hy])⟩
        simp only [not_or]
        exact ⟨h3, h5 r (by simp)⟩

theorem collectPuncts_mem (c : Rune) (rewrite transcribe : List Rule) :
    c ∈ collectPuncts rewrite transcribe ↔ Unicode.isPunct c = true ∧
      ((∃ a r b, rewrite = a ++ r :: b ∧ c ∈ r.pat.letters ∧ c ∉ r.to.letters ∧ ∀ q ∈ a, c ∉ q.to.letters) ∨
       ((∃ r ∈ transcribe, c ∈ r.pat.letters) ∧ ∀ q ∈ rewrite, c ∉ q.to.letters)) := by
  obtain ⟨h1, h2⟩ := collectRewrite_mem c rewrite []
  simp only [collectPuncts, List.mem_append, h1, h2, List.nil_append, List.mem_flatMap, collectFrom,
    List.mem_filter, Bool.and_eq_true, Bool.not_eq_true', List.contains_eq_mem, decide_eq_false_iff_not,
    List.not_mem_nil, not_false_eq_true, true_and, not_exists, not_and]
  constructor
  · rintro (⟨a, r, b, e, x1, x2, x3, x4⟩ | ⟨r, hr, x1, x2, x3⟩)
    · exact ⟨x2, Or.inl ⟨a, r, b, e, x1, x3, x4⟩⟩
    · exact ⟨x2, Or.inr ⟨⟨r, hr, x1⟩, x3⟩⟩
  · rintro ⟨x2, ⟨a, r, b, e, x1, x3, x4⟩ | ⟨⟨r, hr, x1⟩, x3⟩⟩
    · exact Or.inl ⟨a, r, b, e, x1, x2, x3, x4⟩
    · exact Or.inr ⟨r, hr, x1, x2, x3⟩

/-! ## Custom normalization -/

theorem normArgs_perm {l l' : List (Bytes × List Bytes)} (h : l.Perm l') : (normArgs l).Perm (normArgs l') := by
  unfold normArgs
  exact h.flatMap_right _

end Verif
