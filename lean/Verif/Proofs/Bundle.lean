import Verif.Proofs.Reads
import Verif.Proofs.Checked
import Verif.Proofs.Laid
import Verif.Proofs.Narrow
import Verif.Proofs.CaseCheck
import Verif.Proofs.Blind
import Verif.Proofs.Alive
import Verif.Model.App
import Verif.Spec.Words
import Verif.Spec.Signs
import Verif.Spec.Jamo
import Verif.Spec.Strings

/-! Specs of which every pair was checked. -/

namespace Verif

open Hsl Hre Rx Verif.Spec.Hsl

/-! ## What is checked -/

/-- The dictionaries of a spec. -/
def dictNames : List Bytes := [str "lang", str "config", str "macros", str "vars", str "normalize"]

/-- The pairs of a section. -/
def select (name : Bytes) (xs : List Item) : List (Bytes × List Bytes) :=
  (xs.filter (·.1 = name)).map fun y => y.2.2

/-- A dictionary with the given pairs. -/
def dictOf (ps : List (Bytes × List Bytes)) : Section := ⟨.dict, ps.map fun p => ⟨p.1, p.2, 0⟩, 0⟩

/-- The pairs before the rules: only dictionaries with unique keys, with the given language, macros and vars; what is
normalized are single characters and no white space, and capital letters become what small ones become; there is an author, but no
authors. -/
def headOk (lang : Language) (macros : List (Bytes × Bytes)) (vars : List (Bytes × List Bytes))
    (keys : List (Rune × List Rune)) (kept : List Rune) (xs : List Item) : Bool :=
  (xs.all fun x => decide (x.1 ∈ dictNames) && decide (x.2.1 = .dict)) &&
  (dictNames.all fun n => decide ((select n xs).map Prod.fst).Nodup) &&
  decide (select (str "lang") xs ≠ []) && decide (newLanguage (dictOf (select (str "lang") xs)) = .ok lang) &&
  (getScript lang.script).isSome &&
  decide (macros.length ≤ 1) &&
  decide ((dictOf (select (str "macros") xs)).injective = some macros) && decide (select (str "vars") xs = vars) &&
  decide ((normArgs (select (str "normalize") xs)).mapM Case.keyOf = some keys) &&
  Case.distinct (keys.map (·.1)) && decide (Case.keptOf (select (str "normalize") xs) = kept) &&
  ((getScript lang.script).any fun sc => Case.caseOn sc keys kept (Spec.Case.irregular lang.id) &&
    Case.steady sc keys) && Case.spaceless keys &&
  decide ((dictOf (select (str "config") xs)).all (str "authors") = []) &&
  decide ((dictOf (select (str "config") xs)).all (str "author") ≠ [])

/-- A rule with the check `P` whose pattern is laid out and narrow. -/
def ruleOk (P : Rule → Bool) (macros : List (Bytes × Bytes)) (vars : List (Bytes × List Bytes)) (left : Bytes) :
    List Bytes → Bool
  | [] => false
  | r :: _ =>
    match newPattern left macros vars with
    | .ok pat => decide (pat.negAWidth ≠ -1) && decide (pat.negBWidth ≠ -1) &&
      Laid.laid (expandVars (expandMacros left macros) vars).1 && Narrow.narrow pat && P ⟨0, pat, newRPattern r macros vars⟩
    | _ => false

/-- Valid UTF-8. -/
def valid (t : Bytes) : Bool := encode (runes t) == t

/-- The word of an example: text which is not blank and, in a query, has no special meaning. -/
def fair (w : Bytes) : Bool :=
  valid w && decide ((runes w).head? ≠ some 0xFEFF) &&
    ((Js.decodeText w).all fun u => decide (u ∉ [0x09, 0x0A, 0x0D, 0x23, 0x25, 0x26, 0x2B])) &&
    ((Js.decodeText w).getLast?.all fun u => decide (0x20 < u)) && (Js.decodeText w).any fun u => !App.white u

/-- A pair of a list section: a rule which passes its check, or an example. -/
def pairOk (P : RuleSection → Rule → Bool) (macros : List (Bytes × Bytes)) (vars : List (Bytes × List Bytes))
    (x : Item) : Bool :=
  decide (x.2.1 = .list) &&
  if x.1 = str "rewrite" then ruleOk (P .rewrite) macros vars x.2.2.1 x.2.2.2
  else if x.1 = str "transcribe" then ruleOk (P .transcribe) macros vars x.2.2.1 x.2.2.2
  else decide (x.1 = str "test") && !x.2.2.2.isEmpty && fair x.2.2.1

/-! ## What follows -/

theorem bare_eq {s : Section} {k : Kind} {ps : List (Bytes × List Bytes)} (h : bare s = (k, ps)) :
    s.kind = k ∧ s.map = ps := by
  simpa [bare, Section.map] using h

theorem dictOf_map (ps : List (Bytes × List Bytes)) : (dictOf ps).map = ps := by
  simp [dictOf, Section.map, Function.comp_def]

theorem all_map {s t : Section} (h : s.map = t.map) (k : Bytes) : s.all k = t.all k := by
  simp only [Section.all, h]

theorem newLanguage_map {s t : Section} (h : s.map = t.map) : newLanguage s = newLanguage t := by
  simp only [newLanguage, Section.one, all_map h]

theorem injective_map {s t : Section} (h : s.map = t.map) : s.injective = t.injective := by
  have key : ∀ (u : Section), u.injective
      = if u.map.all (·.2.length = 1) then some (u.map.map fun p => (p.1, p.2.headD [])) else none := by
    intro u
    simp [Section.injective, Section.map, Function.comp_def]
  rw [key, key, h]

theorem perm_of_short {α : Type} {l l' : List α} (h : l'.Perm l) (hl : l.length ≤ 1) : l' = l := by
  match l, hl with
  | [], _ => exact List.perm_nil.1 h
  | [a], _ => exact List.perm_singleton.1 h

/-- The pattern of a rule is made from its text with the given macros and vars, and is laid out and narrow. -/
def Tidy (macros : List (Bytes × Bytes)) (vars : List (Bytes × List Bytes)) (r : Rule) : Prop :=
  newPattern r.pat.expr macros vars = .ok r.pat ∧
    Laid.laid (expandVars (expandMacros r.pat.expr macros) vars).1 = true ∧ Narrow.narrow r.pat = true

theorem newPattern_text {expr : Bytes} {macros : List (Bytes × Bytes)} {vars : List (Bytes × List Bytes)} {p : Pattern}
    (h : newPattern expr macros vars = .ok p) : p.expr = expr := by
  unfold newPattern at h
  split at h
  · simp at h
  · simp only [Go.bind_eq_ok, Go.pure_eq, Go.ok.injEq] at h
    obtain ⟨e, _, re, _, nA, _, nB, _, rfl⟩ := h
    rfl

theorem newRulesLoop_ok {o : Nat → Side → List (Bytes × Bytes) → List (Bytes × Bytes)}
    {macros : List (Bytes × Bytes)} {vars : List (Bytes × List Bytes)} (ho : ∀ i d, o i d macros = macros)
    {P : Rule → Bool} (hP : ∀ r i, P { r with id := i } = P r) :
    ∀ (ps : List Pair) (i : Nat), (∀ p ∈ ps, ruleOk P macros vars p.left p.right = true) →
      ∃ rs, newRulesLoop o macros vars i ps = .ok rs ∧ ∀ r ∈ rs, P r = true ∧ Tidy macros vars r
  | [], i, _ => ⟨[], rfl, by simp⟩
  | p :: ps, i, h => by
    obtain ⟨rs, h1, h2⟩ := newRulesLoop_ok ho hP ps (i + 1) fun p hp => h p (List.mem_cons_of_mem _ hp)
    have hp := h p List.mem_cons_self
    cases hr : p.right with
    | nil => rw [hr] at hp; simp [ruleOk] at hp
    | cons r t =>
      rw [hr] at hp
      simp only [ruleOk] at hp
      split at hp
      · rename_i pat hpat
        simp only [Bool.and_eq_true, decide_eq_true_eq] at hp
        obtain ⟨⟨⟨⟨ha, hb⟩, hd⟩, he⟩, hc⟩ := hp
        have hc' := hP ⟨0, pat, newRPattern r macros vars⟩ i
        refine ⟨⟨i, pat, newRPattern r macros vars⟩ :: rs, ?_, ?_⟩
        · have : index p.right 0 = .ok r := by rw [hr]; rfl
          simp [newRulesLoop, ho, hpat, ha, hb, this, h1]
        · intro x hx
          rcases List.mem_cons.1 hx with rfl | hx
          · refine ⟨hc'.trans hc, ?_⟩
            have e := newPattern_text hpat
            rw [← e] at hpat hd
            exact ⟨hpat, hd, he⟩
          · exact h2 x hx
      · simp at hp

theorem testPairs_ok : ∀ (ps : List Pair), (∀ p ∈ ps, p.right ≠ []) →
    ∃ t, testPairs ps = .ok t ∧ t.map Prod.fst = ps.map Pair.left
  | [], _ => ⟨[], rfl, rfl⟩
  | p :: ps, h => by
    obtain ⟨t, ht, he⟩ := testPairs_ok ps fun p hp => h p (List.mem_cons_of_mem _ hp)
    have hp := h p List.mem_cons_self
    cases hr : p.right with
    | nil => exact absurd hr hp
    | cons r x =>
      have : index p.right 0 = .ok r := by rw [hr]; rfl
      exact ⟨(p.left, r) :: t, by simp [testPairs, this, ht], by simp [he]⟩

theorem sectionOf_eq (name : Bytes) (xs : List Item) (k : Kind) (h : ∀ x ∈ xs, x.1 = name → x.2.1 = k) :
    sectionOf name xs = if select name xs = [] then none else some (k, select name xs) := by
  rw [sectionOf]
  cases hf : xs.find? (·.1 = name) with
  | none =>
    have : select name xs = [] := by
      simp only [List.find?_eq_none, decide_eq_true_eq] at hf
      simp only [select, List.map_eq_nil_iff, List.filter_eq_nil_iff, decide_eq_true_eq]
      exact hf
    rw [if_pos this]
    rfl
  | some x =>
    have h1 := List.find?_some hf
    have h2 := List.mem_of_find?_eq_some hf
    simp only [decide_eq_true_eq] at h1
    have : select name xs ≠ [] := by
      simp only [select, ne_eq, List.map_eq_nil_iff, List.filter_eq_nil_iff, decide_eq_true_eq]
      exact fun hn => hn x h2 h1
    rw [if_neg this, Option.map_some, h x h2 h1]
    rfl

theorem select_append (name : Bytes) (a b : List Item) : select name (a ++ b) = select name a ++ select name b := by
  simp [select]

theorem select_none {name : Bytes} {xs : List Item} (h : ∀ x ∈ xs, x.1 ≠ name) : select name xs = [] := by
  simp only [select, List.map_eq_nil_iff, List.filter_eq_nil_iff, decide_eq_true_eq]
  exact h

theorem mem_select {name : Bytes} {xs : List Item} {p : Bytes × List Bytes} (h : p ∈ select name xs) :
    ∃ x ∈ xs, x.1 = name ∧ x.2.2 = p := by
  simp only [select, List.mem_map, List.mem_filter, decide_eq_true_eq] at h
  obtain ⟨x, ⟨h1, h2⟩, h3⟩ := h
  exact ⟨x, h1, h2, h3⟩

/-- A dictionary of a document. -/
theorem fromSection_eq {α : Type} {doc : Doc} {name : Bytes} {k : Kind} {ps : List (Bytes × List Bytes)} {zero a : α}
    {f : Section → Go α} (hd : (doc.lookup name).map bare = if ps = [] then none else some (k, ps))
    (hz : ps = [] → zero = a) (hf : ∀ s : Section, s.map = ps → f s = .ok a) :
    fromSection doc name k zero f = .ok a := by
  unfold fromSection assertKind
  cases hl : doc.lookup name with
  | none =>
    rw [hl] at hd
    by_cases hp : ps = []
    · simp [hz hp, Go.bind]
    · simp [hp] at hd
  | some s =>
    rw [hl] at hd
    by_cases hp : ps = []
    · simp [hp] at hd
    · rw [if_neg hp, Option.map_some, Option.some.injEq] at hd
      obtain ⟨h1, h2⟩ := bare_eq hd
      simp [h1, Go.bind, hf s h2]

theorem fromSection_ex {α : Type} {doc : Doc} {name : Bytes} {k : Kind} {ps : List (Bytes × List Bytes)} {zero : α}
    {f : Section → Go α} (Q : α → Prop) (hd : (doc.lookup name).map bare = if ps = [] then none else some (k, ps))
    (hz : ps = [] → Q zero) (hf : ∀ s : Section, s.map = ps → ∃ a, f s = .ok a ∧ Q a) :
    ∃ a, fromSection doc name k zero f = .ok a ∧ Q a := by
  unfold fromSection assertKind
  cases hl : doc.lookup name with
  | none =>
    rw [hl] at hd
    by_cases hp : ps = []
    · exact ⟨zero, rfl, hz hp⟩
    · simp [hp] at hd
  | some s =>
    rw [hl] at hd
    by_cases hp : ps = []
    · simp [hp] at hd
    · rw [if_neg hp, Option.map_some, Option.some.injEq] at hd
      obtain ⟨h1, h2⟩ := bare_eq hd
      obtain ⟨a, h3, h4⟩ := hf s h2
      exact ⟨a, by simp [h1, Go.bind, h3], h4⟩

theorem names_ne : str "rewrite" ∉ dictNames ∧ str "transcribe" ∉ dictNames ∧ str "test" ∉ dictNames ∧
    [] ∉ dictNames ∧ str "rewrite" ≠ [] ∧ str "transcribe" ≠ [] ∧ str "test" ≠ [] := by decide +kernel

/-- A source names an author, but the spec has none. -/
def Unread (src : Bytes) (sp : Spec) : Prop :=
  sp.config.authors = [] ∧ ∃ doc sec, Hsl.parse src = .ok doc ∧ doc.lookup (str "config") = some sec ∧
    sec.all (str "author") ≠ []

/-- A source of which every pair was checked is a spec, whatever the orders of iteration over maps. -/
theorem parseSpec_checked {P : RuleSection → Rule → Bool} (hP : ∀ s r i, P s { r with id := i } = P s r)
    {lang : Language} {macros : List (Bytes × Bytes)} {vars : List (Bytes × List Bytes)}
    {keys : List (Rune × List Rune)} {kept : List Rune} {src : Bytes}
    {hd tl : List Item} {s' : Bytes} (h : Reads [] (runes src) (hd ++ tl) s')
    (hh : headOk lang macros vars keys kept hd = true)
    (ht : ∀ x ∈ tl, pairOk P macros vars x = true) {o : Ord} (ho : o.Ok) :
    ∃ sp, parseSpec o src = .ok sp ∧ sp.lang = lang ∧ sp.macros = macros ∧ sp.vars = vars ∧
      getScript lang.script = some sp.script ∧ sp.macros.length ≤ 1 ∧ Unread src sp ∧ Spec.Strings.PrefixFree (normArgs sp.normalize) ∧
      (∀ r ∈ sp.rewrite, P .rewrite r = true) ∧ (∀ r ∈ sp.transcribe, P .transcribe r = true) ∧
      (∀ r ∈ sp.rewrite ++ sp.transcribe, Tidy sp.macros sp.vars r) ∧
      Case.CaseOk sp.script sp.normalize (Spec.Case.irregular sp.lang.id) ∧ (∀ e ∈ sp.test, fair e.1 = true) ∧
      (select (str "test") tl ≠ [] → sp.test ≠ []) := by
  simp only [headOk, Bool.and_eq_true, decide_eq_true_eq, List.all_eq_true] at hh
  obtain ⟨⟨⟨⟨⟨⟨⟨⟨⟨⟨⟨⟨⟨⟨hk, hn⟩, hl0⟩, hl⟩, hs⟩, hm0⟩, hm⟩, hv⟩, hkey⟩, hdis⟩, hkept⟩, hcase⟩, hsl⟩, hau⟩, hau'⟩ := hh
  have htk : ∀ x ∈ tl, x.2.1 = .list ∧ (x.1 = str "rewrite" ∨ x.1 = str "transcribe" ∨ x.1 = str "test") := by
    intro x hx
    have := ht x hx
    simp only [pairOk, Bool.and_eq_true, decide_eq_true_eq] at this
    refine ⟨this.1, ?_⟩
    obtain ⟨_, this⟩ := this
    split at this
    · exact Or.inl (by assumption)
    · split at this
      · exact Or.inr (Or.inl (by assumption))
      · simp only [Bool.and_eq_true, decide_eq_true_eq] at this
        exact Or.inr (Or.inr this.1.1)
  obtain ⟨n1, n2, n3, n4, n5, n6, n7⟩ := names_ne
  have htn : ∀ x ∈ tl, x.1 ∉ dictNames ∧ x.1 ≠ [] := by
    intro x hx
    rcases (htk x hx).2 with e | e | e <;> rw [e]
    · exact ⟨n1, n5⟩
    · exact ⟨n2, n6⟩
    · exact ⟨n3, n7⟩
  have hdict : ∀ n ∈ dictNames, select n (hd ++ tl) = select n hd := by
    intro n hn'
    rw [select_append, select_none (xs := tl), List.append_nil]
    intro x hx e
    exact (htn x hx).1 (e ▸ hn')
  have hlist : ∀ n, n ∉ dictNames → select n (hd ++ tl) = select n tl := by
    intro n hn'
    rw [select_append, select_none (xs := hd), List.nil_append]
    intro x hx e
    exact hn' (e ▸ (hk x hx).1)
  have sdict : ∀ n ∈ dictNames, sectionOf n (hd ++ tl)
      = if select n hd = [] then none else some (.dict, select n hd) := by
    intro n hn'
    rw [sectionOf_eq n (hd ++ tl) .dict, hdict n hn']
    intro x hx e
    rcases List.mem_append.1 hx with hx | hx
    · exact (hk x hx).2
    · exact absurd (e ▸ hn') (htn x hx).1
  have slist : ∀ n, n ∉ dictNames → sectionOf n (hd ++ tl)
      = if select n tl = [] then none else some (.list, select n tl) := by
    intro n hn'
    rw [sectionOf_eq n (hd ++ tl) .list, hlist n hn']
    intro x hx e
    rcases List.mem_append.1 hx with hx | hx
    · exact absurd (e ▸ (hk x hx).1) hn'
    · exact (htk x hx).1
  obtain ⟨doc, hp, hdoc⟩ := parse_reads h (by
      intro x hx
      rcases List.mem_append.1 hx with hx | hx
      · intro e; exact n4 (e ▸ (hk x hx).1)
      · exact (htn x hx).2) (by
      intro name ps hsec
      by_cases hname : name ∈ dictNames
      · rw [sdict name hname] at hsec
        split at hsec
        · simp at hsec
        · simp only [Option.some.injEq, Prod.mk.injEq, true_and] at hsec
          rw [← hsec]
          exact hn name hname
      · rw [slist name hname] at hsec
        split at hsec <;> simp at hsec)
  have m1 : str "lang" ∈ dictNames := by decide +kernel
  have m2 : str "config" ∈ dictNames := by decide +kernel
  have m3 : str "macros" ∈ dictNames := by decide +kernel
  have m4 : str "vars" ∈ dictNames := by decide +kernel
  have m5 : str "normalize" ∈ dictNames := by decide +kernel
  have d1 := (hdoc (str "lang")).trans (sdict _ m1)
  have d2 := (hdoc (str "config")).trans (sdict _ m2)
  have d3 := (hdoc (str "macros")).trans (sdict _ m3)
  have d4 := (hdoc (str "vars")).trans (sdict _ m4)
  have d5 := (hdoc (str "normalize")).trans (sdict _ m5)
  have d6 := (hdoc (str "rewrite")).trans (slist _ n1)
  have d7 := (hdoc (str "transcribe")).trans (slist _ n2)
  have d8 := (hdoc (str "test")).trans (slist _ n3)
  have e1 : fromSection doc (str "lang") .dict ⟨[], ([], []), [], [], [], []⟩ newLanguage = .ok lang :=
    fromSection_eq d1 (fun e => absurd e hl0) fun s hs =>
      (newLanguage_map (hs.trans (dictOf_map _).symm)).trans hl
  obtain ⟨cfg, e2, hcfg⟩ := fromSection_ex (zero := (⟨[], []⟩ : Config)) (f := fun sec => .ok (newConfig sec))
    (fun c => c.authors = []) d2 (fun _ => rfl) fun s hs =>
      ⟨_, rfl, (all_map (hs.trans (dictOf_map _).symm) _).trans hau⟩
  have hsec : ∃ sec, doc.lookup (str "config") = some sec ∧ sec.all (str "author") ≠ [] := by
    have hne : select (str "config") hd ≠ [] := fun e => hau' (by rw [e]; rfl)
    rw [if_neg hne] at d2
    cases hc : doc.lookup (str "config") with
    | none => rw [hc] at d2; cases d2
    | some sec =>
      rw [hc, Option.map_some, Option.some.injEq] at d2
      exact ⟨sec, rfl, by rw [all_map ((bare_eq d2).2.trans (dictOf_map _).symm)]; exact hau'⟩
  have e3 : ∀ f : Section → Go (List (Bytes × Bytes)), (∀ s m, s.injective = some m → f s = .ok m) →
      fromSection doc (str "macros") .dict [] f = .ok macros := by
    intro f hf
    refine fromSection_eq d3 (fun e => ?_) fun s hs => hf s _ ?_
    · rw [e] at hm
      simpa [dictOf, Section.injective] using hm
    · rw [injective_map (hs.trans (dictOf_map _).symm), hm]
  have e4 : fromSection doc (str "vars") .dict [] (fun sec => .ok sec.map) = .ok vars :=
    fromSection_eq d4 (fun e => by rw [← hv, e]) fun s hs => by rw [hs, hv]
  obtain ⟨nm, hnm⟩ : ∃ nm, select (str "normalize") hd = nm := ⟨_, rfl⟩
  have e5 : fromSection doc (str "normalize") .dict [] (fun sec => .ok sec.map) = .ok nm :=
    fromSection_eq d5 (fun e => by rw [← hnm, e]) fun s hs => by rw [hs, hnm]
  have pairs : ∀ (n : Bytes) (s : Section), s.map = select n tl → ∀ p ∈ s.pairs, ∃ x ∈ tl, x.1 = n ∧
      x.2.2 = (p.left, p.right) := by
    intro n s hs p hp
    apply mem_select
    rw [← hs]
    exact List.mem_map.2 ⟨p, hp, rfl⟩
  have q6 : ∃ ps, fromSection doc (str "rewrite") .list [] (fun sec => .ok sec.pairs) = .ok ps ∧
      ∀ p ∈ ps, ruleOk (P .rewrite) macros vars p.left p.right = true := by
    refine fromSection_ex (fun ps : List Pair => ∀ p ∈ ps, ruleOk (P .rewrite) macros vars p.left p.right = true) d6
      (fun _ => by simp) fun s hs => ⟨_, rfl, fun p hp => ?_⟩
    obtain ⟨x, hx, hxn, hxp⟩ := pairs _ s hs p hp
    have := ht x hx
    simp only [pairOk, hxn, if_true, Bool.and_eq_true, hxp] at this
    exact this.2
  have q7 : ∃ ps, fromSection doc (str "transcribe") .list [] (fun sec => .ok sec.pairs) = .ok ps ∧
      ∀ p ∈ ps, ruleOk (P .transcribe) macros vars p.left p.right = true := by
    refine fromSection_ex (fun ps : List Pair => ∀ p ∈ ps, ruleOk (P .transcribe) macros vars p.left p.right = true) d7
      (fun _ => by simp) fun s hs => ⟨_, rfl, fun p hp => ?_⟩
    obtain ⟨x, hx, hxn, hxp⟩ := pairs _ s hs p hp
    have hne : str "transcribe" ≠ str "rewrite" := by decide +kernel
    have := ht x hx
    simp only [pairOk, hxn, if_true, Bool.and_eq_true, hxp, hne, if_false] at this
    exact this.2
  obtain ⟨ps6, e6, h6⟩ := q6
  obtain ⟨ps7, e7, h7⟩ := q7
  obtain ⟨tst, e8, h8⟩ := fromSection_ex (zero := ([] : List (Bytes × Bytes))) (f := fun sec => testPairs sec.pairs)
    (fun t => (∀ e ∈ t, fair e.1 = true) ∧ (select (str "test") tl ≠ [] → t ≠ [])) d8 (fun e => ⟨by simp, fun h => absurd e h⟩) fun s hs => by
      have hp : ∀ p ∈ s.pairs, p.right ≠ [] ∧ fair p.left = true := by
        intro p hp
        obtain ⟨x, hx, hxn, hxp⟩ := pairs _ s hs p hp
        have hne1 : str "test" ≠ str "rewrite" := by decide +kernel
        have hne2 : str "test" ≠ str "transcribe" := by decide +kernel
        have := ht x hx
        simp only [pairOk, hxn, Bool.and_eq_true, hxp, hne1, hne2, if_false, Bool.not_eq_true',
          decide_eq_true_eq] at this
        refine ⟨fun e => ?_, this.2.2⟩
        simp [e] at this
      obtain ⟨t, ht', he⟩ := testPairs_ok s.pairs fun p h => (hp p h).1
      refine ⟨t, ht', ?_, ?_⟩
      · intro e h
        have : e.1 ∈ s.pairs.map Pair.left := he ▸ List.mem_map_of_mem h
        obtain ⟨p, h1, h2⟩ := List.mem_map.1 this
        rw [← h2]
        exact (hp p h1).2
      · rintro hn rfl
        rw [← hs] at hn
        have : s.pairs = [] := by simpa using he.symm
        simp [Section.map, this] at hn
  have ho' : ∀ s i d, o.macros s i d macros = macros := fun s i d => perm_of_short (ho.1 s i d macros) hm0
  obtain ⟨rw_, f6, g6⟩ := newRulesLoop_ok (fun i d => ho' .rewrite i d) (hP .rewrite) ps6 0 h6
  obtain ⟨ts_, f7, g7⟩ := newRulesLoop_ok (fun i d => ho' .transcribe i d) (hP .transcribe) ps7 0 h7
  obtain ⟨sc, hsc⟩ := Option.isSome_iff_exists.1 hs
  refine ⟨{
      lang, config := cfg, macros, vars, normalize := nm, rewrite := rw_, transcribe := ts_, test := tst
      source := src
      script := sc
      puncts := collectPuncts rw_ ts_
      normPairs := normArgs (o.norm nm)
      normLetters := nm.flatMap fun (to, _) => lettersOf to }, ?_, ?_⟩
  · unfold parseSpec
    simp only [hp, Go.bind_ok, e1, e2]
    rw [e3 _ (fun s m hs => by simp [hs])]
    simp only [Go.bind_ok, e4, e5, e6, f6, e7, f7, e8, hsc, Go.pure_eq]
  · exact ⟨rfl, rfl, rfl, hsc, hm0, ⟨hcfg, doc, hsec.choose, hp, hsec.choose_spec⟩, Case.keys_prefixFree (hnm ▸ hkey) (Case.distinct_nodup hdis),
      fun r hr => (g6 r hr).1, fun r hr => (g7 r hr).1,
      fun r hr => (List.mem_append.1 hr).elim (fun hr => (g6 r hr).2) fun hr => (g7 r hr).2,
      ⟨keys, by rw [← hnm]; exact hkey, hdis, by rw [hsc] at hcase; rw [← hnm, hkept]; exact (Bool.and_eq_true _ _ ▸ hcase : _ ∧ _).1, hsl,
        by rw [hsc] at hcase; exact (Bool.and_eq_true _ _ ▸ hcase : _ ∧ _).2⟩, h8.1, h8.2⟩

/-! ## Files given by their lines -/

/-- Text of a transcription: syllables, apostrophes, vowels, and consonants which can begin a syllable or, after a
hyphen, end one.  The text does not end with a hyphen; `h` tells whether there is one before it. -/
def spelled : Bool → List Rune → Bool
  | h, [] => !h
  | h, c :: cs =>
    if c = 0x2D then spelled true cs
    else
      ((0xAC00 ≤ c && c ≤ 0xD7A3) || c == 0x27 || (0x314F ≤ c && c ≤ 0x3163) ||
        if h then Spec.Jamo.tailLetters.contains c else Spec.Jamo.leadLetters.contains c) && spelled false cs

/-- All texts of a replacement pass a check. -/
def everyText (P : Bytes → Bool) (p : RPattern) : Bool :=
  p.parts.all fun
    | .plain t => P t
    | .toVar vals => vals.all P

/-- Each var of a replacement stands for a var of the pattern. -/
def fits (r : Rule) : Bool := decide ((toVars r.to.parts).length ≤ r.pat.usedVars.length)

/-- What is checked of the rules of bundled specs. -/
def bundleCheck : RuleSection → Rule → Bool
  | .rewrite, r => checked r && fits r && everyText valid r.to
  | .transcribe, r => checked r && fits r && everyText valid r.to && avoids r.pat.re &&
      everyText (fun t => spelled false (runes t)) r.to

/-- Text without white space. -/
def dense (t : Bytes) : Bool := (runes t).all fun c => !Unicode.isSpace c

/-- What is checked of rules which treat words one by one. -/
def wordCheck : RuleSection → Rule → Bool
  | .rewrite, r => Words.wordly r.pat && everyText dense r.to
  | .transcribe, r => Words.wordly r.pat

/-- What is checked of rules which leave other scripts as they are. -/
def foreignCheck (lang : Language) : RuleSection → Rule → Bool
  | .rewrite, r => (getScript lang.script).all fun sc =>
    (match sc with | .hrkt => true | _ => false) || Foreign.alive sc.is (Spec.Foreign.signs lang.id) r.pat.re
  | .transcribe, r => Foreign.alive (fun c => !Unicode.isSpace c) [] r.pat.re

/-- What is checked of the rules of a language; `w` tells whether they treat words one by one. -/
def partCheck (w : Bool) (lang : Language) (s : RuleSection) (r : Rule) : Bool :=
  bundleCheck s r && (!w || (wordCheck s r && Blind.blindCheck r)) && foreignCheck lang s r

theorem partCheck_id (w : Bool) (lang : Language) (s : RuleSection) (r : Rule) (i : Nat) :
    partCheck w lang s { r with id := i } = partCheck w lang s r := by
  cases s <;> rfl

theorem piece_of {s s' : Bytes} {P : List Item → Bool} {ls : List String} {css : List (List Char)} (h : Spells ls css)
    (hp : piece s s' P (runesOf css) = true) : ∃ xs, Reads s (runes (text ls)) xs s' ∧ P xs = true := by
  rw [h.runes]
  exact piece_reads hp

/-- A section of examples which begins here has one. -/
def tested (s : Bytes) (xs : List Item) (s' : Bytes) : Bool :=
  decide (s' ≠ str "test") || decide (s = str "test") || xs.any fun x => decide (x.1 = str "test")

/-- Lines with the rules and examples of a spec. -/
def Part (w : Bool) (lang : Language) (macros : List (Bytes × Bytes)) (vars : List (Bytes × List Bytes)) (s : Bytes) (ls : List String)
    (s' : Bytes) : Prop :=
  ∃ xs, Reads s (runes (text ls)) xs s' ∧ (xs.all (pairOk (partCheck w lang) macros vars) && tested s xs s') = true

theorem Part.append {w : Bool} {lang : Language} {macros : List (Bytes × Bytes)} {vars : List (Bytes × List Bytes)} {s s' s'' : Bytes}
    {a b : List String} (ha : Part w lang macros vars s a s') (hb : Part w lang macros vars s' b s'') :
    Part w lang macros vars s (a ++ b) s'' := by
  obtain ⟨xs, h1, h2⟩ := ha
  obtain ⟨ys, h3, h4⟩ := hb
  simp only [Bool.and_eq_true] at h2 h4
  refine ⟨xs ++ ys, by rw [runes_text_append]; exact h1.append h3, ?_⟩
  rw [List.all_append, h2.1, h4.1]
  have h5 := h2.2
  have h6 := h4.2
  simp only [tested, Bool.or_eq_true, decide_eq_true_eq, Bool.true_and, List.any_append] at h5 h6 ⊢
  rcases h6 with (h6 | h6) | h6
  · exact .inl (.inl h6)
  · rcases h5 with (h5 | h5) | h5
    · exact absurd h6 h5
    · exact .inl (.inr h5)
    · exact .inr (.inl h5)
  · exact .inr (.inr h6)

/-- A source is a spec with checked rules, whatever the orders of iteration over maps. -/
def Sound (src : Bytes) (lang : Language) : Prop :=
  ∀ o : Ord, o.Ok → ∃ sp, parseSpec o src = .ok sp ∧ sp.lang = lang ∧ getScript lang.script = some sp.script ∧
    sp.macros.length ≤ 1 ∧ Unread src sp ∧ Spec.Strings.PrefixFree (normArgs sp.normalize) ∧
    (∀ r ∈ sp.rewrite, bundleCheck .rewrite r = true) ∧ (∀ r ∈ sp.transcribe, bundleCheck .transcribe r = true) ∧
    (∀ r ∈ sp.rewrite ++ sp.transcribe, Tidy sp.macros sp.vars r) ∧
    Case.CaseOk sp.script sp.normalize (Spec.Case.irregular sp.lang.id) ∧
    (lang.id ∉ Spec.Words.spanning → (∀ r ∈ sp.rewrite, wordCheck .rewrite r = true) ∧
      (∀ r ∈ sp.transcribe, wordCheck .transcribe r = true) ∧ ∀ r ∈ sp.rewrite ++ sp.transcribe, Blind.blindCheck r = true) ∧
    (∀ r ∈ sp.rewrite, foreignCheck lang .rewrite r = true) ∧ (∀ r ∈ sp.transcribe, foreignCheck lang .transcribe r = true) ∧
    (∀ e ∈ sp.test, fair e.1 = true) ∧ sp.test ≠ []

theorem sound_of {w : Bool} {lang : Language} {macros : List (Bytes × Bytes)} {vars : List (Bytes × List Bytes)}
    {keys : List (Rune × List Rune)} {kept : List Rune} {a b : List String}
    {s s' : Bytes} (ha : ∃ xs, Reads [] (runes (text a)) xs s ∧ headOk lang macros vars keys kept xs = true)
    (hb : Part w lang macros vars s b s') (hw : ((w || Spec.Words.spanning.contains lang.id) && (decide (s ≠ str "test") && decide (s' = str "test"))) = true) :
    Sound (text (a ++ b)) lang := by
  rw [Bool.and_eq_true] at hw
  obtain ⟨hw, ht⟩ := hw
  intro o ho
  obtain ⟨xs, h1, h2⟩ := ha
  obtain ⟨ys, h3, h4⟩ := hb
  rw [Bool.and_eq_true] at h4
  obtain ⟨h4, h5⟩ := h4
  have hr : Reads [] (runes (text (a ++ b))) (xs ++ ys) s' := by
    rw [runes_text_append]
    exact h1.append h3
  obtain ⟨sp, e1, e2, _, _, e3, e4, e5, e6, e7, e8, e9, e10, e11, e12⟩ := parseSpec_checked (partCheck_id w lang) hr h2
    (fun x hx => List.all_eq_true.1 h4 x hx) ho
  have hc : ∀ t r, partCheck w lang t r = true → bundleCheck t r = true := by
    intro t r h
    simp only [partCheck, Bool.and_eq_true] at h
    exact h.1.1
  have hd : lang.id ∉ Spec.Words.spanning → ∀ t r, partCheck w lang t r = true → wordCheck t r = true ∧ Blind.blindCheck r = true := by
    intro hl t r h
    have : w = true := by simpa [hl] using hw
    subst this
    simp only [partCheck, Bool.and_eq_true, Bool.not_true, Bool.false_or] at h
    exact h.1.2
  have he : ∀ t r, partCheck w lang t r = true → foreignCheck lang t r = true := by
    intro t r h
    simp only [partCheck, Bool.and_eq_true] at h
    exact h.2
  refine ⟨sp, e1, e2, e3, e4, e5, e6, fun r hr => hc _ r (e7 r hr), fun r hr => hc _ r (e8 r hr), e9, e10,
    fun hl => ⟨fun r hr => (hd hl _ r (e7 r hr)).1, fun r hr => (hd hl _ r (e8 r hr)).1, fun r hr =>
      (List.mem_append.1 hr).elim (fun hr => (hd hl _ r (e7 r hr)).2) fun hr => (hd hl _ r (e8 r hr)).2⟩,
    fun r hr => he _ r (e7 r hr), fun r hr => he _ r (e8 r hr), e11, e12 ?_⟩
  simp only [tested, Bool.or_eq_true, Bool.and_eq_true, decide_eq_true_eq, List.any_eq_true] at h5 ht
  rcases h5 with (h5 | h5) | ⟨x, h5, h6⟩
  · exact absurd ht.2 h5
  · exact absurd h5 ht.1
  · intro hn
    have : x.2.2 ∈ select (str "test") ys := List.mem_map_of_mem (List.mem_filter.2 ⟨h5, by simpa using h6⟩)
    rw [hn] at this
    cases this

end Verif
