import Verif.Model.Procedure
import Verif.Proofs.Subword
import Verif.Proofs.Regexp

/-! What tracing records, and that it does not interfere. -/

namespace Verif

/-! ### The loops without their records -/

/-- The loop over the rules of `rewrite` for one subword: the words after each rule. -/
def rewriteRun : List Rule → Bytes → Replacer → Go (List Bytes × Replacer)
  | [], _, rep => .ok ([], rep)
  | rule :: rules, word, rep => do
    let repls ← rule.replacements word
    let (word, rep) ← (rep.replaceBy repls).string
    let (ws, rep) ← rewriteRun rules word rep
    return (word :: ws, rep)

/-- The loop over the subwords of `rewrite`. -/
def rewriteAll (rules : List Rule) : List Subword → Go (List (Option (List Bytes)) × List Subword)
  | [] => .ok ([], [])
  | sw :: sws => do
    let (ws, rep) ← rewriteRun rules sw.word (Replacer.new sw.word sw.level 1)
    let (out, _) ← rep.subwords
    let (rows, rest) ← rewriteAll rules sws
    return (some ws :: rows, out ++ rest)

/-- The loop over the rules of `transcribe` for one subword: the words after each rule. -/
def transcribeRun : List Rule → Bytes → Replacer → Replacer → Go (List Bytes × Replacer)
  | [], _, rep, _ => .ok ([], rep)
  | rule :: rules, word, rep, dummy => do
    let repls ← rule.replacements word
    let rep := rep.replaceBy repls
    let (word, dummy) ← (dummy.replaceBy (masks repls)).string
    let (traced, rep) ← rep.string
    let (ws, rep) ← transcribeRun rules word rep dummy
    return (traced :: ws, rep)

/-- The loop over the subwords of `transcribe`. -/
def transcribeAll (rules : List Rule) : List Subword → Go (List (Option (List Bytes)) × List Subword)
  | [] => .ok ([], [])
  | sw :: sws => do
    if sw.level = 0 then
      let (rows, rest) ← transcribeAll rules sws
      return (none :: rows, sw :: rest)
    else
      let (ws, rep) ← transcribeRun rules sw.word (Replacer.new sw.word sw.level 2) (Replacer.new sw.word 0 0)
      let (out, _) ← rep.subwords
      let (rows, rest) ← transcribeAll rules sws
      return (some ws :: rows, out ++ rest)

/-! ### The records -/

/-- Recording the words of one subword. -/
def recordAll (tr : Tracer) (n i : Nat) : TRecords → List (Rule × Bytes) → TRecords
  | recs, [] => recs
  | recs, (r, w) :: ps => recordAll tr n i (recordSubword tr n recs i w r) ps

/-- Recording the words of all subwords. -/
def recordRows (tr : Tracer) (n : Nat) (rules : List Rule) : Nat → TRecords → List (Option (List Bytes)) → TRecords
  | _, recs, [] => recs
  | i, recs, none :: rows => recordRows tr n rules (i + 1) recs rows
  | i, recs, some ws :: rows => recordRows tr n rules (i + 1) (recordAll tr n i recs (rules.zip ws)) rows

theorem rewriteRules_eq (tr : Tracer) (n i : Nat) : ∀ (rules : List Rule) (w : Bytes) (rep : Replacer) (recs : TRecords),
    rewriteRules tr n i rules w rep recs =
      (rewriteRun rules w rep).bind fun p => .ok (p.2, recordAll tr n i recs (rules.zip p.1)) := by
  intro rules
  induction rules with
  | nil => intro w rep recs; rfl
  | cons r rules ih =>
    intro w rep recs
    simp only [rewriteRules, rewriteRun]
    cases h1 : r.replacements w with
    | ok repls =>
      simp only [Go.bind_ok]
      cases h2 : (rep.replaceBy repls).string with
      | ok p =>
        obtain ⟨w', rep'⟩ := p
        simp only [Go.bind_ok, ih]
        cases h3 : rewriteRun rules w' rep' with
        | ok q => obtain ⟨ws, rep''⟩ := q; rfl
        | _ => rfl
      | _ => rfl
    | _ => rfl

theorem rewriteLoop_eq (tr : Tracer) (n : Nat) (rules : List Rule) : ∀ (sws : List Subword) (i : Nat) (recs : TRecords),
    rewriteLoop tr n rules i sws recs =
      (rewriteAll rules sws).bind fun p => .ok (p.2, recordRows tr n rules i recs p.1) := by
  intro sws
  induction sws with
  | nil => intro i recs; rfl
  | cons sw sws ih =>
    intro i recs
    simp only [rewriteLoop, rewriteAll, rewriteRules_eq]
    cases h1 : rewriteRun rules sw.word (Replacer.new sw.word sw.level 1) with
    | ok p =>
      obtain ⟨ws, rep⟩ := p
      simp only [Go.bind, Go.bind_ok]
      cases h2 : rep.subwords with
      | ok q =>
        obtain ⟨out, rep'⟩ := q
        simp only [Go.bind_ok, ih]
        cases h3 : rewriteAll rules sws with
        | ok q => obtain ⟨rows, rest⟩ := q; rfl
        | _ => rfl
      | _ => rfl
    | _ => rfl

theorem transcribeRules_eq (tr : Tracer) (n i : Nat) : ∀ (rules : List Rule) (w : Bytes) (rep dummy : Replacer)
    (recs : TRecords), transcribeRules tr n i rules w rep dummy recs =
      (transcribeRun rules w rep dummy).bind fun p => .ok (p.2, recordAll tr n i recs (rules.zip p.1)) := by
  intro rules
  induction rules with
  | nil => intro w rep dummy recs; rfl
  | cons r rules ih =>
    intro w rep dummy recs
    simp only [transcribeRules, transcribeRun]
    cases h1 : r.replacements w with
    | ok repls =>
      simp only [Go.bind_ok]
      cases h2 : (dummy.replaceBy (masks repls)).string with
      | ok p =>
        obtain ⟨w', dummy'⟩ := p
        simp only [Go.bind_ok]
        cases h3 : (rep.replaceBy repls).string with
        | ok p =>
          obtain ⟨w'', rep'⟩ := p
          simp only [Go.bind_ok, ih]
          cases h4 : transcribeRun rules w' rep' dummy' with
          | ok q => obtain ⟨ws, rep''⟩ := q; rfl
          | _ => rfl
        | _ => rfl
      | _ => rfl
    | _ => rfl

theorem transcribeLoop_eq (tr : Tracer) (n : Nat) (rules : List Rule) : ∀ (sws : List Subword) (i : Nat)
    (recs : TRecords), transcribeLoop tr n rules i sws recs =
      (transcribeAll rules sws).bind fun p => .ok (p.2, recordRows tr n rules i recs p.1) := by
  intro sws
  induction sws with
  | nil => intro i recs; rfl
  | cons sw sws ih =>
    intro i recs
    simp only [transcribeLoop, transcribeAll, transcribeRules_eq]
    by_cases h0 : sw.level = 0
    · simp only [h0, ↓reduceIte, ih]
      cases h3 : transcribeAll rules sws with
      | ok q => obtain ⟨rows, rest⟩ := q; rfl
      | _ => rfl
    · simp only [h0, ↓reduceIte]
      cases h1 : transcribeRun rules sw.word (Replacer.new sw.word sw.level 2) (Replacer.new sw.word 0 0) with
      | ok p =>
        obtain ⟨ws, rep⟩ := p
        simp only [Go.bind, Go.bind_ok]
        cases h2 : rep.subwords with
        | ok q =>
          obtain ⟨out, rep'⟩ := q
          simp only [Go.bind_ok, ih]
          cases h3 : transcribeAll rules sws with
          | ok q => obtain ⟨rows, rest⟩ := q; rfl
          | _ => rfl
        | _ => rfl
      | _ => rfl

/-! ### The shape of the rows -/

theorem rewriteRun_length : ∀ {rules : List Rule} {w : Bytes} {rep : Replacer} {ws : List Bytes} {rep' : Replacer},
    rewriteRun rules w rep = .ok (ws, rep') → ws.length = rules.length := by
  intro rules
  induction rules with
  | nil => intro w rep ws rep' h; simp only [rewriteRun, Go.ok.injEq, Prod.mk.injEq] at h; simp [← h.1]
  | cons r rules ih =>
    intro w rep ws rep' h
    simp only [rewriteRun, Go.bind_eq_ok, Prod.exists, Go.pure_eq, Go.ok.injEq, Prod.mk.injEq] at h
    obtain ⟨_, _, _, _, _, _, _, h, rfl, rfl⟩ := h
    simp [ih h]

theorem transcribeRun_length : ∀ {rules : List Rule} {w : Bytes} {rep dummy : Replacer} {ws : List Bytes}
    {rep' : Replacer}, transcribeRun rules w rep dummy = .ok (ws, rep') → ws.length = rules.length := by
  intro rules
  induction rules with
  | nil => intro w rep dummy ws rep' h; simp only [transcribeRun, Go.ok.injEq, Prod.mk.injEq] at h; simp [← h.1]
  | cons r rules ih =>
    intro w rep dummy ws rep' h
    simp only [transcribeRun, Go.bind_eq_ok, Prod.exists, Go.pure_eq, Go.ok.injEq, Prod.mk.injEq] at h
    obtain ⟨_, _, _, _, _, _, _, _, _, _, h, rfl, rfl⟩ := h
    simp [ih h]

/-- Every recorded row has a word for each rule. -/
def RowsOk (rules : List Rule) (rows : List (Option (List Bytes))) : Prop :=
  ∀ ws, some ws ∈ rows → ws.length = rules.length

theorem rewriteAll_rows {rules : List Rule} : ∀ {sws : List Subword} {rows : List (Option (List Bytes))}
    {out : List Subword}, rewriteAll rules sws = .ok (rows, out) →
    rows.length = sws.length ∧ RowsOk rules rows := by
  intro sws
  induction sws with
  | nil =>
    intro rows out h
    simp only [rewriteAll, Go.ok.injEq, Prod.mk.injEq] at h
    simp [← h.1, RowsOk]
  | cons sw sws ih =>
    intro rows out h
    simp only [rewriteAll, Go.bind_eq_ok, Prod.exists, Go.pure_eq, Go.ok.injEq, Prod.mk.injEq] at h
    obtain ⟨ws, rep, h1, _, _, _, rows', _, h, rfl, rfl⟩ := h
    obtain ⟨h2, h3⟩ := ih h
    refine ⟨by simp [h2], fun ws' hw => ?_⟩
    simp only [List.mem_cons, Option.some.injEq] at hw
    rcases hw with rfl | hw
    · exact rewriteRun_length h1
    · exact h3 _ hw

theorem transcribeAll_rows {rules : List Rule} : ∀ {sws : List Subword} {rows : List (Option (List Bytes))}
    {out : List Subword}, transcribeAll rules sws = .ok (rows, out) →
    rows.length = sws.length ∧ RowsOk rules rows := by
  intro sws
  induction sws with
  | nil =>
    intro rows out h
    simp only [transcribeAll, Go.ok.injEq, Prod.mk.injEq] at h
    simp [← h.1, RowsOk]
  | cons sw sws ih =>
    intro rows out h
    simp only [transcribeAll] at h
    by_cases h0 : sw.level = 0
    · simp only [h0, ↓reduceIte, Go.bind_eq_ok, Prod.exists, Go.pure_eq, Go.ok.injEq, Prod.mk.injEq] at h
      obtain ⟨rows', _, h, rfl, rfl⟩ := h
      obtain ⟨h2, h3⟩ := ih h
      refine ⟨by simp [h2], fun ws' hw => ?_⟩
      simp only [List.mem_cons, reduceCtorEq, false_or] at hw
      exact h3 _ hw
    · simp only [h0, ↓reduceIte, Go.bind_eq_ok, Prod.exists, Go.pure_eq, Go.ok.injEq, Prod.mk.injEq] at h
      obtain ⟨ws, rep, h1, _, _, _, rows', _, h, rfl, rfl⟩ := h
      obtain ⟨h2, h3⟩ := ih h
      refine ⟨by simp [h2], fun ws' hw => ?_⟩
      simp only [List.mem_cons, Option.some.injEq] at hw
      rcases hw with rfl | hw
      · exact transcribeRun_length h1
      · exact h3 _ hw

/-! ### What is recorded -/

/-- The rules are numbered by their positions. -/
def Numbered (rules : List Rule) : Prop := rules.map (·.id) = List.range rules.length

/-- Recording one subword in records from the position of its first rule on. -/
def updRecs (n i : Nat) : List (Rule × Bytes) → TRecords → TRecords
  | [], t => t
  | (r, w) :: ps, [] => some ⟨r, (List.replicate n none).set i (some w)⟩ :: updRecs n i ps []
  | (r, w) :: ps, x :: t =>
    some { x.getD ⟨r, List.replicate n none⟩ with
      subwords := (x.getD ⟨r, List.replicate n none⟩).subwords.set i (some w) } :: updRecs n i ps t

theorem recordAll_eq (st : TracerSt) (n i : Nat) : ∀ (ps : List (Rule × Bytes)) (pre t : TRecords),
    ps.map (fun p => p.1.id) = (List.range' pre.length ps.length) →
    recordAll (some st) n i (pre ++ t) ps = pre ++ updRecs n i ps t := by
  intro ps
  induction ps with
  | nil => intro pre t _; rfl
  | cons p ps ih =>
    obtain ⟨r, w⟩ := p
    intro pre t h
    simp only [List.map_cons, List.length_cons, List.range'_succ, List.cons.injEq] at h
    obtain ⟨h0, h⟩ := h
    cases t with
    | nil =>
      have : recordSubword (some st) n (pre ++ []) i w r =
          (pre ++ [some ⟨r, (List.replicate n none).set i (some w)⟩]) ++ [] := by
        simp [recordSubword, h0]
      rw [recordAll, this, ih _ [] (by simpa using h)]
      simp [updRecs]
    | cons x t =>
      have : recordSubword (some st) n (pre ++ x :: t) i w r =
          (pre ++ [some { x.getD ⟨r, List.replicate n none⟩ with
            subwords := (x.getD ⟨r, List.replicate n none⟩).subwords.set i (some w) }]) ++ t := by
        have h1 : r.id + 1 - (pre ++ x :: t).length = 0 := by simp; omega
        simp [recordSubword, h0]
      rw [recordAll, this, ih _ t (by simpa using h)]
      simp [updRecs]

/-- What is recorded about a rule: the words of the subwords done so far. -/
def column (n : Nat) (rows : List (Option (List Bytes))) (k : Nat) : List (Option Bytes) :=
  rows.map (fun o => o.map (·.getD k [])) ++ List.replicate (n - rows.length) none

/-- All records. -/
def recsOf (rules : List Rule) (n : Nat) (rows : List (Option (List Bytes))) : TRecords :=
  if rows.all Option.isNone then [] else rules.mapIdx fun k r => some ⟨r, column n rows k⟩

theorem updRecs_nil (n i : Nat) (ps : List (Rule × Bytes)) :
    updRecs n i ps [] = ps.map fun p => some ⟨p.1, (List.replicate n none).set i (some p.2)⟩ := by
  induction ps with
  | nil => rfl
  | cons p ps ih => obtain ⟨r, w⟩ := p; simp [updRecs, ih]

theorem column_set {n : Nat} {rows : List (Option (List Bytes))} {ws : List Bytes} {k : Nat} (hn : rows.length < n) :
    (column n rows k).set rows.length (some (ws.getD k [])) = column n (rows ++ [some ws]) k := by
  have : n - rows.length = (n - (rows.length + 1)) + 1 := by omega
  simp only [column, List.map_append, List.map_cons, List.map_nil, Option.map_some, List.length_append,
    List.length_cons, List.length_nil, Nat.zero_add, this, List.replicate_succ, List.append_assoc]
  rw [List.set_append]
  simp

theorem column_none {n : Nat} {rows : List (Option (List Bytes))} {k : Nat} (hn : rows.length ≤ n)
    (h : rows.all Option.isNone = true) : column n rows k = List.replicate n none := by
  have : rows.map (fun o => o.map (·.getD k [])) = List.replicate rows.length none := by
    rw [List.eq_replicate_iff]
    refine ⟨by simp, fun b hb => ?_⟩
    obtain ⟨o, ho, rfl⟩ := List.mem_map.1 hb
    have := List.all_eq_true.1 h o ho
    cases o with
    | none => rfl
    | some _ => simp at this
  rw [column, this, List.replicate_append_replicate]
  congr 1; omega

theorem updRecs_mapIdx (n i : Nat) (f : Nat → Rule → List (Option Bytes)) : ∀ (rules : List Rule) (ws : List Bytes)
    (off : Nat), ws.length = rules.length →
    updRecs n i (rules.zip ws) (rules.mapIdx fun k r => some ⟨r, f (off + k) r⟩) =
      rules.mapIdx fun k r => some ⟨r, (f (off + k) r).set i (some (ws.getD k []))⟩ := by
  intro rules
  induction rules with
  | nil => intro ws off _; rfl
  | cons r rules ih =>
    intro ws off h
    cases ws with
    | nil => simp at h
    | cons w ws =>
      simp only [List.length_cons, Nat.add_right_cancel_iff] at h
      have := ih ws (off + 1) h
      simp only [List.mapIdx_cons, List.zip_cons_cons, updRecs]
      simp only [Nat.add_assoc, Nat.add_comm 1] at this
      simp [this]

theorem updRecs_recsOf {rules : List Rule} {n : Nat} {rows : List (Option (List Bytes))} {ws : List Bytes}
    (hn : rows.length < n) (hw : ws.length = rules.length) :
    updRecs n rows.length (rules.zip ws) (recsOf rules n rows) = recsOf rules n (rows ++ [some ws]) := by
  have h2 : (rows ++ [some ws]).all Option.isNone = false := by simp
  have key := updRecs_mapIdx n rows.length (fun k _ => column n rows k) rules ws 0 hw
  simp only [Nat.zero_add, column_set hn] at key
  unfold recsOf
  rw [h2]
  simp only [Bool.false_eq_true, if_false]
  by_cases h : rows.all Option.isNone = true
  · simp only [h, if_true]
    rw [← key, updRecs_nil]
    simp only [column_none (Nat.le_of_lt hn) h]
    have := updRecs_mapIdx n rows.length (fun _ _ => List.replicate n none) rules ws 0 hw
    rw [this]
    apply List.ext_getElem (by simp [hw])
    intro k h1 h3
    simp only [List.length_map, List.length_zip, hw, Nat.min_self] at h1
    simp [List.getD_eq_getElem?_getD, hw, h1]
  · simp only [h, Bool.false_eq_true, if_false]
    exact key

theorem recordRows_eq (st : TracerSt) {rules : List Rule} (hr : Numbered rules) (n : Nat) :
    ∀ (rows done : List (Option (List Bytes))), RowsOk rules rows → done.length + rows.length ≤ n →
    recordRows (some st) n rules done.length (recsOf rules n done) rows = recsOf rules n (done ++ rows) := by
  intro rows
  induction rows with
  | nil => intro done _ _; simp [recordRows]
  | cons o rows ih =>
    intro done h hn
    simp only [List.length_cons] at hn
    have hrest : RowsOk rules rows := fun ws hw => h ws (by simp [hw])
    cases o with
    | none =>
      have e : recsOf rules n done = recsOf rules n (done ++ [none]) := by
        have hc : ∀ k, column n done k = column n (done ++ [none]) k := by
          intro k
          have : n - done.length = (n - (done.length + 1)) + 1 := by omega
          simp [column, this, List.replicate_succ]
        simp [recsOf, hc]
      have := ih (done ++ [none]) hrest (by simp; omega)
      rw [recordRows, e]
      simpa using this
    | some ws =>
      have hw := h ws (by simp)
      have := recordAll_eq st n done.length (rules.zip ws) [] (recsOf rules n done) (by
        have : (rules.zip ws).map (fun p => p.1.id) = rules.map (·.id) := by
          rw [show (fun p : Rule × Bytes => p.1.id) = (fun r : Rule => r.id) ∘ Prod.fst from rfl, ← List.map_map,
            List.map_fst_zip (by omega)]
        rw [this, hr]
        simp [List.range_eq_range', hw])
      simp only [List.nil_append] at this
      rw [recordRows, this, updRecs_recsOf (by omega) hw]
      have := ih (done ++ [some ws]) hrest (by simp; omega)
      simpa using this

theorem recordRows_none {rules : List Rule} (n : Nat) : ∀ (rows : List (Option (List Bytes))) (i : Nat)
    (recs : TRecords), recordRows none n rules i recs rows = recs := by
  have ha : ∀ (i : Nat) (ps : List (Rule × Bytes)) (recs : TRecords), recordAll none n i recs ps = recs := by
    intro i ps
    induction ps with
    | nil => intro recs; rfl
    | cons p ps ih => intro recs; obtain ⟨r, w⟩ := p; rw [recordAll, ih]; rfl
  intro rows
  induction rows with
  | nil => intro i recs; rfl
  | cons o rows ih =>
    intro i recs
    cases o with
    | none => rw [recordRows, ih]
    | some ws => rw [recordRows, ih, ha]

/-! ### What is committed -/

/-- The word after a rule: what the rule made of the subwords it was run on, and the others. -/
def lineWord (orig : List Bytes) (rows : List (Option (List Bytes))) (k : Nat) : List Bytes :=
  List.zipWith (fun s o => (o.map (·.getD k [])).getD s) orig rows

/-- The event of a rule. -/
def ruleEvent (step : TStep) (r : Rule) (w : Bytes) : Trace :=
  { step, word := replaceAll [0] [0x2E] w, rule := some r }

/-- The events of a step. -/
def stepEvents (step : TStep) (rules : List Rule) (orig : List Subword) (rows : List (Option (List Bytes))) :
    List Trace :=
  if rows.all Option.isNone then [] else
    rules.mapIdx fun k r => ruleEvent step r (lineWord (orig.map (·.word)) rows k).flatten

/-- Passing a list of events to the tracer. -/
def Tracer.traces (tr : Tracer) (evs : List Trace) : Tracer := evs.foldl Tracer.trace tr

/-- Subwords without a row are as they were. -/
def SameWhereNone : List Bytes → List Bytes → List (Option (List Bytes)) → Prop
  | [], [], [] => True
  | c :: cur, w :: ws, o :: rows => (o = none → c = w) ∧ SameWhereNone cur ws rows
  | _, _, _ => False

theorem applyRecord_eq (k : Nat) : ∀ (cur ws : List Bytes) (rows : List (Option (List Bytes))),
    SameWhereNone cur ws rows →
    applyRecord cur (rows.map (fun o => o.map (·.getD k []))) = lineWord ws rows k ∧
    SameWhereNone (lineWord ws rows k) ws rows := by
  intro cur
  induction cur with
  | nil =>
    intro ws rows h
    cases ws <;> cases rows <;> simp_all [SameWhereNone, applyRecord, lineWord]
  | cons c cur ih =>
    intro ws rows h
    cases ws with
    | nil => cases rows <;> simp [SameWhereNone] at h
    | cons w ws =>
      cases rows with
      | nil => simp [SameWhereNone] at h
      | cons o rows =>
        simp only [SameWhereNone] at h
        obtain ⟨h1, h2⟩ := ih ws rows h.2
        simp only [lineWord] at h1 h2
        simp only [List.map_cons, applyRecord, lineWord, List.zipWith_cons_cons, SameWhereNone, h1]
        cases o with
        | none => exact ⟨by simp [h.1 rfl], fun _ => rfl, h2⟩
        | some v => exact ⟨by simp, by simp, h2⟩

theorem sameWhereNone_refl : ∀ (ws : List Bytes) (rows : List (Option (List Bytes))), ws.length = rows.length →
    SameWhereNone ws ws rows := by
  intro ws
  induction ws with
  | nil => intro rows h; cases rows <;> simp_all [SameWhereNone]
  | cons w ws ih =>
    intro rows h
    cases rows with
    | nil => simp at h
    | cons o rows => exact ⟨fun _ => rfl, ih rows (by simpa using h)⟩

theorem commitRecords_eq (step : TStep) (rows : List (Option (List Bytes))) (ws : List Bytes)
    (hs : rows.all Option.isNone = false) :
    ∀ (rules : List Rule) (off : Nat) (cur : List Bytes) (tr : Tracer), SameWhereNone cur ws rows →
    commitRecords step tr cur (rules.mapIdx fun k r => some ⟨r, column rows.length rows (off + k)⟩) =
      .ok (tr.traces (rules.mapIdx fun k r => ruleEvent step r (lineWord ws rows (off + k)).flatten)) := by
  intro rules
  induction rules with
  | nil => intro off cur tr _; rfl
  | cons r rules ih =>
    intro off cur tr hf
    simp only [List.mapIdx_cons, commitRecords, Nat.add_zero]
    have hcol : column rows.length rows off = rows.map (fun o => o.map (·.getD off [])) := by simp [column]
    have hany : (column rows.length rows off).any Option.isSome = true := by
      rw [hcol]
      simp only [List.all_eq_false] at hs
      obtain ⟨o, ho, h2⟩ := hs
      cases o with
      | none => simp at h2
      | some v => exact List.any_eq_true.2 ⟨_, List.mem_map.2 ⟨_, ho, rfl⟩, rfl⟩
    obtain ⟨happ, hsame⟩ := applyRecord_eq off cur ws rows hf
    rw [hany, hcol, happ]
    simp only [if_true]
    have := ih (off + 1) (lineWord ws rows off)
      (tr.trace (ruleEvent step r (lineWord ws rows off).flatten)) hsame
    simp only [Nat.add_assoc, Nat.add_comm 1] at this
    simp only [ruleEvent] at this
    simp only [this]
    rfl

/-- What a step passes to the tracer. -/
theorem commit_eq {rules : List Rule} (hr : Numbered rules) (step : TStep) (tr : Tracer) (sws : List Subword)
    (rows : List (Option (List Bytes))) (hlen : rows.length = sws.length) (hrows : RowsOk rules rows) :
    commitTrace step tr sws (recordRows tr sws.length rules 0 [] rows) =
      .ok (tr.traces (stepEvents step rules sws rows)) := by
  have htn : ∀ evs, Tracer.traces none evs = none := by
    intro evs
    induction evs with
    | nil => rfl
    | cons e evs ih => exact ih
  cases tr with
  | none => rw [recordRows_none]; simp [commitTrace, htn]
  | some st =>
    have := recordRows_eq st hr sws.length rows [] hrows (by simp [hlen])
    simp only [List.length_nil, List.nil_append] at this
    rw [show recsOf rules sws.length [] = [] from rfl] at this
    rw [this]
    unfold commitTrace recsOf stepEvents
    by_cases h : rows.all Option.isNone = true
    · simp [h, commitRecords, Tracer.traces]
    · simp only [h, Bool.false_eq_true, if_false]
      have := commitRecords_eq step rows (sws.map (·.word)) (by simpa using h) rules 0
        (sws.map (·.word)) (some st) (sameWhereNone_refl _ _ (by simp [hlen]))
      simp only [Nat.zero_add, hlen] at this
      exact this

/-! ### The steps -/

theorem rewriteStep_eq {s : Spec} (hr : Numbered s.rewrite) (sws : List Subword) (tr : Tracer) :
    rewriteStep s sws tr = (rewriteAll s.rewrite sws).bind fun p =>
      .ok (Builder.subwords p.2, tr.traces (stepEvents .rewrite s.rewrite sws p.1)) := by
  unfold rewriteStep
  rw [rewriteLoop_eq]
  cases h : rewriteAll s.rewrite sws with
  | ok p =>
    obtain ⟨rows, out⟩ := p
    obtain ⟨h1, h2⟩ := rewriteAll_rows h
    simp only [Go.bind, Go.bind_ok, commit_eq hr .rewrite tr sws rows h1 h2]
    rfl
  | _ => rfl

theorem transcribeStep_eq {s : Spec} (hr : Numbered s.transcribe) (sws : List Subword) (tr : Tracer) :
    transcribeStep s sws tr = (transcribeAll s.transcribe sws).bind fun p =>
      .ok (Builder.subwords (discard (Builder.subwords p.2)),
        tr.traces (stepEvents .transcribe s.transcribe sws p.1)) := by
  unfold transcribeStep
  rw [transcribeLoop_eq]
  cases h : transcribeAll s.transcribe sws with
  | ok p =>
    obtain ⟨rows, out⟩ := p
    obtain ⟨h1, h2⟩ := transcribeAll_rows h
    simp only [Go.bind, Go.bind_ok, commit_eq hr .transcribe tr sws rows h1 h2]
    rfl
  | _ => rfl

end Verif
