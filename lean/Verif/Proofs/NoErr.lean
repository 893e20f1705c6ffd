import Verif.Proofs.Forward

/-! Which computations never return an error. -/

namespace Verif

open Hre

/-- A computation which may panic or hang but returns no error. -/
def NoErr {α : Type} (x : Go α) : Prop := ∀ e, x ≠ .err e

theorem NoErr.ok {α : Type} (a : α) : NoErr (Go.ok a) := by intro e; simp

theorem NoErr.panic {α : Type} : NoErr (Go.panic : Go α) := by intro e; simp

theorem NoErr.bind {α β : Type} {x : Go α} {f : α → Go β} (hx : NoErr x) (hf : ∀ a, NoErr (f a)) :
    NoErr (x >>= f) := by
  intro e
  cases x with
  | ok a => exact hf a e
  | err e' => exact absurd rfl (hx e')
  | panic => simp
  | hang => simp

theorem slice_noErr {α : Type} (s : List α) (i j : Nat) : NoErr (slice s i j) := by
  intro e; unfold slice; split <;> simp

theorem index_noErr {α : Type} (s : List α) (i : Nat) : NoErr (index s i) := by
  intro e; unfold index; split <;> simp

theorem commitLoop_noErr (word : Bytes) (levels : List Int) (nl : Int) : ∀ (rs : List Repl) (off : Nat),
    NoErr (Replacer.commitLoop word levels nl off rs) := by
  intro rs
  induction rs with
  | nil =>
    intro off
    exact (slice_noErr _ _ _).bind fun _ => (slice_noErr _ _ _).bind fun _ => .ok _
  | cons r rs ih =>
    intro off
    exact (slice_noErr _ _ _).bind fun _ => (slice_noErr _ _ _).bind fun _ => (ih _).bind fun _ => .ok _

theorem commit_noErr (r : Replacer) : NoErr r.commit := (commitLoop_noErr _ _ _ _ _).bind fun _ => .ok _

theorem string_noErr (r : Replacer) : NoErr r.string := (commit_noErr r).bind fun _ => .ok _

theorem subwordsLoop_noErr (levels : List Int) : ∀ (l : List (Nat × Rune)) (level : Int) (buf : Bytes),
    NoErr (Replacer.subwordsLoop levels level buf l) := by
  intro l
  induction l with
  | nil => intro level buf; exact .ok _
  | cons p l ih =>
    intro level buf
    refine (index_noErr _ _).bind fun x => ?_
    split
    · exact (ih _ _).bind fun _ => .ok _
    · exact ih _ _

theorem subwords_noErr (r : Replacer) : NoErr r.subwords := by
  refine (commit_noErr r).bind fun x => ?_
  split
  · exact .ok _
  · exact (subwordsLoop_noErr _ _ _ _).bind fun _ => .ok _

theorem findStep_noErr (p : Pattern) (word : Bytes) (off : Nat) : NoErr (findStep p word off) := by
  unfold findStep
  split
  · exact .ok _
  · dsimp only
    split
    · exact .panic
    · refine NoErr.bind ?_ fun x => ?_
      · exact (index_noErr _ _).bind fun _ => (index_noErr _ _).bind fun _ => (index_noErr _ _).bind fun _ =>
          (index_noErr _ _).bind fun _ => .ok _
      · split
        · exact .panic
        · refine (index_noErr _ _).bind fun _ => (index_noErr _ _).bind fun _ => ?_
          split <;> exact .ok _

theorem findLoop_noErr (p : Pattern) (word : Bytes) (n : Int) : ∀ (fuel off count : Nat),
    NoErr (findLoop p word n fuel off count) := by
  intro fuel
  induction fuel with
  | zero => intro off count e; simp [findLoop]
  | succ fuel ih =>
    intro off count
    unfold findLoop
    split
    · refine (findStep_noErr p word off).bind fun x => ?_
      split
      · exact .ok _
      · exact ih _ _
      · exact (ih _ _).bind fun _ => .ok _
    · exact .ok _

theorem replacements_noErr (r : Rule) (word : Bytes) : NoErr (r.replacements word) := by
  refine (findLoop_noErr _ _ _ _ _ _).bind fun ms => ?_
  induction ms with
  | nil => exact .ok _
  | cons m ms ih =>
    unfold Rule.replacementsLoop
    refine (index_noErr _ _).bind fun _ => (index_noErr _ _).bind fun _ => ?_
    split
    · exact ih.bind fun _ => .ok _
    · exact ih
    · exact .panic
    · intro e; simp

theorem rewriteRules_noErr (tr : Tracer) (n i : Nat) : ∀ (rules : List Rule) (word : Bytes) (rep : Replacer)
    (recs : TRecords), NoErr (rewriteRules tr n i rules word rep recs) := by
  intro rules
  induction rules with
  | nil => intro _ _ _; exact .ok _
  | cons r rules ih =>
    intro word rep recs
    exact (replacements_noErr r word).bind fun _ => (string_noErr _).bind fun _ => ih _ _ _

theorem rewriteLoop_noErr (tr : Tracer) (n : Nat) (rules : List Rule) : ∀ (sws : List Subword) (i : Nat)
    (recs : TRecords), NoErr (rewriteLoop tr n rules i sws recs) := by
  intro sws
  induction sws with
  | nil => intro _ _; exact .ok _
  | cons sw sws ih =>
    intro i recs
    exact (rewriteRules_noErr _ _ _ _ _ _ _).bind fun _ => (subwords_noErr _).bind fun _ => (ih _ _).bind fun _ => .ok _

theorem transcribeRules_noErr (tr : Tracer) (n i : Nat) : ∀ (rules : List Rule) (word : Bytes) (rep dummy : Replacer)
    (recs : TRecords), NoErr (transcribeRules tr n i rules word rep dummy recs) := by
  intro rules
  induction rules with
  | nil => intro _ _ _ _; exact .ok _
  | cons r rules ih =>
    intro word rep dummy recs
    exact (replacements_noErr r word).bind fun _ => (string_noErr _).bind fun _ => (string_noErr _).bind fun _ =>
      ih _ _ _ _

theorem transcribeLoop_noErr (tr : Tracer) (n : Nat) (rules : List Rule) : ∀ (sws : List Subword) (i : Nat)
    (recs : TRecords), NoErr (transcribeLoop tr n rules i sws recs) := by
  intro sws
  induction sws with
  | nil => intro _ _; exact .ok _
  | cons sw sws ih =>
    intro i recs
    unfold transcribeLoop
    split
    · exact (ih _ _).bind fun _ => .ok _
    · exact (transcribeRules_noErr _ _ _ _ _ _ _ _).bind fun _ => (subwords_noErr _).bind fun _ =>
        (ih _ _).bind fun _ => .ok _

theorem commitRecords_noErr (step : TStep) : ∀ (recs : TRecords) (tr : Tracer) (ws : List Bytes),
    NoErr (commitRecords step tr ws recs) := by
  intro recs
  induction recs with
  | nil => intro _ _; exact .ok _
  | cons r recs ih =>
    intro tr ws
    cases r with
    | none => exact .panic
    | some r => exact ih _ _

theorem commitTrace_noErr (step : TStep) (tr : Tracer) (sws : List Subword) (recs : TRecords) :
    NoErr (commitTrace step tr sws recs) := by
  unfold commitTrace
  split
  · exact .ok _
  · exact commitRecords_noErr _ _ _ _

theorem afterTranslit_noErr (s : Spec) (word : Bytes) (tr : Tracer) : NoErr (afterTranslit s word tr) := by
  refine NoErr.bind ?_ fun sws => NoErr.bind ?_ fun p => NoErr.bind ?_ fun q => .ok _
  · exact (subwords_noErr _).bind fun _ => .ok _
  · exact (rewriteLoop_noErr _ _ _ _ _ _).bind fun _ => (commitTrace_noErr _ _ _ _).bind fun _ => .ok _
  · exact (transcribeLoop_noErr _ _ _ _ _ _).bind fun _ => (commitTrace_noErr _ _ _ _).bind fun _ => .ok _

end Verif
