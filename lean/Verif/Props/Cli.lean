import Verif.Proofs.Cli
import Verif.Props.Procedure

/-! Properties C53–C55 and C57: the command line. -/

namespace Verif.Props

open Verif.Cli Verif.Spec.Cli

/-! ## C53 -/

/-- C53: formatting traces never fails, and the text is what it should be. -/
theorem C53_format (width : Bytes → Nat) (ts : List Line) :
    ∃ out, fprintTraces width ts = .ok out ∧ Formatted width [] 0 ts out ∧
      ∀ out', Formatted width [] 0 ts out' → out' = out := by
  obtain ⟨out, h1, h2⟩ := fprintTraces_ok width ts
  exact ⟨out, h1, h2, fun out' h => formatted_unique h h2⟩

/-- C53: different steps have different headings. -/
theorem C53_steps {s t : TStep} (h : stepName s = stepName t) : s = t := by
  have key : ∀ s ∈ [TStep.input, .transliterate, .normalize, .rewrite, .transcribe, .syllabify, .localize],
      ∀ t ∈ [TStep.input, .transliterate, .normalize, .rewrite, .transcribe, .syllabify, .localize],
      stepName s = stepName t → s = t := by decide +kernel
  exact key s (by cases s <;> simp) t (by cases t <;> simp) h

example : fprintTraces List.length [⟨str "Input", str "Hello!", [], none⟩, ⟨str "Normalize", str "hello!", str "Latn", none⟩,
      ⟨str "Rewrite", str "hello world", [], some (str "\"ll\" -> \"l\"")⟩, ⟨str "Rewrite", str "x", [], none⟩] =
    .ok (str ("[Input]\n  Hello!  \n[Normalize]\n  hello!   | (Latn)\n[Rewrite]\n  hello world      | \"ll\" -> \"l\"\n" ++
      "  x               \n")) := by decide +kernel

/-! ## C54 -/

/-- C54: whatever the goroutines do when, what was printed is the beginning of what is to be printed, and a command
which cannot go on is over and has printed all of it. -/
theorem C54_schedules (e : Env) (args : List Bytes) (stdin : Bytes) :
    ∃ out m, Outcome e.hangulize (readWords args stdin) out m ∧
      (∀ out' m', Outcome e.hangulize (readWords args stdin) out' m' → out' = out ∧ m' = m) ∧
      m ≠ .waiting ∧ (∀ w, m ≠ .working w) ∧
      ∀ p, e.Steps (start args stdin) p → p.out <+: out ∧ ((∀ q, ¬ e.Step p q) → p.out = out ∧ p.main = m) := by
  obtain ⟨out, m, h1, h2, h3⟩ := outcome_exists e.hangulize (readWords args stdin) (by simp [readWords])
  refine ⟨out, m, h1, fun out' m' h => outcome_unique h h1, h2, h3, ?_⟩
  intro p hp
  have hf := steps_fits hp (out := out) (m := m) ⟨out, by simp [start], h1⟩
  refine ⟨fits_prefix hf, fun hn => ?_⟩
  obtain ⟨h4, h5⟩ := fits_progress hf hn
  exact ⟨h4.symm, h5.symm⟩

/-- C54: no execution goes on forever. -/
theorem C54_terminates (e : Env) (f : Nat → Proc) : ¬ ∀ n, e.Step (f n) (f (n + 1)) := by
  intro h
  have : ∀ n, (f n).measure + n ≤ (f 0).measure := by
    intro n
    induction n with
    | zero => simp
    | succ n ih =>
      have := step_measure (h n)
      omega
  have := this ((f 0).measure + 1)
  omega

theorem outcome_results {f : Bytes → Go WordErr} {g : Bytes → Bytes} : ∀ {ws : List Bytes},
    (∀ w ∈ ws, w ≠ [] ∧ f w = .ok (g w, none)) → Outcome f (ws ++ [[]]) (ws.map g) (.exited 0) := by
  intro ws
  induction ws with
  | nil => intro _; exact .done []
  | cons w ws ih =>
    intro h
    obtain ⟨h1, h2⟩ := h w (by simp)
    exact .word h1 h2 (ih fun w hw => h w (by simp [hw]))

theorem outcome_fails {f : Bytes → Go WordErr} {g : Bytes → Bytes} {w r : Bytes} {er : Err} (hw : w ≠ [])
    (hf : f w = .ok (r, some er)) (rest : List Bytes) : ∀ {ws : List Bytes},
    (∀ w ∈ ws, w ≠ [] ∧ f w = .ok (g w, none)) → Outcome f (ws ++ w :: rest) (ws.map g) (.exited 1) := by
  intro ws
  induction ws with
  | nil => intro _; exact .fail rest hw hf
  | cons w ws ih =>
    intro h
    obtain ⟨h1, h2⟩ := h w (by simp)
    exact .word h1 h2 (ih fun w hw => h w (by simp [hw]))

theorem final_of_outcome {e : Env} {args : List Bytes} {stdin : Bytes} {out : List Bytes} {m : Main}
    (h : Outcome e.hangulize (readWords args stdin) out m) {p : Proc} (hp : e.Steps (start args stdin) p)
    (hn : ∀ q, ¬ e.Step p q) : p.out = out ∧ p.main = m := by
  obtain ⟨out', m', _, h2, _, _, h3⟩ := C54_schedules e args stdin
  obtain ⟨rfl, rfl⟩ := h2 _ _ h
  exact (h3 p hp).2 hn

/-- C54: with words as arguments, the command prints the results of the words which are not empty, in order. -/
theorem C54_args (e : Env) (lang : Bytes) (words : List Bytes) (stdin : Bytes) (g : Bytes → Bytes) (hne : words ≠ [])
    (hg : ∀ w ∈ words, w ≠ [] → e.hangulize w = .ok (g w, none)) {p : Proc}
    (hp : e.Steps (start (lang :: words) stdin) p) (hn : ∀ q, ¬ e.Step p q) :
    p.out = (words.filter (· ≠ [])).map g ∧ p.main = .exited 0 := by
  refine final_of_outcome ?_ hp hn
  have hl : ¬ (lang :: words).length = 1 := by
    cases words with
    | nil => exact absurd rfl hne
    | cons a b => simp
  rw [readWords, if_neg hl]
  refine outcome_results ?_
  intro w hw
  simp only [List.drop_succ_cons, List.drop_zero, List.mem_filter, decide_eq_true_eq] at hw
  exact ⟨hw.2, hg w hw.1 hw.2⟩

/-- C54: the first error ends the command with status 1, and the results before it are printed. -/
theorem C54_error (e : Env) (lang : Bytes) (before after : List Bytes) (w : Bytes) (stdin : Bytes) (g : Bytes → Bytes)
    (hg : ∀ w ∈ before, w ≠ [] → e.hangulize w = .ok (g w, none)) (hw : w ≠ []) {r : Bytes} {er : Err}
    (he : e.hangulize w = .ok (r, some er)) {p : Proc}
    (hp : e.Steps (start (lang :: (before ++ w :: after)) stdin) p) (hn : ∀ q, ¬ e.Step p q) :
    p.out = (before.filter (· ≠ [])).map g ∧ p.main = .exited 1 := by
  refine final_of_outcome ?_ hp hn
  have hl : ¬ (lang :: (before ++ w :: after)).length = 1 := by simp
  rw [readWords, if_neg hl]
  simp only [List.drop_succ_cons, List.drop_zero, List.filter_append, List.filter_cons, hw, ne_eq, not_false_eq_true,
    decide_true, if_true, List.append_assoc, List.cons_append]
  refine outcome_fails hw he _ ?_
  intro w hw
  simp only [List.mem_filter, decide_eq_true_eq] at hw
  exact ⟨hw.2, hg w hw.1 hw.2⟩

/-- C54: lines which are not blank and end with a newline are read from the standard input; what follows the last
newline is not read. -/
theorem C54_stdin_partial (e : Env) (lang : Bytes) (lines : List Bytes) (rest : Bytes) (g : Bytes → Bytes)
    (hl : ∀ l ∈ lines, (0x0A : UInt8) ∉ l) (hr : (0x0A : UInt8) ∉ rest)
    (hb : ∀ l ∈ lines, trimSpace (l ++ [0x0A]) ≠ [])
    (hg : ∀ l ∈ lines, e.hangulize (trimSpace (l ++ [0x0A])) = .ok (g (trimSpace (l ++ [0x0A])), none)) {p : Proc}
    (hp : e.Steps (start [lang] (ofLines lines ++ rest)) p) (hn : ∀ q, ¬ e.Step p q) :
    p.out = lines.map (fun l => g (trimSpace (l ++ [0x0A]))) ∧ p.main = .exited 0 := by
  have : (fun l => g (trimSpace (l ++ [0x0A]))) = g ∘ fun l => trimSpace (l ++ [0x0A]) := rfl
  rw [this, ← List.map_map]
  refine final_of_outcome ?_ hp hn
  rw [readWords, if_pos (by simp), stdinLines_ofLines lines rest hl hr]
  refine outcome_results ?_
  intro w hw
  obtain ⟨l, h1, rfl⟩ := List.mem_map.1 hw
  exact ⟨hb l h1, hg l h1⟩

/-- C54: what is read of a line is the line without the white space around it. -/
theorem C54_trim {s : Bytes} (h : ValidUtf8 s) : ValidUtf8 (trimSpace s) ∧ Trimmed (runes s) (runes (trimSpace s)) :=
  trimSpace_trimmed h

/-- A hangulizer for examples: no word fails. -/
def echo : Env := ⟨fun w => .ok (w, none), fun _ => [], List.length, fun _ => []⟩

/-- C54: a blank line ends the command, and a last line without a newline is not read. -/
theorem C54_stdin_refuted {p : Proc} (hn : ∀ q, ¬ echo.Step p q) :
    (echo.Steps (start [str "xx"] (str "a\n\nb\n")) p → p.out = [str "a"] ∧ p.main = .exited 0) ∧
    (echo.Steps (start [str "xx"] (str "a\nb")) p → p.out = [str "a"] ∧ p.main = .exited 0) := by
  refine ⟨fun hp => ?_, fun hp => ?_⟩
  · refine final_of_outcome ?_ hp hn
    have : readWords [str "xx"] (str "a\n\nb\n") = [str "a", [], str "b", []] := by decide +kernel
    rw [this]
    exact .word (by decide +kernel) rfl (.done _)
  · refine final_of_outcome ?_ hp hn
    have : readWords [str "xx"] (str "a\nb") = [str "a", []] := by decide +kernel
    rw [this]
    exact .word (by decide +kernel) rfl (.done _)

/-- A command under a simple schedule. -/
def schedule (e : Env) : Nat → Proc → Proc
  | 0, p => p
  | n + 1, p =>
    match p.main, p.sending, p.todo with
    | .working w, _, _ => schedule e n (e.handle p w)
    | .waiting, false, _ :: _ => schedule e n { p with sending := true }
    | .waiting, true, w :: ws => schedule e n { p with todo := ws, sending := false, main := .working w }
    | _, _, _ => p

/-- It is a schedule. -/
theorem schedule_steps (e : Env) : ∀ (n : Nat) (p0 p : Proc), e.Steps p0 p → e.Steps p0 (schedule e n p) := by
  intro n
  induction n with
  | zero => intro p0 p h; exact h
  | succ n ih =>
    intro p0 p h
    unfold schedule
    split
    · exact ih _ _ (.tail h (.work ‹_›))
    · exact ih _ _ (.tail h (.read (Or.inl ‹_›) (by simp [*]) ‹_›))
    · exact ih _ _ (.tail h (.pass ‹_› ‹_› ‹_›))
    · exact h

example : ((parseSpec Ord.written greeting).bind fun sp =>
      let e := Env.ofSpec sp [] true List.length fun _ => []
      let p := schedule e 20 (start [str "xx", str "Hello", [], str "hell"] [])
      .ok (p.out, p.main, p.err.take 61)) =
    .ok ([str "헬로", str "헬르"], .exited 0, str "[Input]\n  Hello   \n[Normalize]\n  hello    | (Latn)\n[Rewrite]\n") := by
  decide +kernel

example : (schedule echo 20 (start [str "xx"] (str " a \nb\r\nc"))).out = [str "a", str "b"] := by decide +kernel

/-! ## C55 -/

/-- C55: when the command exits, its status is 1 exactly if a file cannot be opened or parsed, some example differs, or
the profile cannot be written; otherwise it is 0. -/
theorem C55_exit {o o' : Ord} {files : Files} {flags : Flags} {args : List Bytes} {rep : Report}
    (h : test o o' files flags args = .ok rep) :
    (rep.code = 0 ∨ rep.code = 1) ∧ (rep.code = 1 ↔
      (∃ name ∈ args, ¬ ∃ sp, Loads o files name sp) ∨
      (∃ name ∈ args, ∃ sp, Loads o files name sp ∧ ∃ ex ∈ sp.test, Differs sp ex) ∨ flags.profile = some false) := by
  unfold test at h
  simp only at h
  obtain ⟨hr1, hr2⟩ := runFiles_returns o files (flags.cover || flags.profile.isSome) args false ⟨[], []⟩
  cases hr : runFiles o files (flags.cover || flags.profile.isSome) args false ⟨[], []⟩ with
  | err e =>
    rw [hr] at h
    simp only [Go.pure_eq, Go.ok.injEq] at h
    subst h
    exact ⟨Or.inr rfl, fun _ => Or.inl (hr2 e hr), fun _ => rfl⟩
  | panic => rw [hr] at h; simp at h
  | hang => rw [hr] at h; simp at h
  | ok fc =>
    obtain ⟨failed, c⟩ := fc
    have hload := hr1 _ hr
    have hnone : ¬ ∃ name ∈ args, ¬ ∃ sp, Loads o files name sp := by
      rintro ⟨name, hn, hx⟩
      obtain ⟨sp, h1, _⟩ := hload name hn
      exact hx ⟨sp, h1⟩
    obtain ⟨f', c', k1, k2, k3, k4, k5⟩ := runFiles_spec o files (flags.cover || flags.profile.isSome) args false
      ⟨[], []⟩ hload ⟨List.nodup_nil, List.nodup_nil⟩
    rw [hr, Go.ok.injEq, Prod.mk.injEq] at k1
    obtain ⟨rfl, rfl⟩ := k1
    rw [hr] at h
    simp only at h
    cases failed with
    | true =>
      simp only [if_true, Go.pure_eq, Go.ok.injEq] at h
      subst h
      simp only [Bool.false_eq_true, false_or, true_iff] at k3
      exact ⟨Or.inr rfl, fun _ => Or.inr (Or.inl k3), fun _ => rfl⟩
    | false =>
      simp only [Bool.false_eq_true, false_or, false_iff] at k3
      simp only [Bool.false_eq_true, if_false] at h
      by_cases hp : flags.profile = some false
      · rw [if_pos hp] at h
        simp only [Go.pure_eq, Go.ok.injEq] at h
        subst h
        exact ⟨Or.inr rfl, fun _ => Or.inr (Or.inr hp), fun _ => rfl⟩
      · rw [if_neg hp, Go.bind_eq_ok] at h
        obtain ⟨pr, h1, h2⟩ := h
        have hpr : pr ≠ none := by
          rintro rfl
          cases hf : flags.profile with
          | none => rw [hf] at h1; simp [profileOf] at h1
          | some b =>
            rw [hf] at h1
            simp only [profileOf] at h1
            have hwc : (flags.cover || flags.profile.isSome) = true := by simp [hf]
            have hw := writeProfile_noErr (o := o) (o' := o') (files := files) (c := c) (fun n hn => by
              have := ((k5 hwc).1 n).1 hn
              simp only [List.not_mem_nil, false_or] at this
              obtain ⟨sp, hsp, _⟩ := hload n this
              exact ⟨sp, hsp⟩)
            cases hwp : writeProfile o' files c with
            | ok bs => rw [hwp] at h1; simp at h1
            | err e => exact hw e hwp
            | panic => rw [hwp] at h1; simp at h1
            | hang => rw [hwp] at h1; simp at h1
        have hcode : rep.code = 0 := by
          cases pr with
          | none => exact absurd rfl hpr
          | some bs =>
            simp only at h2
            split at h2
            · rw [Go.bind_eq_ok] at h2
              obtain ⟨cov, _, h2⟩ := h2
              simp only [Go.pure_eq, Go.ok.injEq] at h2
              rw [← h2]
            · simp only [Go.pure_eq, Go.ok.injEq] at h2
              rw [← h2]
        refine ⟨Or.inl hcode, ?_⟩
        constructor
        · intro h; omega
        · rintro (h | h | h)
          · exact absurd h hnone
          · exact absurd h k3
          · exact absurd h hp

/-- What a report says. -/
theorem test_report {o o' : Ord} {files : Files} {flags : Flags} {args : List Bytes} {rep : Report}
    (h : test o o' files flags args = .ok rep) :
    (rep.cover = ⟨[], []⟩ ∧ rep.code = 1 ∧ rep.coverage = none ∨
      ∃ failed, runFiles o files (flags.cover || flags.profile.isSome) args false ⟨[], []⟩ = .ok (failed, rep.cover)) ∧
    (rep.code = 0 → (flags.profile.isSome = true → writeProfile o' files rep.cover = .ok rep.profile) ∧
      ((flags.cover || flags.profile.isSome) = true → ∃ cov, rep.coverage = some cov)) ∧
    (∀ cov, rep.coverage = some cov → (flags.cover || flags.profile.isSome) = true ∧
      coverage o' files rep.cover = .ok cov) := by
  unfold test at h
  simp only at h
  cases hr : runFiles o files (flags.cover || flags.profile.isSome) args false ⟨[], []⟩ with
  | err e =>
    rw [hr] at h
    simp only [Go.pure_eq, Go.ok.injEq] at h
    subst h
    simp
  | panic => rw [hr] at h; simp at h
  | hang => rw [hr] at h; simp at h
  | ok fc =>
    obtain ⟨failed, c⟩ := fc
    rw [hr] at h
    simp only at h
    cases failed with
    | true =>
      simp only [if_true, Go.pure_eq, Go.ok.injEq] at h
      subst h
      simp
    | false =>
      simp only [Bool.false_eq_true, if_false] at h
      by_cases hp : flags.profile = some false
      · rw [if_pos hp] at h
        simp only [Go.pure_eq, Go.ok.injEq] at h
        subst h
        simp
      · rw [if_neg hp, Go.bind_eq_ok] at h
        obtain ⟨pr, h1, h2⟩ := h
        cases pr with
        | none =>
          simp only [Go.pure_eq, Go.ok.injEq] at h2
          subst h2
          simp
        | some bs =>
          have hw : flags.profile.isSome = true → writeProfile o' files c = .ok bs := by
            intro hs
            obtain ⟨b, hb⟩ := Option.isSome_iff_exists.1 hs
            rw [hb] at h1
            simp only [profileOf] at h1
            cases hwp : writeProfile o' files c <;> simp_all
          simp only at h2
          split at h2
          · rename_i hwc
            rw [Go.bind_eq_ok] at h2
            obtain ⟨cov, hcov, h2⟩ := h2
            simp only [Go.pure_eq, Go.ok.injEq] at h2
            subst h2
            refine ⟨Or.inr ⟨false, rfl⟩, fun _ => ⟨hw, fun _ => ⟨cov, rfl⟩⟩, ?_⟩
            intro cov' hcov'
            simp only [Option.some.injEq] at hcov'
            subst hcov'
            exact ⟨hwc, hcov⟩
          · rename_i hwc
            simp only [Go.pure_eq, Go.ok.injEq] at h2
            subst h2
            exact ⟨Or.inr ⟨false, rfl⟩, fun _ => ⟨hw, fun h => absurd h hwc⟩, by simp⟩

/-- C55: the covered rules are rules of the specs, and if the command exits normally, they are the rules which show in
the trace of an example. -/
theorem C55_covered {o o' : Ord} {files : Files} {flags : Flags} {args : List Bytes} {rep : Report}
    (h : test o o' files flags args = .ok rep) :
    (∀ x ∈ rep.cover.covered, ∃ name ∈ args, ∃ sp, Loads o files name sp ∧ x ∈ rulesOf name sp) ∧
    (rep.code = 0 → (flags.cover || flags.profile.isSome) = true → ∀ x, x ∈ rep.cover.covered ↔
      ∃ name ∈ args, ∃ sp, Loads o files name sp ∧ ∃ ex ∈ sp.test, Shows sp ex.1 x.step x.ruleID ∧ x.name = name) := by
  obtain ⟨h1, -, -⟩ := test_report h
  rcases h1 with ⟨h1, h2, -⟩ | ⟨failed, h1⟩
  · refine ⟨?_, by omega⟩
    intro x hx
    rw [h1] at hx
    simp at hx
  · have hload := (runFiles_returns o files (flags.cover || flags.profile.isSome) args false ⟨[], []⟩).1 _ h1
    obtain ⟨f', c', k1, k2, k3, k4, k5⟩ := runFiles_spec o files (flags.cover || flags.profile.isSome) args false
      ⟨[], []⟩ hload ⟨List.nodup_nil, List.nodup_nil⟩
    rw [h1, Go.ok.injEq, Prod.mk.injEq] at k1
    obtain ⟨rfl, hc⟩ := k1
    rw [← hc] at k4 k5
    cases hwc : (flags.cover || flags.profile.isSome) with
    | false =>
      rw [k4 hwc]
      simp
    | true =>
      have hk := (k5 hwc).2
      simp only [List.not_mem_nil, false_or] at hk
      refine ⟨?_, ?_⟩
      · intro x hx
        obtain ⟨name, hn, sp, hsp, ex, _, step, k, hs, rfl⟩ := (hk x).1 hx
        have ⟨src, _, hp⟩ := hsp
        exact ⟨name, hn, sp, hsp, shows_rulesOf (parseSpec_numbered hp) hs name⟩
      · intro _ _ x
        rw [hk]
        constructor
        · rintro ⟨name, hn, sp, hsp, ex, hex, step, id, hs, rfl⟩
          exact ⟨name, hn, sp, hsp, ex, hex, hs, rfl⟩
        · rintro ⟨name, hn, sp, hsp, ex, hex, hs, rfl⟩
          exact ⟨_, hn, sp, hsp, ex, hex, _, _, hs, rfl⟩

/-- C55: the coverage is a number of rules out of all rules of the files, each counted once. -/
theorem C55_coverage {o o' : Ord} {files : Files} {flags : Flags} {args : List Bytes} {rep : Report}
    (h : test o o' files flags args = .ok rep) {k n : Nat} (hc : rep.coverage = some (k, n)) :
    k = rep.cover.covered.length ∧ k ≤ n ∧ ∃ names : List Bytes, ∃ specs : List Spec, names.Nodup ∧
      (∀ x, x ∈ names ↔ x ∈ args) ∧ specs.length = names.length ∧
      (∀ (i : Nat) (name : Bytes) (sp : Spec), names[i]? = some name → specs[i]? = some sp → Loads o' files name sp) ∧
      n = (specs.map fun sp => sp.rewrite.length + sp.transcribe.length).sum := by
  obtain ⟨h1, -, h3⟩ := test_report h
  obtain ⟨hwc, hcov⟩ := h3 _ hc
  rcases h1 with ⟨-, -, h1⟩ | ⟨failed, h1⟩
  · rw [h1] at hc; simp at hc
  · have hload := (runFiles_returns o files (flags.cover || flags.profile.isSome) args false ⟨[], []⟩).1 _ h1
    obtain ⟨f', c', k1, k2, k3, k4, k5⟩ := runFiles_spec o files (flags.cover || flags.profile.isSome) args false
      ⟨[], []⟩ hload ⟨List.nodup_nil, List.nodup_nil⟩
    rw [h1, Go.ok.injEq, Prod.mk.injEq] at k1
    obtain ⟨rfl, hc'⟩ := k1
    rw [← hc'] at k2 k5
    obtain ⟨rfl, specs, g1, g2, g3⟩ := coverage_ok hcov
    obtain ⟨m1, m2⟩ := k5 hwc
    simp only [List.not_mem_nil, false_or] at m1 m2
    refine ⟨rfl, ?_, rep.cover.names, specs, k2.2, m1, g1, g2, g3⟩
    have hlen : ∀ (names : List Bytes) (specs : List Spec), specs.length = names.length →
        (((names.zip specs).map fun x => rulesOf x.1 x.2).flatten).length =
          (specs.map fun sp => sp.rewrite.length + sp.transcribe.length).sum := by
      intro names
      induction names with
      | nil => intro specs h; have := List.eq_nil_of_length_eq_zero h; subst this; rfl
      | cons a names ih =>
        intro specs h
        cases specs with
        | nil => simp at h
        | cons s specs =>
          have := ih specs (by simpa using h)
          simp only [List.zip_cons_cons, List.map_cons, List.flatten_cons, List.length_append, this, List.sum_cons]
          simp [rulesOf]
    rw [g3, ← hlen rep.cover.names specs g1]
    refine nodup_subset_length _ _ k2.1 ?_
    intro x hx
    obtain ⟨name, hn, sp, hsp, ex, hex, step, id', hs, rfl⟩ := (m2 x).1 hx
    obtain ⟨i, hi, hi'⟩ := List.mem_iff_getElem.1 ((m1 name).2 hn)
    have hi2 : i < specs.length := by omega
    have e1 : rep.cover.names[i]? = some name := by rw [List.getElem?_eq_getElem hi, hi']
    have e2 : specs[i]? = some specs[i] := List.getElem?_eq_getElem hi2
    obtain ⟨src', hsrc', hp'⟩ := g2 i name _ e1 e2
    have ⟨src, hsrc, hp⟩ := hsp
    rw [hsrc, Option.some.injEq] at hsrc'
    subst hsrc'
    obtain ⟨l1, l2⟩ := rules_length_eq hp hp'
    have := shows_rulesOf (parseSpec_numbered hp) hs name
    have hr : rulesOf name sp = rulesOf name specs[i] := by simp only [rulesOf, l1, l2]
    rw [hr] at this
    refine List.mem_flatten.2 ⟨_, List.mem_map.2 ⟨(name, specs[i]), ?_, rfl⟩, this⟩
    refine List.mem_iff_getElem?.2 ⟨i, ?_⟩
    rw [List.getElem?_zip_eq_some]
    exact ⟨e1, e2⟩

/-- C55: the command exits, if no example makes the hangulizer panic, the files can be parsed whatever the order of
the maps is, and, with a profile, have both sections and short lines. -/
theorem C55_returns {o o' : Ord} {files : Files} {flags : Flags} {args : List Bytes}
    (hl : ∀ name ∈ args, ∃ sp, Loads o files name sp ∧ ∀ ex ∈ sp.test, Returns sp ex.1)
    (hl' : ∀ name ∈ args, ∃ sp, Loads o' files name sp)
    (hp : flags.profile.isSome = true → ∀ name ∈ args, ∀ src, files name = some src → ShortLines src ∧
      ∀ d, Hsl.parse src = .ok d → ∃ a b, d.lookup (str "rewrite") = some a ∧ d.lookup (str "transcribe") = some b) :
    ∃ rep, test o o' files flags args = .ok rep := by
  obtain ⟨f', c', k1, k2, k3, k4, k5⟩ := runFiles_spec o files (flags.cover || flags.profile.isSome) args false
    ⟨[], []⟩ hl ⟨List.nodup_nil, List.nodup_nil⟩
  unfold test
  simp only [k1]
  split
  · exact ⟨_, rfl⟩
  · split
    · exact ⟨_, rfl⟩
    · have h1 : ∃ pr, profileOf o' files c' flags.profile = .ok pr := by
        cases hf : flags.profile with
        | none => exact ⟨_, rfl⟩
        | some b =>
          have hs : flags.profile.isSome = true := by simp [hf]
          have hwc : (flags.cover || flags.profile.isSome) = true := by simp [hf]
          have : ∃ bs, writeProfile o' files c' = .ok bs := by
            have hex : ∀ name ∈ c'.names, ∃ bs, nameBlocks o' files c' name = .ok bs := by
              intro name hn
              have hn' := ((k5 hwc).1 name).1 hn
              simp only [List.not_mem_nil, false_or] at hn'
              obtain ⟨sp, src, hsrc, hsp⟩ := hl' name hn'
              obtain ⟨hshort, hsec⟩ := hp hs name hn' src hsrc
              obtain ⟨d, hd, _⟩ := parseSpec_fields hsp
              obtain ⟨a, b, ha, hb⟩ := hsec d hd
              obtain ⟨x, y, hxy, _⟩ := fileBlocks_ok hsp hshort hd ha hb c' name
              exact ⟨_, by rw [nameBlocks, hsrc]; exact hxy⟩
            obtain ⟨bss, hbss⟩ := forEach_exists hex
            exact ⟨bss.flatten, by unfold writeProfile; rw [hbss]; rfl⟩
          obtain ⟨bs, hbs⟩ := this
          exact ⟨some bs, by simp [profileOf, hbs]⟩
      obtain ⟨pr, hpr⟩ := h1
      simp only [hpr, Go.bind_ok]
      cases pr with
      | none => exact ⟨_, rfl⟩
      | some bs =>
        simp only
        split
        · rename_i hwc
          have : ∃ cov, coverage o' files c' = .ok cov := by
            have hex : ∀ name ∈ c'.names, ∃ t, nameTotal o' files name = .ok t := by
              intro name hn
              have hn' := ((k5 hwc).1 name).1 hn
              simp only [List.not_mem_nil, false_or] at hn'
              obtain ⟨sp, src, hsrc, hsp⟩ := hl' name hn'
              exact ⟨_, by rw [nameTotal, hsrc]; simp only [hsp]; rfl⟩
            obtain ⟨ts, hts⟩ := forEach_exists hex
            exact ⟨_, by unfold coverage; rw [hts]; rfl⟩
          obtain ⟨cov, hcov⟩ := this
          rw [hcov]
          exact ⟨_, rfl⟩
        · exact ⟨_, rfl⟩

/-- C57: the lines of the profile. -/
theorem C57_profile_partial {o : Ord} {src : Bytes} {sp : Spec} (hp : parseSpec o src = .ok sp) (hs : ShortLines src)
    {d : Hsl.Doc} (hd : Hsl.parse src = .ok d) {a b : Hsl.Section} (ha : d.lookup (str "rewrite") = some a)
    (hb : d.lookup (str "transcribe") = some b) (c : Cover) (name : Bytes) :
    ∃ x y, fileBlocks o c name src = .ok (x ++ y) ∧ Profiled c name src .rewrite a.pairs x ∧
      Profiled c name src .transcribe b.pairs y := fileBlocks_ok hp hs hd ha hb c name

/-- C57: without one of the sections, writing the profile panics, though all examples pass. -/
theorem C57_profile_refuted : ∃ files : Files, ∃ sp, Loads Ord.written files (str "x.hsl") sp ∧
    (∀ ex ∈ sp.test, Returns sp ex.1 ∧ ¬ Differs sp ex) ∧
    test Ord.written Ord.written files ⟨true, some true⟩ [str "x.hsl"] = .panic := by
  let src := str "transcribe:\n\t\"a\" -> \"ㅏ\"\ntest:\n\t\"a\" -> \"아\"\n"
  let files : Files := fun name => if name = str "x.hsl" then some src else none
  have h : ((parseSpec Ord.written src).bind fun sp =>
      .ok (sp.test, hangulize sp [] (str "a"))) = .ok ([(str "a", str "아")], .ok (str "아")) := by decide +kernel
  rw [Rx.go_bind_ok] at h
  obtain ⟨sp, h1, h2⟩ := h
  simp only [Go.ok.injEq, Prod.mk.injEq] at h2
  obtain ⟨h2, h3⟩ := h2
  have h3 : wordErr (hangulize sp [] (str "a")) = .ok (str "아", none) := by rw [h3]; rfl
  refine ⟨files, sp, ⟨src, by simp [files], h1⟩, ?_, by decide +kernel⟩
  rw [h2]
  intro ex hex
  simp only [List.mem_singleton] at hex
  subst hex
  refine ⟨⟨_, h3⟩, ?_⟩
  rintro ⟨r, hr, hne⟩
  rw [h3, Go.ok.injEq] at hr
  subst hr
  exact hne rfl

/-- A file with examples. -/
def tested : Bytes := greeting ++ str "test:\n\t\"Hello\" -> \"헬로\"\n\t\"hell\" -> \"헬르\"\n"

/-- The file system with this file, and one where an example fails. -/
def disk : Files := fun name =>
  if name = str "xx.hsl" then some tested
  else if name = str "yy.hsl" then some (tested ++ str "\t\"he\" -> \"하\"\n") else none

example : test Ord.written Ord.written disk ⟨false, none⟩ [str "xx.hsl"] = .ok ⟨0, ⟨[], []⟩, [], none⟩ := by decide +kernel

example : ((test Ord.written Ord.written disk ⟨true, none⟩ [str "xx.hsl", str "xx.hsl"]).bind fun r =>
    .ok (r.code, r.cover.names, r.coverage)) = .ok (0, [str "xx.hsl"], some (5, 5)) := by decide +kernel

example : ((test Ord.written Ord.written disk ⟨false, none⟩ [str "xx.hsl", str "yy.hsl"]).bind fun r => .ok r.code) =
    .ok 1 := by decide +kernel

example : ((test Ord.written Ord.written disk ⟨false, none⟩ [str "xx.hsl", str "zz.hsl"]).bind fun r => .ok r.code) =
    .ok 1 := by decide +kernel

example : ((test Ord.written Ord.written disk ⟨false, some true⟩ [str "xx.hsl"]).bind fun r =>
    .ok (r.profile.map fun b => (b.line, b.col, b.covered))) =
    .ok [(5, 13, true), (7, 14, true), (8, 14, true), (9, 18, true), (10, 14, true)] := by decide +kernel

end Verif.Props
