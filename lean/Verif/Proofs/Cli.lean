import Verif.Spec.Cli
import Verif.Proofs.Forward
import Verif.Proofs.SpecFile
import Verif.Proofs.Utf8Ascii
import Verif.Proofs.Strings
import Verif.Props.Hsl

/-! Lemmas about the command line, for C53–C55. -/

namespace Verif.Cli

open Verif.Spec.Cli

/-! ## Traces -/

theorem fprintLoop_ok (width : Bytes → Nat) : ∀ (ts : List Line) (step : Bytes) (col : Nat),
    ∃ out, fprintLoop width step col ts = .ok out ∧ Formatted width step col ts out := by
  intro ts
  induction ts with
  | nil => intro step col; exact ⟨[], rfl, .nil _ _⟩
  | cons t ts ih =>
    intro step col
    have key : ∃ col' : Nat, (if (col : Int) < (width t.word : Int) then (width t.word : Int) / 8 * 8 + 8 else (col : Int))
        = (col' : Int) ∧ (width t.word ≤ col → col' = col) ∧
        (col < width t.word → width t.word < col' ∧ col' ≤ width t.word + 8 ∧ 8 ∣ col') := by
      by_cases hc : col < width t.word
      · refine ⟨width t.word / 8 * 8 + 8, ?_, by omega, fun _ => ?_⟩
        · rw [if_pos (by omega)]; omega
        · refine ⟨by omega, by omega, ⟨width t.word / 8 + 1, by omega⟩⟩
      · exact ⟨col, by rw [if_neg (by omega)], fun _ => rfl, fun h => absurd h hc⟩
    obtain ⟨col', hcol, h1, h2⟩ := key
    have hge : width t.word ≤ col' := by
      by_cases hc : width t.word ≤ col
      · rw [h1 hc]; exact hc
      · exact Nat.le_of_lt (h2 (by omega)).1
    obtain ⟨rest, hr, hf⟩ := ih t.step col'
    have hpad : repeatSpace ((col' : Int) - (width t.word : Int)) =
        .ok (List.replicate (col' - width t.word) 0x20) := by
      rw [repeatSpace, if_neg (by omega)]
      congr 2; omega
    refine ⟨_, by simp only [fprintLoop, hcol, hpad, Go.bind_ok, hr, Go.pure_eq]; rfl, ?_⟩
    have := Formatted.cons step col col' t ts (if step ≠ t.step then str "[" ++ t.step ++ str "]\n" else []) rest
      (fun e => by simp [e]) (fun e => by rw [if_pos (fun h => e h.symm)]) h1 h2 hf
    unfold note at this
    cases hr : t.rule with
    | some r => simpa only [List.append_assoc, hr] using this
    | none =>
      cases hw : t.why with
      | nil => simpa [List.append_assoc, hr, hw] using this
      | cons a b => simpa [List.append_assoc, hr, hw] using this

theorem fprintTraces_ok (width : Bytes → Nat) (ts : List Line) :
    ∃ out, fprintTraces width ts = .ok out ∧ Formatted width [] 0 ts out := fprintLoop_ok width ts [] 0

/-! ## The two goroutines -/

variable {e : Env}

/-- What is still to be handled. -/
def Proc.pending (p : Proc) : List Bytes :=
  match p.main with
  | .working w => w :: p.todo
  | _ => p.todo

/-- What the rest of a run prints, and its end, together with what was printed before. -/
def Fits (e : Env) (p : Proc) (out : List Bytes) (m : Main) : Prop :=
  match p.main with
  | .waiting => ∃ rs, out = p.out ++ rs ∧ Outcome e.hangulize p.todo rs m
  | .working w => ∃ rs, out = p.out ++ rs ∧ Outcome e.hangulize (w :: p.todo) rs m
  | m' => out = p.out ∧ m = m'

theorem handle_fits {p : Proc} {w : Bytes} (hm : p.main = .working w) {out : List Bytes} {m : Main}
    (h : Fits e p out m) : Fits e (e.handle p w) out m := by
  simp only [Fits, hm] at h
  obtain ⟨rs, rfl, ho⟩ := h
  unfold Env.handle
  obtain ⟨text, ht, -⟩ := fprintTraces_ok e.width (e.traces w)
  cases ho with
  | done ws => simp [Fits]
  | word h1 h2 h3 =>
    rw [if_neg h1, h2]
    simp only [ht, Fits]
    exact ⟨_, by simp, h3⟩
  | fail ws h1 h2 => rw [if_neg h1, h2]; simp [Fits]
  | crash ws h1 h2 =>
    rw [if_neg h1]
    rcases h2 with h2 | ⟨er, h2⟩ <;> rw [h2] <;> simp [Fits]
  | stuck ws h1 h2 => rw [if_neg h1, h2]; simp [Fits]

theorem step_fits {p q : Proc} (hs : e.Step p q) {out : List Bytes} {m : Main} (h : Fits e p out m) :
    Fits e q out m := by
  cases hs with
  | read hm ht hs => exact h
  | pass hm ht hs =>
    simp only [Fits, hm, ht] at h ⊢
    exact h
  | work hm => exact handle_fits hm h

/-- The number of steps left. -/
def Proc.measure (p : Proc) : Nat :=
  match p.main with
  | .waiting => 3 * p.todo.length + (if p.sending then 0 else 1)
  | .working _ => 3 * p.todo.length + (if p.sending then 0 else 1) + 1
  | _ => 0

theorem handle_measure {p : Proc} {w : Bytes} (hm : p.main = .working w) : (e.handle p w).measure < p.measure := by
  unfold Env.handle
  simp only [Proc.measure, hm]
  repeat' split
  all_goals simp_all

theorem step_measure {p q : Proc} (hs : e.Step p q) : q.measure < p.measure := by
  cases hs with
  | read hm ht hs =>
    simp only [Proc.measure, hs]
    rcases hm with hm | ⟨w, hm⟩ <;> simp [hm]
  | pass hm ht hs => simp [Proc.measure, hm, ht, hs]; omega
  | work hm => exact handle_measure hm

/-- Every list of words which ends with an empty one has an outcome. -/
theorem outcome_exists (f : Bytes → Go WordErr) : ∀ (ws : List Bytes), [] ∈ ws →
    ∃ rs m, Outcome f ws rs m ∧ m ≠ .waiting ∧ ∀ w, m ≠ .working w := by
  intro ws
  induction ws with
  | nil => intro h; simp at h
  | cons w ws ih =>
    intro h
    by_cases hw : w = []
    · subst hw; exact ⟨[], .exited 0, .done ws, by simp, by simp⟩
    · cases hf : f w with
      | ok r =>
        obtain ⟨r, er⟩ := r
        cases er with
        | none =>
          obtain ⟨rs, m, h1, h2⟩ := ih (by simpa [Ne.symm hw] using h)
          exact ⟨r :: rs, m, .word hw hf h1, h2⟩
        | some er => exact ⟨[], .exited 1, .fail ws hw hf, by simp, by simp⟩
      | err er => exact ⟨[], .crashed, .crash ws hw (Or.inr ⟨er, hf⟩), by simp, by simp⟩
      | panic => exact ⟨[], .crashed, .crash ws hw (Or.inl hf), by simp, by simp⟩
      | hang => exact ⟨[], .stuck, .stuck ws hw hf, by simp, by simp⟩

/-- There is only one outcome. -/
theorem outcome_unique {f : Bytes → Go WordErr} : ∀ {ws rs rs' : List Bytes} {m m' : Main}, Outcome f ws rs m →
    Outcome f ws rs' m' → rs = rs' ∧ m = m' := by
  intro ws rs rs' m m' h
  induction h generalizing rs' m' with
  | done ws => intro h'; cases h' <;> simp_all
  | word h1 h2 h3 ih =>
    intro h'
    cases h' with
    | done => exact absurd rfl h1
    | word k1 k2 k3 =>
      rw [h2] at k2
      simp only [Go.ok.injEq, Prod.mk.injEq, and_true] at k2
      obtain ⟨a, b⟩ := ih k3
      exact ⟨by rw [k2, a], b⟩
    | fail _ k1 k2 => simp [h2] at k2
    | crash _ k1 k2 => simp [h2] at k2
    | stuck _ k1 k2 => simp [h2] at k2
  | fail ws h1 h2 => intro h'; cases h' <;> simp_all
  | crash ws h1 h2 => intro h'; cases h' <;> simp_all
  | stuck ws h1 h2 => intro h'; cases h' <;> simp_all

theorem outcome_left {f : Bytes → Go WordErr} {ws rs : List Bytes} {m : Main} (h : Outcome f ws rs m) : ws ≠ [] := by
  cases h <;> simp

/-- A process which is not over can take a step. -/
theorem fits_progress {p : Proc} {out : List Bytes} {m : Main} (h : Fits e p out m)
    (hn : ∀ q, ¬ e.Step p q) : out = p.out ∧ m = p.main := by
  unfold Fits at h
  split at h
  · rename_i hm
    obtain ⟨rs, -, ho⟩ := h
    cases hs : p.sending with
    | false => exact absurd (Env.Step.read (Or.inl hm) (outcome_left ho) hs) (hn _)
    | true =>
      cases ht : p.todo with
      | nil => exact absurd ht (outcome_left ho)
      | cons w ws => exact absurd (Env.Step.pass hm ht hs) (hn _)
  · rename_i w hm
    exact absurd (Env.Step.work hm) (hn _)
  · exact h

theorem fits_prefix {p : Proc} {out : List Bytes} {m : Main} (h : Fits e p out m) : p.out <+: out := by
  unfold Fits at h
  split at h
  · obtain ⟨rs, rfl, -⟩ := h; simp
  · obtain ⟨rs, rfl, -⟩ := h; simp
  · rw [h.1]; exact List.prefix_rfl

theorem steps_fits {p q : Proc} (hs : e.Steps p q) {out : List Bytes} {m : Main} (h : Fits e p out m) :
    Fits e q out m := by
  induction hs with
  | refl => exact h
  | tail _ h2 ih => exact step_fits h2 ih

/-! ## Standard input -/

theorem stdinLines_line : ∀ (l buf rest : Bytes), 0x0A ∉ l →
    stdinLines buf (l ++ 0x0A :: rest) = trimSpace (buf ++ l ++ [0x0A]) :: stdinLines [] rest := by
  intro l
  induction l with
  | nil => intro buf rest _; simp [stdinLines]
  | cons b l ih =>
    intro buf rest h
    simp only [List.mem_cons, not_or] at h
    rw [List.cons_append, stdinLines, if_neg (fun e => h.1 e.symm), ih _ _ h.2]
    simp

theorem stdinLines_rest : ∀ (l buf : Bytes), 0x0A ∉ l → stdinLines buf l = [] := by
  intro l
  induction l with
  | nil => intro buf _; rfl
  | cons b l ih =>
    intro buf h
    simp only [List.mem_cons, not_or] at h
    rw [stdinLines, if_neg (fun e => h.1 e.symm), ih _ h.2]

theorem stdinLines_ofLines : ∀ (ls : List Bytes) (rest : Bytes), (∀ l ∈ ls, (0x0A : UInt8) ∉ l) → 0x0A ∉ rest →
    stdinLines [] (ofLines ls ++ rest) = ls.map fun l => trimSpace (l ++ [0x0A]) := by
  intro ls
  induction ls with
  | nil => intro rest _ hr; simpa [ofLines] using stdinLines_rest rest [] hr
  | cons l ls ih =>
    intro rest h hr
    have := stdinLines_line l [] (ofLines ls ++ rest) (h l (by simp))
    simp only [ofLines, List.flatMap_cons, List.append_assoc, List.nil_append,
      List.cons_append, List.map_cons] at this ⊢
    rw [this]
    congr 1
    have := ih rest (fun l hl => h l (by simp [hl])) hr
    simpa [ofLines] using this

theorem pieces_encode : ∀ (rs : List Rune), (∀ r ∈ rs, validRune r = true) →
    pieces ((decode (encode rs)).map (·.2)) (encode rs) = rs.map encodeRune := by
  intro rs
  induction rs with
  | nil => intro _; rfl
  | cons r rs ih =>
    intro h
    have he : encode (r :: rs) = encodeRune r ++ encode rs := rfl
    rw [he, decode_encodeRune_append (h r (by simp))]
    simp only [List.map_cons, pieces]
    rw [List.take_left, List.drop_left, ih fun r hr => h r (by simp [hr])]

theorem isSpacePiece_encode {r : Rune} (h : validRune r = true) : isSpacePiece (encodeRune r) = Unicode.isSpace r := by
  have : runes (encodeRune r) = [r] := by
    have := runes_encode (rs := [r]) (by simpa using h)
    simpa [encode] using this
  simp [isSpacePiece, this]

theorem dropWhile_map_encode : ∀ (rs : List Rune), (∀ r ∈ rs, validRune r = true) →
    (rs.map encodeRune).dropWhile isSpacePiece = (rs.dropWhile Unicode.isSpace).map encodeRune := by
  intro rs
  induction rs with
  | nil => intro _; rfl
  | cons r rs ih =>
    intro h
    simp only [List.map_cons, List.dropWhile_cons, isSpacePiece_encode (h r (by simp))]
    split
    · exact ih fun r hr => h r (by simp [hr])
    · rfl

theorem trimSpace_encode {rs : List Rune} (h : ∀ r ∈ rs, validRune r = true) :
    trimSpace (encode rs) = encode ((rs.dropWhile Unicode.isSpace).reverse.dropWhile Unicode.isSpace).reverse := by
  unfold trimSpace
  rw [pieces_encode rs h, dropWhile_map_encode rs h, ← List.map_reverse, dropWhile_map_encode, ← List.map_reverse]
  · simp [encode, List.flatMap_def]
  · intro r hr
    exact h r (List.dropWhile_sublist _ |>.subset (List.mem_reverse.1 hr))

theorem dropWhile_head {p : Rune → Bool} : ∀ (l : List Rune) (c : Rune), (l.dropWhile p).head? = some c → p c = false := by
  intro l
  induction l with
  | nil => intro c h; simp at h
  | cons a l ih =>
    intro c h
    rw [List.dropWhile_cons] at h
    split at h
    · exact ih c h
    · simp only [List.head?_cons, Option.some.injEq] at h
      subst h; simpa using ‹¬ p a = true›

theorem trimmed_trim (rs : List Rune) :
    Trimmed rs ((rs.dropWhile Unicode.isSpace).reverse.dropWhile Unicode.isSpace).reverse := by
  have e1 := (List.takeWhile_append_dropWhile (p := Unicode.isSpace) (l := rs)).symm
  generalize hd : rs.dropWhile Unicode.isSpace = d at e1
  have e2 := (List.takeWhile_append_dropWhile (p := Unicode.isSpace) (l := d.reverse)).symm
  have e3 : d = (d.reverse.dropWhile Unicode.isSpace).reverse ++ (d.reverse.takeWhile Unicode.isSpace).reverse := by
    rw [← List.reverse_append, ← e2, List.reverse_reverse]
  have all : ∀ (l : List Rune), ∀ c ∈ l.takeWhile Unicode.isSpace, Unicode.isSpace c = true := by
    intro l c hc
    exact List.all_eq_true.1 (List.all_takeWhile (l := l)) c hc
  have key := Trimmed.mk (rs.takeWhile Unicode.isSpace) (d.reverse.dropWhile Unicode.isSpace).reverse
    (d.reverse.takeWhile Unicode.isSpace).reverse (all rs)
    (fun c hc => all _ c (List.mem_reverse.1 hc)) ?_ ?_
  · rw [List.append_assoc, ← e3, ← e1] at key; exact key
  · intro c hc
    refine dropWhile_head rs c ?_
    rw [hd, e3, List.head?_append, hc]; rfl
  · intro c hc
    rw [List.getLast?_reverse] at hc
    exact dropWhile_head _ c hc

theorem trimSpace_trimmed {s : Bytes} (h : ValidUtf8 s) :
    ValidUtf8 (trimSpace s) ∧ Trimmed (runes s) (runes (trimSpace s)) := by
  have hv := runes_valid s
  have he : trimSpace s = _ := (congrArg trimSpace (encode_runes h)).symm.trans (trimSpace_encode hv)
  rw [he]
  refine ⟨encode_validUtf8 _, ?_⟩
  rw [runes_encode]
  · exact trimmed_trim _
  · intro r hr
    have h1 := (List.dropWhile_sublist _).subset (List.mem_reverse.1 hr)
    exact hv r ((List.dropWhile_sublist _).subset (List.mem_reverse.1 h1))

/-! ## Covers -/

theorem mem_insertNew {α : Type} [DecidableEq α] (x y : α) (l : List α) : x ∈ insertNew y l ↔ x ∈ l ∨ x = y := by
  unfold insertNew
  split
  · constructor
    · exact Or.inl
    · rintro (h | rfl) <;> assumption
  · simp

theorem insertNew_nodup {α : Type} [DecidableEq α] (y : α) {l : List α} (h : l.Nodup) : (insertNew y l).Nodup := by
  unfold insertNew
  split
  · exact h
  · rename_i hn
    refine List.nodup_append.2 ⟨h, by simp, ?_⟩
    rintro a ha b hb rfl
    simp at hb; subst hb; exact hn ha

theorem insertNew_of_mem {α : Type} [DecidableEq α] {y : α} {l : List α} (h : y ∈ l) : insertNew y l = l := by
  simp [insertNew, h]

/-- A cover is made of sets. -/
def Cover.Nodup (c : Cover) : Prop := c.covered.Nodup ∧ c.names.Nodup

theorem Cover.visit_nodup {c : Cover} (h : c.Nodup) (name : Bytes) : (c.visit name).Nodup :=
  ⟨h.1, insertNew_nodup _ h.2⟩

theorem coverTraces_spec (name : Bytes) : ∀ (ts : List Trace) (c : Cover), name ∈ c.names → c.Nodup →
    (coverTraces name c ts).Nodup ∧ (coverTraces name c ts).names = c.names ∧
    ∀ x, x ∈ (coverTraces name c ts).covered ↔
      x ∈ c.covered ∨ ∃ t ∈ ts, ∃ r, t.rule = some r ∧ x = ⟨name, t.step, r.id⟩ := by
  intro ts
  induction ts with
  | nil => intro c hn hd; simp [coverTraces, hd]
  | cons t ts ih =>
    intro c hn hd
    have hstep : coverTraces name c (t :: ts) = coverTraces name (match t.rule with
        | some r => c.cover name t.step r.id
        | none => c) ts := rfl
    rw [hstep]
    cases hr : t.rule with
    | none =>
      obtain ⟨h1, h2, h3⟩ := ih c hn hd
      refine ⟨h1, h2, fun x => ?_⟩
      rw [h3]; simp [hr]
    | some r =>
      simp only
      have hnames : (c.cover name t.step r.id).names = c.names := insertNew_of_mem hn
      obtain ⟨h1, h2, h3⟩ := ih (c.cover name t.step r.id) (by rw [hnames]; exact hn)
        ⟨insertNew_nodup _ hd.1, by rw [hnames]; exact hd.2⟩
      refine ⟨h1, h2.trans hnames, fun x => ?_⟩
      rw [h3]
      have : x ∈ (c.cover name t.step r.id).covered ↔ x ∈ c.covered ∨ x = ⟨name, t.step, r.id⟩ := mem_insertNew _ _ _
      rw [this]
      simp only [List.mem_cons, exists_eq_or_imp, hr, Option.some.injEq]
      constructor
      · rintro ((h | h) | h)
        · exact Or.inl h
        · exact Or.inr (Or.inl ⟨r, rfl, h⟩)
        · exact Or.inr (Or.inr h)
      · rintro (h | ⟨r', rfl, h⟩ | h)
        · exact Or.inl (Or.inl h)
        · exact Or.inl (Or.inr h)
        · exact Or.inr h

theorem forward_log {sp : Spec} (hn : sp.Numbered) (word : Bytes) (log : List Trace) :
    (forward sp [] word (some ⟨log, []⟩)).2 =
      some ⟨log ++ changes [] (forwardRun sp [] word).2, lastWord [] (forwardRun sp [] word).2⟩ := by
  rw [forward_eq hn, traces_eq]

theorem shows_iff {sp : Spec} (hn : sp.Numbered) (word : Bytes) (step : TStep) (id : Nat) :
    Shows sp word step id ↔ ∃ t ∈ changes [] (forwardRun sp [] word).2, ∃ r, t.rule = some r ∧ t.step = step ∧ r.id = id := by
  unfold Shows
  rw [forward_log hn]
  constructor
  · rintro ⟨st, t, r, hst, ht, h1, h2, h3⟩
    simp only [List.nil_append, Option.some.injEq] at hst
    subst hst
    exact ⟨t, ht, r, h1, h2, h3⟩
  · rintro ⟨t, ht, r, h1, h2, h3⟩
    exact ⟨_, t, r, rfl, ht, h1, h2, h3⟩

theorem result_eq {sp : Spec} (hn : sp.Numbered) (word : Bytes) (tr : Tracer) :
    (forward sp [] word tr).1 = hangulize sp [] word := by
  rw [hangulize, forward_eq hn, forward_eq hn]

/-- The loop over the examples. -/
theorem runExamples_spec {sp : Spec} (hn : sp.Numbered) (wc : Bool) (name : Bytes) :
    ∀ (exs : List (Bytes × Bytes)) (traces : List Trace) (failed : Bool) (c : Cover),
      (∀ ex ∈ exs, Returns sp ex.1) → (wc = true → name ∈ c.names) → c.Nodup →
      (∀ t ∈ traces, ∀ r, t.rule = some r → ⟨name, t.step, r.id⟩ ∈ c.covered) →
      ∃ failed' c', runExamples wc name sp exs traces failed c = .ok (failed', c') ∧ c'.Nodup ∧ c'.names = c.names ∧
        (failed' = true ↔ failed = true ∨ ∃ ex ∈ exs, Differs sp ex) ∧
        (wc = false → c' = c) ∧
        (wc = true → ∀ x, x ∈ c'.covered ↔ x ∈ c.covered ∨
          ∃ ex ∈ exs, ∃ step id, Shows sp ex.1 step id ∧ x = ⟨name, step, id⟩) := by
  intro exs
  induction exs with
  | nil => intro traces failed c _ _ hd _; exact ⟨failed, c, rfl, hd, rfl, by simp, fun _ => rfl, by simp⟩
  | cons ex exs ih =>
    obtain ⟨word, expected⟩ := ex
    intro traces failed c hret hname hd hcov
    obtain ⟨res, hres⟩ := hret _ (List.mem_cons_self)
    simp only at hres
    have hdiff : Differs sp (word, expected) ↔ res.1 ≠ expected := by
      unfold Differs
      simp only [hres, Go.ok.injEq]
      exact ⟨fun ⟨r, h1, h2⟩ => h1 ▸ h2, fun h => ⟨res, rfl, h⟩⟩
    have hret' : ∀ ex ∈ exs, Returns sp ex.1 := fun ex hex => hret ex (List.mem_cons_of_mem _ hex)
    cases wc with
    | false =>
      obtain ⟨f', c', h1, h2, h3, h4, h5, h6⟩ := ih [] (failed || decide (res.1 ≠ expected)) c hret' (by simp) hd (by simp)
      refine ⟨f', c', ?_, h2, h3, ?_, h5, by simp⟩
      · simp only [runExamples, result_eq hn, hres, Go.bind_ok, if_neg Bool.false_ne_true]
        rw [forward_eq hn]
        have : Tracer.traces none (forwardRun sp [] word).2 = none := by
          generalize (forwardRun sp [] word).2 = evs
          induction evs with
          | nil => rfl
          | cons e evs ih => rw [Tracer.traces_cons]; exact ih
        rw [this]
        exact h1
      · rw [h4]
        simp only [Bool.or_eq_true, decide_eq_true_eq, List.mem_cons, exists_eq_or_imp, hdiff, or_assoc]
    | true =>
      have hmem := hname rfl
      obtain ⟨k1, k2, k3⟩ := coverTraces_spec name (traces ++ changes [] (forwardRun sp [] word).2) c hmem hd
      have hold : ∀ t ∈ traces ++ changes [] (forwardRun sp [] word).2, ∀ r, t.rule = some r →
          ⟨name, t.step, r.id⟩ ∈ (coverTraces name c (traces ++ changes [] (forwardRun sp [] word).2)).covered := by
        intro t ht r hr
        rw [k3]
        exact Or.inr ⟨t, ht, r, hr, rfl⟩
      obtain ⟨f', c', h1, h2, h3, h4, h5, h6⟩ := ih (traces ++ changes [] (forwardRun sp [] word).2)
        (failed || decide (res.1 ≠ expected)) _ hret' (fun _ => by rw [k2]; exact hmem) k1 hold
      refine ⟨f', c', ?_, h2, h3.trans k2, ?_, by simp, ?_⟩
      · simp only [runExamples, result_eq hn, hres, Go.bind_ok, if_true, forward_log hn, Option.map_some, Option.getD_some]
        exact h1
      · rw [h4]
        simp only [Bool.or_eq_true, decide_eq_true_eq, List.mem_cons, exists_eq_or_imp, hdiff, or_assoc]
      · intro _ x
        rw [h6 rfl, k3]
        simp only [List.mem_cons, exists_eq_or_imp, List.mem_append, shows_iff hn]
        constructor
        · rintro ((h | ⟨t, ht | ht, r, hr, hx⟩) | h)
          · exact Or.inl h
          · exact Or.inl (hx ▸ hcov t ht r hr)
          · exact Or.inr (Or.inl ⟨t.step, r.id, ⟨t, ht, r, hr, rfl, rfl⟩, hx⟩)
          · exact Or.inr (Or.inr h)
        · rintro (h | ⟨step, id, ⟨t, ht, r, hr, rfl, rfl⟩, hx⟩ | h)
          · exact Or.inl (Or.inl h)
          · exact Or.inl (Or.inr ⟨t, Or.inr ht, r, hr, hx⟩)
          · exact Or.inr h

theorem loads_unique {o : Ord} {files : Files} {name : Bytes} {sp sp' : Spec} (h : Loads o files name sp)
    (h' : Loads o files name sp') : sp = sp' := by
  obtain ⟨src, h1, h2⟩ := h
  obtain ⟨src', h3, h4⟩ := h'
  rw [h1, Option.some.injEq] at h3
  subst h3
  rw [h2] at h4
  exact Go.ok.inj h4

/-- The loop over the files. -/
theorem runFiles_spec (o : Ord) (files : Files) (wc : Bool) :
    ∀ (args : List Bytes) (failed : Bool) (c : Cover),
      (∀ name ∈ args, ∃ sp, Loads o files name sp ∧ ∀ ex ∈ sp.test, Returns sp ex.1) → c.Nodup →
      ∃ failed' c', runFiles o files wc args failed c = .ok (failed', c') ∧ c'.Nodup ∧
        (failed' = true ↔ failed = true ∨ ∃ name ∈ args, ∃ sp, Loads o files name sp ∧ ∃ ex ∈ sp.test, Differs sp ex) ∧
        (wc = false → c' = c) ∧
        (wc = true → (∀ n, n ∈ c'.names ↔ n ∈ c.names ∨ n ∈ args) ∧ ∀ x, x ∈ c'.covered ↔ x ∈ c.covered ∨
          ∃ name ∈ args, ∃ sp, Loads o files name sp ∧ ∃ ex ∈ sp.test, ∃ step id, Shows sp ex.1 step id ∧
            x = ⟨name, step, id⟩) := by
  intro args
  induction args with
  | nil => intro failed c _ hd; exact ⟨failed, c, rfl, hd, by simp, fun _ => rfl, by simp⟩
  | cons name args ih =>
    intro failed c hl hd
    obtain ⟨sp, ⟨src, hsrc, hsp⟩, hret⟩ := hl name List.mem_cons_self
    have hsp' : Loads o files name sp := ⟨src, hsrc, hsp⟩
    have hn := parseSpec_numbered hsp
    have hc0 : (if wc then c.visit name else c).Nodup := by
      split
      · exact Cover.visit_nodup hd name
      · exact hd
    obtain ⟨f1, c1, h1, h2, h3, h4, h5, h6⟩ := runExamples_spec hn wc name sp.test [] failed
      (if wc then c.visit name else c) hret (fun h => by rw [if_pos h]; exact (mem_insertNew _ _ _).2 (Or.inr rfl)) hc0
      (by simp)
    obtain ⟨f2, c2, k1, k2, k4, k5, k6⟩ := ih f1 c1 (fun n hn => hl n (List.mem_cons_of_mem _ hn)) h2
    have one : ∀ P : Spec → Prop, (∃ sp', Loads o files name sp' ∧ P sp') ↔ P sp :=
      fun P => ⟨fun ⟨sp', h, hp⟩ => loads_unique h hsp' ▸ hp, fun h => ⟨sp, hsp', h⟩⟩
    refine ⟨f2, c2, ?_, k2, ?_, ?_, ?_⟩
    · simp only [runFiles, hsrc, hsp, Go.bind_ok, h1]
      exact k1
    · rw [k4, h4]
      simp only [List.mem_cons, exists_eq_or_imp, one, or_assoc]
    · intro h
      subst h
      rw [k5 rfl, h5 rfl]; rfl
    · intro h
      subst h
      obtain ⟨k7, k8⟩ := k6 rfl
      refine ⟨fun n => ?_, fun x => ?_⟩
      · rw [k7, h3]
        have : n ∈ (c.visit name).names ↔ n ∈ c.names ∨ n = name := mem_insertNew _ _ _
        simp only [if_true, this, List.mem_cons, or_assoc]
      · rw [k8, h6 rfl]
        have e : x ∈ (if true = true then c.visit name else c).covered ↔ x ∈ c.covered := Iff.rfl
        rw [e]
        simp only [ List.mem_cons, exists_eq_or_imp, one, or_assoc]

/-! ## Covered rules -/

theorem forwardRun_rules (s : Spec) (word : Bytes) : ∀ t ∈ (forwardRun s [] word).2, ∀ r, t.rule = some r →
    (t.step = .rewrite ∧ r ∈ s.rewrite) ∨ (t.step = .transcribe ∧ r ∈ s.transcribe) := by
  have h1 : ∀ schemes word, (transliterateRun [] schemes word).2 = [] := by
    intro schemes word
    cases schemes <;> simp [transliterateRun]
  have h2 : ∀ step rules orig rows, ∀ t ∈ stepEvents step rules orig rows, t.step = step ∧ ∃ r ∈ rules, t.rule = some r := by
    intro step rules orig rows t ht
    unfold stepEvents at ht
    split at ht
    · simp at ht
    · obtain ⟨k, hk, rfl⟩ := List.mem_iff_getElem.1 ht
      simp only [List.getElem_mapIdx, ruleEvent, true_and]
      exact ⟨_, List.getElem_mem _, rfl⟩
  intro t ht r hr
  unfold forwardRun at ht
  have h1' := h1 s.lang.translit word
  cases hrun : transliterateRun [] s.lang.translit word with
  | mk res evs =>
    rw [hrun] at h1' ht
    simp only at h1'
    subst h1'
    cases res with
    | ok w =>
      simp only at ht
      cases ha : afterRun s w with
      | ok p =>
        obtain ⟨out, evs'⟩ := p
        rw [ha] at ht
        simp only [afterRun, Go.bind_eq_ok, Prod.exists, Go.pure_eq, Go.ok.injEq, Prod.mk.injEq] at ha
        obtain ⟨sws, _, rows, o, _, rows', o', _, rfl, rfl⟩ := ha
        simp only [List.nil_append, List.mem_cons, List.mem_append, List.not_mem_nil, or_false] at ht
        rcases ht with rfl | rfl | rfl | (ht | ht) | rfl | rfl
        · simp at hr
        · simp at hr
        · simp at hr
        · obtain ⟨h3, r', h4, h5⟩ := h2 _ _ _ _ t ht
          rw [hr] at h5; cases h5
          exact Or.inl ⟨h3, h4⟩
        · obtain ⟨h3, r', h4, h5⟩ := h2 _ _ _ _ t ht
          rw [hr] at h5; cases h5
          exact Or.inr ⟨h3, h4⟩
        · simp at hr
        · simp at hr
      | _ =>
        rw [ha] at ht
        simp only [List.mem_cons, List.not_mem_nil, or_false] at ht
        subst ht; simp at hr
    | _ =>
      simp only [List.mem_cons, List.not_mem_nil, or_false] at ht
      subst ht; simp at hr

theorem numbered_lt {rules : List Rule} (h : Numbered rules) {r : Rule} (hr : r ∈ rules) : r.id < rules.length := by
  have : r.id ∈ rules.map (·.id) := List.mem_map.2 ⟨r, hr, rfl⟩
  rw [h] at this
  simpa using this

theorem shows_rulesOf {sp : Spec} (hn : sp.Numbered) {word : Bytes} {step : TStep} {id : Nat}
    (h : Shows sp word step id) (name : Bytes) : ⟨name, step, id⟩ ∈ rulesOf name sp := by
  obtain ⟨t, ht, r, h1, rfl, rfl⟩ := (shows_iff hn _ _ _).1 h
  have := forwardRun_rules sp word t ((changes_sublist _ _).subset ht) r h1
  unfold rulesOf
  simp only [List.mem_append, List.mem_map, List.mem_range]
  rcases this with ⟨h2, h3⟩ | ⟨h2, h3⟩
  · exact Or.inl ⟨r.id, numbered_lt hn.1 h3, by rw [h2]⟩
  · exact Or.inr ⟨r.id, numbered_lt hn.2 h3, by rw [h2]⟩

theorem nodup_subset_length {α : Type} [DecidableEq α] : ∀ (l l' : List α), l.Nodup → (∀ x ∈ l, x ∈ l') →
    l.length ≤ l'.length := by
  intro l
  induction l with
  | nil => intro l' _ _; simp
  | cons a l ih =>
    intro l' hd hs
    rw [List.nodup_cons] at hd
    have ha := hs a (by simp)
    have := ih (l'.erase a) hd.2 (fun x hx => by
      refine (List.mem_erase_of_ne ?_).2 (hs x (by simp [hx]))
      rintro rfl; exact hd.1 hx)
    rw [List.length_erase_of_mem ha] at this
    have : 0 < l'.length := List.length_pos_of_mem ha
    simp only [List.length_cons]
    omega

/-- The numbers of rules do not depend on the order of the macros. -/
theorem rules_length {o : Ord} {src : Bytes} {sp : Spec} (h : parseSpec o src = .ok sp) :
    ∃ d, Hsl.parse src = .ok d ∧ sp.rewrite.length = (sectionPairs d (str "rewrite")).length ∧
      sp.transcribe.length = (sectionPairs d (str "transcribe")).length := by
  obtain ⟨d, hd, _, _, _, _, _, ⟨rp, hrp, hr⟩, ⟨tp, htp, ht⟩, _⟩ := parseSpec_fields h
  refine ⟨d, hd, ?_, ?_⟩
  · rw [(newRulesLoop_spec hr).1]
    rcases fromSection_ok hrp with ⟨h1, rfl⟩ | ⟨s, h1, _, h2⟩
    · simp [sectionPairs, h1]
    · simp only [Go.ok.injEq] at h2
      simp [sectionPairs, h1, h2]
  · rw [(newRulesLoop_spec ht).1]
    rcases fromSection_ok htp with ⟨h1, rfl⟩ | ⟨s, h1, _, h2⟩
    · simp [sectionPairs, h1]
    · simp only [Go.ok.injEq] at h2
      simp [sectionPairs, h1, h2]

theorem rules_length_eq {o o' : Ord} {src : Bytes} {sp sp' : Spec} (h : parseSpec o src = .ok sp)
    (h' : parseSpec o' src = .ok sp') :
    sp.rewrite.length = sp'.rewrite.length ∧ sp.transcribe.length = sp'.transcribe.length := by
  obtain ⟨d, hd, h1, h2⟩ := rules_length h
  obtain ⟨d', hd', h3, h4⟩ := rules_length h'
  rw [hd, Go.ok.injEq] at hd'
  subst hd'
  exact ⟨h1.trans h3.symm, h2.trans h4.symm⟩

theorem forEach_ok {α β : Type} {f : α → Go β} : ∀ {as : List α} {bs : List β}, forEach f as = .ok bs →
    bs.length = as.length ∧ ∀ (i : Nat) (a : α) (b : β), as[i]? = some a → bs[i]? = some b → f a = .ok b := by
  intro as
  induction as with
  | nil => intro bs h; simp [forEach] at h; subst h; simp
  | cons a as ih =>
    intro bs h
    simp only [forEach, Go.bind_eq_ok, Go.pure_eq, Go.ok.injEq] at h
    obtain ⟨b, h1, bs', h2, rfl⟩ := h
    obtain ⟨h3, h4⟩ := ih h2
    refine ⟨by simp [h3], ?_⟩
    intro i x y hx hy
    cases i with
    | zero => simp at hx hy; subst hx hy; exact h1
    | succ i => exact h4 i x y (by simpa using hx) (by simpa using hy)

theorem forEach_exists {α β : Type} {f : α → Go β} : ∀ {as : List α}, (∀ a ∈ as, ∃ b, f a = .ok b) →
    ∃ bs, forEach f as = .ok bs := by
  intro as
  induction as with
  | nil => intro _; exact ⟨[], rfl⟩
  | cons a as ih =>
    intro h
    obtain ⟨b, hb⟩ := h a (by simp)
    obtain ⟨bs, hbs⟩ := ih fun a ha => h a (by simp [ha])
    exact ⟨b :: bs, by simp [forEach, hb, hbs]⟩

/-- The totals of a coverage. -/
theorem coverage_ok {o : Ord} {files : Files} {c : Cover} {k n : Nat} (h : coverage o files c = .ok (k, n)) :
    k = c.covered.length ∧ ∃ specs : List Spec, specs.length = c.names.length ∧
      (∀ (i : Nat) (name : Bytes) (sp : Spec), c.names[i]? = some name → specs[i]? = some sp → Loads o files name sp) ∧
      n = (specs.map fun sp => sp.rewrite.length + sp.transcribe.length).sum := by
  unfold coverage at h
  simp only [Go.bind_eq_ok, Go.pure_eq, Go.ok.injEq, Prod.mk.injEq] at h
  obtain ⟨ts, h1, rfl, rfl⟩ := h
  refine ⟨rfl, ?_⟩
  generalize c.names = names at h1
  induction names generalizing ts with
  | nil => simp [forEach] at h1; subst h1; exact ⟨[], rfl, by simp, rfl⟩
  | cons name names ih =>
    simp only [forEach, Go.bind_eq_ok, Go.pure_eq, Go.ok.injEq] at h1
    obtain ⟨b, h2, bs, h3, rfl⟩ := h1
    obtain ⟨specs, h4, h5, h6⟩ := ih _ h3
    unfold nameTotal at h2
    split at h2
    · simp at h2
    · rename_i src hsrc
      split at h2
      · rename_i sp hsp
        simp only [Go.ok.injEq] at h2
        subst h2
        refine ⟨sp :: specs, by simp [h4], ?_, by simp [h6]⟩
        intro i n s hn hs
        cases i with
        | zero =>
          simp only [List.getElem?_cons_zero, Option.some.injEq] at hn hs
          subst hn hs; exact ⟨src, hsrc, hsp⟩
        | succ i => exact h5 i n s (by simpa using hn) (by simpa using hs)
      · simp at h2
      · simp at h2

/-! ## Lines -/

theorem scanLines_line : ∀ (l buf rest : Bytes), 0x0A ∉ l → (buf ++ l).length ≤ 65535 →
    scanLines buf (l ++ 0x0A :: rest) = (buf ++ l) :: scanLines [] rest := by
  intro l
  induction l with
  | nil => intro buf rest _ h; simp only [List.append_nil] at h; simp [scanLines]; omega
  | cons b l ih =>
    intro buf rest h hl
    simp only [List.mem_cons, not_or] at h
    rw [List.cons_append, scanLines, if_neg (fun e => h.1 e.symm), ih _ _ h.2 (by simp at hl ⊢; omega)]
    simp

theorem scanLines_last : ∀ (l buf : Bytes), 0x0A ∉ l → (buf ++ l).length ≤ 65535 → buf ++ l ≠ [] →
    scanLines buf l = [buf ++ l] := by
  intro l
  induction l with
  | nil =>
    intro buf _ h hne
    simp only [List.append_nil] at h hne
    simp only [scanLines, hne, false_or, List.append_nil]
    rw [if_neg (by omega)]
  | cons b l ih =>
    intro buf h hl hne
    simp only [List.mem_cons, not_or] at h
    rw [scanLines, if_neg (fun e => h.1 e.symm), ih _ h.2 (by simp at hl ⊢; omega) (by simp)]
    simp

theorem split_newline (src : Bytes) : (0x0A : UInt8) ∉ src ∨ ∃ l rest, src = l ++ 0x0A :: rest ∧ (0x0A : UInt8) ∉ l := by
  induction src with
  | nil => simp
  | cons b src ih =>
    by_cases hb : b = 0x0A
    · subst hb; exact Or.inr ⟨[], src, rfl, by simp⟩
    · rcases ih with h | ⟨l, rest, rfl, h⟩
      · exact Or.inl (by simp [h, Ne.symm hb])
      · exact Or.inr ⟨b :: l, rest, rfl, by simp [h, Ne.symm hb]⟩

theorem runes_no_newline {l : Bytes} (h : (0x0A : UInt8) ∉ l) : 0x0A ∉ runes l := by
  intro hm
  suffices ∀ k (w : Bytes), w.length ≤ k → 0x0A ∈ runes w → (0x0A : UInt8) ∈ w from h (this _ l (Nat.le_refl _) hm)
  intro k
  induction k with
  | zero =>
    intro w hw hm
    have : w = [] := List.eq_nil_of_length_eq_zero (by omega)
    simp [this, runes_nil] at hm
  | succ k ih =>
    intro w hw hm
    cases w with
    | nil => simp [runes_nil] at hm
    | cons b t =>
      rw [runes_cons] at hm
      rcases List.mem_cons.1 hm with hm | hm
      · have := decodeRune_lt (b := b) (t := t) (by rw [← hm]; decide)
        rw [this.1] at hm
        have hb : b = 0x0A := by
          apply UInt8.toNat_inj.1
          exact hm.symm
        simp [hb]
      · exact List.mem_cons_of_mem _ (List.mem_of_mem_drop (ih _ (by simp at hw ⊢; omega) hm))

theorem shortLines_rest {l rest : Bytes} (h : ShortLines (l ++ 0x0A :: rest)) : ShortLines rest := by
  intro a m b hb
  exact h (l ++ 0x0A :: a) m b (by simp [hb])

/-- The scanner reads the line of every character. -/
theorem scanLines_get : ∀ (src : Bytes), ShortLines src → ∀ (pre post : List Rune), runes src = pre ++ post →
    post ≠ [] → ∃ l, (scanLines [] src)[pre.count 0x0A]? = some l ∧ LineText src (1 + pre.count 0x0A) l := by
  intro src
  suffices ∀ n (src : Bytes), src.length ≤ n → ShortLines src → ∀ (pre post : List Rune), runes src = pre ++ post →
    post ≠ [] → ∃ l, (scanLines [] src)[pre.count 0x0A]? = some l ∧ LineText src (1 + pre.count 0x0A) l from
    this _ src (Nat.le_refl _)
  intro n
  induction n with
  | zero =>
    intro src hs _ pre post hr hp
    have : src = [] := List.eq_nil_of_length_eq_zero (by omega)
    subst this
    simp [runes_nil] at hr
    exact absurd hr.2 hp
  | succ n ih =>
    intro src hs hsh pre post hr hp
    rcases split_newline src with h | ⟨l, rest, rfl, hl⟩
    · have hc : pre.count 0x0A = 0 := by
        rw [List.count_eq_zero]
        intro hm
        exact runes_no_newline h (by rw [hr]; simp [hm])
      have hne : src ≠ [] := by
        rintro rfl
        simp [runes_nil] at hr
        exact hp hr.2
      have hlen := hsh [] src [] (by simp) h
      rw [scanLines_last src [] h (by simpa using hlen) (by simpa using hne), hc]
      exact ⟨src, by simp, [], [], by simp, by simp, by simp, h, by simp⟩
    · have hlen := hsh [] l (0x0A :: rest) (by simp) hl
      rw [scanLines_line l [] rest hl (by simpa using hlen)]
      have hrs : runes (l ++ 0x0A :: rest) = runes l ++ 0x0A :: runes rest := by
        simp only [runes, decode_split l (c := 0x0A) (by decide) rest, List.map_append, List.map_cons]
        rfl
      rw [hrs] at hr
      rcases List.append_eq_append_iff.1 hr with ⟨x, hx1, hx2⟩ | ⟨x, hx1, hx2⟩
      · cases x with
        | nil =>
          have hc : pre.count 0x0A = 0 := by
            rw [List.count_eq_zero, hx1]
            simpa using runes_no_newline hl
          rw [hc]
          exact ⟨l, by simp, [], 0x0A :: rest, by simp, by simp, by simp, hl, by simp⟩
        | cons a x =>
          simp only [List.cons_append, List.cons.injEq] at hx2
          obtain ⟨rfl, hx2⟩ := hx2
          obtain ⟨m, h1, a, b, h2, h3, h4, h5, h6⟩ := ih rest (by simp at hs; omega) (shortLines_rest hsh) x post hx2 hp
          have hc : pre.count 0x0A = x.count 0x0A + 1 := by
            rw [hx1, List.count_append, List.count_eq_zero.2 (runes_no_newline hl)]
            simp
          refine ⟨m, by rw [hc]; simpa using h1, l ++ 0x0A :: a, b, by simp [h2], ?_, Or.inr ?_, h5, h6⟩
          · rw [hc, List.count_append, List.count_eq_zero.2 hl]
            simp
            omega
          · rcases h4 with rfl | h4
            · simp
            · rw [List.getLast?_append, List.getLast?_cons, h4]; rfl
      · have hc : pre.count 0x0A = 0 := by
          rw [List.count_eq_zero]
          intro hm
          exact runes_no_newline hl (by rw [hx1]; simp [hm])
        rw [hc]
        exact ⟨l, by simp, [], 0x0A :: rest, by simp, by simp, by simp, hl, by simp⟩

theorem index_getElem? {α : Type} {l : List α} {i : Nat} {a : α} (h : l[i]? = some a) : index l i = .ok a := by
  simp [index, h]

theorem sectionBlocks_ok {src : Bytes} (hs : ShortLines src) {doc : Hsl.Doc} (hd : Hsl.parse src = .ok doc)
    (c : Cover) (name : Bytes) (step : TStep) {sname : Bytes} {sec : Hsl.Section} (hl : doc.lookup sname = some sec)
    {rules : List Rule} (hn : Numbered rules) (hlen : rules.length = sec.pairs.length) :
    ∃ bs, sectionBlocks c name ((scanLines [] src).map fun l => (dropCR l).length + 1) doc step sname rules = .ok bs ∧
      Profiled c name src step sec.pairs bs := by
  have hpair : ∀ (i : Nat) (p : Hsl.Pair), sec.pairs[i]? = some p → ∃ l, 1 ≤ p.line ∧ LineText src p.line l ∧
      index ((scanLines [] src).map fun l => (dropCR l).length + 1) (p.line - 1) = .ok ((dropCR l).length + 1) := by
    intro i p hp
    obtain ⟨pre, post, h1, _, h3, h4, h5, _⟩ := Props.C24_lines src doc hd sname sec hl p (List.mem_of_getElem? hp)
    have hne : post ≠ [] := by rcases h3 with ⟨t, rfl⟩ | ⟨t, rfl⟩ <;> simp
    obtain ⟨l, h6, h7⟩ := scanLines_get src hs pre post h1 hne
    refine ⟨l, h5, by rw [h4]; exact h7, ?_⟩
    refine index_getElem? ?_
    rw [h4, Nat.add_sub_cancel_left, List.getElem?_map, h6]; rfl
  have hid : ∀ (i : Nat) (r : Rule), rules[i]? = some r → r.id = i := by
    intro i r hr
    have : (rules.map (·.id))[i]? = some r.id := by rw [List.getElem?_map, hr]; rfl
    rw [hn, List.getElem?_range (List.getElem?_eq_some_iff.1 hr).1] at this
    exact (Option.some.inj this).symm
  unfold sectionBlocks
  simp only [hl]
  have hex : ∀ r ∈ rules, ∃ b, (do
      let pair ← index sec.pairs r.id
      let col ← if pair.line = 0 then .panic else
        index ((scanLines [] src).map fun l => (dropCR l).length + 1) (pair.line - 1)
      return (⟨name, pair.line, col, c.covered.contains ⟨name, step, r.id⟩⟩ : Block) : Go Block) = .ok b := by
    intro r hr
    have hlt := numbered_lt hn hr
    have hp : sec.pairs[r.id]? = some (sec.pairs[r.id]'(by omega)) := List.getElem?_eq_getElem _
    obtain ⟨l, h1, _, h3⟩ := hpair _ _ hp
    rw [index_getElem? hp]
    simp only [Go.bind_ok]
    rw [if_neg (by omega), h3]
    exact ⟨_, rfl⟩
  obtain ⟨bs, hbs⟩ := forEach_exists hex
  refine ⟨bs, hbs, ?_⟩
  obtain ⟨h1, h2⟩ := forEach_ok hbs
  refine ⟨by omega, ?_⟩
  intro i b p hb hp
  have hi : i < rules.length := by
    have := (List.getElem?_eq_some_iff.1 hp).1; omega
  have hr : rules[i]? = some rules[i] := List.getElem?_eq_getElem _
  have := h2 i _ b hr hb
  rw [hid i _ hr, index_getElem? hp] at this
  simp only [Go.bind_ok] at this
  obtain ⟨l, h3, h4, h5⟩ := hpair i p hp
  rw [if_neg (by omega), h5] at this
  simp only [Go.bind_ok, Go.pure_eq, Go.ok.injEq] at this
  subst this
  refine ⟨rfl, rfl, ?_, l, h4, rfl⟩
  simp

theorem sectionPairs_some {d : Hsl.Doc} {name : Bytes} {sec : Hsl.Section} (h : d.lookup name = some sec) :
    sectionPairs d name = sec.pairs := by simp [sectionPairs, h]

/-- The profile of a file with both sections. -/
theorem fileBlocks_ok {o : Ord} {src : Bytes} {sp : Spec} (hp : parseSpec o src = .ok sp) (hs : ShortLines src)
    {d : Hsl.Doc} (hd : Hsl.parse src = .ok d) {rw_ tr : Hsl.Section} (hr : d.lookup (str "rewrite") = some rw_)
    (ht : d.lookup (str "transcribe") = some tr) (c : Cover) (name : Bytes) :
    ∃ a b, fileBlocks o c name src = .ok (a ++ b) ∧ Profiled c name src .rewrite rw_.pairs a ∧
      Profiled c name src .transcribe tr.pairs b := by
  obtain ⟨d', hd', h1, h2⟩ := rules_length hp
  rw [hd, Go.ok.injEq] at hd'
  subst hd'
  rw [sectionPairs_some hr] at h1
  rw [sectionPairs_some ht] at h2
  have hn := parseSpec_numbered hp
  obtain ⟨a, ha, ha'⟩ := sectionBlocks_ok hs hd c name .rewrite hr hn.1 h1
  obtain ⟨b, hb, hb'⟩ := sectionBlocks_ok hs hd c name .transcribe ht hn.2 h2
  refine ⟨a, b, ?_, ha', hb'⟩
  simp only [fileBlocks, hd, hp, Go.bind_ok, ha, hb, Go.pure_eq]

/-! ## The whole command -/

theorem formatted_unique {width : Bytes → Nat} : ∀ {ts : List Line} {step : Bytes} {col : Nat} {out out' : Bytes},
    Formatted width step col ts out → Formatted width step col ts out' → out = out' := by
  intro ts
  induction ts with
  | nil => intro step col out out' h h'; cases h; cases h'; rfl
  | cons t ts ih =>
    intro step col out out' h h'
    cases h with
    | cons _ _ c1 _ _ hd1 r1 a1 a2 a3 a4 a5 =>
      cases h' with
      | cons _ _ c2 _ _ hd2 r2 b1 b2 b3 b4 b5 =>
        have hc : c1 = c2 := by
          by_cases h : width t.word ≤ col
          · rw [a3 h, b3 h]
          · have x := a4 (by omega)
            have y := b4 (by omega)
            omega
        have hh : hd1 = hd2 := by
          by_cases h : t.step = step
          · rw [a1 h, b1 h]
          · rw [a2 h, b2 h]
        subst hc hh
        rw [ih a5 b5]

theorem wordErr_cases (g : Go Bytes) : (∃ r, wordErr g = .ok r) ∨ wordErr g = .panic ∨ wordErr g = .hang := by
  cases g <;> simp [wordErr]

theorem runExamples_returns {sp : Spec} (hn : sp.Numbered) (wc : Bool) (name : Bytes) :
    ∀ (exs : List (Bytes × Bytes)) (traces : List Trace) (failed : Bool) (c : Cover),
      (∀ r, runExamples wc name sp exs traces failed c = .ok r → ∀ ex ∈ exs, Returns sp ex.1) ∧
      ∀ e, runExamples wc name sp exs traces failed c ≠ .err e := by
  intro exs
  induction exs with
  | nil => intro traces failed c; simp [runExamples]
  | cons ex exs ih =>
    intro traces failed c
    obtain ⟨word, expected⟩ := ex
    simp only [runExamples, result_eq hn]
    rcases wordErr_cases (hangulize sp [] word) with ⟨res, h⟩ | h | h
    · simp only [h, Go.bind_ok]
      refine ⟨?_, (ih _ _ _).2⟩
      intro r hr ex hex
      rcases List.mem_cons.1 hex with rfl | hex
      · exact ⟨res, h⟩
      · exact (ih _ _ _).1 r hr ex hex
    · simp [h]
    · simp [h]

/-- Files which were tested have been loaded, and a file which cannot be loaded makes an error. -/
theorem runFiles_returns (o : Ord) (files : Files) (wc : Bool) : ∀ (args : List Bytes) (failed : Bool) (c : Cover),
    (∀ r, runFiles o files wc args failed c = .ok r →
      ∀ name ∈ args, ∃ sp, Loads o files name sp ∧ ∀ ex ∈ sp.test, Returns sp ex.1) ∧
    ∀ e, runFiles o files wc args failed c = .err e → ∃ name ∈ args, ¬ ∃ sp, Loads o files name sp := by
  intro args
  induction args with
  | nil => intro failed c; simp [runFiles]
  | cons name args ih =>
    intro failed c
    cases hsrc : files name with
    | none =>
      simp only [runFiles, hsrc]
      refine ⟨by simp, fun e _ => ⟨name, by simp, ?_⟩⟩
      rintro ⟨sp, src, h, _⟩
      rw [hsrc] at h; cases h
    | some src =>
      cases hsp : parseSpec o src with
      | ok sp =>
        have hl : Loads o files name sp := ⟨src, hsrc, hsp⟩
        obtain ⟨h1, h2⟩ := runExamples_returns (parseSpec_numbered hsp) wc name sp.test [] failed
          (if wc then c.visit name else c)
        simp only [runFiles, hsrc, hsp, Go.bind_ok]
        generalize runExamples wc name sp sp.test [] failed (if wc then c.visit name else c) = g at h1 h2
        cases g with
        | ok p =>
          obtain ⟨f', c'⟩ := p
          simp only [Go.bind_ok]
          refine ⟨?_, ?_⟩
          · intro r hr n hn
            rcases List.mem_cons.1 hn with rfl | hn
            · exact ⟨sp, hl, h1 _ rfl⟩
            · exact (ih _ _).1 r hr n hn
          · intro e he
            obtain ⟨n, hn, h⟩ := (ih _ _).2 e he
            exact ⟨n, by simp [hn], h⟩
        | err e => exact absurd rfl (h2 e)
        | panic => simp
        | hang => simp
      | err e =>
        simp only [runFiles, hsrc, hsp, Go.bind_err]
        refine ⟨by simp, fun e _ => ⟨name, by simp, ?_⟩⟩
        rintro ⟨sp, src', h, h'⟩
        rw [hsrc] at h; cases h
        rw [hsp] at h'; cases h'
      | panic => simp [runFiles, hsrc, hsp]
      | hang => simp [runFiles, hsrc, hsp]

theorem forEach_err {α β : Type} {f : α → Go β} {e : Err} : ∀ {as : List α}, forEach f as = .err e →
    ∃ a ∈ as, f a = .err e := by
  intro as
  induction as with
  | nil => intro h; simp [forEach] at h
  | cons a as ih =>
    intro h
    simp only [forEach] at h
    cases hf : f a with
    | ok b =>
      rw [hf] at h
      simp only [Go.bind_ok] at h
      cases hr : forEach f as with
      | ok bs => rw [hr] at h; simp at h
      | err e' =>
        rw [hr] at h
        simp only [Go.bind_err, Go.err.injEq] at h
        subst h
        obtain ⟨x, hx, h⟩ := ih hr
        exact ⟨x, by simp [hx], h⟩
      | panic => rw [hr] at h; simp at h
      | hang => rw [hr] at h; simp at h
    | err e' => rw [hf] at h; simp at h; subst h; exact ⟨a, by simp, hf⟩
    | panic => rw [hf] at h; simp at h
    | hang => rw [hf] at h; simp at h

theorem index_noErr {α : Type} (l : List α) (i : Nat) (e : Err) : index l i ≠ .err e := by
  unfold index; split <;> simp

theorem sectionBlocks_noErr (c : Cover) (name : Bytes) (cols : List Nat) (doc : Hsl.Doc) (step : TStep) (sec : Bytes)
    (rules : List Rule) (e : Err) : sectionBlocks c name cols doc step sec rules ≠ .err e := by
  unfold sectionBlocks
  split
  · simp
  · intro h
    obtain ⟨r, _, h⟩ := forEach_err h
    revert h
    generalize h1 : index _ r.id = g1
    cases g1 with
    | ok pair =>
      simp only [Go.bind_ok]
      by_cases hz : pair.line = 0
      · simp [hz]
      · rw [if_neg hz]
        generalize h2 : index cols (pair.line - 1) = g2
        cases g2 with
        | ok col => simp
        | err e' => exact absurd h2 (index_noErr _ _ _)
        | panic => simp
        | hang => simp
    | err e' => exact absurd h1 (index_noErr _ _ _)
    | panic => simp
    | hang => simp

/-- Writing the profile of files which were loaded before never returns an error. -/
theorem writeProfile_noErr {o o' : Ord} {files : Files} {c : Cover}
    (h : ∀ name ∈ c.names, ∃ sp, Loads o files name sp) (e : Err) : writeProfile o' files c ≠ .err e := by
  unfold writeProfile
  intro he
  have : ∀ {g : Go (List (List Block))}, (g >>= fun blocks => (pure blocks.flatten : Go (List Block))) = .err e →
      ∃ e', g = .err e' := by
    intro g hg
    cases g with
    | err e' => exact ⟨e', rfl⟩
    | ok _ => simp at hg
    | panic => simp at hg
    | hang => simp at hg
  obtain ⟨e', he'⟩ := this he
  obtain ⟨name, hn, hf⟩ := forEach_err he'
  obtain ⟨sp, src, hsrc, hsp⟩ := h name hn
  rw [nameBlocks, hsrc] at hf
  obtain ⟨d, hd, _⟩ := parseSpec_fields hsp
  simp only [fileBlocks, hd, Go.bind_ok] at hf
  revert hf
  cases parseSpec o' src with
  | ok sp' =>
    simp only
    generalize h1 : sectionBlocks _ _ _ _ TStep.rewrite _ _ = g1
    cases g1 with
    | ok a =>
      simp only [Go.bind_ok]
      generalize h2 : sectionBlocks _ _ _ _ TStep.transcribe _ _ = g2
      cases g2 with
      | ok b => simp
      | err e' => exact absurd h2 (sectionBlocks_noErr _ _ _ _ _ _ _ _)
      | panic => simp
      | hang => simp
    | err e' => exact absurd h1 (sectionBlocks_noErr _ _ _ _ _ _ _ _)
    | panic => simp
    | hang => simp
  | _ => simp

end Verif.Cli
