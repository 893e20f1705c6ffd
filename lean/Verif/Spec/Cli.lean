import Verif.Model.Cli

/-! What the command line should do, for C53–C55. -/

namespace Verif.Spec.Cli

open Verif.Cli

/-! ## Traces -/

/-- What is written after the words. -/
def note (t : Line) : Bytes :=
  match t.rule, t.why with
  | some r, _ => str " | " ++ r
  | none, [] => []
  | none, why => str " | (" ++ why ++ str ")"

/-- The text for some traces, after a trace of a given step and with a column of a given width.  A column which is
too narrow becomes the least multiple of 8 above the width of the word. -/
inductive Formatted (width : Bytes → Nat) : Bytes → Nat → List Line → Bytes → Prop
  | nil (step : Bytes) (col : Nat) : Formatted width step col [] []
  | cons (step : Bytes) (col col' : Nat) (t : Line) (ts : List Line) (header rest : Bytes) :
    (t.step = step → header = []) →
    (t.step ≠ step → header = str "[" ++ t.step ++ str "]\n") →
    (width t.word ≤ col → col' = col) →
    (col < width t.word → width t.word < col' ∧ col' ≤ width t.word + 8 ∧ 8 ∣ col') →
    Formatted width t.step col' ts rest →
    Formatted width step col (t :: ts)
      (header ++ (str "  " ++ (t.word ++ (List.replicate (col' - width t.word) 0x20 ++ (note t ++ (str "\n" ++ rest))))))

/-! ## Words -/

/-- What the command prints for some words, and how it ends: an empty word ends it, an error ends it with status 1,
and if the hangulizer does not return, neither does the command. -/
inductive Outcome (f : Bytes → Go WordErr) : List Bytes → List Bytes → Main → Prop
  | done (ws : List Bytes) : Outcome f ([] :: ws) [] (.exited 0)
  | word {w r : Bytes} {ws rs : List Bytes} {m : Main} : w ≠ [] → f w = .ok (r, none) → Outcome f ws rs m →
    Outcome f (w :: ws) (r :: rs) m
  | fail {w r : Bytes} {e : Err} (ws : List Bytes) : w ≠ [] → f w = .ok (r, some e) →
    Outcome f (w :: ws) [] (.exited 1)
  | crash {w : Bytes} (ws : List Bytes) : w ≠ [] → f w = .panic ∨ (∃ e, f w = .err e) → Outcome f (w :: ws) [] .crashed
  | stuck {w : Bytes} (ws : List Bytes) : w ≠ [] → f w = .hang → Outcome f (w :: ws) [] .stuck

/-- A text consisting of lines which end with a newline. -/
def ofLines (ls : List Bytes) : Bytes := ls.flatMap fun l => l ++ [0x0A]

/-- White space around a text. -/
inductive Trimmed : List Rune → List Rune → Prop
  | mk (a m b : List Rune) : (∀ c ∈ a, Unicode.isSpace c = true) → (∀ c ∈ b, Unicode.isSpace c = true) →
    (∀ c, m.head? = some c → Unicode.isSpace c = false) → (∀ c, m.getLast? = some c → Unicode.isSpace c = false) →
    Trimmed (a ++ m ++ b) m

/-! ## Tests -/

/-- The spec in a file. -/
def Loads (o : Ord) (files : Files) (name : Bytes) (sp : Spec) : Prop :=
  ∃ src, files name = some src ∧ parseSpec o src = .ok sp

/-- The hangulizer returns, with a result or an error. -/
def Returns (sp : Spec) (word : Bytes) : Prop := ∃ r, wordErr (hangulize sp [] word) = .ok r

/-- A rule shows in the trace of an example. -/
def Shows (sp : Spec) (word : Bytes) (step : TStep) (id : Nat) : Prop :=
  ∃ st t r, (forward sp [] word (some ⟨[], []⟩)).2 = some st ∧ t ∈ st.log ∧ t.rule = some r ∧ t.step = step ∧ r.id = id

/-- An example fails: what the hangulizer returns is not what was expected.  A word with an error has an empty
result. -/
def Differs (sp : Spec) (ex : Bytes × Bytes) : Prop :=
  ∃ r, wordErr (hangulize sp [] ex.1) = .ok r ∧ r.1 ≠ ex.2

/-- The rules of a spec, as they are named by a cover. -/
def rulesOf (name : Bytes) (sp : Spec) : List Cov :=
  (List.range sp.rewrite.length).map (fun i => ⟨name, .rewrite, i⟩) ++
    (List.range sp.transcribe.length).map fun i => ⟨name, .transcribe, i⟩

/-- No line is longer than what a scanner takes. -/
def ShortLines (src : Bytes) : Prop := ∀ a l b, src = a ++ l ++ b → (0x0A : UInt8) ∉ l → l.length ≤ 65535

/-- The text of a line, with a final `\r`, but without the newline.  Lines are counted from 1. -/
def LineText (src : Bytes) (n : Nat) (l : Bytes) : Prop :=
  ∃ a b, src = a ++ l ++ b ∧ n = 1 + a.count 0x0A ∧ (a = [] ∨ a.getLast? = some 0x0A) ∧ 0x0A ∉ l ∧
    (b = [] ∨ b.head? = some 0x0A)

/-- The lines of a profile for the rules of a section: one for each rule in order, with the line it was written on and
the length of this line. -/
def Profiled (c : Cover) (name src : Bytes) (step : TStep) (pairs : List Hsl.Pair) (bs : List Block) : Prop :=
  bs.length = pairs.length ∧ ∀ i (b : Block) (p : Hsl.Pair), bs[i]? = some b → pairs[i]? = some p →
    b.name = name ∧ b.line = p.line ∧ (b.covered = true ↔ ⟨name, step, i⟩ ∈ c.covered) ∧
      ∃ l, LineText src p.line l ∧ b.col = (dropCR l).length + 1

end Verif.Spec.Cli
