import Verif.Proofs.VarMatch
import Verif.Props.Hre

/-!
# Properties C15 and C18: variables
-/

namespace Verif.Props
open Verif.Hre Verif.Rx Verif.Spec.Hre Verif.Spec.Vars

instance (vars : List (Bytes × List Bytes)) (it : Item) : Decidable (it.Defined vars) := by
  cases it <;> unfold Item.Defined <;> infer_instance

instance (vars : List (Bytes × List Bytes)) (it : Item) : Decidable (it.Simple vars) := by
  cases it <;> unfold Item.Simple <;> simp only <;> infer_instance

instance (it : Item) : Decidable it.Solid := by cases it <;> unfold Item.Solid <;> infer_instance

private theorem written_ne {items : List Item} (hs : ∃ it ∈ items, it.Solid) : written items ≠ [] := by
  intro he
  obtain ⟨it, hi, hso⟩ := hs
  obtain ⟨a, b, rfl⟩ := List.append_of_mem hi
  have app : ∀ a b : List Item, written (a ++ b) = written a ++ written b := by
    intro a b
    induction a with
    | nil => rfl
    | cons x a ih => cases x <;> simp [written, ih]
  rw [app] at he
  have := (List.append_eq_nil_iff.1 he).2
  cases it with
  | text t => exact hso (List.append_eq_nil_iff.1 this).1
  | var n vals => simp [written] at this

private theorem ways_var (n : Bytes) : ∀ (vals : List Bytes) (w : Bytes), ∃ more,
    ways [.var n vals] w = ((vals.find? (· <+: w)).toList.map fun v => [v]) ++ more ∧
      (vals.find? (· <+: w) = none → more = [])
  | [], w => ⟨[], rfl, fun _ => rfl⟩
  | v :: vals, w => by
    obtain ⟨more, h1, h2⟩ := ways_var n vals w
    have h1' : (vals.flatMap fun v => if v <+: w then (ways [] (w.drop v.length)).map (v :: ·) else []) = _ := h1
    by_cases hv : v <+: w
    · refine ⟨ways [.var n vals] w, ?_, ?_⟩
      · rw [ways, List.flatMap_cons, if_pos hv, List.find?_cons_of_pos (by simpa using hv)]
        rfl
      · rw [List.find?_cons_of_pos (by simpa using hv)]
        simp
    · refine ⟨more, ?_, ?_⟩
      · rw [ways, List.flatMap_cons, if_neg hv, List.find?_cons_of_neg (by simpa using hv), h1']
        rfl
      · rw [List.find?_cons_of_neg (by simpa using hv)]
        exact h2

private theorem matches_var (n : Bytes) (vals : List Bytes) : ∀ (w : Bytes) (i k : Nat),
    matches_ [.var n vals] i k w = occurrences vals i k w
  | [], _, _ => rfl
  | c :: w, i, k + 1 => matches_var n vals w (i + 1) k
  | c :: w, i, 0 => by
    obtain ⟨more, h1, h2⟩ := ways_var n vals (c :: w)
    rw [matches_, occurrences, h1]
    cases hf : vals.find? (· <+: c :: w) with
    | none =>
      rw [h2 hf]
      exact matches_var n vals w (i + 1) 0
    | some v =>
      have : reading [.var n vals] [v] = v := by simp [reading]
      show report [.var n vals] i [v] :: matches_ [.var n vals] (i + 1) ((reading [.var n vals] [v]).length - 1) w = _
      rw [this, matches_var n vals w]
      simp [report, this, places]

/-- C18 (partial): the pattern `<v>` finds exactly the occurrences of the values of `v`, taken literally, the value listed
first being preferred.  The values are non-empty and valid UTF-8 without `^`, `$` and `{`, the word is valid UTF-8.
Missing: other values, for which it is false (`C18_values_refuted`). -/
theorem C18_var_partial {vars : List (Bytes × List Bytes)} {name : Bytes} {vals : List Bytes}
    (hn : ValidUtf8 name ∧ name ≠ [] ∧ 0x3C ∉ name ∧ 0x3E ∉ name ∧ 0x0A ∉ name)
    (hl : vars.lookup name = some vals) (h0 : vals ≠ [])
    (hv : ∀ v ∈ vals, v ≠ [] ∧ ValidUtf8 v ∧ 0x5E ∉ v ∧ 0x24 ∉ v ∧ 0x7B ∉ v) :
    ∃ p, newPattern (0x3C :: (name ++ [0x3E])) [] vars = .ok p ∧ p.usedVars = [vals] ∧
      ∀ word, ValidUtf8 word → find p word (-1) = .ok (occurrences vals 0 0 word) ∧
        ∀ n : Nat, find p word n = .ok ((occurrences vals 0 0 word).take n) := by
  have hs : ∀ it ∈ [Item.var name vals], it.Simple vars := by
    intro it hi
    rw [List.mem_singleton] at hi
    subst hi
    exact ⟨⟨hn.1, hn.2.1, hn.2.2.1, hn.2.2.2.1, hn.2.2.2.2, hl, h0⟩, fun v h => (hv v h).2⟩
  obtain ⟨letters, hp⟩ := newPattern_simple hs (by simp [written])
  refine ⟨_, hp, rfl, fun word hw => ?_⟩
  have := (find_items hs ⟨_, List.mem_singleton.2 rfl, fun h => (hv _ h).1 rfl⟩ letters hw).1
  rw [matches_var] at this
  exact ⟨this, fun n => find_take this⟩

/-- The values `a`, `a.` and `()` in the word `a.()ba`: `a` is found twice though `a.` stands there too. -/
example : (∀ v ∈ [str "a", str "a.", str "()"], v ≠ [] ∧ ValidUtf8 v ∧ 0x5E ∉ v ∧ 0x24 ∉ v ∧ 0x7B ∉ v) ∧
    ValidUtf8 (str "a.()ba") ∧
    occurrences [str "a", str "a.", str "()"] 0 0 (str "a.()ba") = [[0, 1, 0, 1], [2, 4, 2, 4], [5, 6, 5, 6]] := by
  decide +kernel

/-- C18 (partial): a pattern of plain text and vars finds at each place the first way to read it, where the values of the
vars are tried in the listed order and earlier vars count first, and reports where the values lie.  Text is
without meta characters, values as in `C18_var_partial` but some may be empty as long as one item always reads
something. -/
theorem C18_items_partial {vars : List (Bytes × List Bytes)} {items : List Item} (h : ∀ it ∈ items, it.Simple vars)
    (hs : ∃ it ∈ items, it.Solid) :
    ∃ p, newPattern (written items) [] vars = .ok p ∧
      ∀ word, ValidUtf8 word → find p word (-1) = .ok (matches_ items 0 0 word) ∧
        ∀ n : Nat, find p word n = .ok ((matches_ items 0 0 word).take n) := by
  have hne := written_ne hs
  obtain ⟨letters, hp⟩ := newPattern_simple h hne
  refine ⟨_, hp, fun word hw => ?_⟩
  have := (find_items h hs letters hw).1
  exact ⟨this, fun n => find_take this⟩

/-- `x<v><v>` with the values `a`, `ab`, `b` and empty in the word `xabxb`. -/
example : let vals := [str "a", str "ab", str "b", []]
    let items := [Item.text (str "x"), .var (str "v") vals, .var (str "v") vals]
    (∀ it ∈ items, it.Simple [(str "v", vals)]) ∧ (∃ it ∈ items, it.Solid) ∧ written items = str "x<v><v>" ∧
    matches_ items 0 0 (str "xabxb") = [[0, 3, 1, 2, 2, 3], [3, 5, 4, 5, 5, 5]] := by
  decide +kernel

/-- C18 fails for values with `^`, which do not even compile, with `{`, which are taken for lookarounds, and for
empty values, on which `Find` panics. -/
theorem C18_values_refuted :
    newPattern (str "<v>") [] [(str "v", [str "^"])] = .err .regexpSyntax ∧
    newPattern (str "<v>") [] [(str "v", [str "{a}"])] = .err .hre ∧
    ∃ p, newPattern (str "<v>") [] [(str "v", [str "a", []])] = .ok p ∧ find p (str "xa") (-1) = .panic := by
  refine ⟨by rfl, by rfl, ?_⟩
  have h : ((newPattern (str "<v>") [] [(str "v", [str "a", []])]).bind fun p => .ok (find p (str "xa") (-1))) =
      .ok .panic := by
    decide +kernel
  rw [go_bind_ok] at h
  obtain ⟨p, h1, h2⟩ := h
  simp only [Go.ok.injEq] at h2
  exact ⟨p, h1, h2⟩

/-- C15 (partial): if the vars of a pattern have captured values of theirs, then each var of the replacement yields
the value whose number is that of the captured value modulo the number of values, and a replacement with more
vars than the pattern is an error.  This holds for every pattern, word and match.  The vars of the replacement are defined and
have values.  Missing: vars that captured none of their values or have no values, for which it
panics (`C15_interpolate_refuted`). -/
theorem C15_interpolate_partial {vars : List (Bytes × List Bytes)} {tos : List Item} (ht : ∀ it ∈ tos, it.Defined vars)
    {p : Pattern} {word : Bytes} {m : List Int} {fs : List (List Bytes × Bytes)} (h1 : fs.map (·.1) = p.usedVars)
    (h2 : ∀ x ∈ fs, x.2 ∈ x.1) (h3 : ∀ k x, fs[k]? = some x → captured word m (k + 1) = .ok x.2) :
    interpolate (newRPattern (written tos) [] vars) p word m =
      match mapped tos fs with
      | some t => .ok t
      | none => .err .interpolate := by
  rw [interpolate, newRPattern_parts ht]
  exact interpolate_chosen ht h1 h2 h3 0 []

/-- The second value of `v` is captured, `<w>` gives its second value and `<w>` with one value only gives that. -/
example : mapped [.var (str "w") [str "1", str "2"], .text (str "-"), .var (str "u") [str "9"]]
    [([str "a", str "b"], str "b"), ([str "a", str "b"], str "b")] = some (str "2-9") := by decide +kernel

/-- C15 (partial): rewriting with vars end to end.  A rule whose pattern is plain text and vars replaces each of its
matches by the replacement with the values mapped by their numbers, or keeps it if the replacement has more
vars than the pattern. -/
theorem C15_replace_partial {vars : List (Bytes × List Bytes)} {items tos : List Item} (h : ∀ it ∈ items, it.Simple vars)
    (hs : ∃ it ∈ items, it.Solid) (ht : ∀ it ∈ tos, it.Defined vars) {r : Rule}
    (hp : newPattern (written items) [] vars = .ok r.pat) (hr : r.to = newRPattern (written tos) [] vars)
    {word : Bytes} (hw : ValidUtf8 word) :
    r.replace word = .ok (rewritten items tos 0 word) ∧
      Hre.replace r.pat word r.to (-1) = .ok (rewritten items tos 0 word) := by
  have hne := written_ne hs
  obtain ⟨letters, hp'⟩ := newPattern_simple h hne
  rw [hp] at hp'
  have hpat : r.pat = patOf items letters := by simpa [patOf] using hp'
  have hto : r.to.parts = partsOf [] tos := by rw [hr, newRPattern_parts ht]
  have := replace_items h hs ht hpat hto hw
  refine ⟨this, ?_⟩
  rw [replace_agree r word ?_, this]
  intro ms hf
  obtain ⟨f1, f2⟩ := find_items h hs letters hw
  rw [hpat, f1, Go.ok.injEq] at hf
  subst hf
  exact f2

/-- `<v>x<v>` to `<w>-<u>` in the word `axbxaxb`. -/
example : let v := [str "a", str "b"]
    let vars := [(str "v", v), (str "w", [str "1", str "2"]), (str "u", [str "9"])]
    let items := [Item.var (str "v") v, .text (str "x"), .var (str "v") v]
    let tos := [Item.var (str "w") [str "1", str "2"], .text (str "-"), .var (str "u") [str "9"]]
    (∀ it ∈ items, it.Simple vars) ∧ (∃ it ∈ items, it.Solid) ∧ (∀ it ∈ tos, it.Defined vars) ∧
    written items = str "<v>x<v>" ∧ written tos = str "<w>-<u>" ∧
    rewritten items tos 0 (str "axbxaxb") = str "1-9x1-9" := by
  decide +kernel

/-- C15 fails for a var that took no part in the match, for a group before the var and for a var without values in
the replacement: all of them panic. -/
theorem C15_interpolate_refuted :
    let vars := [(str "v", [str "a", str "b"]), (str "w", [str "1", str "2"])]
    (∃ p m, newPattern (str "<v>?x") [] vars = .ok p ∧ find p (str "x") (-1) = .ok [m] ∧
      interpolate (newRPattern (str "<w>") [] vars) p (str "x") m = .panic) ∧
    (∃ p m, newPattern (str "(x)<v>") [] vars = .ok p ∧ find p (str "xa") (-1) = .ok [m] ∧
      interpolate (newRPattern (str "<w>") [] vars) p (str "xa") m = .panic) ∧
    ∃ p m, newPattern (str "<v>") [] vars = .ok p ∧ find p (str "a") (-1) = .ok [m] ∧
      interpolate (newRPattern (str "<u>") [] vars) p (str "a") m = .panic := by
  have key : ∀ (vars : List (Bytes × List Bytes)) (e to w : Bytes) (m : List Int),
      ((newPattern e [] vars).bind fun p => .ok (find p w (-1), interpolate (newRPattern to [] vars) p w m)) =
        .ok (.ok [m], .panic) →
      ∃ p m, newPattern e [] vars = .ok p ∧ find p w (-1) = .ok [m] ∧
        interpolate (newRPattern to [] vars) p w m = .panic := by
    intro vars e to w m h
    rw [go_bind_ok] at h
    obtain ⟨p, h1, h2⟩ := h
    simp only [Go.ok.injEq, Prod.mk.injEq] at h2
    exact ⟨p, m, h1, h2.1, h2.2⟩
  exact ⟨key _ _ _ _ [0, 1, -1, -1] (by decide +kernel), key _ _ _ _ [0, 2, 0, 1, 1, 2] (by decide +kernel),
    key _ _ _ _ [0, 1, 0, 1] (by decide +kernel)⟩

end Verif.Props
