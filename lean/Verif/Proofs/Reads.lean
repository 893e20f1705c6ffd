import Verif.Proofs.HslFast
import Verif.Proofs.Literal

/-! Reading a source piece by piece: what the kernel checks about whole files is put together from pieces of a few
kilobytes, which end at line ends. -/

namespace Verif.Hsl

open Verif.Spec.Hsl

/-- A pair with its section, without its line. -/
abbrev Item := Bytes × Kind × Bytes × List Bytes

/-- A token that neither stops the parser nor ends the source. -/
def fine : Token → Bool
  | .illegal | .eof | .panics | .hangs => false
  | _ => true

/-- Where the parser is after some tokens: the section and the last string, unless values are being read. -/
def endState : (sect key : Bytes) → (inValues : Bool) → List Token → Option (Bytes × Bytes)
  | sect, key, b, [] => if b then none else some (sect, key)
  | sect, key, true, .newline :: ts => endState sect key false ts
  | sect, key, true, _ :: ts => endState sect key true ts
  | sect, _, false, .string s :: ts => endState sect (encode s) false ts
  | _, key, false, .colon :: ts => endState key key false ts
  | sect, key, false, .equal :: ts | sect, key, false, .arrow :: ts => endState sect key true ts
  | sect, key, false, _ :: ts => endState sect key false ts

/-- The first token that is no newline is a string: what was read before does not matter. -/
def fresh : List Token → Bool
  | [] => true
  | .newline :: ts => fresh ts
  | .string _ :: _ => true
  | _ => false

theorem entries_fresh (sect k k' : Bytes) : ∀ (ts : List Token), fresh ts = true →
    entries sect k false (at0 ts) = entries sect k' false (at0 ts)
  | [], _ => rfl
  | tk :: ts, h => by
    cases tk <;> simp only [fresh, Bool.false_eq_true] at h <;> simp only [at0, List.map_cons, entries]
    exact entries_fresh sect k k' ts h

theorem endState_fresh (sect k k' : Bytes) : ∀ (ts : List Token), fresh ts = true →
    (endState sect k false ts).map Prod.fst = (endState sect k' false ts).map Prod.fst
  | [], _ => rfl
  | tk :: ts, h => by
    cases tk <;> simp only [fresh, Bool.false_eq_true] at h <;> simp only [endState]
    exact endState_fresh sect k k' ts h

theorem fresh_append : ∀ (a b : List Token), fresh a = true → fresh b = true → fresh (a ++ b) = true
  | [], _, _, h => h
  | tk :: ts, b, h, h' => by
    cases tk <;> simp only [fresh, Bool.false_eq_true] at h <;> simp only [List.cons_append, fresh]
    exact fresh_append ts b h h'

theorem values_closed (b : List Token) : ∀ (a : List Token) (sect key : Bytes) (x : Bytes × Bytes),
    endState sect key true a = some x → values (at0 (a ++ b)) = values (at0 a)
  | [], _, _, _, h => by simp [endState] at h
  | tk :: a, sect, key, x, h => by
    cases tk <;> simp only [endState] at h <;> simp only [at0, List.cons_append, List.map_cons, values]
    all_goals
      have := values_closed b a sect key x h
      simp only [at0] at this
      first
        | exact this
        | rw [this]

theorem entries_closed (b : List Token) : ∀ (a : List Token) (sect key : Bytes) (v : Bool) (s' k' : Bytes),
    a.all fine = true → endState sect key v a = some (s', k') →
    entries sect key v (at0 (a ++ b)) = entries sect key v (at0 a) ++ entries s' k' false (at0 b)
  | [], sect, key, v, s', k', _, h => by
    cases v <;> simp [endState] at h
    obtain ⟨rfl, rfl⟩ := h
    simp [at0, entries]
  | tk :: a, sect, key, v, s', k', hf, h => by
    simp only [List.all_cons, Bool.and_eq_true] at hf
    have ih := fun s k v => entries_closed b a s k v s' k' hf.2
    simp only [at0] at ih
    have hv := fun h' => values_closed b a sect key (s', k') h'
    simp only [at0] at hv
    cases v <;> cases tk <;> simp only [endState, fine, Bool.false_eq_true, false_and] at h hf <;>
      simp only [at0, List.cons_append, List.map_cons, entries, ih _ _ _ h]
    all_goals rw [hv h]

theorem endState_append (b : List Token) : ∀ (a : List Token) (sect key : Bytes) (v : Bool) (s' k' : Bytes),
    endState sect key v a = some (s', k') → endState sect key v (a ++ b) = endState s' k' false b
  | [], sect, key, v, s', k', h => by
    cases v <;> simp [endState] at h
    obtain ⟨rfl, rfl⟩ := h
    rfl
  | tk :: a, sect, key, v, s', k', h => by
    have ih := fun s k v => endState_append b a s k v s' k'
    cases v <;> cases tk <;> simp only [endState] at h <;> simp only [List.cons_append, endState, ih _ _ _ h]

/-- A piece of a source, read in section `sect`, has the pairs `xs` and leaves the parser in section `sect'`. -/
structure Reads (sect : Bytes) (rs : List Rune) (xs : List Item) (sect' : Bytes) : Prop where
  lines : Lines rs
  code : Mode.after .code rs = .code
  clean : (sigs rs).all fine = true
  first : fresh (sigs rs) = true
  last : (endState sect [] false (sigs rs)).map Prod.fst = some sect'
  items : (entries sect [] false (at0 (sigs rs))).map bareEntry = xs

theorem Lines.append {a b : List Rune} (ha : Lines a) (hb : Lines b) : Lines (a ++ b) := by
  rcases hb with rfl | ⟨b', rfl⟩
  · simpa using ha
  · exact Or.inr ⟨a ++ b', by simp⟩

theorem Reads.append {s s' s'' : Bytes} {a b : List Rune} {xs ys : List Item} (h : Reads s a xs s')
    (h' : Reads s' b ys s'') : Reads s (a ++ b) (xs ++ ys) s'' := by
  have e : sigs (a ++ b) = sigs a ++ sigs b := sigs_append b _ a (Nat.le_refl _) h.lines h.code
  have hl := h.last
  cases he : endState s [] false (sigs a) with
  | none => rw [he] at hl; simp at hl
  | some x =>
    obtain ⟨t, k⟩ := x
    rw [he] at hl
    simp only [Option.map_some, Option.some.injEq] at hl
    subst hl
    refine ⟨h.lines.append h'.lines, ?_, ?_, ?_, ?_, ?_⟩
    · rw [Mode.after, List.foldl_append]
      have := h.code
      rw [Mode.after] at this
      rw [this]
      exact h'.code
    · rw [e, List.all_append, h.clean, h'.clean]; rfl
    · rw [e]; exact fresh_append _ _ h.first h'.first
    · rw [e, endState_append _ _ _ _ _ _ _ he, endState_fresh _ _ [] _ h'.first]
      exact h'.last
    · rw [e, entries_closed _ _ _ _ _ _ _ h.clean he, entries_fresh _ _ [] _ h'.first, List.map_append, h.items,
        h'.items]

/-- The check of a piece. -/
def piece (sect sect' : Bytes) (P : List Item → Bool) (rs : List Rune) : Bool :=
  match fastSigs 0 rs with
  | ts => decide (rs.getLast? = some 0x0A) && decide (Mode.after .code rs = .code) && ts.all fine && fresh ts &&
      decide ((endState sect [] false ts).map Prod.fst = some sect') &&
      P ((entries sect [] false (at0 ts)).map bareEntry)

theorem piece_reads {sect sect' : Bytes} {P : List Item → Bool} {rs : List Rune} (h : piece sect sect' P rs = true) :
    ∃ xs, Reads sect rs xs sect' ∧ P xs = true := by
  simp only [piece, Bool.and_eq_true, decide_eq_true_eq] at h
  obtain ⟨⟨⟨⟨⟨h1, h2⟩, h3⟩, h4⟩, h5⟩, h6⟩ := h
  refine ⟨_, ⟨?_, h2, ?_, ?_, ?_, rfl⟩, ?_⟩
  · right
    rw [List.getLast?_eq_some_iff] at h1
    exact h1
  · rw [fastSigs_eq]; exact h3
  · rw [fastSigs_eq]; exact h4
  · rw [fastSigs_eq]; exact h5
  · rw [fastSigs_eq]; exact h6

/-! ## The document -/

/-- A section of a list of pairs. -/
def sectionOf (name : Bytes) (xs : List Item) : Option (Kind × List (Bytes × List Bytes)) :=
  (xs.find? (·.1 = name)).map fun x => (x.2.1, (xs.filter (·.1 = name)).map fun y => y.2.2)

theorem sectionOf_entries (name : Bytes) (es : List Entry) : sectionOf name (es.map bareEntry)
    = (kindOf name es).map fun k => (k, (pairsOf name es).map fun p => (p.left, p.right)) := by
  have : ∀ (l : List Entry), ((l.map bareEntry).filter (·.1 = name)).map (fun y => y.2.2)
      = (pairsOf name l).map fun p => (p.left, p.right) := by
    intro l
    simp [pairsOf, List.filter_map, Function.comp_def, bareEntry]
    rfl
  rw [sectionOf, this, kindOf, List.find?_map]
  simp [Function.comp_def, bareEntry, Option.map_map]
  rfl

/-- What is parsed from a source. -/
theorem parse_reads {src : Bytes} {xs : List Item} {s' : Bytes} (h : Reads [] (runes src) xs s')
    (hs : ∀ x ∈ xs, x.1 ≠ [])
    (hd : ∀ name ps, sectionOf name xs = some (.dict, ps) → (ps.map Prod.fst).Nodup) :
    ∃ doc, parse src = .ok doc ∧ ∀ name, (doc.lookup name).map bare = sectionOf name xs := by
  have hi := h.items
  have hps := parse_sigs src
  have hclean : ∀ tk l, (tk, l) ∈ at0 (sigs (runes src)) → fine tk = true := by
    intro tk l hm
    simp only [at0, List.mem_map, Prod.mk.injEq] at hm
    obtain ⟨t, hm, rfl, rfl⟩ := hm
    exact List.all_eq_true.1 h.clean t hm
  revert hi hps hclean
  generalize at0 (sigs (runes src)) = ts
  intro hi hps hclean
  have hout := parseLoop_outcome ts ⟨[], [], [], 0⟩ none [] (by intro n; simp [pairsOf]) (by simp)
  simp only [remaining, List.nil_append] at hout
  cases hp : parseLoop ⟨[], [], [], 0⟩ none ts with
  | hang =>
    rw [hp] at hout
    obtain ⟨l, hl⟩ := hout
    simpa [fine] using hclean _ _ hl
  | err e =>
    rw [hp] at hout
    rcases hout.2 with ⟨l, hl⟩ | ⟨e, hm, hz⟩
    · simpa [fine] using hclean _ _ hl
    · exfalso
      have : bareEntry e ∈ xs := by rw [← hi]; exact List.mem_map.2 ⟨e, hm, rfl⟩
      exact hs _ this hz
  | panic =>
    rw [hp] at hout
    rcases hout with ⟨l, hl⟩ | ⟨name, hk, hdup⟩
    · simpa [fine] using hclean _ _ hl
    · exfalso
      have := sectionOf_entries name (entries [] [] false ts)
      rw [hi, hk] at this
      apply hdup
      have := hd name _ this
      simpa [Function.comp_def] using this
  | ok doc' =>
    rw [hp] at hout hps
    cases hq : parse src with
    | hang => rw [hq] at hps; simp [bareOutcome] at hps
    | panic => rw [hq] at hps; simp [bareOutcome] at hps
    | err e => rw [hq] at hps; simp [bareOutcome] at hps
    | ok doc =>
      rw [hq] at hps
      simp only [bareOutcome, Go.ok.injEq] at hps
      refine ⟨doc, rfl, fun name => ?_⟩
      rw [lookup_bare (n := name) (d := doc) (d' := doc') hps, ← hi, sectionOf_entries]
      obtain ⟨hn, hsome⟩ := hout.1 name
      cases hl : doc'.lookup name with
      | none =>
        have := hn hl
        rw [kindOf_none this]
        rfl
      | some sec =>
        obtain ⟨e1, e2, _⟩ := hsome sec hl
        rw [e2]
        simp [bare, e1]

/-! ## Literals -/

/-- The text of a file given by its lines. -/
def text (ls : List String) : Bytes := ls.flatMap str

/-- The characters of lines. -/
inductive Spells : List String → List (List Char) → Prop
  | nil : Spells [] []
  | cons (cs : List Char) {ls : List String} {css : List (List Char)} (h : Spells ls css) :
      Spells (String.ofList cs :: ls) (cs :: css)

/-- The runes of lines. -/
def runesOf (css : List (List Char)) : List Rune := css.flatMap fun cs => cs.map Char.toNat

theorem Spells.text {ls : List String} {css : List (List Char)} (h : Spells ls css) :
    text ls = encode (runesOf css) := by
  induction h with
  | nil => rfl
  | cons cs h ih =>
    simp only [Hsl.text, runesOf, List.flatMap_cons] at ih ⊢
    rw [str_ofList, ih, encode, encode, encode, List.flatMap_append]

theorem Spells.runes {ls : List String} {css : List (List Char)} (h : Spells ls css) :
    runes (Hsl.text ls) = runesOf css := by
  rw [h.text]
  apply runes_encode
  intro c hc
  simp only [runesOf, List.mem_flatMap, List.mem_map] at hc
  obtain ⟨_, _, d, _, rfl⟩ := hc
  exact char_valid d

theorem text_append (a b : List String) : text (a ++ b) = text a ++ text b := by simp [text]

theorem text_valid : ∀ (ls : List String), ValidUtf8 (text ls)
  | [] => by decide
  | s :: ls => by
    have h : str s = encode (s.toList.map Char.toNat) := by
      have := str_ofList s.toList
      rwa [String.ofList_toList] at this
    have : text (s :: ls) = str s ++ text ls := rfl
    rw [this, h]
    refine ValidUtf8.append ?_ (text_valid ls)
    exact encode_validUtf8 _

theorem runes_text_append (a b : List String) : runes (text (a ++ b)) = runes (text a) ++ runes (text b) := by
  rw [text_append, runes_append (text_valid a)]

end Verif.Hsl
