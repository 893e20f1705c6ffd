import Verif.Spec.Cyrillic
import Verif.Model.Standard
import Verif.Proofs.Translit
import Verif.Proofs.Utf8

/-! Property C63: the Cyrillic translits. -/

namespace Verif.Cyrillic

/-- The mapping of a country. -/
def mapping (country : String) : List (String × String) :=
  if country = "bg" then bulgaria else if country = "mk" then macedonia else if country = "ru" then russia
  else if country = "ua" then ukraine else []

/-- The beginning of each key is a key by itself, and written text has nothing in common with keys. -/
structure Orderly (pairs : List (Bytes × Bytes)) : Prop where
  base : ∀ p ∈ pairs, ∃ r ∈ pairs, r.1 ≠ [] ∧ r.1 <+: p.1 ∧ ∀ b ∈ r.1.tail, ∀ q ∈ pairs, q.2.head? ≠ some b
  value : ∀ p ∈ pairs, p.2 ≠ [] ∧ ∀ b ∈ p.2, ∀ q ∈ pairs, q.1.head? ≠ some b

theorem Orderly.perm {pairs pairs' : List (Bytes × Bytes)} (h : Orderly pairs) (hp : pairs'.Perm pairs) :
    Orderly pairs' := by
  obtain ⟨h1, h2⟩ := h
  refine ⟨fun p hm => ?_, fun p hm => ?_⟩
  · obtain ⟨r, hr, a, b, c⟩ := h1 p (hp.mem_iff.1 hm)
    exact ⟨r, hp.mem_iff.2 hr, a, b, fun x hx q hq => c x hx q (hp.mem_iff.1 hq)⟩
  · obtain ⟨a, b⟩ := h2 p (hp.mem_iff.1 hm)
    exact ⟨a, fun x hx q hq => b x hx q (hp.mem_iff.1 hq)⟩

theorem Orderly.key_ne {pairs : List (Bytes × Bytes)} (h : Orderly pairs) {p : Bytes × Bytes} (hp : p ∈ pairs) : p.1 ≠ [] := by
  obtain ⟨r, _, hr, hpre, _⟩ := h.base p hp
  intro e
  rw [e] at hpre
  exact hr (List.prefix_nil.1 hpre)

theorem lookup_none {pairs : List (Bytes × Bytes)} {s : Bytes} : lookupKey pairs s false = none ↔
    ∀ p ∈ pairs, ¬ p.1 <+: s := by
  simp [lookupKey, hasPrefix_iff]

theorem lookup_some {pairs : List (Bytes × Bytes)} {s : Bytes} {v : Bytes} {n : Nat}
    (h : lookupKey pairs s false = some (v, n)) : ∃ p ∈ pairs, p.1 <+: s ∧ p.2 = v ∧ p.1.length = n := by
  simp only [lookupKey, Option.map_eq_some_iff, Prod.mk.injEq] at h
  obtain ⟨p, h1, h2, h3⟩ := h
  have := List.find?_some h1
  simp only [Bool.false_and, Bool.not_false, Bool.and_true, hasPrefix_iff] at this
  exact ⟨p, List.mem_of_find?_eq_some h1, this, h2, h3⟩

/-- No key begins anywhere in a text. -/
def Untouched (pairs : List (Bytes × Bytes)) (s : Bytes) : Prop := ∀ t, t <:+ s → ∀ p ∈ pairs, ¬ p.1 <+: t

theorem untouched_replace {pairs : List (Bytes × Bytes)} : ∀ {s : Bytes}, Untouched pairs s → replaceFrom pairs 0 s = s := by
  intro s
  induction s with
  | nil =>
    intro h
    rw [replaceFrom, lookup_none.2 (h [] (List.suffix_refl _))]
  | cons c t ih =>
    intro h
    rw [replaceFrom, lookup_none.2 (h _ (List.suffix_refl _)), ih fun u hu => h u (hu.trans (List.suffix_cons c t))]

/-- What is written and could continue a key has been there before. -/
theorem prefix_replace {pairs : List (Bytes × Bytes)} (h : Orderly pairs) : ∀ (s q : Bytes),
    (∀ b ∈ q, ∀ p ∈ pairs, p.2.head? ≠ some b) → q <+: replaceFrom pairs 0 s → q <+: s := by
  intro s
  induction s with
  | nil =>
    intro q _ hq
    have : lookupKey pairs [] false = none := lookup_none.2 fun p hp hpre => h.key_ne hp (List.prefix_nil.1 hpre)
    rwa [replaceFrom, this] at hq
  | cons c t ih =>
    intro q hb hq
    cases q with
    | nil => simp
    | cons x q =>
      cases hl : lookupKey pairs (c :: t) false with
      | none =>
        rw [replaceFrom, hl] at hq
        simp only at hq
        have hh := List.cons_prefix_cons.1 hq
        rw [List.cons_prefix_cons]
        exact ⟨hh.1, ih q (fun b hm => hb b (List.mem_cons_of_mem _ hm)) hh.2⟩
      | some r =>
        obtain ⟨v, n⟩ := r
        obtain ⟨p, hp, _, rfl, rfl⟩ := lookup_some hl
        exfalso
        have hne := (h.value p hp).1
        have hk := h.key_ne hp
        obtain ⟨n, hn⟩ : ∃ n, p.1.length = n + 1 := ⟨p.1.length - 1, by
          have := List.length_pos_iff.2 hk; omega⟩
        rw [hn] at hl
        rw [replaceFrom, hl] at hq
        cases hv : p.2 with
        | nil => exact hne hv
        | cons y v =>
          simp only [hv, List.cons_append] at hq
          obtain ⟨rfl, _⟩ := List.cons_prefix_cons.1 hq
          exact hb x (by simp) p hp (by rw [hv]; rfl)

theorem replace_untouched {pairs : List (Bytes × Bytes)} (h : Orderly pairs) : ∀ (s : Bytes) (k : Nat),
    Untouched pairs (replaceFrom pairs k s) := by
  have hnil : Untouched pairs [] := by
    intro t ht p hp hpre
    rw [List.suffix_nil.1 ht] at hpre
    exact h.key_ne hp (List.prefix_nil.1 hpre)
  have hl0 : lookupKey pairs [] false = none := lookup_none.2 (hnil [] (List.suffix_refl _))
  intro s
  induction s with
  | nil => intro k; cases k <;> (rw [replaceFrom, hl0]; exact hnil)
  | cons c t ih =>
    intro k
    cases k with
    | succ k => rw [replaceFrom]; exact ih k
    | zero =>
      cases hl : lookupKey pairs (c :: t) false with
      | none =>
        rw [replaceFrom, hl]
        intro u hu p hp hpre
        rcases List.suffix_cons_iff.1 hu with rfl | hu
        · obtain ⟨r, hr, hne, hrp, htail⟩ := h.base p hp
          have hr' := hrp.trans hpre
          cases hr1 : r.1 with
          | nil => exact hne hr1
          | cons x q =>
            rw [hr1] at hr' htail
            obtain ⟨rfl, hq⟩ := List.cons_prefix_cons.1 hr'
            have := prefix_replace h t q htail hq
            refine lookup_none.1 hl r hr ?_
            rw [hr1, List.cons_prefix_cons]
            exact ⟨rfl, this⟩
        · exact ih 0 u hu p hp hpre
      | some r =>
        obtain ⟨v, n⟩ := r
        obtain ⟨p, hp, _, rfl, rfl⟩ := lookup_some hl
        have hk := h.key_ne hp
        obtain ⟨n, hn⟩ : ∃ n, p.1.length = n + 1 := ⟨p.1.length - 1, by
          have := List.length_pos_iff.2 hk; omega⟩
        rw [hn] at hl
        rw [replaceFrom, hl]
        simp only
        intro u hu q hq hpre
        obtain ⟨w, hw⟩ := hu
        rcases List.append_eq_append_iff.1 hw with ⟨a, h1, h2⟩ | ⟨a, h1, h2⟩
        · cases a with
          | nil => exact ih n u ⟨[], (by simpa using h2.symm : replaceFrom pairs n t = u).symm⟩ q hq hpre
          | cons x a =>
            cases hq1 : q.1 with
            | nil => exact h.key_ne hq hq1
            | cons y z =>
              rw [hq1, h2] at hpre
              obtain ⟨rfl, _⟩ := List.cons_prefix_cons.1 hpre
              exact (h.value p hp).2 y (by rw [h1]; simp) q hq (by rw [hq1]; rfl)
        · exact ih n u ⟨a, h2.symm⟩ q hq hpre

end Verif.Cyrillic

namespace Verif.Props

open Verif.Cyrillic Verif.Spec.Cyrillic

theorem mapping_orderly : ∀ a ∈ alphabets, Orderly (pairs (mapping a.1)) := by
  have k1 : ∀ a ∈ alphabets, ∀ p ∈ pairs (mapping a.1), ∃ r ∈ pairs (mapping a.1), r.1 ≠ [] ∧ r.1 <+: p.1 ∧
    ∀ b ∈ r.1.tail, ∀ q ∈ pairs (mapping a.1), q.2.head? ≠ some b := by decide +kernel
  have k2 : ∀ a ∈ alphabets, ∀ p ∈ pairs (mapping a.1), p.2 ≠ [] ∧ ∀ b ∈ p.2, ∀ q ∈ pairs (mapping a.1),
    q.1.head? ≠ some b := by decide +kernel
  exact fun a ha => ⟨k1 a ha, k2 a ha⟩

/-- C63: in whatever order the mapping is visited, transliterating again changes nothing. -/
theorem C63_idempotent {a : String × String} (ha : a ∈ alphabets) {oldnew : List (Bytes × Bytes)}
    (h : oldnew.Perm (pairs (mapping a.1))) (word : Bytes) :
    transliterate oldnew (transliterate oldnew word) = transliterate oldnew word :=
  untouched_replace (replace_untouched ((mapping_orderly a ha).perm h) word 0)

/-- C63: Cyrillic text is left alone. -/
theorem C63_cyrillic {a : String × String} (ha : a ∈ alphabets) {oldnew : List (Bytes × Bytes)}
    (h : oldnew.Perm (pairs (mapping a.1))) {cs : List Rune} (hc : ∀ c ∈ cs, 0x400 ≤ c ∧ c ≤ 0x4FF) :
    transliterate oldnew (encode cs) = encode cs := by
  have key : ∀ a ∈ alphabets, ∀ p ∈ pairs (mapping a.1), ∃ b, p.1.head? = some b ∧ ¬ (0x80 ≤ b ∧ b ≤ 0xBF) ∧
      ¬ (0xD0 ≤ b ∧ b ≤ 0xD3) := by
    have k : ∀ a ∈ alphabets, ∀ p ∈ pairs (mapping a.1), (p.1.head?.any fun b => !(0x80 ≤ b ∧ b ≤ 0xBF) &&
      !(0xD0 ≤ b ∧ b ≤ 0xD3)) = true := by decide +kernel
    intro a ha p hp
    have := k a ha p hp
    rw [Option.any_eq_true] at this
    obtain ⟨b, h1, h2⟩ := this
    refine ⟨b, h1, ?_⟩
    simp only [Bool.and_eq_true, Bool.not_eq_true', decide_eq_false_iff_not] at h2
    exact h2
  have hb : ∀ b ∈ encode cs, (0x80 ≤ b ∧ b ≤ 0xBF) ∨ (0xD0 ≤ b ∧ b ≤ 0xD3) := by
    intro b hb
    simp only [encode, List.mem_flatMap] at hb
    obtain ⟨c, h1, h2⟩ := hb
    obtain ⟨h3, h4⟩ := hc c h1
    have k : ∀ k < 256, ∀ b ∈ encodeRune (0x400 + k), (0x80 ≤ b ∧ b ≤ 0xBF) ∨ (0xD0 ≤ b ∧ b ≤ 0xD3) := by decide +kernel
    have := k (c - 0x400) (by omega)
    rw [show 0x400 + (c - 0x400) = c by omega] at this
    exact this b h2
  refine untouched_replace fun t ht p hp hpre => ?_
  obtain ⟨b, h1, h2, h3⟩ := key a ha p (h.mem_iff.1 hp)
  obtain ⟨z, hz⟩ := List.head?_eq_some_iff.1 h1
  rw [hz] at hpre
  obtain ⟨u, rfl⟩ := hpre
  have := hb b (ht.subset (by simp))
  exact this.elim h2 h3

/-- Pairs with longer keys first. -/
def longestFirst (oldnew : List (Bytes × Bytes)) : List (Bytes × Bytes) :=
  [4, 3, 2, 1].flatMap fun n => oldnew.filter fun p => p.1.length = n

/-- C63: all letters of the alphabet can be written, if longer keys come first. -/
theorem C63_letters : ∀ a ∈ alphabets, ∃ oldnew, oldnew.Perm (pairs (mapping a.1)) ∧
    ∀ c ∈ a.2.toList, ∃ p ∈ pairs (mapping a.1), transliterate oldnew p.1 = encodeRune c.toNat := by
  have key : ∀ a ∈ alphabets, (longestFirst (pairs (mapping a.1))).isPerm (pairs (mapping a.1)) = true ∧
      ∀ c ∈ a.2.toList, ∃ p ∈ pairs (mapping a.1), transliterate (longestFirst (pairs (mapping a.1))) p.1 =
        encodeRune c.toNat := by decide +kernel
  intro a ha
  exact ⟨_, List.isPerm_iff.1 (key a ha).1, (key a ha).2⟩

/-- C63: the standard translit of a country writes each letter of its alphabet, if longer keys are visited first. -/
theorem C63_standard (l : Libraries) : ∀ a ∈ alphabets, ∃ t ∈ standard { l with visit := longestFirst },
    t.scheme = str ("cyrillic[" ++ a.1 ++ "]") ∧ ∀ c ∈ a.2.toList, ∃ w, t.transliterate w = .ok (encodeRune c.toNat) := by
  have key : ∀ a ∈ alphabets, ∀ c ∈ a.2.toList, ∃ p ∈ pairs (mapping a.1), transliterate (longestFirst (pairs (mapping a.1))) p.1 =
      encodeRune c.toNat := by decide +kernel
  have hs : ∀ a ∈ alphabets, str ("cyrillic[" ++ a.1 ++ "]") = str "cyrillic[" ++ str a.1 ++ str "]" := by decide +kernel
  have ht : ∀ a ∈ alphabets, cyrillic { l with visit := longestFirst } a.1 (mapping a.1) ∈ standard { l with visit := longestFirst } := by
    intro a ha
    simp only [alphabets, List.mem_cons, List.not_mem_nil, or_false] at ha
    rcases ha with rfl | rfl | rfl | rfl <;> simp [standard, cyrillics, mapping]
  intro a ha
  refine ⟨_, ht a ha, (hs a ha).symm, fun c hc => ?_⟩
  obtain ⟨p, _, h⟩ := key a ha c hc
  exact ⟨p.1, congrArg Go.ok h⟩

/-- C63: only letters of the alphabet are written. -/
theorem C63_alphabet : ∀ a ∈ alphabets, ∀ p ∈ mapping a.1, ∀ c ∈ lower p.2, c ∈ lower a.2 := by decide +kernel

/-- C63: keys which differ in case only stand for letters which differ in case only, and no key is there twice. -/
theorem C63_case : ∀ a ∈ alphabets, ((mapping a.1).map (·.1)).Nodup ∧
    ∀ p ∈ mapping a.1, ∀ q ∈ mapping a.1, lower p.1 = lower q.1 → lower p.2 = lower q.2 := by decide +kernel

example : transliterate (pairs (mapping "ru")) (str "Москва") = str "Москва" ∧
    transliterate (pairs (mapping "mk")) (str "Skopje") = str "Скопје" ∧
    transliterate (longestFirst (pairs (mapping "bg"))) (str "Veshtitsa") = str "Вещица" := by decide +kernel

end Verif.Props
