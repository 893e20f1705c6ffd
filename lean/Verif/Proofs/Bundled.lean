import Verif.Spec.Bundle
import Verif.Proofs.Api
import Verif.Props.Check

/-! Running the bundled specs. -/

namespace Verif

open Verif.Spec.Api Verif.Spec.Bundle Verif.Specs Hre

/-! ## Sorting -/

theorem mem_insertString (x s : Bytes) : ∀ (l : List Bytes), x ∈ insertString s l ↔ x = s ∨ x ∈ l
  | [] => by simp [insertString]
  | t :: ts => by
    unfold insertString
    split
    · simp
    · simp only [List.mem_cons, mem_insertString x s ts]
      constructor <;> (rintro (h | h | h) <;> simp [h])

theorem mem_sortStrings (x : Bytes) : ∀ (l : List Bytes), x ∈ sortStrings l ↔ x ∈ l
  | [] => by simp [sortStrings]
  | s :: l => by
    have := mem_sortStrings x l
    simp only [sortStrings, List.foldr_cons, mem_insertString, List.mem_cons] at this ⊢
    rw [this]

theorem bytesLe_total : ∀ (s t : Bytes), bytesLe s t = false → bytesLe t s = true ∧ t ≠ s
  | [], t, h => by simp [bytesLe] at h
  | a :: s, [], h => by simp [bytesLe]
  | a :: s, b :: t, h => by
    simp only [bytesLe, Bool.or_eq_false_iff, Bool.and_eq_false_iff, decide_eq_false_iff_not, beq_eq_false_iff_ne] at h
    obtain ⟨h1, h2⟩ := h
    by_cases e : a = b
    · subst e
      have := bytesLe_total s t (by simpa using h2)
      simp [bytesLe, this.1, this.2]
    · have : b < a := by
        rcases Nat.lt_trichotomy a.toNat b.toNat with x | x | x
        · exact absurd x h1
        · exact absurd (UInt8.toNat_inj.1 x) e
        · exact x
      simp [bytesLe, this, Ne.symm e]

theorem bytesLe_trans : ∀ (s t u : Bytes), bytesLe s t = true → bytesLe t u = true → bytesLe s u = true
  | [], _, _, _, _ => by simp [bytesLe]
  | a :: s, [], _, h, _ => by simp [bytesLe] at h
  | a :: s, b :: t, [], _, h => by simp [bytesLe] at h
  | a :: s, b :: t, c :: u, h, h' => by
    simp only [bytesLe, Bool.or_eq_true, Bool.and_eq_true, decide_eq_true_eq, beq_iff_eq] at h h' ⊢
    rcases h with h | ⟨rfl, h⟩ <;> rcases h' with h' | ⟨rfl, h'⟩
    · exact .inl (Nat.lt_trans h h')
    · exact .inl h
    · exact .inl h'
    · exact .inr ⟨rfl, bytesLe_trans s t u h h'⟩

theorem sorted_insert (s : Bytes) : ∀ (l : List Bytes), l.Pairwise (bytesLe · · = true) →
    (insertString s l).Pairwise (bytesLe · · = true)
  | [], _ => by simp [insertString]
  | t :: ts, h => by
    rw [List.pairwise_cons] at h
    unfold insertString
    split
    · rename_i hs
      rw [List.pairwise_cons]
      refine ⟨fun x hx => ?_, List.pairwise_cons.2 h⟩
      rcases List.mem_cons.1 hx with rfl | hx
      · exact hs
      · exact bytesLe_trans _ _ _ hs (h.1 x hx)
    · rename_i hs
      rw [List.pairwise_cons]
      refine ⟨fun x hx => ?_, sorted_insert s ts h.2⟩
      rcases (mem_insertString x s ts).1 hx with rfl | hx
      · exact (bytesLe_total _ _ (by simpa using hs)).1
      · exact h.1 x hx

theorem sorted_sort : ∀ (l : List Bytes), (sortStrings l).Pairwise (bytesLe · · = true)
  | [] => by simp [sortStrings]
  | s :: l => by
    have := sorted_sort l
    simp only [sortStrings, List.foldr_cons] at this ⊢
    exact sorted_insert s _ this

theorem nodup_insert (s : Bytes) : ∀ (l : List Bytes), l.Nodup → s ∉ l → (insertString s l).Nodup
  | [], _, _ => by simp [insertString]
  | t :: ts, h, hs => by
    rw [List.nodup_cons] at h
    simp only [List.mem_cons, not_or] at hs
    unfold insertString
    split
    · simp [h.1, h.2, hs.1, hs.2]
    · rw [List.nodup_cons]
      refine ⟨fun hm => ?_, nodup_insert s ts h.2 hs.2⟩
      rcases (mem_insertString t s ts).1 hm with e | hm
      · exact hs.1 e.symm
      · exact h.1 hm

theorem nodup_sort : ∀ (l : List Bytes), l.Nodup → (sortStrings l).Nodup
  | [], _ => by simp [sortStrings]
  | s :: l, h => by
    rw [List.nodup_cons] at h
    have := nodup_sort l h.2
    have hm := mem_sortStrings s l
    simp only [sortStrings, List.foldr_cons] at this hm ⊢
    exact nodup_insert s _ this (by rw [hm]; exact h.1)

theorem strip_ext {e : Bytes} (h : ext.isSuffixOf e = true) : e.take (e.length - ext.length) ++ ext = e := by
  rw [List.isSuffixOf_iff_suffix] at h
  obtain ⟨t, rfl⟩ := h
  simp

theorem mem_listLangs (lang : Bytes) (entries : List Bytes) : lang ∈ listLangs entries ↔ lang ++ ext ∈ entries := by
  rw [listLangs, mem_sortStrings]
  simp only [List.mem_map, List.mem_filter]
  constructor
  · rintro ⟨e, ⟨h1, h2⟩, rfl⟩
    rw [strip_ext h2]
    exact h1
  · intro h
    refine ⟨lang ++ ext, ⟨h, ?_⟩, by simp⟩
    rw [List.isSuffixOf_iff_suffix]
    exact ⟨lang, rfl⟩

theorem nodup_listLangs {entries : List Bytes} (h : entries.Nodup) : (listLangs entries).Nodup := by
  apply nodup_sort
  rw [List.Nodup, List.pairwise_map, List.pairwise_filter]
  refine List.Pairwise.imp ?_ h
  intro a b hab ha hb e
  exact hab (by rw [← strip_ext ha, ← strip_ext hb, e])

/-! ## Loading -/

theorem bundled_sound {lang src : Bytes} (h : bundled lang = some src) : ∃ l, (lang, src, l) ∈ table ∧ Sound src l := by
  unfold bundled at h
  cases hf : table.find? (·.1 = lang) with
  | none => rw [hf] at h; simp at h
  | some x =>
    rw [hf] at h
    simp only [Option.map_some, Option.some.injEq] at h
    have h1 := List.find?_some hf
    have h2 := List.mem_of_find?_eq_some hf
    simp only [decide_eq_true_eq] at h1
    obtain ⟨n, s, l⟩ := x
    simp only at h h1
    subst h h1
    exact ⟨l, h2, table_sound _ h2⟩

theorem bundled_isSome (lang : Bytes) : (bundled lang).isSome = true ↔ lang ∈ table.map Prod.fst := by
  unfold bundled
  rw [Option.isSome_map, List.find?_isSome]
  simp

theorem loaded_checked {sp : Spec} (h : Loaded bundled sp) :
    ∃ o src, o.Ok ∧ parseSpec o src = .ok sp ∧ (∀ r ∈ sp.rewrite, bundleCheck .rewrite r = true) ∧
      ∀ r ∈ sp.transcribe, bundleCheck .transcribe r = true := by
  obtain ⟨lang, src, o, h1, h2, h3⟩ := h
  obtain ⟨l, _, hs⟩ := bundled_sound h1
  obtain ⟨sp', e1, _, _, _, _, _, e2, e3, _⟩ := hs o h2
  rw [h3] at e1
  simp only [Go.ok.injEq] at e1
  subst e1
  exact ⟨o, src, h2, h3, e2, e3⟩

theorem bundleCheck_checked {s : RuleSection} {r : Rule} (h : bundleCheck s r = true) : checked r = true := by
  cases s <;> simp only [bundleCheck, Bool.and_eq_true] at h
  · exact h.1.1
  · exact h.1.1.1.1

theorem loaded_runs {sp : Spec} (h : Loaded bundled sp) {translits : Registry} (ht : ∀ s t, translits.lookup s = some t → Returns t)
    (word : Bytes) (tr : Tracer) :
    (forward sp translits word tr).1 ≠ .panic ∧ (forward sp translits word tr).1 ≠ .hang := by
  obtain ⟨o, src, _, hp, h1, h2⟩ := loaded_checked h
  have hc : ∀ r ∈ sp.rewrite ++ sp.transcribe, checked r = true := by
    intro r hr
    rcases List.mem_append.1 hr with hr | hr
    · exact bundleCheck_checked (h1 r hr)
    · exact bundleCheck_checked (h2 r hr)
  have hl : ∀ (ss : List Bytes) (w : Bytes) (tr : Tracer),
      (transliterateLoop translits ss w tr).1 ≠ .panic ∧ (transliterateLoop translits ss w tr).1 ≠ .hang := by
    intro ss
    induction ss with
    | nil => intro w tr; simp [transliterateLoop]
    | cons s ss ih =>
      intro w tr
      unfold transliterateLoop
      split
      · simp
      · rename_i t hlk
        have hr := ht _ _ hlk w
        split
        · exact ih _ _
        · simp
        · rename_i e; exact absurd e hr.1
        · rename_i e; exact absurd e hr.2
  have hx := hl sp.lang.translit word (tr.trace { step := .input, word })
  cases hw : transliterateLoop translits sp.lang.translit word (tr.trace { step := .input, word }) with
  | mk r tr' =>
    rw [hw] at hx
    cases r with
    | ok w =>
      have hw1 : (transliterateLoop translits sp.lang.translit word tr).1 = .ok w := by
        have := congrArg Prod.fst hw
        rw [transliterateLoop_eq] at this ⊢
        exact this
      obtain ⟨out, he⟩ := Props.C64_runs hp hc translits word tr hw1
      rw [he]
      simp
    | err e => simp [forward, hw]
    | panic => exact absurd rfl hx.1
    | hang => exact absurd rfl hx.2

/-! ## Programs -/

/-- What holds in every reachable state: cached specs and those of hangulizers are loaded, and translits return. -/
structure Safe (w : World) : Prop where
  cache : CacheOk bundled w.specs
  maps : ∀ r ∈ w.maps, ∀ s t, r.lookup s = some t → Returns t
  objs : ∀ o ∈ w.objs, Loaded bundled o.spec

theorem Safe.init : Safe World.init :=
  ⟨by intro l sp h; simp [World.init] at h, by simp [World.init], by simp [World.init]⟩

theorem Safe.map {w : World} (h : Safe w) (a : Nat) (s : Bytes) (t : Translit) (hl : (w.map a).lookup s = some t) :
    Returns t := by
  unfold World.map at hl
  cases hm : w.maps[a]? with
  | none => rw [hm] at hl; simp at hl
  | some r =>
    rw [hm] at hl
    exact h.maps r (List.mem_of_getElem? hm) s t hl

theorem Safe.detach {w : World} (h : Safe w) (a : Nat) (s : Bytes) (t : Translit)
    (hl : (w.map a).detach.lookup s = some t) : Returns t := by
  rw [lookup_detach] at hl
  exact h.map a s t hl

theorem Safe.set {w : World} (h : Safe w) (a : Nat) {r : Registry} (hr : ∀ s t, r.lookup s = some t → Returns t) :
    Safe { w with maps := w.maps.set a r } := by
  refine ⟨h.cache, ?_, h.objs⟩
  intro r' hr'
  rcases List.mem_or_eq_of_mem_set hr' with hm | rfl
  · exact h.maps r' hm
  · exact hr

theorem load_runs {o : Ord} (ho : o.Ok) (lang : Bytes) {specs : Cache} (hc : CacheOk bundled specs) :
    ∃ r specs', loadSpec bundled o lang specs = .ok (r, specs') ∧ CacheOk bundled specs' ∧
      ∀ sp, r = .inl sp → Loaded bundled sp := by
  have key : ∃ r specs', loadSpec bundled o lang specs = .ok (r, specs') ∧ ∀ sp, r = .inl sp → Loaded bundled sp := by
    unfold loadSpec
    cases hl : specs.lookup lang with
    | some sp =>
      obtain ⟨src, o', h1, h2, h3⟩ := hc lang sp hl
      exact ⟨_, _, rfl, by rintro _ ⟨⟩; exact ⟨lang, src, o', h1, h2, h3⟩⟩
    | none =>
      cases hf : bundled lang with
      | none => exact ⟨_, _, rfl, by rintro _ ⟨⟩⟩
      | some src =>
        obtain ⟨l, _, hs⟩ := bundled_sound hf
        obtain ⟨sp, hp, _⟩ := hs o ho
        simp only [hp]
        exact ⟨_, _, rfl, by rintro _ ⟨⟩; exact ⟨lang, src, o, hf, ho, hp⟩⟩
  obtain ⟨r, specs', h1, h2⟩ := key
  exact ⟨r, specs', h1, hc.load ho h1, h2⟩

theorem wordErr_runs {x : Go Bytes} (h : x ≠ .panic ∧ x ≠ .hang) : ∃ r, wordErr x = .ok r := by
  cases x with
  | ok w => exact ⟨_, rfl⟩
  | err e => exact ⟨_, rfl⟩
  | panic => exact absurd rfl h.1
  | hang => exact absurd rfl h.2

theorem Safe.call {w : World} (h : Safe w) {c : Call} (hc : Fair bundled c) :
    ∃ w' r, Verif.call bundled w c = .ok (w', r) ∧ Safe w' := by
  cases c with
  | loadSpec o lang =>
    obtain ⟨r, specs, h1, h2, _⟩ := load_runs hc lang h.cache
    exact ⟨{ w with specs }, .spec r, by simp [Verif.call, h1], h2, h.maps, h.objs⟩
  | unloadSpec lang => exact ⟨_, _, rfl, h.cache.delete lang, h.maps, h.objs⟩
  | hangulize o lang word =>
    obtain ⟨r, specs, h1, h2, h3⟩ := load_runs hc lang h.cache
    cases r with
    | inr e => exact ⟨{ w with specs }, .word (word, some e), by simp [Verif.call, h1], h2, h.maps, h.objs⟩
    | inl sp =>
      obtain ⟨r, hr⟩ := wordErr_runs (loaded_runs (h3 sp rfl) (h.detach 0) word none)
      exact ⟨{ w with specs }, .word r, by simp [Verif.call, h1, hr], h2, h.maps, h.objs⟩
  | new sp =>
    refine ⟨_, _, rfl, h.cache, ?_, ?_⟩
    · intro r hr
      rcases List.mem_append.1 hr with hr | hr
      · exact h.maps r hr
      · simp only [List.mem_singleton] at hr
        subst hr
        simp
    · intro o ho
      rcases List.mem_append.1 ho with ho | ho
      · exact h.objs o ho
      · simp only [List.mem_singleton] at ho
        subst ho
        exact hc
  | useTranslit who t =>
    simp only [Verif.call]
    cases hr : w.registry who with
    | none => exact ⟨_, _, rfl, h⟩
    | some a =>
      refine ⟨_, _, rfl, h.set a ?_⟩
      intro s t' hl
      rw [add_lookup] at hl
      split at hl
      · cases ho : (w.map a).lookup s with
        | none => rw [ho] at hl; simp at hl; subst hl; exact hc
        | some t'' => rw [ho] at hl; simp at hl; subst hl; exact h.map a s t'' ho
      · exact h.map a s t' hl
  | unuseTranslit who scheme =>
    simp only [Verif.call]
    cases hr : w.registry who with
    | none => exact ⟨_, _, rfl, h⟩
    | some a =>
      refine ⟨_, _, rfl, h.set a ?_⟩
      intro s t' hl
      rw [remove_lookup] at hl
      split at hl
      · simp at hl
      · exact h.map a s t' hl
  | translits who =>
    simp only [Verif.call]
    cases hr : w.registry who with
    | none => exact ⟨_, _, rfl, h⟩
    | some a =>
      refine ⟨_, _, rfl, h.cache, ?_, h.objs⟩
      intro r hr
      rcases List.mem_append.1 hr with hr | hr
      · exact h.maps r hr
      · simp only [List.mem_singleton] at hr
        subst hr
        exact h.detach a
  | trace i fn =>
    simp only [Verif.call]
    cases ho : w.objs[i]? with
    | none => exact ⟨_, _, rfl, h⟩
    | some obj =>
      refine ⟨_, _, rfl, h.cache, h.maps, ?_⟩
      intro o hm
      rcases List.mem_or_eq_of_mem_set hm with hm | rfl
      · exact h.objs o hm
      · exact h.objs obj (List.mem_of_getElem? ho)
  | run i word =>
    simp only [Verif.call]
    cases ho : w.objs[i]? with
    | none => exact ⟨_, _, rfl, h⟩
    | some obj =>
      obtain ⟨r, hr⟩ := wordErr_runs (loaded_runs (h.objs obj (List.mem_of_getElem? ho)) (h.detach obj.registry) word
        (obj.traceFunc.map fun _ => ⟨[], []⟩))
      simp only [hr, Go.bind_ok, Go.pure_eq]
      exact ⟨_, _, rfl, h.cache, h.maps, h.objs⟩
  | userSet a key t =>
    simp only [Verif.call]
    split
    · refine ⟨_, _, rfl, h.set a ?_⟩
      intro s t' hl
      rw [lookup_mapSet] at hl
      split at hl
      · simp at hl; subst hl; exact hc
      · exact h.map a s t' hl
    · exact ⟨_, _, rfl, h⟩
  | userDelete a key =>
    simp only [Verif.call]
    split
    · refine ⟨_, _, rfl, h.set a ?_⟩
      intro s t' hl
      rw [lookup_mapDelete] at hl
      split at hl
      · simp at hl
      · exact h.map a s t' hl
    · exact ⟨_, _, rfl, h⟩

theorem Safe.calls : ∀ (cs : List Call) {w : World}, Safe w → (∀ c ∈ cs, Fair bundled c) →
    ∃ w' rs, Verif.calls bundled w cs = .ok (w', rs) ∧ Safe w'
  | [], w, h, _ => ⟨w, [], rfl, h⟩
  | c :: cs, w, h, hc => by
    obtain ⟨w1, r, h1, h2⟩ := h.call (hc c (by simp))
    obtain ⟨w2, rs, h3, h4⟩ := Safe.calls cs h2 fun c' hc' => hc c' (by simp [hc'])
    exact ⟨w2, r :: rs, by simp [Verif.calls, h1, h3], h4⟩

end Verif
