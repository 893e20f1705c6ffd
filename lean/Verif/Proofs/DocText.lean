import Verif.Proofs.SpecFile
import Verif.Proofs.Api
import Verif.Proofs.Utf8

/-! The strings of a parsed document are valid UTF-8, whatever the source is. -/

namespace Verif.Hsl

def SectionText (s : Section) : Prop := ∀ p ∈ s.pairs, ValidUtf8 p.left ∧ ∀ v ∈ p.right, ValidUtf8 v

def DocText (d : Doc) : Prop := ∀ x ∈ d, SectionText x.2

theorem lookup_mem {d : Doc} {n : Bytes} {s : Section} (h : d.lookup n = some s) : (n, s) ∈ d := by
  induction d with
  | nil => simp at h
  | cons x d ih =>
    obtain ⟨m, t⟩ := x
    rw [lookup_cons'] at h
    split at h
    · rename_i e; cases h; subst e; simp
    · exact List.mem_cons_of_mem _ (ih h)

theorem setSection_text {name : Bytes} {s : Section} (hs : SectionText s) : ∀ {d : Doc}, DocText d → DocText (setSection name s d)
  | [], _ => by intro x hx; simp [setSection] at hx; subst hx; exact hs
  | (n, t) :: d, h => by
    intro x hx
    unfold setSection at hx
    split at hx
    · rcases List.mem_cons.1 hx with rfl | hx
      · exact hs
      · exact h x (List.mem_cons_of_mem _ hx)
    · rcases List.mem_cons.1 hx with rfl | hx
      · exact h _ (by simp)
      · exact setSection_text hs (fun y hy => h y (List.mem_cons_of_mem _ hy)) x hx

structure StateText (st : State) : Prop where
  doc : DocText st.doc
  last : ValidUtf8 st.lastString

theorem addPair_text {st st' : State} (h : StateText st) {k : Kind} {line : Nat} {vs : List Bytes} (hv : ∀ v ∈ vs, ValidUtf8 v)
    (e : st.addPair k line vs = some st') : StateText st' := by
  simp only [State.addPair, Option.map_eq_some_iff] at e
  obtain ⟨sec', h1, rfl⟩ := e
  have hsec : SectionText ((st.doc.lookup st.sectionName).getD ⟨k, [], st.sectionLine⟩) := by
    cases hl : st.doc.lookup st.sectionName with
    | none => intro p hp; simp at hp
    | some s => exact h.doc _ (lookup_mem hl)
  have hnew : SectionText sec' := by
    unfold Section.addPair at h1
    split at h1
    · simp only [Option.some.injEq] at h1
      subst h1
      intro p hp
      rcases List.mem_append.1 hp with hp | hp
      · exact hsec p hp
      · simp only [List.mem_singleton] at hp; subst hp; exact ⟨h.last, hv⟩
    · split at h1
      · cases h1
      · simp only [Option.some.injEq] at h1
        subst h1
        intro p hp
        rcases List.mem_append.1 hp with hp | hp
        · exact hsec p hp
        · simp only [List.mem_singleton] at hp; subst hp; exact ⟨h.last, hv⟩
  exact ⟨setSection_text hnew h.doc, h.last⟩

theorem step_text {st st' : State} {p p' : Option Pending} {t : Token × Nat} (h : StateText st)
    (hp : ∀ q, p = some q → ∀ v ∈ q.values, ValidUtf8 v) (e : step st p t = .cont st' p') :
    StateText st' ∧ ∀ q, p' = some q → ∀ v ∈ q.values, ValidUtf8 v := by
  have fin : ∀ q, p = some q → finish st q = .cont st' p' → StateText st' ∧ ∀ q, p' = some q → ∀ v ∈ q.values, ValidUtf8 v := by
    intro q hq e
    unfold finish at e
    split at e
    · rename_i st2 h2
      cases e
      exact ⟨addPair_text h (hp q hq) h2, by intro q hq; cases hq⟩
    · cases e
  unfold step at e
  split at e
  all_goals first
    | (cases e; done)
    | skip
  · cases e; exact ⟨⟨h.doc, encode_validUtf8 _⟩, by intro q hq; cases hq⟩
  · cases e; exact ⟨⟨h.doc, h.last⟩, by intro q hq; cases hq⟩
  · split at e
    · cases e
    · cases e; exact ⟨h, by intro q hq; cases hq; simp⟩
  · split at e
    · cases e
    · cases e; exact ⟨h, by intro q hq; cases hq; simp⟩
  · cases e; exact ⟨h, by intro q hq; cases hq⟩
  · exact fin _ rfl e
  · exact fin _ rfl e
  · cases e
    refine ⟨h, ?_⟩
    intro q hq v hv
    cases hq
    rcases List.mem_append.1 hv with hv | hv
    · exact hp _ rfl v hv
    · simp only [List.mem_singleton] at hv; subst hv; exact encode_validUtf8 _
  · cases e; exact ⟨h, hp⟩

theorem parseLoop_text : ∀ (ts : List (Token × Nat)) {st : State} {p : Option Pending} {d : Doc}, StateText st →
    (∀ q, p = some q → ∀ v ∈ q.values, ValidUtf8 v) → parseLoop st p ts = .ok d → DocText d := by
  intro ts
  induction ts with
  | nil =>
    intro st p d h hp e
    cases p with
    | none => simp [parseLoop] at e; subst e; exact h.doc
    | some q =>
      simp only [parseLoop] at e
      split at e
      · rename_i st' h'; simp at e; subst e; exact (addPair_text h (hp q rfl) h').doc
      · cases e
  | cons t ts ih =>
    intro st p d h hp e
    simp only [parseLoop] at e
    split at e
    · rename_i r hs
      subst e
      unfold step at hs
      split at hs
      all_goals first
        | (simp at hs; done)
        | (simp only [Step.stop.injEq, Go.ok.injEq] at hs; subst hs; exact h.doc)
        | (split at hs <;> simp at hs; done)
        | (unfold finish at hs; split at hs <;> simp at hs; done)
        | skip
    · rename_i st' p' hs
      obtain ⟨h1, h2⟩ := step_text h hp hs
      exact ih h1 h2 e

theorem parse_text {src : Bytes} {d : Doc} (h : parse src = .ok d) : DocText d :=
  parseLoop_text _ ⟨by intro x hx; simp at hx, .nil⟩ (by intro q hq; cases hq) h

theorem SectionText.all {s : Section} (h : SectionText s) (k : Bytes) : ∀ v ∈ s.all k, ValidUtf8 v := by
  unfold Section.all Section.map
  obtain ⟨kind, ps, line⟩ := s
  simp only at h ⊢
  induction ps with
  | nil => simp
  | cons p ps ih =>
    intro v hv
    rw [List.map_cons, lookup_cons'] at hv
    split at hv
    · exact (h p (by simp)).2 v hv
    · exact ih (fun q hq => h q (List.mem_cons_of_mem _ hq)) v hv

theorem SectionText.one {s : Section} (h : SectionText s) (k : Bytes) : ValidUtf8 (s.one k) := by
  unfold Section.one
  cases hx : s.all k with
  | nil => exact .nil
  | cons v vs => exact h.all k v (by simp [hx])

end Verif.Hsl

namespace Verif

open Hsl

theorem testPairs_text : ∀ {ps : List Pair} {ts : List (Bytes × Bytes)}, testPairs ps = .ok ts →
    (∀ p ∈ ps, ValidUtf8 p.left ∧ ∀ v ∈ p.right, ValidUtf8 v) → ∀ t ∈ ts, ValidUtf8 t.1 ∧ ValidUtf8 t.2
  | [], ts, h, _, t, ht => by simp [testPairs] at h; subst h; simp at ht
  | p :: ps, ts, h, hp, t, ht => by
    simp only [testPairs, Go.bind_eq_ok, Go.pure_eq, Go.ok.injEq] at h
    obtain ⟨r, h1, rest, h2, rfl⟩ := h
    rcases List.mem_cons.1 ht with rfl | ht
    · refine ⟨(hp p (by simp)).1, (hp p (by simp)).2 r ?_⟩
      cases hr : p.right with
      | nil => rw [hr] at h1; simp [index] at h1
      | cons a b => rw [hr] at h1; simp [index] at h1; subst h1; simp
    · exact testPairs_text h2 (fun q hq => hp q (List.mem_cons_of_mem _ hq)) t ht

/-- The texts of a spec are valid UTF-8, whatever the source is. -/
theorem parseSpec_text {o : Ord} {src : Bytes} {sp : Spec} (h : parseSpec o src = .ok sp) :
    (∀ s ∈ [sp.lang.id, sp.lang.codes.1, sp.lang.codes.2, sp.lang.english, sp.lang.korean, sp.lang.script], ValidUtf8 s) ∧
    (∀ s ∈ sp.lang.translit, ValidUtf8 s) ∧ (∀ s ∈ sp.config.authors, ValidUtf8 s) ∧ ValidUtf8 sp.config.stage ∧
    ∀ t ∈ sp.test, ValidUtf8 t.1 ∧ ValidUtf8 t.2 := by
  obtain ⟨d, hd, hlang, hconf, _, _, _, _, _, htest, _⟩ := parseSpec_fields h
  have ht := parse_text hd
  refine ⟨?_, ?_, ?_, ?_, ?_⟩
  · rcases fromSection_ok hlang with ⟨_, h2⟩ | ⟨s, h1, _, h2⟩
    · rw [h2]; intro s hs; simp at hs; subst hs; exact .nil
    · have hx := ht _ (lookup_mem h1)
      unfold newLanguage at h2
      split at h2
      · rename_i c0 c1 hc
        simp only [Go.ok.injEq] at h2
        rw [← h2]
        have h3 := hx.all (str "codes")
        rw [hc] at h3
        intro s hs
        simp only [List.mem_cons, List.not_mem_nil, or_false] at hs
        rcases hs with rfl | rfl | rfl | rfl | rfl | rfl
        · exact hx.one _
        · exact h3 _ (by simp)
        · exact h3 _ (by simp)
        · exact hx.one _
        · exact hx.one _
        · exact hx.one _
      · cases h2
  · rcases fromSection_ok hlang with ⟨_, h2⟩ | ⟨s, h1, _, h2⟩
    · rw [h2]; simp
    · have hx := ht _ (lookup_mem h1)
      unfold newLanguage at h2
      split at h2
      · simp only [Go.ok.injEq] at h2
        rw [← h2]
        exact hx.all _
      · cases h2
  · rcases fromSection_ok hconf with ⟨_, h2⟩ | ⟨s, h1, _, h2⟩
    · rw [h2]; simp
    · simp only [Go.ok.injEq] at h2
      rw [← h2]
      exact (ht _ (lookup_mem h1)).all _
  · rcases fromSection_ok hconf with ⟨_, h2⟩ | ⟨s, h1, _, h2⟩
    · rw [h2]; exact .nil
    · simp only [Go.ok.injEq] at h2
      rw [← h2]
      exact (ht _ (lookup_mem h1)).one _
  · rcases fromSection_ok htest with ⟨_, h2⟩ | ⟨s, h1, _, h2⟩
    · rw [h2]; simp
    · exact testPairs_text h2 (ht _ (lookup_mem h1))

end Verif
