import Verif.Spec.Workers
import Mathlib.Data.List.Induction

/-! # The workers of the page -/

namespace Verif.Workers

open Verif.Spec.Workers Verif.Wasm

/-! ## The worker for hangulize -/

/-- All calls are run, waiting or posted, in the order in which they were made; none waits if the module is loaded, and none has run
otherwise. -/
structure Main.Inv (all : List Call) (w : Main) : Prop where
  order : w.ran ++ w.waiting ++ w.inbox = all
  loaded : w.loaded = true → w.waiting = []
  idle : w.loaded = false → w.ran = []

theorem Main.Inv.deliver {all : List Call} {w w' : Main} (h : w.Inv all) (e : w.deliver = some w') : w'.Inv all := by
  obtain ⟨inbox, loaded, waiting, ran⟩ := w
  obtain ⟨h1, h2, h3⟩ := h
  simp only [Main.deliver] at e
  cases inbox with
  | nil => simp at e
  | cons c rest =>
    simp only [Option.some.injEq] at e
    subst e
    cases loaded with
    | true =>
      have := h2 rfl
      simp only at this
      subst this
      exact ⟨by simpa using h1, fun _ => rfl, fun h => by simp at h⟩
    | false => exact ⟨by simpa using h1, fun h => by simp at h, fun _ => h3 rfl⟩

theorem Main.Inv.load {all : List Call} {w w' : Main} (h : w.Inv all) (e : w.load = some w') : w'.Inv all := by
  obtain ⟨inbox, loaded, waiting, ran⟩ := w
  obtain ⟨h1, h2, h3⟩ := h
  simp only [Main.load] at e
  split at e
  · simp at e
  · cases e
    exact ⟨by simpa using h1, fun _ => rfl, fun h => by simp at h⟩

/-! ## The workers for translits -/

/-- Only words to transliterate. -/
def Plain (inbox : List TCall) : Prop := ∀ c ∈ inbox, ∃ method word, c = .transliterate method word

/-- The module is loaded first and once, and is the one of the name; nothing has thrown an Error. -/
structure Side.Inv (name : Bytes) (all : List (Bytes × Bytes)) (w : Side) : Prop where
  order : w.ran ++ w.waiting ++ words w.inbox = all
  thrown : w.thrown = 0
  known : name ∈ urls
  stage : (w.module_ = none ∧ w.loaded = false ∧ w.ran = [] ∧ w.waiting = [] ∧
      ∃ method rest, w.inbox = .load method :: rest ∧ normalizeMethod method = name ∧ Plain rest) ∨
    (w.module_ = some name ∧ Plain w.inbox ∧ (w.loaded = true → w.waiting = []) ∧ (w.loaded = false → w.ran = []))

theorem Side.Inv.deliver {name : Bytes} {all : List (Bytes × Bytes)} {w w' : Side} (h : w.Inv name all) (e : w.deliver = some w') :
    w'.Inv name all := by
  obtain ⟨inbox, module_, loaded, waiting, ran, thrown⟩ := w
  obtain ⟨h1, h2, h3, h4⟩ := h
  simp only at h1 h2 h4
  subst h2
  rcases h4 with ⟨rfl, rfl, rfl, rfl, m, rest, rfl, h5, h6⟩ | ⟨rfl, h5, h6, h7⟩
  · simp only [Side.deliver, Option.some.injEq] at e
    rw [if_neg (by simp), h5, if_pos h3] at e
    subst e
    exact ⟨by simpa [words] using h1, rfl, h3, .inr ⟨rfl, h6, fun _ => rfl, fun _ => rfl⟩⟩
  · cases inbox with
    | nil => simp [Side.deliver] at e
    | cons c rest =>
      obtain ⟨m, word, rfl⟩ := h5 c (by simp)
      have hp : Plain rest := fun c hc => h5 c (by simp [hc])
      simp only [Side.deliver, Option.some.injEq] at e
      rw [if_neg (by simp)] at e
      cases loaded with
      | true =>
        have := h6 rfl
        subst this
        subst e
        exact ⟨by simpa [words] using h1, rfl, h3, .inr ⟨rfl, hp, fun _ => rfl, fun h => by simp at h⟩⟩
      | false =>
        subst e
        exact ⟨by simpa [words] using h1, rfl, h3, .inr ⟨rfl, hp, fun h => by simp at h, fun _ => h7 rfl⟩⟩

theorem Side.Inv.load {name : Bytes} {all : List (Bytes × Bytes)} {w w' : Side} (h : w.Inv name all) (e : w.load = some w') :
    w'.Inv name all := by
  obtain ⟨inbox, module_, loaded, waiting, ran, thrown⟩ := w
  obtain ⟨h1, h2, h3, h4⟩ := h
  simp only at h1 h2 h4
  simp only [Side.load] at e
  split at e
  · simp at e
  next hn =>
    cases e
    rcases h4 with ⟨rfl, _⟩ | ⟨rfl, h5, h6, h7⟩
    · simp at hn
    · exact ⟨by simpa using h1, h2, h3, .inr ⟨rfl, h5, fun _ => rfl, fun h => by simp at h⟩⟩

theorem Side.Inv.post {name : Bytes} {all : List (Bytes × Bytes)} {w : Side} (h : w.Inv name all) (method word : Bytes) :
    Side.Inv name (all ++ [(method, word)]) { w with inbox := w.inbox ++ [.transliterate method word] } := by
  obtain ⟨inbox, module_, loaded, waiting, ran, thrown⟩ := w
  obtain ⟨h1, h2, h3, h4⟩ := h
  simp only at h1 h2 h4
  have pl : ∀ {l : List TCall}, Plain l → Plain (l ++ [.transliterate method word]) := by
    intro l hl c hc
    rcases List.mem_append.1 hc with hc | hc
    · exact hl c hc
    · exact ⟨method, word, by simpa using hc⟩
  refine ⟨?_, h2, h3, ?_⟩
  · subst h1
    simp [words, List.filterMap_append]
  · rcases h4 with ⟨rfl, rfl, rfl, rfl, m, rest, rfl, h5, h6⟩ | ⟨rfl, h5, h6, h7⟩
    · exact .inl ⟨rfl, rfl, rfl, rfl, m, _, rfl, h5, pl h6⟩
    · exact .inr ⟨rfl, pl h5, h6, h7⟩

/-! ## All workers -/

theorem update_keys {name : Bytes} {f : Side → Option Side} : ∀ {sides sides' : List (Bytes × Side)}, update name f sides = some sides' →
    sides'.map Prod.fst = sides.map Prod.fst
  | [], _, h => by simp [update] at h
  | (n, w) :: sides, sides', h => by
    simp only [update] at h
    split at h
    · obtain ⟨w', _, rfl⟩ := Option.map_eq_some_iff.1 h
      rfl
    · obtain ⟨t, ht, rfl⟩ := Option.map_eq_some_iff.1 h
      simp [update_keys ht]

theorem update_mem {name : Bytes} {f : Side → Option Side} : ∀ {sides sides' : List (Bytes × Side)}, update name f sides = some sides' →
    (sides.map Prod.fst).Nodup → ∀ x ∈ sides', (x.1 ≠ name ∧ x ∈ sides) ∨ (x.1 = name ∧ ∃ w, (name, w) ∈ sides ∧ f w = some x.2)
  | [], _, h, _ => by simp [update] at h
  | (n, w) :: sides, sides', h, hd => by
    simp only [List.map_cons, List.nodup_cons] at hd
    simp only [update] at h
    intro x hx
    split at h
    next e =>
      obtain ⟨w', hw, rfl⟩ := Option.map_eq_some_iff.1 h
      rcases List.mem_cons.1 hx with rfl | hx
      · exact .inr ⟨e, w, by simp [e], hw⟩
      · refine .inl ⟨fun he => hd.1 ?_, by simp [hx]⟩
        exact List.mem_map.2 ⟨x, hx, he.trans e.symm⟩
    next e =>
      obtain ⟨t, ht, rfl⟩ := Option.map_eq_some_iff.1 h
      rcases List.mem_cons.1 hx with rfl | hx
      · exact .inl ⟨e, by simp⟩
      · rcases update_mem ht hd.2 x hx with ⟨h1, h2⟩ | ⟨h1, w', h2, h3⟩
        · exact .inl ⟨h1, by simp [h2]⟩
        · exact .inr ⟨h1, w', by simp [h2], h3⟩

theorem update_some {name : Bytes} {f : Side → Option Side} (hf : ∀ w, (f w).isSome = true) : ∀ {sides : List (Bytes × Side)},
    name ∈ sides.map Prod.fst → (update name f sides).isSome = true
  | [], h => by simp at h
  | (n, w) :: sides, h => by
    simp only [update]
    split
    · simpa using hf w
    next e =>
      have : name ∈ sides.map Prod.fst := by
        rcases List.mem_cons.1 h with h | h
        · exact absurd h.symm e
        · exact h
      simpa using update_some hf this

theorem update_isSome {f : Side → Option Side} : ∀ {sides : List (Bytes × Side)} {x : Bytes × Side}, (sides.map Prod.fst).Nodup →
    x ∈ sides → (f x.2).isSome = true → (update x.1 f sides).isSome = true
  | (n, w) :: sides, x, hd, hx, hf => by
    simp only [List.map_cons, List.nodup_cons] at hd
    simp only [update]
    rcases List.mem_cons.1 hx with rfl | hx
    · simpa using hf
    · rw [if_neg (fun e => hd.1 (List.mem_map.2 ⟨x, hx, e.symm⟩)), Option.isSome_map]
      exact update_isSome hd.2 hx hf

/-- What holds for all workers, after some events. -/
structure Inv (methods : List Bytes) (es : List Event) (s : Workers) : Prop where
  main : s.main.Inv (methods.map .useTranslit ++ requests es)
  keys : (s.sides.map Prod.fst).Nodup
  all : ∀ m ∈ methods, normalizeMethod m ∈ s.sides.map Prod.fst
  only : ∀ name ∈ s.sides.map Prod.fst, ∃ m ∈ methods, normalizeMethod m = name
  sides : ∀ x ∈ s.sides, x.2.Inv x.1 (asks x.1 es)

theorem lookup_isSome {α : Type} [BEq α] [LawfulBEq α] {β : Type} {k : α} : ∀ {l : List (α × β)}, (l.lookup k).isSome = true ↔ k ∈ l.map Prod.fst
  | [] => by simp
  | (a, b) :: l => by
    rw [List.lookup_cons]
    by_cases h : k = a
    · simp [h]
    · have : (k == a) = false := by simpa using h
      simp only [this, List.map_cons, List.mem_cons, h, false_or]
      exact lookup_isSome

theorem Inv.spawn {methods : List Bytes} (hm : ∀ m ∈ methods, normalizeMethod m ∈ urls) : Inv methods [] (Workers.spawn methods) := by
  unfold Workers.spawn
  induction methods using List.reverseRecOn with
  | nil => exact ⟨⟨rfl, fun _ => rfl, fun _ => rfl⟩, by simp, by simp, by simp, by simp⟩
  | append_singleton ms m ih =>
    have ih := ih fun m hm' => hm m (by simp [hm'])
    rw [List.foldl_append, List.foldl_cons, List.foldl_nil]
    generalize ms.foldl Workers.register ⟨⟨[], false, [], []⟩, []⟩ = s at ih
    obtain ⟨⟨o, l, i⟩, h2, h3, h5, h4⟩ := ih
    have h5 : ∀ name ∈ s.sides.map Prod.fst, ∃ m' ∈ ms ++ [m], normalizeMethod m' = name := by
      intro n hn
      obtain ⟨m', h6, h7⟩ := h5 n hn
      exact ⟨m', by simp [h6], h7⟩
    have hmain : (s.register m).main.Inv ((ms ++ [m]).map .useTranslit ++ requests []) := by
      refine ⟨?_, l, i⟩
      simp only [Workers.register]
      rw [← List.append_assoc, o]
      simp [requests]
    by_cases e : (s.sides.lookup (normalizeMethod m)).isSome = true
    · have hs : (s.register m).sides = s.sides := by simp only [Workers.register, if_pos e]
      refine ⟨hmain, hs ▸ h2, ?_, hs ▸ h5, hs ▸ h4⟩
      rw [hs]
      intro m' hm'
      rcases List.mem_append.1 hm' with hm' | hm'
      · exact h3 m' hm'
      · rw [List.mem_singleton.1 hm']
        exact lookup_isSome.1 e
    · have hs : (s.register m).sides = s.sides ++ [(normalizeMethod m, ⟨[.load m], none, false, [], [], 0⟩)] := by
        simp only [Workers.register, if_neg e]
      have e' : normalizeMethod m ∉ s.sides.map Prod.fst := fun h => e (lookup_isSome.2 h)
      refine ⟨hmain, ?_, ?_, ?_, ?_⟩
      · rw [hs, List.map_append, List.nodup_append]
        refine ⟨h2, by simp, ?_⟩
        intro a ha b hb
        simp only [List.map_cons, List.map_nil, List.mem_singleton] at hb
        rintro rfl
        exact e' (hb ▸ ha)
      · rw [hs, List.map_append]
        intro m' hm'
        rcases List.mem_append.1 hm' with hm' | hm'
        · exact List.mem_append_left _ (h3 m' hm')
        · rw [List.mem_singleton.1 hm']
          simp
      · rw [hs, List.map_append]
        intro n hn
        rcases List.mem_append.1 hn with hn | hn
        · exact h5 n hn
        · exact ⟨m, by simp, (by simpa using hn : n = normalizeMethod m).symm⟩
      · rw [hs]
        intro x hx
        rcases List.mem_append.1 hx with hx | hx
        · exact h4 x hx
        · rw [List.mem_singleton.1 hx]
          exact ⟨by simp [words, asks], rfl, hm m (by simp), .inl ⟨rfl, rfl, rfl, rfl, m, [], rfl, rfl, by simp [Plain]⟩⟩

theorem Inv.update {methods : List Bytes} {es : List Event} {s : Workers} (h : Inv methods es s) {name : Bytes} {f : Side → Option Side}
    (hf : ∀ w w' all, w.Inv name all → f w = some w' → w'.Inv name all) {sides : List (Bytes × Side)}
    (hu : Workers.update name f s.sides = some sides) {e : Event} (hc : requests (es ++ [e]) = requests es) (ha : ∀ n, asks n (es ++ [e]) = asks n es) :
    Inv methods (es ++ [e]) { s with sides } := by
  refine ⟨by rw [hc]; exact h.main, by rw [update_keys hu]; exact h.keys, by rw [update_keys hu]; exact h.all, by rw [update_keys hu]; exact h.only, ?_⟩
  intro x hx
  rw [ha]
  rcases update_mem hu h.keys x hx with ⟨_, h2⟩ | ⟨h1, w, h2, h3⟩
  · exact h.sides x h2
  · rw [h1]
    exact hf w _ _ (h.sides _ h2) h3

theorem Inv.step {methods : List Bytes} {es : List Event} {s s' : Workers} (h : Inv methods es s) {e : Event} (he : s.step e = some s') :
    Inv methods (es ++ [e]) s' := by
  cases e with
  | call c =>
    have e1 : s' = { s with main := { s.main with inbox := s.main.inbox ++ [c] } } := by
      cases c <;> simp only [Workers.step, Option.some.injEq, reduceCtorEq] at he <;> exact he.symm
    have e2 : requests (es ++ [Event.call c]) = requests es ++ [c] := by simp [requests, List.filterMap_append]
    have e3 : ∀ n, asks n (es ++ [Event.call c]) = asks n es := by simp [asks, List.filterMap_append]
    subst e1
    refine ⟨⟨?_, h.main.loaded, h.main.idle⟩, h.keys, h.all, h.only, fun x hx => by rw [e3]; exact h.sides x hx⟩
    rw [e2, ← List.append_assoc, ← List.append_assoc, h.main.order]
  | ask m w =>
    simp only [Workers.step] at he
    split at he
    · obtain ⟨sides, hu, rfl⟩ := Option.map_eq_some_iff.1 he
      have e2 : requests (es ++ [Event.ask m w]) = requests es := by simp [requests, List.filterMap_append]
      refine ⟨by rw [e2]; exact h.main, by rw [update_keys hu]; exact h.keys, by rw [update_keys hu]; exact h.all, by rw [update_keys hu]; exact h.only, ?_⟩
      intro x hx
      rcases update_mem hu h.keys x hx with ⟨h1, h2⟩ | ⟨h1, y, h2, h3⟩
      · have e3 : asks x.1 (es ++ [Event.ask m w]) = asks x.1 es := by
          have : ¬ normalizeMethod m = x.1 := fun e => h1 e.symm
          simp [asks, List.filterMap_append, this]
        rw [e3]
        exact h.sides x h2
      · have e3 : asks x.1 (es ++ [Event.ask m w]) = asks x.1 es ++ [(m, w)] := by
          simp [asks, List.filterMap_append, h1]
        rw [e3, h1]
        simp only [Option.some.injEq] at h3
        rw [← h3]
        exact (h.sides _ h2).post m w
    · simp at he
  | deliver =>
    simp only [Workers.step] at he
    obtain ⟨w, hw, rfl⟩ := Option.map_eq_some_iff.1 he
    exact ⟨by simpa [requests, List.filterMap_append] using h.main.deliver hw, h.keys, h.all, h.only,
      fun x hx => by simpa [asks, List.filterMap_append] using h.sides x hx⟩
  | load =>
    simp only [Workers.step] at he
    obtain ⟨w, hw, rfl⟩ := Option.map_eq_some_iff.1 he
    exact ⟨by simpa [requests, List.filterMap_append] using h.main.load hw, h.keys, h.all, h.only,
      fun x hx => by simpa [asks, List.filterMap_append] using h.sides x hx⟩
  | deliverSide n =>
    simp only [Workers.step] at he
    obtain ⟨sides, hu, rfl⟩ := Option.map_eq_some_iff.1 he
    exact h.update (fun w w' all hw e => hw.deliver e) hu (by simp [requests, List.filterMap_append]) (by simp [asks, List.filterMap_append])
  | loadSide n =>
    simp only [Workers.step] at he
    obtain ⟨sides, hu, rfl⟩ := Option.map_eq_some_iff.1 he
    exact h.update (fun w w' all hw e => hw.load e) hu (by simp [requests, List.filterMap_append]) (by simp [asks, List.filterMap_append])

theorem Inv.steps {methods : List Bytes} : ∀ {es es' : List Event} {s s' : Workers}, Inv methods es s → s.steps es' = some s' →
    Inv methods (es ++ es') s'
  | es, [], s, s', h, he => by
    simp only [Workers.steps, Option.some.injEq] at he
    subst he
    simpa using h
  | es, e :: es', s, s', h, he => by
    simp only [Workers.steps] at he
    obtain ⟨t, h1, h2⟩ := Option.bind_eq_some_iff.1 he
    have := Inv.steps (h.step h1) h2
    simpa using this

theorem requests_plain : ∀ {es : List Event} {s s' : Workers}, s.steps es = some s' → ∀ m, Call.useTranslit m ∉ requests es
  | [], _, _, _, _ => by simp [requests]
  | e :: es, s, s', h, m => by
    simp only [Workers.steps] at h
    obtain ⟨t, h1, h2⟩ := Option.bind_eq_some_iff.1 h
    have ih := requests_plain h2 m
    simp only [requests] at ih
    cases e with
    | call c =>
      cases c with
      | useTranslit _ => simp [Workers.step] at h1
      | _ => simpa [requests] using ih
    | _ => simpa [requests] using ih

end Verif.Workers
