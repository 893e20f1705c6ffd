import Verif.Props.Api
import Verif.Props.Reference

/-! Property C45: what the tracing functions get. -/

namespace Verif.Props

open Verif.Spec.Reference

/-- C45: calls other than running a hangulizer pass nothing to tracing functions. -/
theorem C45_untraced {files : Files} {c : Call} {w w' : World} {r : Res} (h : call files w c = .ok (w', r))
    (hc : ∀ k word, c ≠ .run k word) : w'.log = w.log := by
  cases c with
  | run k word => exact absurd rfl (hc k word)
  | loadSpec o lang =>
    simp only [call, Go.bind_eq_ok, Prod.exists, Go.pure_eq, Go.ok.injEq, Prod.mk.injEq] at h
    obtain ⟨_, _, _, rfl, _⟩ := h
    rfl
  | hangulize o lang word =>
    simp only [call, Go.bind_eq_ok, Prod.exists] at h
    obtain ⟨r, specs, _, h⟩ := h
    cases r with
    | inr e =>
      simp only [Go.pure_eq, Go.ok.injEq, Prod.mk.injEq] at h
      obtain ⟨rfl, _⟩ := h
      rfl
    | inl sp =>
      simp only [Go.bind_eq_ok, Go.pure_eq, Go.ok.injEq, Prod.mk.injEq] at h
      obtain ⟨_, _, rfl, _⟩ := h
      rfl
  | _ =>
    simp only [call] at h
    repeat' split at h
    all_goals
      simp only [Go.ok.injEq, Prod.mk.injEq] at h
      obtain ⟨rfl, _⟩ := h
      rfl

/-- C45: a run passes its events, which are those of the reference, to the tracing function of the hangulizer in
order; earlier events stay. -/
theorem C45_traced {files : Files} {w w' : World} {r : Res} {k : Nat} {word : Bytes} {obj : Obj}
    (h : call files w (.run k word) = .ok (w', r)) (hk : w.objs[k]? = some obj) {o : Ord} {src : Bytes}
    (hp : parseSpec o src = .ok obj.spec) {evs : List Trace} {out : Bytes}
    (hh : Hangulized obj.spec (w.map obj.registry).detach word evs out) :
    r = .word (out, none) ∧
    w'.log = w.log ++ match obj.traceFunc with | some fn => (changed [] evs).map fun e => (fn, e) | none => [] := by
  obtain ⟨last, ht⟩ := C60_trace hp (w.map obj.registry).detach word out evs hh
  have hr := fun tr => (C59_reference hp (w.map obj.registry).detach word out tr).2 ⟨evs, hh⟩
  simp only [call, hk] at h
  cases hf : obj.traceFunc with
  | none =>
    simp only [hf, Option.map_none, hr, wordErr, Go.bind_ok, Go.pure_eq, Go.ok.injEq, Prod.mk.injEq] at h
    obtain ⟨rfl, rfl⟩ := h
    exact ⟨rfl, rfl⟩
  | some fn =>
    simp only [hf, Option.map_some] at h
    rw [show (some ⟨[], []⟩ : Tracer) = fresh from rfl] at h
    simp only [ht, hr, wordErr, Go.bind_ok, Go.pure_eq, Go.ok.injEq, Prod.mk.injEq] at h
    obtain ⟨rfl, rfl⟩ := h
    exact ⟨rfl, rfl⟩

/-- C45: no call takes events back. -/
theorem C45_kept {files : Files} : ∀ {cs : List Call} {w w' : World} {rs : List Res},
    calls files w cs = .ok (w', rs) → w.log <+: w'.log := by
  intro cs
  induction cs with
  | nil =>
    intro w w' rs h
    simp only [calls, Go.ok.injEq, Prod.mk.injEq] at h
    obtain ⟨rfl, _⟩ := h
    exact List.prefix_refl _
  | cons c cs ih =>
    intro w w' rs h
    simp only [calls, Go.bind_eq_ok, Prod.exists, Go.pure_eq, Go.ok.injEq, Prod.mk.injEq] at h
    obtain ⟨w1, r, h1, w2, rs2, h2, rfl, _⟩ := h
    refine List.IsPrefix.trans ?_ (ih h2)
    by_cases hc : ∃ k word, c = .run k word
    · obtain ⟨k, word, rfl⟩ := hc
      simp only [call] at h1
      split at h1
      · simp only [Go.ok.injEq, Prod.mk.injEq] at h1
        obtain ⟨rfl, _⟩ := h1
        exact List.prefix_refl _
      · simp only [Go.bind_eq_ok, Go.pure_eq, Go.ok.injEq, Prod.mk.injEq] at h1
        obtain ⟨_, _, rfl, _⟩ := h1
        exact List.prefix_append _ _
    · rw [C45_untraced h1 fun k word e => hc ⟨k, word, e⟩]
      exact List.prefix_refl _

/-- Two hangulizers, one of them traced. -/
example : (parseSpec Ord.written greeting).bind (fun sp =>
      (calls bundle World.init [.new sp, .new sp, .trace 1 (some 7), .run 0 (str "ho"), .run 1 (str "ho"),
        .trace 1 none, .run 1 (str "ho")]).bind fun p => .ok (p.1.log.map fun e => (e.1, e.2.word))) =
    .ok [(7, str "ho"), (7, str "ㅎo"), (7, str "ㅎㅗ"), (7, str "호")] := by decide +kernel

end Verif.Props
