import Verif.Proofs.Reference
import Verif.Props.Procedure

/-! Properties C59 and C60: what the procedure as a whole computes. -/

namespace Verif.Props

open Verif.Spec.Subword Verif.Spec.Procedure Verif.Spec.Reference

/-! ## C59 -/

/-- C59: the procedure returns exactly what the reference relates to the word. -/
theorem C59_reference {o : Ord} {src : Bytes} {sp : Spec} (h : parseSpec o src = .ok sp)
    (translits : List (Bytes × Translit)) (word out : Bytes) (tr : Tracer) :
    (forward sp translits word tr).1 = .ok out ↔ ∃ evs, Hangulized sp translits word evs out := by
  rw [forward_eq (parseSpec_numbered h)]
  constructor
  · intro h1
    exact ⟨_, (forwardRun_iff _ _ _ _ _).1 (Prod.ext h1 rfl)⟩
  · rintro ⟨evs, h1⟩
    rw [(forwardRun_iff _ _ _ _ _).2 h1]

/-- C59: and the reference relates at most one result and one sequence of events to a word. -/
theorem C59_functional (sp : Spec) (translits : List (Bytes × Translit)) (word : Bytes) {out out' : Bytes}
    {evs evs' : List Trace} (h : Hangulized sp translits word evs out) (h' : Hangulized sp translits word evs' out') :
    out = out' ∧ evs = evs' := by
  have := ((forwardRun_iff _ _ _ _ _).2 h).symm.trans ((forwardRun_iff _ _ _ _ _).2 h')
  simpa using this

/-! ## C60 -/

/-- C60: the log has the events of the reference, except those which leave the word as it was. -/
theorem C60_trace {o : Ord} {src : Bytes} {sp : Spec} (h : parseSpec o src = .ok sp)
    (translits : List (Bytes × Translit)) (word out : Bytes) (evs : List Trace)
    (hh : Hangulized sp translits word evs out) :
    ∃ last, (forward sp translits word fresh).2 = some ⟨changed [] evs, last⟩ := by
  rw [forward_eq (parseSpec_numbered h), (forwardRun_iff _ _ _ _ _).2 hh, fresh, traces_eq]
  exact ⟨_, by rw [changes_changed]; rfl⟩

/-- The parts of the reference on small texts. -/
example : pieces (at_ 1 (str "ab") ++ at_ 2 (str "ㅏ") ++ at_ 2 (str "ㅣ") ++ at_ 1 (str "c")) =
    [⟨str "ab", 1⟩, ⟨str "ㅏㅣ", 2⟩, ⟨str "c", 1⟩] := by decide +kernel

example : joined [⟨str "a", 1⟩, ⟨str "b", 1⟩, ⟨str ",", 0⟩, ⟨str "c", 1⟩] = [⟨str "ab", 1⟩, ⟨str ",", 0⟩, ⟨str "c", 1⟩] := by
  decide +kernel

example : cleaned [⟨str "ㅏ", 2⟩, ⟨str "-\t", 1⟩, ⟨str "ㅏ", 2⟩, ⟨str "x", 1⟩, ⟨str "!", 0⟩] =
    [⟨str "ㅏ", 2⟩, ⟨str " ", 1⟩, ⟨str "ㅏ", 2⟩, ⟨str "!", 0⟩] := by decide +kernel

/-- The reference of the greeting: something to which C59 and C60 apply. -/
example : ∃ sp, parseSpec Ord.written greeting = .ok sp ∧
    ∃ evs, Hangulized sp [] (str "Hello, hello!") evs (str "헬로, 헬로!") := by
  have h : ((parseSpec Ord.written greeting).bind fun sp => .ok ((forward sp [] (str "Hello, hello!") fresh).1)) =
    .ok (.ok (str "헬로, 헬로!")) := by decide +kernel
  rw [Rx.go_bind_ok] at h
  obtain ⟨sp, h1, h2⟩ := h
  simp only [Go.ok.injEq] at h2
  exact ⟨sp, h1, (C59_reference h1 _ _ _ _).1 h2⟩

end Verif.Props
