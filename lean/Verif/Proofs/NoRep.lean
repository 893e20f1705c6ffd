import Verif.Proofs.Expand
import Verif.Proofs.Width

/-! Without a closing brace there is no counted repetition. -/

namespace Verif.Hre

open Verif.Rx

theorem mem_of_runes_ascii {c : UInt8} (hc : c.toNat < 0x80) {x : Bytes} (h : c.toNat ∈ runes x) : c ∈ x := by
  suffices ∀ n (x : Bytes), x.length ≤ n → c.toNat ∈ runes x → c ∈ x from this _ x (Nat.le_refl _) h
  intro n
  induction n with
  | zero =>
    intro x hl h
    have : x = [] := List.eq_nil_of_length_eq_zero (by omega)
    subst this; simp [runes, decode, decodeFrom] at h
  | succ n ih =>
    intro x hl h
    cases x with
    | nil => simp [runes, decode, decodeFrom] at h
    | cons b t =>
      rw [runes_cons] at h
      rcases List.mem_cons.1 h with h | h
      · have hd := decodeRune_lt (b := b) (t := t) (by omega)
        rw [hd.1] at h
        have : c = b := UInt8.toNat_inj.1 h
        simp [this]
      · have := ih _ (by simp at hl ⊢; omega) h
        exact List.mem_cons_of_mem _ (List.mem_of_mem_drop this)

/-- A token that brings no counted repetition. -/
def tokSafe : Tok → Bool
  | .rep _ _ _ => false
  | .re r => RepSafe r
  | _ => true

theorem escapeTok_safe {c : Rune} {tok : Tok} (h : escapeTok c = .ok tok) : tokSafe tok = true := by
  unfold escapeTok at h
  split at h
  · simp at h; subst h; rfl
  · repeat' split at h
    all_goals first | (simp at h; done) | (simp at h; subst h; rfl) | skip
    simp only [go_bind_ok] at h
    obtain ⟨_, _, h⟩ := h
    simp at h; subst h; rfl

theorem lexClass_safe {t : List Rune} {tok : Tok} {n : Nat} (h : lexClass t = .ok (tok, n)) :
    tokSafe tok = true := by
  unfold lexClass at h
  split at h
  all_goals
    simp only [go_bind_ok, Prod.exists, Go.ok.injEq, Prod.mk.injEq] at h
    obtain ⟨_, _, _, rfl, _⟩ := h
    rfl

theorem head_drop_mem {l : List Rune} {n : Nat} {c : Rune} (h : (l.drop n).head? = some c) : c ∈ l :=
  List.mem_of_mem_drop (List.mem_of_head? h)

theorem lexRepeat_none {t : List Rune} (h : 0x7D ∉ t) : lexRepeat t = none := by
  unfold lexRepeat
  split
  · rfl
  · rename_i mn n _
    have h1 : ¬ (t.drop n).head? = some 0x7D := fun he => h (head_drop_mem he)
    rw [if_neg h1]
    split
    · have h2 : ¬ (t.drop (n + 1)).head? = some 0x7D := fun he => h (head_drop_mem he)
      rw [if_neg h2]
      split
      · rfl
      · rename_i mx k _
        have h3 : ¬ ((t.drop (n + 1)).drop k).head? = some 0x7D := by
          rw [List.drop_drop]; exact fun he => h (head_drop_mem he)
        rw [if_neg h3]
    · rfl

theorem lexOne_safe {c : Rune} {t : List Rune} {tok : Tok} {n : Nat} (ht : 0x7D ∉ t)
    (h : lexOne c t = .ok (tok, n)) : tokSafe tok = true := by
  unfold lexOne at h
  by_cases c1 : c = 0x28
  · rw [if_pos c1] at h
    split at h
    · simp at h; obtain ⟨rfl, _⟩ := h; rfl
    · split at h
      · simp only [go_bind_ok, Go.ok.injEq, Prod.mk.injEq] at h
        obtain ⟨_, _, rfl, _⟩ := h; rfl
      · split at h
        · simp at h
        · simp at h; obtain ⟨rfl, _⟩ := h; rfl
  rw [if_neg c1] at h
  by_cases c2 : c = 0x29
  · rw [if_pos c2] at h; simp at h; obtain ⟨rfl, _⟩ := h; rfl
  rw [if_neg c2] at h
  by_cases c3 : c = 0x7C
  · rw [if_pos c3] at h; simp at h; obtain ⟨rfl, _⟩ := h; rfl
  rw [if_neg c3] at h
  by_cases c4 : c = 0x5E
  · rw [if_pos c4] at h; simp at h; obtain ⟨rfl, _⟩ := h; rfl
  rw [if_neg c4] at h
  by_cases c5 : c = 0x24
  · rw [if_pos c5] at h; simp at h; obtain ⟨rfl, _⟩ := h; rfl
  rw [if_neg c5] at h
  by_cases c6 : c = 0x2E
  · rw [if_pos c6] at h; simp at h; obtain ⟨rfl, _⟩ := h; rfl
  rw [if_neg c6] at h
  by_cases c7 : c = 0x2A
  · rw [if_pos c7] at h; simp at h; obtain ⟨rfl, _⟩ := h; rfl
  rw [if_neg c7] at h
  by_cases c8 : c = 0x2B
  · rw [if_pos c8] at h; simp at h; obtain ⟨rfl, _⟩ := h; rfl
  rw [if_neg c8] at h
  by_cases c9 : c = 0x3F
  · rw [if_pos c9] at h; simp at h; obtain ⟨rfl, _⟩ := h; rfl
  rw [if_neg c9] at h
  by_cases c10 : c = 0x5B
  · rw [if_pos c10] at h; exact lexClass_safe h
  rw [if_neg c10] at h
  by_cases c11 : c = 0x7B
  · rw [if_pos c11, lexRepeat_none ht] at h
    simp at h; obtain ⟨rfl, _⟩ := h; rfl
  rw [if_neg c11] at h
  by_cases c12 : c = 0x5C
  · rw [if_pos c12] at h
    cases t with
    | nil => simp at h
    | cons e t =>
      simp only [go_bind_ok, Go.ok.injEq, Prod.mk.injEq] at h
      obtain ⟨_, h0, rfl, _⟩ := h
      exact escapeTok_safe h0
  · rw [if_neg c12] at h; simp at h; obtain ⟨rfl, _⟩ := h; rfl

theorem lexFrom_safe : ∀ (k : Nat) (a : List Rune) (ts : List Tok), 0x7D ∉ a →
    lexFrom k a = .ok ts → ∀ t ∈ ts, tokSafe t = true
  | _, [], ts, _, h => by simp [lexFrom] at h; subst h; simp
  | k + 1, c :: t, ts, hq, h =>
      lexFrom_safe k t ts (fun hm => hq (by simp [hm])) (by simpa [lexFrom] using h)
  | 0, c :: t, ts, hq, h => by
      have hq' : 0x7D ∉ t := fun hm => hq (by simp [hm])
      simp only [lexFrom, go_bind_ok] at h
      obtain ⟨⟨tok, n⟩, h1, us, h2, h3⟩ := h
      simp at h3
      subst h3
      intro x hx
      rcases List.mem_cons.1 hx with rfl | hx
      · exact lexOne_safe hq' h1
      · exact lexFrom_safe n t us hq' h2 x hx

theorem repSafeList_iff {rs : List Re} : RepSafeList rs = true ↔ ∀ r ∈ rs, RepSafe r = true := by
  induction rs with
  | nil => simp [RepSafeList]
  | cons r rs ih => simp [RepSafeList, ih]

theorem mkCat_safe {rs : List Re} (h : ∀ r ∈ rs, RepSafe r = true) : RepSafe (mkCat rs) = true := by
  unfold mkCat
  split
  · rfl
  · exact h _ (by simp)
  · simp only [RepSafe, repSafeList_iff]; exact fun r hr => h r (by simpa using hr)

theorem mkAlt_safe {rs : List Re} (h : ∀ r ∈ rs, RepSafe r = true) : RepSafe (mkAlt rs) = true := by
  unfold mkAlt
  split
  · exact h _ (by simp)
  · simp only [RepSafe, repSafeList_iff]; exact fun r hr => h r (by simpa using hr)

/-- Everything parsed so far has no counted repetition. -/
def frameSafe (f : Frame) : Prop := (∀ r ∈ f.alts, RepSafe r = true) ∧ ∀ r ∈ f.cat, RepSafe r = true

theorem frameSafe.body {f : Frame} (h : frameSafe f) : RepSafe f.body = true := by
  unfold Frame.body
  refine mkAlt_safe fun r hr => ?_
  rcases List.mem_cons.1 hr with rfl | hr
  · exact mkCat_safe h.2
  · exact h.1 r hr

theorem frameSafe.close {f : Frame} (h : frameSafe f) : RepSafe f.close = true := by
  unfold Frame.close
  split
  · simpa [RepSafe] using h.body
  · exact h.body

def pstSafe (st : PSt) : Prop := frameSafe st.cur ∧ ∀ f ∈ st.stack, frameSafe f

theorem pstSafe.push {st : PSt} {r : Re} (h : pstSafe st) (hr : RepSafe r = true) : pstSafe (st.push r) := by
  refine ⟨⟨h.1.1, fun x hx => ?_⟩, h.2⟩
  rcases List.mem_cons.1 hx with rfl | hx
  · exact hr
  · exact h.1.2 x hx

theorem pstep_safe {st st' : PSt} {t : Tok} (ht : tokSafe t = true) (hs : pstSafe st)
    (h : pstep st t = .ok st') : pstSafe st' := by
  have rep : ∀ f : Re → Re, (∀ r, RepSafe r = true → RepSafe (f r) = true) → st.repeat f = .ok st' → pstSafe st' := by
    intro f hf h
    unfold PSt.repeat at h
    split at h
    · rename_i r rs _ hc
      simp at h; rw [← h]
      refine ⟨⟨hs.1.1, fun x hx => ?_⟩, hs.2⟩
      rcases List.mem_cons.1 hx with rfl | hx
      · exact hf _ (hs.1.2 _ (by simp [hc]))
      · exact hs.1.2 x (by simp [hc, hx])
    · simp at h
  cases t with
  | «open» =>
    simp [pstep] at h; rw [← h]
    exact ⟨⟨by simp, by simp⟩, by simpa using ⟨hs.1, hs.2⟩⟩
  | lit r => simp [pstep] at h; rw [← h]; exact hs.push rfl
  | re r => simp [pstep] at h; rw [← h]; exact hs.push ht
  | openNC =>
    simp [pstep] at h; rw [← h]
    exact ⟨⟨by simp, by simp⟩, by simpa using ⟨hs.1, hs.2⟩⟩
  | bar =>
    simp [pstep] at h; rw [← h]
    refine ⟨⟨fun x hx => ?_, by simp⟩, hs.2⟩
    rcases List.mem_cons.1 hx with rfl | hx
    · exact mkCat_safe hs.1.2
    · exact hs.1.1 x hx
  | close =>
    simp only [pstep] at h
    split at h
    · simp at h
    · rename_i f fs hst
      simp at h; rw [← h]
      exact pstSafe.push ⟨hs.2 f (by simp [hst]), fun g hg => hs.2 g (by simp [hst, hg])⟩ hs.1.close
  | star g => exact rep _ (fun r hr => by simpa [RepSafe] using hr) h
  | plus g => exact rep _ (fun r hr => by simpa [RepSafe] using hr) h
  | quest g => exact rep _ (fun r hr => by simpa [RepSafe] using hr) h
  | rep mn mx g => simp [tokSafe] at ht

theorem psteps_safe {ts : List Tok} (ht : ∀ t ∈ ts, tokSafe t = true) :
    ∀ {st st' : PSt}, pstSafe st → psteps st ts = .ok st' → pstSafe st' := by
  induction ts with
  | nil => intro st st' hs h; simp [psteps] at h; rw [← h]; exact hs
  | cons t ts ih =>
    intro st st' hs h
    simp only [psteps, go_bind_ok] at h
    obtain ⟨s1, h1, h2⟩ := h
    exact ih (fun t h => ht t (by simp [h])) (pstep_safe (ht t (by simp)) hs h1) h2

/-- Without a closing brace there is no counted repetition. -/
theorem compile_repSafe {x : Bytes} {r : Re} (hx : 0x7D ∉ x) (h : compile x = .ok r) : RepSafe r = true := by
  unfold compile at h
  split at h
  · have hr : 0x7D ∉ runes x := fun hm => hx (mem_of_runes_ascii (c := 0x7D) (by decide) hm)
    simp only [parseRunes, go_bind_ok] at h
    obtain ⟨ts, h1, st, h2, h3⟩ := h
    have := psteps_safe (lexFrom_safe 0 _ _ hr h1)
      (st := ⟨⟨none, [], []⟩, [], 0, false⟩) ⟨⟨by simp, by simp⟩, by simp⟩ h2
    split at h3
    · simp at h3; rw [← h3]; exact this.1.body
    · simp at h3
  · simp at h

end Verif.Hre
