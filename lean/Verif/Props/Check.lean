import Verif.Proofs.Checked
import Verif.Props.Procedure
import Verif.Props.Hre

/-! C64: what a check of the compiled rules, made once and without any word, guarantees for all words. -/

namespace Verif.Props

open Verif.Hre Verif.Rx Verif.Spec.Hre Verif.Spec.Subword Verif.Spec.Procedure

/-- C64: if the check of a pattern passes, `Find` returns for every word (also for invalid UTF-8) and every limit, and
its matches are proper. -/
theorem C64_find {p : Pattern} (h : firm p = true) (word : Bytes) (n : Int) :
    ∃ ms, find p word n = .ok ms ∧ ProperMatches word 0 ms :=
  find_firm h word n

/-- C64: if the checks of a rule pass, it can be applied to every word, and `Rule.Replace` does what
`Pattern.Replace` does. -/
theorem C64_replace {r : Rule} (h : checked r = true) (word : Bytes) :
    ∃ t, r.replace word = .ok t ∧ Hre.replace r.pat word r.to (-1) = .ok t := by
  have h' := h
  simp only [checked, Bool.and_eq_true] at h'
  obtain ⟨ms, h1, h2⟩ := find_firm h'.1 word (-1)
  have hi : ∀ m ∈ ms, interpolate r.to r.pat word m ≠ .panic := fun m hm => by
    obtain ⟨o, o', hs⟩ := find_mem h1 hm
    exact varsOk_safe h'.2 hs
  exact ⟨_, Rule.replace_splice h1 h2 hi, by
    simp only [Hre.replace, h1, Go.bind_ok]
    exact replaceLoop_splice (Nat.zero_le _) h2 hi⟩

/-- C64: if the checks of all rules of a spec pass, `Hangulize` returns a word for every word, unless a translit
fails. -/
theorem C64_runs {o : Ord} {src : Bytes} {sp : Spec} (h : parseSpec o src = .ok sp)
    (hr : ∀ r ∈ sp.rewrite ++ sp.transcribe, checked r = true) (translits : List (Bytes × Translit)) (word : Bytes)
    (tr : Tracer) {w : Bytes} (ht : (transliterateLoop translits sp.lang.translit word tr).1 = .ok w) :
    ∃ out, (forward sp translits word tr).1 = .ok out :=
  C34_no_panic h (fun r hr' => checked_wellBehaved (hr r hr')) translits word tr ht

/-- C64: if moreover no transcribing rule matches a NUL character, each piece of a word is transcribed at most once. -/
theorem C64_once (tr : Tracer) (n i : Nat) {rules : List Rule} (hn : ∀ r ∈ rules, avoids r.pat.re = true)
    {word : Bytes} {level : Int} (hl : level ≠ 2) {rep : Replacer} {recs recs' : TRecords}
    (h : transcribeRules tr n i rules word (Replacer.new word level 2) (Replacer.new word 0 0) recs = .ok (rep, recs')) :
    TranscribedOnce rules (word.map fun b => (b, level)) (rep.word.zip rep.levels) :=
  C33_transcribed_once tr n i (fun r hr => avoids_noNul (hn r hr)) hl h

/-- A spec with macros, vars, lookarounds and edges passes all checks. -/
example : ((parseSpec .written (str "lang:\ncodes = \"aa\", \"aaa\"\nscript = \"Latn\"\nmacros:\n\"@\" = \"<vowels>\"\n\
vars:\n\"vowels\" = \"a\", \"e\"\n\"ab\" = \"a\", \"b\"\n\"cd\" = \"c\", \"d\"\n\
rewrite:\n\"^x|y{@}\" -> \"z\"\n\"{~c}<ab>{s|$}\" -> \"<cd>\"\n\
transcribe:\n\"c\" -> \"ㄱ\"\n\".\" -> \"-\"")).bind fun sp =>
      .ok ((sp.rewrite ++ sp.transcribe).map fun r => (firm r.pat, varsOk r, avoids r.pat.re))) =
    .ok [(true, true, true), (true, true, true), (true, true, true), (true, true, false)] := by decide +kernel

/-- What the checks are for: an empty match stops them, and so do a var without values, a var whose group does not
always take part, and one which may hold something else. -/
example : ((parseSpec .written (str "lang:\ncodes = \"aa\", \"aaa\"\nscript = \"Latn\"\n\
vars:\n\"v\" = \"a\", \"e\"\n\"w\" = \"b\"\n\
rewrite:\n\"a*\" -> \"z\"\n\"{a}\" -> \"z\"\n\"a<v>\" -> \"<u>\"\n\"a<v>?\" -> \"<w>\"\n\"(o)<v>\" -> \"<w>\"")).bind fun sp =>
      .ok (sp.rewrite.map fun r => (firm r.pat, varsOk r))) =
    .ok [(false, true), (false, true), (true, false), (true, false), (true, false)] := by decide +kernel

end Verif.Props
