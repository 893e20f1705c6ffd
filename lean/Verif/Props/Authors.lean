import Verif.Proofs.Bundled

/-! The authors of a spec (C73), and the spec of the documentation (C22). -/

namespace Verif.Props

open Verif.Hsl Verif.Specs

/-- C73 fails for each bundled spec: its source names an author as the documentation does, but the spec has none. -/
theorem C73_authors_refuted {lang src : Bytes} (h : bundled lang = some src) {o : Ord} (ho : o.Ok) :
    ∃ sp doc config, parseSpec o src = .ok sp ∧ Hsl.parse src = .ok doc ∧ doc.lookup (str "config") = some config ∧
      config.all (str "author") ≠ [] ∧ sp.config.authors = [] := by
  obtain ⟨l, _, hs⟩ := bundled_sound h
  obtain ⟨sp, h1, _, _, _, ⟨h2, doc, sec, h3, h4, h5⟩, _⟩ := hs o ho
  exact ⟨sp, doc, sec, h1, h3, h4, h5, h2⟩

example : (bundled (str "ita")).isSome = true := by decide +kernel

/-- C73 with another key: a spec has the authors of the key `authors`. -/
theorem C73_authors_partial {src : Bytes} {o : Ord} {sp : Spec} {doc : Doc} {config : Section} (h : parseSpec o src = .ok sp)
    (hd : Hsl.parse src = .ok doc) (hc : doc.lookup (str "config") = some config) :
    sp.config.authors = config.all (str "authors") := by
  unfold parseSpec at h
  simp only [hd, Go.bind_ok, Go.bind_eq_ok] at h
  obtain ⟨lang, _, cfg, h2, macros, _, vars, _, norm, _, rwp, _, rw_, _, tsp, _, ts, _, test, _, h⟩ := h
  simp only [fromSection, assertKind, hc] at h2
  split at h2
  · simp only [Go.bind, Go.ok.injEq] at h2
    subst h2
    split at h
    · cases h
    · simp only [Go.pure_eq, Go.ok.injEq] at h
      subst h
      rfl
  · cases h2

/-- Both keys in one spec. -/
example : ((parseSpec .written (str "lang:\nid = \"aa\"\ncodes = \"a\", \"aa\"\nscript = \"Latn\"\n\
config:\nauthor = \"A\"\nauthors = \"B\", \"C\"\nstage = \"draft\"\n")).bind fun sp =>
    .ok (sp.config.authors, sp.config.stage)) = .ok ([str "B", str "C"], str "draft") := by decide +kernel

/-! ## The spec of the documentation -/

/-- The spec which doc.go:64-131 writes section by section, with two of its four examples; `codes` and `script`
are the lines of these keys. -/
def documented (codes script : Bytes) : Bytes :=
  str "lang:\n    id      = \"ita\"\n" ++ codes ++ str "\n    english = \"Italian\"\n    korean  = \"이탈리아어\"\n" ++ script ++
  str "\n\nconfig:\n    author = \"John Doe <john@example.com>\"\n    stage  = \"draft\"\n\n\
vars:\n    \"vowels\" = \"a\", \"e\", \"i\", \"o\", \"u\"\n\nmacros:\n    \"@\" = \"<vowels>\"\n\n\
rewrite:\n    \"^gli$\"   -> \"li\"\n    \"^gli{@}\" -> \"li\"\n    \"{@}gli\"  -> \"li\"\n    \"gn{@}\"   -> \"nJ\"\n\n\
transcribe:\n    \"b\" -> \"ㅂ\"\n    \"d\" -> \"ㄷ\"\n    \"f\" -> \"ㅍ\"\n    \"g\" -> \"ㄱ\"\n\n\
test:\n    \"allegretto\" -> \"알레그레토\"\n    \"gita\"       -> \"지타\"\n"

/-- C22 for the spec of the documentation: it has a comment after its codes and is rejected, also with a script which exists.
Without the comment and with such a script it is read. -/
theorem C22_documentation_refuted :
    let commented := str "    codes   = \"it\", \"ita\" # ISO 639-1 and 3 codes"
    let bare := str "    codes   = \"it\", \"ita\""
    let roman := str "    script  = \"roman\""
    let latn := str "    script  = \"Latn\""
    let outcome := fun src => (parseSpec .written src).bind fun sp => Go.ok (sp.lang.codes, sp.rewrite.length)
    outcome (documented commented roman) = .err .invalidSpec ∧ outcome (documented commented latn) = .err .invalidSpec ∧
    outcome (documented bare roman) = .err .invalidSpec ∧ outcome (documented bare latn) = .ok ((str "it", str "ita"), 4) := by
  decide +kernel

end Verif.Props
