import Verif.Model.Api
import Verif.Go.Json

/-!
# Model of `cmd/manifest.json`

The version comes from the linker.
-/

namespace Verif.Manifest

/-- cmd/manifest.json/main.go:22-30, 43-51: the language of a spec. -/
def lang (short : Bool) (s : Spec) : List Rune := Json.object short [
  (str "id", Json.string short s.lang.id),
  (str "code2", Json.string short s.lang.codes.1),
  (str "code3", Json.string short s.lang.codes.2),
  (str "english", Json.string short s.lang.english),
  (str "korean", Json.string short s.lang.korean),
  (str "script", Json.string short s.lang.script),
  (str "translit", Json.array (s.lang.translit.map (Json.string short)))]

/-- Whether the source of a spec has a section `config`: without one the authors are a nil slice (spec.go:88-98). -/
def configured (s : Spec) : Bool :=
  match Hsl.parse s.source with
  | .ok doc => (doc.lookup (str "config")).isSome
  | _ => false

/-- main.go:32-35, 53: the configuration of a spec. -/
def config (short : Bool) (s : Spec) : List Rune := Json.object short [
  (str "authors", if configured s then Json.array (s.config.authors.map (Json.string short)) else Json.null),
  (str "stage", Json.string short s.config.stage)]

/-- main.go:37-40, 55-58: an example. -/
def exampleOf (short : Bool) (exm : Bytes × Bytes) : List Rune := Json.object short [
  (str "word", Json.string short exm.1),
  (str "result", Json.string short exm.2)]

/-- main.go:16-20, 42-61 `jsonSpec`. -/
def jsonSpec (short : Bool) (s : Spec) : List Rune := Json.object short [
  (str "lang", lang short s),
  (str "config", config short s),
  (str "test", Json.array (s.test.map (exampleOf short)))]

/-- main.go:70-77: the specs and the set of translits; the error of `LoadSpec` is ignored, and a nil spec dereferenced. -/
def collect (files : Files) (o : Ord) :
    List Bytes → List (Bytes × Spec) → List (Bytes × Unit) → Cache → Go (List (Bytes × Spec) × List (Bytes × Unit))
  | [], specs, translits, _ => .ok (specs, translits)
  | lang :: langs, specs, translits, cache => do
    let (r, cache) ← loadSpec files o lang cache
    match r with
    | .inr _ => .panic
    | .inl spec =>
      collect files o langs (mapSet specs lang spec) (spec.lang.translit.foldl (fun m t => mapSet m t ()) translits) cache

/-- The values of a map by their sorted keys, as `mapEncoder.encode` visits them. -/
def sorted {α : Type} (m : List (Bytes × α)) : List (Bytes × α) :=
  (sortStrings (m.map Prod.fst)).filterMap fun k => (m.lookup k).map fun v => (k, v)

/-- main.go:10-14, 65-91: the text of the manifest; `visit` is the order of the iteration over the set of translits. -/
def main (files : Files) (o : Ord) (visit : List Bytes → List Bytes) (short : Bool) (version : Bytes) (langs : List Bytes) :
    Go Bytes := do
  let (specs, translits) ← collect files o langs [] [] []
  return encode (Json.object short [
    (str "version", Json.string short version),
    (str "specs", Json.object short ((sorted specs).map fun x => (x.1, jsonSpec short x.2))),
    (str "translits", Json.array ((visit (translits.map Prod.fst)).map (Json.string short)))] ++ [0x0A])

end Verif.Manifest
