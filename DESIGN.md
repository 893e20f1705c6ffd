# Design

## What is modelled

The subject is the Go module in `/repo` (hangulize). The model is a set of total,
executable Lean 4 functions that follow the Go code function by function; each definition cites
the file and lines it models and says where it simplifies.

* A Go `string` is a byte list (`Bytes := List UInt8`). Runes are natural numbers.
  Decoding and encoding follow `unicode/utf8` (invalid bytes decode to U+FFFD, width 1).
* A Go function that can panic, run forever or fail returns `Go α` with the outcomes
  `ok`, `err`, `panic` and `hang`. Nothing is totalised silently: an index out of range is `panic`.
* Maps with randomised iteration order are association lists; every `range` over a map takes an
  explicit iteration order (`Ord` for `ParseSpec`), and theorems quantify over all orders.
* Regular expressions are syntax trees with a prioritised backtracking matcher
  (leftmost-first, like Go's `regexp`), and a parser for the syntax, so that the text which
  `pkg/hre` assembles is really parsed.
* Pointers matter where two names reach one object: translit registries live in a heap of maps
  (`Model/Api.lean`), a mutex-free cache is a shared variable accessed step by step (C44), goroutines and
  channels of the command line are a small-step machine (C54).

Layout under `lean/Verif`:

| directory | content |
|---|---|
| `Go/` | the parts of the Go standard library and third-party packages the code calls |
| `Model/` | the model of the code in `/repo`, one file per Go package or file |
| `Spec/` | small specifications, stated without the model's helpers |
| `Proofs/` | helper lemmas |
| `Props/` | the property theorems with their non-vacuity examples |
| `Specs/` | the text of the bundled specs and the checks of their rules, generated by `tools/gen_specs.py` |

| model | code |
|---|---|
| `Model/Jamo.lean` | internal/jamo |
| `Model/Subword.lean` | internal/subword |
| `Model/Script.lean` | internal/scripts, script.go |
| `Model/Hre.lean` | pkg/hre, rule.go |
| `Model/Hsl.lean` | pkg/hsl |
| `Model/SpecFile.lean` | spec.go |
| `Model/Procedure.lean` | procedure.go, trace.go, space.go |
| `Model/Api.lean` | hangulize.go, translit.go, specs.go, translit/translit.go |
| `Model/Translit.lean` | translit/cyrillic, translit/pinyin |
| `Model/Furigana.lean` | translit/furigana (all but the tokenizer) |
| `Model/Standard.lean` | translit/translit.go `Translits`, the methods of the standard translits |
| `Model/Wasm.lean` | cmd/hangulize.wasm, cmd/*.translit.wasm, web/src/hangulize/translit.worker.ts |
| `Model/Manifest.lean` | cmd/manifest.json |
| `Model/Hook.lean` | web/src/hangulize/useHangulize.ts |
| `Model/Zoom.lean` | web/src/components/Result.tsx |
| `Model/App.lean` | web/src/components/App.tsx, `isValidInput` of useHangulize.ts |
| `Model/Site.lean` | web/src/components/Examples.tsx, Prompt.tsx, SelectLanguage.tsx, flags.json; `sample`, `sampleSize` and `sortBy` of lodash |
| `Model/Search.lean` | web/src/components/SelectLanguage.tsx (the search); `Hangul.disassemble` of hangul-js |
| `Model/Goroutines.lean` | hangulize.go, specs.go, translit.go, translit/translit.go and furigana.go:30-37, access by access, for several goroutines |
| `Model/Workers.lean` | web/src/hangulize/useHangulize.ts (`spawnWorkers`), hangulize.worker.ts, translit.worker.ts, runWebAssembly.ts |
| `Model/Address.lean` | web/src/components/App.tsx:38-79, Examples.tsx; `URLSearchParams` and queries of the URL Standard |
| `Model/Commands.lean` | cmd/hangulize main.go (the root command), ls.go, dev.go |
| `Model/Cli.lean` | pkg/tracefmt, cmd/hangulize main.go, test.go, cover.go |

## Per-property plan

Properties that the code violates are handled in two parts. A `..._refuted` theorem proves the negation
of the full statement with a concrete witness. A `..._partial` theorem proves the strongest version
that does hold. The manifest says `partial` then.

| property | modelled | how it is proved |
|---|---|---|
| C01 | `jamo.ComposeHangul` as a state machine over decoded runes | induction over syllables; the spelling is specified in `Spec/Jamo` by code points |
| C02 | the same | induction; text without Jamo and hyphens keeps the buffer empty |
| C03 | the same | invariant: what was written is composed; composing composed text is C02 |
| C04 | the same | the state machine is started with an empty buffer after a boundary |
| C05 | the same | refinement: the blocks of `Spec/Jamo` are what the buffer holds |
| C06 | `subword.Replacer` | induction over sessions of calls against `splice`; the exact condition of a panic |
| C07 | `Replacer.Subwords` | chunks of equal level, by induction over bytes with levels |
| C08 | `subword.Builder` | induction over writes: levels and texts of the result |
| C09 | `Pattern.Find` over a parsed expression | loop invariant over the searches; the shape `Separable` of the assembled expression gives the groups around the core |
| C10 | the loop of `Find` | each round moves forward if the pattern is `Separable` |
| C11 | negative lookarounds, compiled apart and matched on cut windows | the window is the neighbourhood for ASCII words, and in all words for ASCII texts, since an ASCII byte is a character wherever it stands; invariant over the loop. For every rule of the bundled specs, each checked to be laid out (see C58) and narrow (lookarounds of ASCII letters and `ü`, lookbehinds of one character), in all words |
| C12 | `RegexpMaxWidth` on syntax trees | structural induction against the matcher |
| C13 | `newPattern` | the width of the lookaround decides; case analysis of the constructor |
| C14 | `Pattern.Replace`, `Rule.Replace`, `Replacer` | both are the splice of the same replacements, by induction over matches |
| C15 | `expandVars`, `RPattern.Interpolate` | the groups captured by variables (`VarFind`, `VarMatch`), then position in the list of values |
| C16 | `expandEdges`, the loop of `Find` | the anchor holds at the start of each rest that is searched |
| C17 | `expandMacros` with the order of the map | permutation invariance of the replacer for keys none of which is a prefix of another |
| C18 | `expandVars`, `QuoteMeta`, the expression parser | the parse of the expansion is computed for all values (`VarParse`), the matcher is run on it, then `Find` |
| C19 | the HSL lexer | measure on the input; exact set of diverging inputs |
| C20 | lexer and parser | case analysis of the parser, invariant on the tokens |
| C21 | lexer, parser and a writer in `Spec/Hsl` | induction over documents, for an arbitrary layout |
| C22 | the lexer | induction over the text before a comment on a line of its own |
| C23 | `Section`, `ListSection`, `DictSection` | induction over tokens; look-up lemmas |
| C24 | lines of tokens and pairs | invariant on the lexer |
| C25 | `scanQuotedString` | induction over the string |
| C26 | `ParseSpec` | look-up lemma for each setting, induction over the rules |
| C27 | `ParseSpec` and the letters exempt from script normalization | membership through the loops over the section |
| C28 | the order of the normalize section | as C17 |
| C29 | punctuation gathered from the rules | membership of characters of patterns |
| C30 | `procedure` with its tracer | the traced run is a pure run plus events (`Proofs/Trace`, `Proofs/Forward`) |
| C31 | the tracer | invariant on the list of events |
| C32 | all steps | no step has a replacement for such text |
| C33 | `transcribe` with the masked copy | two replacers in lockstep; levels of bytes only rise from the hidden ones |
| C34 | all steps | each step returns if every rule does |
| C35 | levels of bytes, `discard` | invariant on levels |
| C36 | `localize` | case analysis over runes, induction |
| C37 | `localize`, space.go | induction over the text with the letter before |
| C38 | `Hangulize`, `LoadSpec`, `transliterate` | case analysis of the calls, induction over schemes |
| C39 | all steps | composing decodes and encodes, so the result is valid |
| C40 | all steps | each step maps the empty word to itself, given no translit and no empty normalization source |
| C41 | registries in a heap of maps | invariant over all sequences of calls against a history |
| C42 | `translit.Install` | induction over the list |
| C43 | `LoadSpec` with its cache | invariant: the cache holds what parsing gives |
| C44 | goroutines as threads whose accesses to the map of specs interleave; a race is a state in which two threads are about to access it, one of them writing | refuted with a schedule; otherwise an invariant on all reachable states |
| C45 | instances, registries and tracing functions | invariant over all sequences of calls |
| C46 | furigana `repeat.go` | induction over letters |
| C47 | tables of voiced letters | tables compared with those written out in `Spec/Translit`, lifted to all runes |
| C48 | `mergeLongVowels` | induction over letters against the table in `Spec/Translit` |
| C49 | `typewriter` over an arbitrary list of tokens | induction over tokens |
| C50 | `pinyin` with an arbitrary dictionary | induction over runs of letters |
| C51 | `cyrillic` with the order of the map | permutation invariance for words without ambiguous places |
| C52 | `hrkt.go`, `latn.go` | finite ranges checked completely and lifted to all runes |
| C53 | `tracefmt.FprintTraces` | induction against a layout relation |
| C54 | main.go with its two goroutines and the channels between them | every reachable state fits the expected output; a measure for termination |
| C55 | test.go, cover.go | induction over examples and traces |
| C56 | `substr` of pkg/hre | case analysis |
| C57 | cover.go profile | induction over lines and rules |
| C58 | `Pattern.Find` | completeness of the matcher for the declarative semantics in `Spec/Regex`, then leftmost occurrences; for edges and assertions soundness and completeness for the semantics in `Spec/Context`, where a text matches between what comes before and after it. A quick check (`Laid.laid`), shown to be sound against the parser, tells that the parts of a pattern are expressions on their own; the kernel runs it for every rule of the bundled specs, so that the statement holds for all of them, also for those with a top-level bar (`Proofs/Bars`) |
| C59 | the whole of `forward` | refinement to the relations on tagged text in `Spec/Reference`, which know no replacers, builders, masks or records |
| C60 | `forward` with its tracer | refinement: one event for each change, in the order of the rules |
| C61 | `internal/scripts` | tables compared as ranges |
| C62 | `Normalize` of all scripts | ranges compared pairwise, lifted to all runes |
| C63 | `cyrillic` with its tables | no key can begin in what was written, whatever the order of the pairs |
| C64 | `Find`, `Interpolate`, `Replace`, `forward` | a check of the compiled expression (`Spec/Check.lean`): by induction on it, a lower bound of the characters read between the lookarounds, the finite language of the group of a var, and no NUL read |
| C65 | `ListLangs`, `LoadSpec`, `ParseSpec`, the text of all 40 bundled specs | the files are cut into pieces; for each piece the kernel computes the entries it is read as and the checks of its rules, and lemmas put the pieces together (`Proofs/Reads.lean`, `Proofs/Bundle.lean`); order independence of `ParseSpec` for all iteration orders |
| C66 | the API with the bundled specs and the standard translits | invariant of the state of the library (loaded specs, translits which return), C64 for the rules |
| C67 | `forward` with the bundled specs | the reference of C59 on text made of segments (`Proofs/Made.lean`): rules cut segments at whole characters and outside of transcribed text, so that what holds for each segment of a level is kept; then composing and localizing (`Proofs/Alphabet.lean`) |
| C68 | `ParseSpec` with orders of iteration, the API with the bundled specs | one macro and prefix-free normalizations, checked per spec; simulation between two runs (`Proofs/Order.lean`) |
| C69 | `TextEncoder` and `TextDecoder` as in the Encoding Standard, `js.Value.String` (`Go/Js.lean`) | the decoder is shown to agree with Go's on valid UTF-8, by the width of characters; UTF-16 as a relation in `Spec/Wasm.lean` |
| C70 | cmd/hangulize.wasm as a machine reacting to the events of a page, with its waiting goroutines | invariant over all sequences of events: what a waiting goroutine has done so far and what is left is a split of `forward` |
| C71 | encode.go for the bundled specs | all texts of a parsed spec are valid UTF-8 (`Proofs/DocText.lean`), so each field can be read back |
| C72 | the workers of the page and their three modules | by cases on the standard translits; then C70 with C66 |
| C73 | `newConfig`, the section `config` of the 40 bundled specs | checked with the head of each spec (C65) |
| C74 | cmd/manifest.json with the part of `encoding/json` it uses (`Go/Json.lean`) | a reader of JSON (`Spec/Json.lean`) gives back each value that is written, by induction on the text; the maps as in C71 |
| C75 | cmd/hangulize ls.go, dev.go and the root command of main.go | tables of any width are defined in `Spec/Table.lean`; all bundled specs load (C65), and no run panics (C66); the stream as in C54 |
| C76 | `useHangulize` as a transition system whose events are inputs, renderings, effects, timers, answers and resumed calls | an invariant of all reachable states (`Inv` in `Proofs/Hook.lean`), and a measure which each event not caused by the user makes smaller |
| C77 | `Result` as a transition system whose events are texts, resizings and renderings; a layout is any function which tells the sizes that fit, falling in the size | invariant: the size rendered or set next lies between the bounds, larger sizes do not fit, smaller ones do; a measure of the renderings left |
| C78 | the parameters of the address with their parser and serializer, the parameters captured by the callback | the parser gives back what the serializer wrote, for all texts of whole characters; an invariant which says that the captured parameters are whole and those of the address until the first navigation |
| C79 | the address and the hook put together; the answers are those of runs of cmd/hangulize.wasm | C76, C78 and C72; after an input the page is fixed (`Fixed` in `Proofs/App.lean`), so that its effect does nothing and it asks once |
| C80 | normalization of a whole word by the pairs of a spec and by its script, for the bundled specs | keys are single characters, so a replacement splits at each character (`Proofs/CaseText.lean`); `caseOn` checks for each bundled spec the letters near its keys, the tables of `unicode` take care of all other letters (`Proofs/CaseLetters.lean`). With the standard translits (`C80_standard`): the mappings of the Cyrillic translits have no Cyrillic letters in their keys, so they go around each of them; kana have no case; the pinyin translit leaves a letter without an entry in place (`Props/CaseTranslit.lean`) |
| C81 | `forward` with the bundled specs, on a word, a space and any text | a check of the compiled pattern (`wordly` in `Proofs/WordPattern.lean`), run by the kernel for every rule of 37 bundled specs: nothing it matches or looks at reaches past a space. So the matches in the whole text are those in the parts (`Proofs/WordRun.lean` to `Proofs/WordMatch.lean`), and each step of the reference of C59 keeps the parts apart (`Proofs/WordText.lean`, `Proofs/WordWhole.lean`); normalization as in C80 |
| C82 | `forward` with the bundled specs, on a text with a piece without letters of the script | a check of the compiled pattern (`alive` in `Proofs/Alive.lean`), run by the kernel for every rule of 38 bundled specs: whatever it matches has a letter of the script or one of a few signs, which `Spec/Signs.lean` lists for each language. So no rewriting rule finds anything in the piece, and each step of the reference of C59 goes around it (`Proofs/ForeignText.lean`); normalization as in C80, the Cyrillic translits by `replace_apart` in `Proofs/WordReplace.lean`. That results are left alone follows with the alphabet of results of C67 |
| C83 | `forward` with the bundled specs, on texts which differ in white space | a check of the compiled pattern (`blind` in `Proofs/Blind.lean`), run by the kernel for every rule of 37 bundled specs: its literals contain no white space of `\s`, its classes contain all of it or none, and it writes none. So it finds the same at the same places, and each step of the reference of C59 gives the same but for the kind of white space, which is a space in the end (`Proofs/BlindText.lean`). With C81 the words of the result are the results for the words (`C83_text`). With a translit the same holds for texts of which the transliterations differ in white space only (`C83_after`) |
| C84 | the examples of the page with their state, ref and effect, beside the page of C79; `tests` is any table of the examples of the bundled specs | an invariant of all reachable states (`Inv` in `Proofs/Site.lean`): the examples are rendered for the language of the page, and after the effect those to come are drawn from this language. The kernel checks the words of all bundled examples (`fair` in `Proofs/Bundle.lean`): links to them need no encoding. Then `Fixed` as in C79 |
| C85 | the list of languages for the specs in any order, the input and the selection of a language as events of C84 | sorting by keys without doublets gives one list; the kernel checks the Korean names and flags.json for the bundled languages; `Fixed` as in C79 |
| C86 | the pinyin translit and `forward` with the bundled spec of Chinese | the translit of two pieces is their translits with a zero width space between them if one of the characters at the border has an entry (`chunks_beside`); a zero width space has no meaning for the language, so each step of the reference of C59 goes around it as in C82, and localization drops it (`part_between` in `Proofs/ForeignText.lean`); induction over the pieces. `steady` checks that no bundled spec normalizes zero width spaces |
| C87 | `forward` with the bundled specs, on text with a combining accent after a letter | accents are no letters, no signs of the language and not normalized (in Cyrillic they are letters and never in a result) (`steady` checks it), so with C82 an accent stays in the result, between the results for what is before and after it. An accent in a result has been in the word (alphabet of results of C67), so the composed letter gives another result. The translits of Chinese and Japanese are functions of the NFC |
| C88 | `forward` with the bundled specs for Japanese, after the transliteration, on kana | the kernel checks that these specs normalize nothing (`caseOn`), so kana are normalized by the script alone, one by one as in C80. Which kana become the same is stated with a chart of its own (`Spec/Kana.lean`). The translit is evaluated for the refutations |
| C89 | `forward`, `forward` with a tracer, and the standard translits, with the libraries as any functions of which the results are proportional to their arguments | every step of the reference of C59 makes a text at most so many times longer: a rule replaces nonempty parts which follow one another (C09), each by at most as much as its longest replacement, so that it multiplies the text by a number which depends on the rule only; the numbers are multiplied over the rules, and the number of rules is fixed |
| C90 | the options with what is searched, the two effects of `SelectLanguage`, `search`; `Hangul.disassemble` with its tables; fuse.js is any function which finds at least the options of which a field begins with the query | `Spec/Search.lean` has a keyboard with two sets and an input method, which joins and splits vowels and final consonants; by cases on what is being composed, each key adds its letter to the letters of the text (the tables are checked by the kernel), so the letters of a typed text are its keys; every name of syllables can be typed after any text; the options in the ref are those of the specs after both effects |
| C91 | `spawnWorkers`, the two kinds of workers as queues of messages with a module which is loaded at some time or never, the calls which await it; any interleaving of calls, messages and loading | an invariant of each worker, by induction on the events: what has run, waits and is posted are all calls in their order, and a worker for translits gets `load` as its first message and only then; every translit of the bundle has a module (from `bundled_sound`), and with the translits of the manifest the registry is the one which C72 and C79 ask for (`C91_at_hand`) |
| C92 | goroutines which make calls of the library, one access to a shared variable (cached specs, default registry, tokenizer of `furigana.T`) at a time; a race is a state in which two of them are about to access one variable, one of them writing | an invariant of each goroutine, by induction on the steps: it only reads, and its results are those of `call` in `Model/Api.lean`; refuted with schedules for the tokenizer and for `Install`; a second invariant shows that what has succeeded once needs nothing new afterwards (`C92_warm`); with one goroutine the steps refine the calls of `Model/Api.lean` (`C92_single`) |
| C93 | expressions as trees, how they are written and which texts they stand for (`Spec/Expr`), separate from the lexer, the parser and the expansions | the lexer and the parser are run on the written text by induction on the tree (`lex_text`, `parse_toks`); the vars are replaced by groups of their values; the language of the parse is that of the tree; then `C58`. With edges and lookarounds: the text is split where it should be, as the leftmost way to match `reLookahead` and the first one to match `reLookbehind` are determined (`Proofs/Split`); what is in braces is compiled to the tree's language although its groups are made `(?:` (`noCapture_encode`, `mild_text`); the window of a negative lookaround is the width of the tree (`width_core`, `Same.wide`) |
| C94 | the choices of an expression, numbered in the order of preference, read from left to right (`Spec/Choice`); the picked parts are those of the lexicographically least choices | the matcher leaves the same as `rests` of the tree, in the same order (`Same.ord`, by induction over the parse); `outs` pairs these with the choices, sorted and complete (`good_outs`); the first result of a pattern takes in each part the first way that can be continued (`first`, `chain`), hence the least choices; two least ways are the same (`picks_unique`), and so are two scans (`scan_unique`) |
| C95 | the places of the groups for given choices (`Marks`, `Spec/Groups`): the later use of a group counts, unused groups hold nothing; `Reports` is `Scan` with the places | the parser numbers the groups as they begin and the matcher on the compiled expression is the one on the tree, which records groups (`compile_groups`); it is annotated with the choices (`trace`), each result records what `Marks` says (`trace_sets`, with `record` for what is written to the offsets); the first result of a pattern belongs to its choices (`first`); places are determined by choices and text (`only_marks`), hence what is reported (`reports_unique`) |

## Findings

What the refutations show about the code, with the theorem that witnesses each item.

* Patterns.
  * Parentheses may pair up across a lookaround, as in `{\}a{b)}`. Then a match from 3 to 2 is reported (`C09_matches_refuted`),
    `Find` runs forever for `{\}*{b)}` (`C10_find_terminates_refuted`), and the replacement goes wrong (`C14_replace_refuted`).
  * The window of a negative lookahead is measured in characters but cut in bytes (`C11_wide_refuted`). The window of a negative
    lookbehind is empty where it would begin before the word (`C11_begin_refuted`). A lookahead belongs to the last alternative
    only (`C11_bar_refuted`). Of the bundled specs this only
    affects `ü` after four patterns of Catalan (`C11_bundled_refuted`), which earlier rules replace.
  * `RegexpMaxWidth` of `(a+){2}` is -2 (`C12_width_refuted`).
  * `^^a` matches three times in `aaa` (`C16_anchored_refuted`). In `^^a|b` the anchor applies to `a` only (`C16_bar_refuted`).
* Variables. Values with `^` do not compile, values with `{` are errors, and empty values make `Find` panic
  (`C18_values_refuted`). The replacement panics for a variable which took no part in the match, for a group before the
  variable and for a variable without values (`C15_interpolate_refuted`).
* Iteration order of maps. It decides for macros (`C17_macros_refuted`) and normalizations (`C28_order_refuted`) if one key is a
  prefix of another one, for all four Cyrillic translits (`C51_order_refuted`), and for the text of
  manifest.json (`C74_reproducible_refuted`).
* HSL. An unterminated quote hangs the parser (`C19_terminates_refuted`). A stray dash or a repeated key panics
  (`C20_no_panic_refuted`). A comment after a value swallows the newline (`C22_comments_refuted`); the spec
  in the documentation has such a comment, and a script which does not exist, and is rejected (`C22_documentation_refuted`).
* Normalization. In a target such as `dž` only the first letter is exempt (`C27_letters_refuted`). `[.]` is not known as
  punctuation (`C29_class_refuted`). U+3099, U+309B, U+309C and U+309F are shifted into unrelated katakana
  (`C52_marks_refuted`). Nine Latin letters do not become basic letters, since the code takes the first byte of the
  decomposition as a letter (`C52_latn_refuted`).
* Letter case. Normalization is meant to eliminate it, but some letters are told apart, and `C80_exact` gives all of them. In Serbo-Croatian
  `C` is written on the left of `normalize`, as it also stands for `č`; so the capital letter is kept, and `C` becomes `치`
  whereas `c` becomes `츠` (`C80_refuted`); the digraph `ǆ` has no pair, although `Ǆ` has. In Portuguese `Ê` becomes `ê`, but
  `ê` becomes `é`. In Greek the pairs cover capital letters with rough breathing, but not `ὅ` and the like. The Georgian
  capital letters U+1C90 to U+1CBF are not normalized. (`I` in Azerbaijani and Turkish is told apart on purpose.)
* Words. In Welsh and Dutch words are not hangulized one by one, by design (`C81_refuted`). In all languages a word with an
  empty result, for instance a single apostrophe in Italian, takes a space with it (`C81_vanishing`).
* Text of other scripts. Rewriting rules are also applied to pieces of text which have no meaning for the spec. The marks which
  rules write for later rules, and which are not known as punctuation because of that, are worked on when the user types them:
  `;` and `,,` vanish in most languages, `-` in twelve, and `~` becomes `응` in Portuguese (`C82_refuted`). `Spec/Signs.lean`
  lists all of these. In Japanese parts of Latin words are transcribed (evaluated, not proved).
* Expressions. `[^a]` finds `a` and nothing else, as `^` is expanded like an anchor in a class too (`C93_not_refuted`); `\^` and `\$`
  are no patterns (`C93_dollar_refuted`). Counts as in `a{2}` are lookarounds (`C93_count_refuted`). In a lookaround each `(` is made
  `(?:`, also in `\(` and in `(?:` itself, so that `a{\(}` finds `a` before `:` and `a{(?:b|c)}` does not compile
  (`C93_paren_refuted`). No bundled spec has any of these. Beside an edge a negative lookaround is ignored, and a positive one makes
  the pattern find nothing (`C93_beside_refuted`). A negative lookbehind with texts of several lengths overlooks the shorter ones near
  the beginning of the word (`C93_short_refuted`).
* White space. `unicode.IsSpace` decides what becomes a space, but `\s` where words begin and end. So after a no-break space, a
  vertical tab or an ideographic space no word begins: `la luna` becomes `라 루나` in Italian, with a no-break space `라 을루나`
  (`C83_refuted`).
* Localization. Zero-width spaces next to Japanese punctuation leave a trailing space (`C37_spaces_refuted`).
* Concurrency. The cache of specs is written without a lock (`C44_race_refuted`), and so are the default registry and the tokenizer of
  `furigana.T`. Even goroutines with hangulizers of their own race for the tokenizer at their first Japanese words
  (`C92_tokenizer_refuted`). If two goroutines call `Install`, one may be told that all translits are installed although the other one
  removed the first one (`C92_install_refuted`).
* Furigana. The first silent morpheme ends the text (`C49_silence_refuted`).
* Authors. The code reads the key `authors`, but the documentation and all bundled specs write `author`, so that no bundled spec
  has authors (`C73_authors_refuted`).
* JavaScript. A translit which rejects its Promise with a string instead of an Error makes the module panic, and with it ends every
  other call (`C70_no_crash_refuted`). So does a tracing function which is no function, such as null (`C70_tracer_refuted`). A byte order mark at the start of a text is lost on the way from Go to JavaScript
  (`C69_back_refuted`). The module for Cyrillic panics for a country it does not know (`C72_unknown_refuted`).
* Command line. A blank line ends the command, and a last line without a newline is not read (`C54_stdin_refuted`). The coverage
  profile panics for a spec without rewrite or transcribe section (`C57_profile_refuted`). `dev` imports no translits, so that it fails
  at the first word for the specs with translits (`C75_dev_refuted`).
* Spelling. Decomposed letters, as in file names of macOS, are not composed: in the languages without translit but Greek and Belarusian,
  the accent is in the middle of the result (`C87_accent`, `C87_refuted`). In Cyrillic accents are letters, as stress is written so, and
  they are lost (`C87_cyrillic`), also that of `й` (`C87_cyrillic_refuted`). The rules of Greek which compose a vowel and an accent never
  apply: accents are no Greek letters, so that they are cut off before, and the letters around them with them (`C87_greek_refuted`). The translits of Chinese and Japanese normalize to NFC, the others do not. In Japanese, long vowels of unknown words are merged only if they are written in
  katakana (`C88_unknown_refuted`), and `わゞ` becomes `わわ` while `ワヾ` becomes `ワヷ` (`C88_iteration_refuted`).
* Web page. If the input is cleared while the worker is busy with it, then the result appears all the same, and stays
  (`C76_cleared_refuted`): the target is left as it was. Inputs which wait for the same job are all sent to the worker after it
  (`C76_jobs_refuted`). Links to examples do not encode the word, so that `R&B` is shown as `R` (`C78_example_refuted`). At an
  address with an empty language, as `?lang=&word=a`, each rendering takes another random language (`C78_empty_refuted`).
  An address with an unknown language empties the page (`C79_unknown_refuted`). The names of the properties of all objects, as in
  `?lang=constructor&word=a`, pass for languages; the page looks as if it was loading forever (`C79_inherited_refuted`), and so it does
  for each word which is hangulized to nothing (`C79_settled`), as a zero width space in any language or an apostrophe in Italian
  (evaluated, not proved).

Seen while reading the code, without a theorem of its own:

* In cmd/hangulize.wasm a missing argument panics too. `jsUnuseTranslit` is not reachable from JavaScript. The callbacks for the Promise
  of a translit are never released. The error of a translit is dropped. A translit resolving to something else than a string
  gives the word `<undefined>` or `<object>`; so would an Error which the functions of the translit modules return instead of throw.
* In `isValidInput` of the page `specs[lang]` also finds properties of the prototype of objects, such as `constructor`.
* The coverage of files without rules is 0/0; the model returns the two numbers and leaves out the division.
* The table of long vowels leaves out some combinations; `C48` states them as `leftAlone` in `Spec/Translit`.
* A coverage profile fails for lines of 64 KiB and more; `C57_profile_partial` assumes shorter lines.
* The `test` command imports no translits, so specs which need them fail there.
* The rules `"(<sv>)̀" -> "(<av>)"` and the like in ell.hsl and grc.hsl write literal parentheses into the rewritten text,
  since parentheses mean nothing in a replacement.

## Validation of the model

The model is executable. In a scratch project (not part of this repository, since it is testing) it was run on all examples
of the 40 bundled specs: of 4202 examples 3946 give the expected word, and the other 256 belong to specs which need the dictionaries of
kagome or go-pinyin. The theorems were tested against wrong programs, see `seeded/LOG.jsonl`. There
`failed_properties` are the properties whose theorems, or lemmas they use, no longer compile; a proof may break for a harmless
edit too, so each entry says which claim the edit makes false.

## Trusted base

* Lean 4.33.0's kernel, and the axioms `propext`, `Classical.choice`, `Quot.sound`; `AXIOMS.md` lists them per theorem.
  No other axioms, no `sorry`, no `native_decide`, no `bv_decide`.
* The text of the bundled specs in `Specs/`, as string literals. `tools/gen_specs.py --check` compares them with
  `/repo/specs` line by line.
* The reading of the Go code and of the Go memory model by the author of the model.
* The models in `Go/` of code that is not in `/repo`:
  * `unicode/utf8`;
  * tables of `unicode` and of the decompositions of Latin letters, generated from Python's `unicodedata` 14.0.0 (Go releases may
    ship other versions);
  * `syscall/js` with the `TextEncoder` and `TextDecoder` of JavaScript, and that an event on a page is handled until all goroutines wait;
  * `encoding/json` for strings, arrays, objects and nil; whether backspace and form feed have a short escape differs between releases of Go, so both are covered;
  * React and react-router 6.6, as far as `Model/Hook.lean`, `Model/Zoom.lean`, `Model/Address.lean`, `Model/Site.lean` and `Model/Search.lean` describe them; workers, Promises and Comlink, as far as `Model/Wasm.lean` and `Model/Workers.lean` describe them (a message is handled after those posted before it, and after everything which went on because a Promise was resolved before); hangul-js, as far as `Model/Search.lean` has it (from memory); fuse.js, for finding what begins with the query (C90); lodash 4, as far as `Model/Site.lean` has it; the URL Standard, as far as `Model/Address.lean` has it;
  * for the hook also that an input is valid for the specs of the module if it is so for those in `manifest.json` (C71 and C74 say that both describe the same specs);
  * `strings.NewReplacer`, `strings` helpers, `bufio.Scanner` for lines;
  * `regexp` and `regexp/syntax`: syntax, leftmost-first matching, submatches. The shape of the parse tree may differ from the one
    Go builds (Go merges literals and factors prefixes), and that this changes neither matches nor widths is trusted. Case folding,
    inline flags, POSIX and Unicode classes, `\Q..\E`, hexadecimal and octal escapes are not modelled: such expressions give
    the error `unmodelled`, so that theorems about accepted patterns do not speak about them;
  * `go_hangul` (joining Jamo), whose source is not available here and which was written down from memory; `go-pinyin` (an arbitrary dictionary), `kagome` (an arbitrary list of tokens).
* `strings.TrimSpace` is modelled by decoding forwards.

## Not modelled

* The web front end except for its workers of translits, `useHangulize`, the size of the result, the address and what `App` makes of them, the examples, the input and the list of languages with its search, file system and embedding, colour codes, cobra.
* On a page: JavaScript functions which throw or return no Promise, objects with a method `then` of their own, numbers which are
  no integers, and the order in which JavaScript lists the fields of an object.
* NFC normalization before kana and pinyin, the tokenizer and its dictionary.
* Performance, memory use, and the text of error messages.
* Translits with internal state, tracing functions that call back into the library or panic, callers which write to the
  fields of a spec.
* If a step panics, the model keeps the events traced before the steps after transliteration only.
