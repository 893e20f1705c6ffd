#!/usr/bin/env python3
"""Writes /verif/properties.jsonl (one JSON object per line)."""
import json, os
P=[]
def p(id,title,statement,quantifier,why,anchors):
    P.append(dict(id=id,title=title,statement=statement,quantifier=quantifier,why_tests_cant=why,anchors=anchors))

# ---- jamo
p("C01","Composing the Jamo spelling of a text gives the text back",
 "For every text of modern Hangul syllables, writing each syllable as compatibility Jamo (lead, medial, and the tail prefixed by a hyphen) and passing it to jamo.ComposeHangul returns exactly the original text.",
 "all finite sequences of the 11172 modern syllables",
 "Tests cover two or three words; the composer is a state machine whose buffer carries over between syllables, so every sequence of syllables has to be considered.",
 ["internal/jamo/jamo.go: ComposeHangul, composer.Compose, composer.write, composer.read"])
p("C02","Already composed text passes through ComposeHangul unchanged",
 "jamo.ComposeHangul returns its argument unchanged whenever it consists of composed syllables and non-Hangul characters other than '-'.",
 "all valid UTF-8 texts of syllables and non-Hangul, non-hyphen characters",
 "The set of texts is infinite and syllables are decomposed into the Jamo buffer and recomposed, interacting with stale state after each non-Hangul character.",
 ["internal/jamo/jamo.go: Compose, analyzeHangul"])
p("C03","ComposeHangul output is fully composed and stable",
 "For every byte string, the output of jamo.ComposeHangul contains no hyphen and no stand-alone compatibility Jamo, and composing it a second time changes nothing.",
 "all byte strings, including invalid UTF-8",
 "Universally quantified over arbitrary input; idempotence relates two runs.",
 ["internal/jamo/jamo.go: ComposeHangul"])
p("C04","Hangul composition is local",
 "A non-Hangul character other than '-' separates the composition: ComposeHangul(a + x + b) = ComposeHangul(a) + x + ComposeHangul(b), and the same holds when b begins with a composed syllable.",
 "all valid texts a, all b, all separators x",
 "A relation between three runs over unbounded inputs; the composer keeps a stale score variable across separators.",
 ["internal/jamo/jamo.go: Compose"])
p("C05","Incomplete syllables are filled in, one syllable per run",
 "ComposeHangul splits a Jamo sequence greedily into syllables (a new syllable starts exactly when a letter does not come strictly later than the previous one in the order lead < medial < tail) and fills a missing lead with ieung and a missing medial with eu; the number of emitted syllables is the number of such groups.",
 "all Jamo sequences with or without hyphen marks",
 "Unbounded sequences; the tests only show two interpolation examples.",
 ["internal/jamo/jamo.go: write, Compose"])
# ---- subword
p("C06","A replacer splices its replacements",
 "For sorted, disjoint, in-range replacements, Replacer.String returns the word with each range replaced by its replacement and everything else verbatim, and one level per byte is kept: replaced bytes get the next level and the others keep theirs. Unsorted or out-of-range replacements panic.",
 "all words, all replacement lists, any number of commit rounds",
 "The splice arithmetic must be right for every number, position and length of replacements.",
 ["internal/subword/replace.go: NewReplacer, ReplaceBy, commit, String"])
p("C07","Subwords of a replacer partition the replaced word",
 "Replacer.Subwords returns non-empty chunks whose concatenation is Replacer.String (for valid UTF-8 with level boundaries on characters), neighbouring chunks have different levels, and every byte lies in a chunk of its own level.",
 "all words and level assignments",
 "Quantifies over every word, every level vector and every cut point.",
 ["internal/subword/replace.go: Subwords"])
p("C08","Builder merges neighbours and loses nothing",
 "Builder.Subwords preserves the concatenated text and the per-character levels, never leaves two neighbours with the same level, and merging an already merged list changes nothing.",
 "all lists of subwords with non-negative levels",
 "Unbounded lists; the merge loop has a sentinel level and a final flush.",
 ["internal/subword/builder.go: Subwords, Write, String"])
# ---- hre
p("C09","Reported matches are non-empty, disjoint, in order, in range and at most n",
 "Pattern.Find(word, n) returns ranges start < stop inside the word, each starting at or after the previous stop, and at most n of them when n >= 0.",
 "all patterns NewPattern accepts, all words, all n",
 "Depends on every regular expression and every word; Replacer and Replace slice the word with these numbers and panic or duplicate text otherwise.",
 ["pkg/hre/pattern.go: Find, pickStartStop"])
p("C10","Finding matches always terminates",
 "Pattern.Find(word, n) returns (or panics) after finitely many steps for every accepted pattern and word.",
 "all patterns NewPattern accepts, all words, all n",
 "Non-termination cannot be observed by a passing test.",
 ["pkg/hre/pattern.go: Find"])
p("C11","Negative lookaround is honoured",
 "Pattern.Find never reports a match that is followed by text matching its {~...} lookahead or preceded by text matching its {~...} lookbehind.",
 "all patterns, words and reported matches",
 "Tests use ASCII patterns only; the window handed to the negative expression is computed from a width for every pattern.",
 ["pkg/hre/pattern.go: Find", "pkg/hre/assertions.go: dissolveLookaround", "pkg/hre/width.go: RegexpMaxWidth"])
p("C12","RegexpMaxWidth bounds every match",
 "If RegexpMaxWidth(re) is not -1, then no match of re is wider than RegexpMaxWidth(re) characters.",
 "all regular expressions (unbounded nesting), all texts, all matches",
 "An induction over all syntax trees and all matches.",
 ["pkg/hre/width.go: RegexpMaxWidth"])
p("C13","Unlimited negative lookaround is rejected",
 "ParseSpec returns an error for a rule whose {~...} expression can match arbitrarily long text.",
 "all rules",
 "Quantifies over every expression; the check relies on one sentinel value.",
 ["spec.go: newRules", "pkg/hre/pattern.go: NegativeLookaroundWidths", "pkg/hre/width.go: RegexpMaxWidth"])
p("C14","Replacing touches only the matched ranges, and both replace APIs agree",
 "Pattern.Replace and Rule.Replace keep all text outside the reported matches verbatim and in order, keep a match whose interpolation fails, and return the same string for the same pattern, replacement and word.",
 "all patterns, replacement patterns and words",
 "Two independent splice implementations must agree on every input.",
 ["pkg/hre/pattern.go: Replace", "rule.go: Replace, replacements"])
p("C15","Var-to-var replacement maps by position",
 "When <a> in a pattern captures the k-th value of a, the corresponding <b> in the replacement yields value number k modulo the number of values of b; interpolation fails with an error, not a panic, otherwise.",
 "all patterns with variables, all replacements, all matches",
 "Depends on group numbering for arbitrary patterns and arbitrary matches.",
 ["pkg/hre/rpattern.go: Interpolate", "pkg/hre/var.go: expandVars", "pkg/hre/util.go: indexOf, captured"])
p("C16","^^ matches only at the start of the word",
 "A pattern beginning with ^^ reports at most the match that starts at the beginning of the word.",
 "all words and all patterns beginning with ^^",
 "Tests look at the first match only; Find restarts the regexp on a shifted word.",
 ["pkg/hre/assertions.go: expandEdges", "pkg/hre/pattern.go: Find"])
p("C17","Macro expansion does not depend on map iteration order",
 "Expanding the macros of a pattern gives the same expression in every process and on every call.",
 "all macro tables, all expressions, all iteration orders of the Go map",
 "Iteration order is randomised by the runtime, so a passing test proves nothing about the next run.",
 ["pkg/hre/macro.go: expandMacros"])
p("C18","A variable matches exactly its values",
 "The pattern <v> finds exactly the occurrences of the literal values of v (regular expression meta characters in values are taken literally), preferring the value listed first.",
 "all variable tables and all words",
 "Values are arbitrary strings and are escaped into a regular expression.",
 ["pkg/hre/var.go: expandVars, getVar"])
# ---- hsl
p("C19","Parsing an HSL source terminates exactly when its quotes are closed",
 "hsl.Parse returns (a result, an error or a panic) for every source, i.e. it never runs forever.",
 "all byte strings",
 "Non-termination is invisible to tests; the property ranges over all sources.",
 ["pkg/hsl/lexer.go: scanQuotedString, Scan", "pkg/hsl/parser.go: parse"])
p("C20","Malformed HSL yields an error, never a panic",
 "hsl.Parse reports every malformed source through its error result.",
 "all byte strings",
 "All sources, including adversarial ones.",
 ["pkg/hsl/lexer.go: scanArrow", "pkg/hsl/parser.go: parse", "pkg/hsl/structures.go: DictSection.addPair"])
p("C21","Every HSL document can be written down and read back",
 "Rendering a list of sections (list sections with ordered pairs, dict sections with unique keys) in HSL syntax and parsing it returns the same sections, pairs, order and values.",
 "all documents whose strings contain no backslash",
 "An encode/decode round trip over unboundedly many nested strings, pairs and sections.",
 ["pkg/hsl/parser.go: parse, parseValues", "pkg/hsl/lexer.go: Scan", "pkg/hsl/structures.go"])
p("C22","Comments do not change the parsed document",
 "Adding a '#' comment at the end of a line or on its own line does not change the result of hsl.Parse.",
 "all documents and comment positions",
 "All documents and all positions.",
 ["pkg/hsl/lexer.go: scanComment", "pkg/hsl/parser.go: parseValues"])
p("C23","Sections keep what was written: no pair lost, reordered or overwritten",
 "A list section returned by hsl.Parse has its pairs in source order; a dict section has at most one pair per key and never silently overwrites one.",
 "all sources",
 "Invariant over every sequence of addPair operations.",
 ["pkg/hsl/structures.go: ListSection, DictSection, addPair, Map, Injective, One, All"])
p("C24","Line numbers point into the source",
 "The line reported for every pair returned by hsl.Parse is 1 plus the number of newlines before its '=' or '->' sign, hence between 1 and the number of lines of the source.",
 "all sources, all pairs",
 "All sources; unread has to undo the line counter at every position.",
 ["pkg/hsl/lexer.go: read, unread, Line", "pkg/hsl/parser.go: scan"])
p("C25","A quoted string can hold any text",
 "Every text without a backslash, written between double quotes with its quotes escaped as \\\", is read back unchanged as one String token; a backslash can never be part of a quoted string.",
 "all texts",
 "All strings; escapes are a small state machine.",
 ["pkg/hsl/lexer.go: scanQuotedString"])
# ---- spec
p("C26","A parsed spec reflects its source sections",
 "ParseSpec numbers the rewrite and transcribe rules 0,1,2,... in source order, keeps the original expressions, requires exactly two codes when a lang section is present, and rejects unknown scripts.",
 "all sources",
 "All sources; rule IDs index the trace records and coverage.",
 ["spec.go: ParseSpec, newRules, newLanguage", "script.go: getScript"])
p("C27","Letters introduced by custom normalization survive script normalization",
 "Every letter of every target of the normalize section is exempt from per-script normalization.",
 "all normalize sections, all letters of all targets",
 "All tables; tests use single-letter targets.",
 ["spec.go: ParseSpec (letters in normalize)", "procedure.go: normalize"])
p("C28","Custom normalization does not depend on map iteration order",
 "The same spec source normalizes every word the same way in every process.",
 "all normalize sections, all words, all iteration orders",
 "Iteration order is randomised by the runtime.",
 ["spec.go: ParseSpec (custom normalization)", "procedure.go: normalize"])
p("C29","Punctuation handled by the rules is known to the partition step",
 "A punctuation character belongs to the spec's punctuation set iff some rule's pattern mentions it and no rewrite replacement up to and including that rule (any rewrite replacement, for transcribe rules) mentions it.",
 "all rule lists, all characters",
 "All rule lists: the order of the scan matters.",
 ["spec.go: collectPuncts", "pkg/hre/pattern.go: Letters", "pkg/hre/rpattern.go: Letters"])
# ---- procedure
p("C30","Tracing never changes the result",
 "Hangulize returns the same result and error with and without a trace function.",
 "all specs, translits, words",
 "Relates two runs for every spec and word.",
 ["trace.go: tracer, subwordsTracer", "procedure.go: forward, rewrite, transcribe"])
p("C31","The trace is a faithful log",
 "Consecutive trace events carry different words, the first event is the Input event carrying the input word (when it is non-empty), and the word of the last event is the returned result.",
 "all specs and words",
 "All runs.",
 ["trace.go: trace, Commit, RecordSubword", "procedure.go: forward"])
p("C32","Text nobody claims passes through untouched",
 "If no letter of the (normalized) word belongs to the script, to the rules' punctuation or to white space and no rewrite rule matches, the result is the localized word itself.",
 "all specs and such words",
 "All specs and words.",
 ["procedure.go: partition, rewrite, transcribe, syllabify"])
p("C33","Transcribed text is never transcribed again",
 "In the transcribe step each piece of the word is replaced at most once: a later rule only replaces text no earlier rule replaced, provided no pattern matches a NUL character, and the masked copy always has the same length as the real one.",
 "all rule lists and words",
 "All rule sequences; relies on two replacers staying in lockstep.",
 ["procedure.go: transcribe", "internal/subword/replace.go"])
p("C34","Hangulize never panics on a well-behaved spec",
 "If every rule of a spec only produces proper matches and its replacements interpolate, Hangulize returns normally for every word.",
 "all such specs, all byte strings",
 "All words; slices are taken at computed offsets in every step.",
 ["procedure.go: forward", "internal/subword/replace.go: commit, Subwords", "trace.go: Commit"])
p("C35","Left-over rewriting hints never reach the output",
 "After the transcribe step no level-1 text remains except single spaces: every left-over level-1 piece is dropped, or becomes one space if it contained white space.",
 "all specs and words",
 "All specs and words.",
 ["procedure.go: transcribe"])
p("C36","Localization only touches punctuation",
 "For every script but Japanese kana, the localize step only removes zero-width spaces; for kana it additionally replaces the listed full-width punctuation. Localizing twice changes nothing more.",
 "all words, all scripts",
 "All words; idempotence relates two runs.",
 ["procedure.go: localize", "internal/scripts/*.go: LocalizePunct"])
p("C37","Localization never stacks spaces",
 "Japanese punctuation localization never introduces a space at the start or end of the word or next to another space.",
 "all words",
 "All words and neighbourhoods.",
 ["procedure.go: localize", "internal/scripts/hrkt.go: LocalizePunct"])
p("C38","Errors are reported with their documented values",
 "Hangulize with an unknown language returns the word itself with ErrSpecNotFound; a missing translit gives ErrTranslitNotImported and a failing one ErrTranslit, both with an empty result; otherwise the translits are applied left to right.",
 "all languages, words, registries",
 "All registries and translit chains.",
 ["hangulize.go: Hangulize", "procedure.go: transliterate, forward", "errors.go"])
p("C39","The output is always valid UTF-8",
 "Whatever bytes are passed in, the string returned by a successful Hangulize is valid UTF-8 and contains no zero-width space.",
 "all byte strings, all specs",
 "All byte strings, including invalid UTF-8.",
 ["procedure.go: localize, syllabify, normalize"])
p("C40","Nothing in, nothing out",
 "Hangulizing the empty word yields the empty word, without panicking, for every spec without translit whose normalize section has no empty source.",
 "all such specs",
 "All specs.",
 ["procedure.go: forward"])
# ---- registries, cache
p("C41","A translit registry behaves like a first-wins map",
 "After any sequence of UseTranslit/UnuseTranslit calls, Translits() holds, for every scheme, the first translit registered since the last removal; the booleans say whether the call changed the registry; the returned map is an independent copy.",
 "all operation sequences",
 "All histories.",
 ["translit.go: Add, Remove, Detach", "hangulize.go: UseTranslit, UnuseTranslit, Translits"])
p("C42","Installing the standard translits is all or nothing",
 "translit.Install either registers all standard translits and returns true, or returns false and leaves the registry as it was.",
 "all registry states",
 "All pre-existing registries.",
 ["translit/translit.go: Install"])
p("C43","The spec cache is invisible",
 "In any sequence of LoadSpec, UnloadSpec and Hangulize calls, each LoadSpec returns what parsing the bundled source would return, and never a stale or foreign spec.",
 "all operation sequences",
 "All histories.",
 ["specs.go: LoadSpec, UnloadSpec"])
p("C44","Hangulize may be called concurrently",
 "Concurrent calls of Hangulize/LoadSpec never access the spec cache in a conflicting way.",
 "all interleavings of any number of goroutines",
 "All schedules.",
 ["specs.go: specs, LoadSpec"])
p("C45","Hangulizer instances are isolated",
 "Operations on one Hangulizer never change the translits, the trace function or the results of another one or of the package-level functions. A run passes its events to the tracing function of its own Hangulizer, in order and after the earlier ones; nothing else does.",
 "all operation sequences over any number of instances",
 "All histories.",
 ["hangulize.go: New, hangulizer"])
# ---- translits
p("C46","Kana iteration marks resolve to the letter they repeat",
 "repeatKana keeps the number of characters, changes nothing but iteration marks that follow a kana of the same syllabary, and replaces such a mark by the unvoiced (or voiced) form of the preceding output character.",
 "all words",
 "All words; marks can chain.",
 ["translit/furigana/repeat.go: repeatKana"])
p("C47","Voicing and unvoicing are consistent",
 "toSeion and toDakuon are idempotent, stay inside their syllabary, and toSeion undoes toDakuon on unvoiced kana.",
 "all runes",
 "All runes (range checks with modular arithmetic).",
 ["translit/furigana/repeat.go: toSeion, toDakuon"])
p("C48","Merging long vowels is length preserving, local and idempotent",
 "mergeLongVowels keeps the number of characters, changes nothing before the offset, replaces a character only by the long-vowel mark and only when it prolongs its predecessor, and is idempotent.",
 "all words and offsets",
 "All words and offsets.",
 ["translit/furigana/longvowel.go: mergeLongVowels"])
p("C49","The typewriter speaks every token",
 "Typewrite emits the pronunciation of every non-dummy token in order, and a second call returns the same text.",
 "all token sequences",
 "All token sequences, including dummies between auxiliaries and empty pronunciations.",
 ["translit/furigana/typewriter.go: Typewrite, scanMorpheme, read, unread"])
p("C50","Pinyin keeps order and loses nothing",
 "Removing the zero-width separators from the Pinyin transliteration gives the in-order concatenation of each character's Pinyin (or the character itself); runs of characters without Pinyin stay unbroken.",
 "all words, all dictionaries",
 "All words.",
 ["translit/pinyin/pinyin.go: Transliterate"])
p("C51","Cyrillic transliteration is a function of the word",
 "The same country translit maps the same word to the same result in every process.",
 "all words, all iteration orders of the mapping",
 "Iteration order is randomised by the runtime.",
 ["translit/cyrillic/cyrillic.go: mustNew, Transliterate", "translit/cyrillic/dict.json"])
# ---- scripts
p("C52","Script normalization reaches a fixed point",
 "Hrkt.Normalize maps every hiragana letter to its katakana counterpart, leaves everything else alone and is idempotent; Latn.Normalize yields a lower-case basic letter for every decomposable Latin letter.",
 "all runes",
 "All runes.",
 ["internal/scripts/hrkt.go: Normalize", "internal/scripts/latn.go: Normalize"])
# ---- tools
p("C53","Formatting traces never fails and stays aligned",
 "FprintTraces never panics; the text column never shrinks and every word is padded to it; different steps have different headings.",
 "all trace lists, all widths",
 "All lists: padding is a difference that must never be negative.",
 ["pkg/tracefmt/tracefmt.go: FprintTraces"])
p("C54","The command line transcribes every word once, in order",
 "Under every schedule of the reader goroutine and the main loop, 'hangulize LANG w1 w2 ...' prints the results of exactly the given non-empty words in order; with standard input it prints the results of all lines.",
 "all argument lists, all inputs, all schedules",
 "All schedules and inputs.",
 ["cmd/hangulize/main.go: hangulizeStream, readWords"])
p("C55","The test command fails exactly when an example fails",
 "'hangulize test' exits with status 1 iff some example's result differs from the expected one, with and without coverage; covered rules are rules of the visited specs.",
 "all spec files and examples",
 "All example lists.",
 ["cmd/hangulize/test.go", "cmd/hangulize/cover.go"])
p("C56","Safe substring never panics",
 "For all integers, substr(s, start, stop) returns the bytes of s between max(start,..) and min(stop,len) or the empty string, and never panics.",
 "all strings and integers",
 "All integers, including negative ones.",
 ["pkg/hre/util.go: substr, captured"])
p("C57","The coverage profile lists every rule with its line",
 "If all examples pass, 'hangulize test --coverprofile' writes one line per rule of every file: its line number, the length of that line plus one, and whether the rule showed in a trace.",
 "all spec files which can be parsed",
 "All files: the profile indexes the scanned lines by the line numbers of the HSL parser, and the pairs by the rule IDs.",
 ["cmd/hangulize/cover.go: WriteProfile"])
p("C58","Find skips nothing",
 "Pattern.Find reports the leftmost occurrence which no negative lookaround forbids, then the leftmost one from its end on, and so on to the end of the word; with a limit it reports the first ones of these.",
 "all patterns, words and limits",
 "All words: a search that jumps too far misses matches only for some neighbourhoods of matches and lookarounds.",
 ["pkg/hre/pattern.go: Find"])
p("C59","Hangulize computes the documented procedure",
 "Hangulize returns a result exactly if a reference description of the procedure relates it to the word: transliterate, substitute the spec's normalizations, normalize the letters of the script, split the word into meaningful and meaningless runs, apply the rewrite rules one by one to each run, join, apply the transcribe rules one by one to text not yet transcribed, drop left-overs, compose syllables in each meaningful run, localize. The reference knows no replacers, builders, masks or records, and relates at most one result to a word.",
 "all parsed specs, translits and byte strings",
 "All specs and words: the code keeps levels, masks and records in buffers committed at different times, and a test only sees the final text.",
 ["procedure.go: forward, transliterate, normalize, partition, rewrite, transcribe, syllabify, localize", "internal/subword/replace.go", "internal/subword/builder.go"])
p("C60","The trace shows the text after each rule",
 "The trace of a successful Hangulize consists of the events of the reference - the input, the word after each transliteration and normalization, the whole word after each rewrite and transcribe rule with NUL shown as a dot, the syllables, the localized result - in order, without those which leave the word as it was.",
 "all parsed specs, translits and byte strings",
 "All specs and words: the records of several pieces are interleaved rule by rule by the trace recorder.",
 ["trace.go", "procedure.go"])
p("C61","Scripts know their alphabets",
 "Each registered script name (ISO 15924 code) stands for a script that recognizes every letter of its alphabet - with combining marks for Cyrillic and the iteration and long vowel marks for kana -, no other name is registered, and no letter other than a mark belongs to two scripts.",
 "all names, all runes",
 "All runes of the alphabets; tests sample letters.",
 ["script.go: getScript, scriptRegistry", "internal/scripts: Latn.Is, Cyrl.Is, Geor.Is, Grek.Is, Hrkt.Is"])
p("C62","Script normalization lowers letters and stays in the script",
 "Normalize maps capital letters to the small ones at the distance given by the code charts, leaves small letters alone and yields letters of the same script. It is idempotent for all scripts but Latin, and for Latin for all runes but eight.",
 "all scripts, all runes",
 "All runes; partitioning after normalization relies on letters staying letters.",
 ["internal/scripts: Latn.Normalize, Cyrl.Normalize, Geor.Normalize, Grek.Normalize, Hrkt.Normalize"])
p("C63","Cyrillic transliteration only writes the alphabet of the country",
 "For each country and every order in which the mapping is visited, transliterating again changes nothing and Cyrillic text is left alone; values only contain letters of the national alphabet; keys that differ in case only stand for letters that differ in case only; each small letter of the alphabet is written for some key if longer keys come first.",
 "all words, all iteration orders of the mapping",
 "All words and orders.",
 ["translit/cyrillic/cyrillic.go", "translit/cyrillic/dict.json"])
p("C64","A check of the compiled rules rules out panics and endless loops for all words",
 "There is a computable check of a compiled rule, looking at its regular expression only, such that a rule which passes it can be applied to every word: Find returns, its matches are non-empty ranges of whole characters in order, and the interpolation of the replacement never fails with a panic. A spec all of whose rules pass the check makes Hangulize return normally for every word, and if no transcribing rule matches a NUL character, every piece of the word is transcribed at most once.",
 "all rules and specs that pass the check, all byte strings",
 "The check is sound for all words, also for invalid UTF-8; tests see only single words.",
 ["pkg/hre/pattern.go:178-264","pkg/hre/rpattern.go:99-134","rule.go:22-47","procedure.go:26-47"])
p("C65","All bundled specs load",
 "ListLangs returns the names of the bundled files without their extension, sorted and each once, and LoadSpec finds exactly these languages. Each of the 40 specs can be loaded after any sequence of calls and with any iteration order of maps while parsing: it is parsed without error, panic or endless loop, its id is the name of its file, its script is registered, each of its rules passes the check of C64, no replacement uses more vars than its pattern has, all replacements are valid text, and the transcribing rules write apostrophes, syllables and letters which can be composed, and match no NUL character.",
 "all 40 bundled specs, all call sequences, all iteration orders of maps",
 "LoadSpec panics if a bundled spec does not parse; tests load each spec with one iteration order of the maps.",
 ["specs.go:20-68", "specs/*.hsl", "spec.go: ParseSpec"])
p("C66","No program with the bundled specs makes the library panic or loop",
 "Any sequence of calls of the API with the bundled specs returns: Hangulize and hangulizers of loaded specs neither panic nor loop on any word (also invalid UTF-8) unless a translit does, and goroutines loading and unloading specs never panic. The standard translits return a word for every word, and once they are installed Hangulize succeeds for every listed language and every word.",
 "all programs, all bundled specs, all byte strings, all iteration orders",
 "All words for all 40 specs; an empty match of a single rule in some unlucky context would loop forever.",
 ["hangulize.go", "specs.go", "translit/translit.go", "procedure.go", "specs/*.hsl"])
p("C67","Bundled specs write Hangul and leave no letter of the source script",
 "Whatever word is hangulized with a bundled spec, each character of the result is a Hangul syllable, an apostrophe, a space, a character of the normalized word which has no meaning for the spec (no letter of its script, and nothing its rules mention as punctuation), or (for kana) the replacement of Japanese punctuation. So no letter of the script of the language and no stand-alone jamo written by a rule is left over, and a word all of whose characters have a meaning for the spec becomes syllables, apostrophes and spaces.",
 "all 40 bundled specs, all byte strings, all translits",
 "A transcription with an obsolete jamo or a rewritten letter without transcription would show up for some unlucky word only.",
 ["procedure.go:26-315", "internal/jamo/jamo.go", "specs/*.hsl"])
p("C68","Programs with the bundled specs are deterministic",
 "Go visits maps in random order. Two specs loaded for one bundled language differ at most in the order of the letters replaced by the normalize step, and for every word, translits and tracer both give the same word and the same events. So two runs of a program which uses the bundled specs return the same results call by call, and pass the same to its tracing functions.",
 "all bundled specs, all programs, all iteration orders, all byte strings",
 "The iteration order of a map changes from run to run; with two macros or overlapping normalizations the results would differ once in a while (C17, C28).",
 ["spec.go: ParseSpec", "pkg/hre/macro.go", "hangulize.go", "specs.go", "specs/*.hsl"])
p("C69","Texts survive the way between JavaScript and Go",
 "JavaScript strings are UTF-16 and Go strings are UTF-8. The text of a well-formed JavaScript string arrives in Go, each lone surrogate becomes a replacement character and nothing else changes, and what arrives is always valid UTF-8. The text of a valid Go string arrives in JavaScript, of a broken one all characters but the broken ones, and a text which goes to JavaScript and comes back is the same.",
 "all JavaScript strings, all byte strings",
 "Surrogate pairs, lone surrogates, invalid bytes and byte order marks hardly occur in tests, and the tests of the module do not run in a browser.",
 ["cmd/hangulize.wasm/hangulize.go:15-16,57","cmd/hangulize.wasm/translit.go:35,46","web/src/hangulize/wasm_exec.js:91-92,174-178,402-414"])
p("C70","The Promises of the JavaScript API are settled as Hangulize returns in Go",
 "A page registers translits, calls hangulize any number of times, and the Promises of its translits are settled in any order. Then each Promise of hangulize is settled at most once. It is pending only while it waits for a Promise of a translit which has not been settled. Otherwise it is resolved with the word which Hangulize returns in Go for the language and word with the translits registered before the call, or rejected if Hangulize fails, and the tracing function was given the events of Hangulize, as objects which tell the step, the word, the reason and the rule. Nothing a page does ends the module.",
 "all sequences of events on a page, all specs, all translits, all JavaScript values",
 "Calls run as goroutines which wait for each other's translits; a test awaits one call at a time.",
 ["cmd/hangulize.wasm/hangulize.go:14-62","cmd/hangulize.wasm/translit.go:14-63","cmd/hangulize.wasm/main.go:13-20"])
p("C71","hangulize.specs describes all bundled specs",
 "The module starts, and hangulize.specs has one entry for each listed language and no other one. The entry tells the id, the codes, the names, the script, the translits, the authors, the stage, the examples and the source of the spec of this language.",
 "all 40 bundled specs, all iteration orders of maps",
 "The fields are copied by hand, and nothing in the repository checks all of them for all languages.",
 ["cmd/hangulize.wasm/encode.go:15-64","cmd/hangulize.wasm/main.go:16","specs/*.hsl"])
p("C72","The translits of the web page are those of Go",
 "The web page runs each translit in a worker with its own WebAssembly module, chosen by the name of the scheme. For each standard scheme and each word the worker returns what the translit returns in Go. So with these workers hangulize gives on the page the same result and the same traces as Hangulize does in Go with the standard translits, for each listed language and each word. A worker answers for every scheme without ending its module.",
 "all bundled languages, all words, all sequences of events on a page",
 "A scheme such as cyrillic[ru] is taken apart in TypeScript and put together in Go; a mismatch shows up only on the page, and for some languages only.",
 ["cmd/cyrillic.translit.wasm/main.go:14-30","cmd/furigana.translit.wasm/main.go:11-19","cmd/pinyin.translit.wasm/main.go:11-19","web/src/hangulize/translit.worker.ts:11-51","web/src/hangulize/useHangulize.ts:73-87"])
p("C73","A spec has the authors its source names",
 "A spec names its authors in its section config, as the documentation of the package shows it and as all bundled specs do. Then Config.Authors are these names.",
 "all spec sources, all 40 bundled specs",
 "Nobody tests the authors; a misspelt key gives an empty list and no error.",
 ["spec.go:261-267","doc.go:77-81","specs/*.hsl"])
p("C74","manifest.json describes all bundled specs",
 "The command manifest.json ends without a panic and writes a JSON text. Read by JavaScript it has the version, an entry for each listed language and no other one, which tells the id, the codes, the names, the script, the translits, the authors, the stage and the examples of the spec of this language, and it has each translit of a bundled spec once. Two runs for one version write the same text.",
 "all 40 bundled specs, all versions, all iteration orders of maps",
 "The fields are copied by hand, the error of LoadSpec is dropped and the result dereferenced, and the order of a map changes from run to run.",
 ["cmd/manifest.json/main.go:10-91","specs.go:14-52","specs/*.hsl"])
p("C75","The commands hangulize, ls and dev serve the bundled specs",
 "hangulize LANG WORD... prints the result of each word which is not empty and exits with status 0 if LANG is listed, and with status 1 otherwise, verbose or not. ls prints a table with a row for each bundled spec, in the order of their names; ls HSL... prints a row for each file which is a spec, in the order of the arguments. No command panics. dev with the source of a bundled spec prints what hangulize prints for its language.",
 "all languages, words, input on stdin, files on disk, dictionaries of the translits and iteration orders of maps",
 "ls drops the errors of LoadSpec and dereferences the result, widths are counted in runes for any text, and dev and hangulize build their Hangulizer in different places.",
 ["cmd/hangulize/ls.go:16-61","cmd/hangulize/main.go:30-101","cmd/hangulize/dev.go:14-39"])
p("C76","The web page shows the result of the last input",
 "Whatever the user types and however the renderings, timers and answers of the worker are interleaved, the work which this causes comes to an end. Then the page is idle and shows the answer of the worker for the last input if it is valid, and nothing otherwise. No input which is superseded is sent to the worker while it is busy.",
 "all sequences of inputs, and all interleavings of renderings, effects, timers and answers",
 "The outcome depends on the order of asynchronous events, of which a test in a browser sees a few.",
 ["web/src/hangulize/useHangulize.ts:92-195"])
p("C77","The web page shows the result in the largest size in which it fits",
 "The box of the result searches for its font size with a binary search of which each step is a rendering. Whatever texts are shown and however often the window is resized meanwhile, the search ends after a number of renderings which depends on the number of sizes only. Then the size is the largest one in which the last text fits into the box, or the smallest one if none fits, and it stays so.",
 "all sequences of texts, resizings and renderings, all ways in which texts fit, all numbers of sizes but two (the page has five)",
 "The bounds of the search live in refs which other events reset in the middle of a search, and whether a text fits depends on the browser.",
 ["web/src/components/Result.tsx:8-74"])
p("C78","The address of the web page names the language and the word",
 "Whatever the user did before, after typing a word, selecting a language or following a link to an example the page shows this language and this word, nothing changes them but the user, and the page opened anew at its address shows the same. Other parameters of the address are kept. If the address names no language or no word, then random ones are added once.",
 "all addresses, all sequences of inputs, links, renderings and navigations, all texts of whole characters",
 "The address is written by three components with different encodings, through a callback which holds the parameters of the first rendering.",
 ["web/src/components/App.tsx:38-79","web/src/components/Examples.tsx:24-40","web/src/components/Prompt.tsx:14-38"])
p("C79","The web page shows what Hangulize returns in Go for the language and the word of its address",
 "Whatever happened before, the user types a word or selects a language. What happens then without the user comes to an end: renderings, effects, timers, answers of the worker. After that the page shows what Hangulize returns in Go for this language and this word with the standard translits, and does not look as if it was loading. For a blank word it shows nothing. No address makes the page empty.",
 "all addresses, all sequences of events, all listed languages, all words of whole characters",
 "It takes the address, the hook, the worker, its module and the workers of the translits together, each of which is asynchronous.",
 ["web/src/components/App.tsx:14-108","web/src/hangulize/useHangulize.ts:34-52,92-195","web/src/hangulize/hangulize.worker.ts:34-53"])
p("C80","Capital letters make no difference",
 "Normalization eliminates letter case: in every bundled language, a word in which any letters of the script are replaced by the small letters which unicode.ToLower gives for them has the same result, whatever stands around them.",
 "all bundled specs, all orders of iteration over maps, all letters of their scripts, all words",
 "There are more than a thousand capital letters, and the pairs of the spec, the letters exempt from normalization, the case of the script and its decomposition work against each other.",
 ["procedure.go:73-101","spec.go:118-122,164-185","internal/scripts/latn.go:18-29"])
p("C81","Words are hangulized one by one",
 "The result for words with spaces between them is the results for the words with spaces between them: a word is hangulized alike wherever it stands, and no word has an influence on another one.",
 "all bundled specs, all orders of iteration over maps, all numbers of words, all words without white space, anything after them",
 "Each of some thousand rules can look past the ends of a word, by itself or by its assertions, and can find text left by an earlier rule; tests try words one by one.",
 ["pkg/hre/pattern.go:144-264","procedure.go:103-254","specs/*.hsl"])
p("C82","Text of other scripts stays as it is",
 "Characters which have no meaning for a language stay in the result as they are, in their order, and what is before and after them is hangulized as if it was alone. So Hangul stays as it is, and hangulizing a result again changes nothing but white space.",
 "all bundled specs, all orders of iteration over maps, all texts of characters which are no letters of the script, no known punctuation and not normalized, any text before and after them",
 "Rewriting rules are applied to all pieces of a text, and each of some thousand rules may find something in them, by itself or in what an earlier rule left.",
 ["procedure.go:103-315","pkg/hre/pattern.go:144-264","specs/*.hsl"])
p("C83","The kind of white space makes no difference",
 "Texts which differ only in the kind of white space at some places have the same result. So words are hangulized one by one, whichever white space is between them.",
 "all bundled specs, all orders of iteration over maps, all pairs of texts which differ only in the kind of white space",
 "Each of some thousand rules may match one kind of white space and not the other, in its pattern, in its assertions or by the edges of words; tests use single spaces.",
 ["pkg/hre/pattern.go:144-264","pkg/hre/assertions.go:201-219","procedure.go:103-315","space.go:1-26","specs/*.hsl"])
p("C84","The page offers examples of its language, and they work",
 "Whatever happened before, the page comes to show up to five different examples of its language, in a few renderings. They stay the same until the user asks for others or the language changes. The link to an example leads to a page with the language and the word of this example, now and when it is opened anew, and then the page shows what Hangulize returns in Go for it. A page opened without a word goes to an example of its language.",
 "all addresses, all sequences of events, all random choices, all examples of the bundled specs, all orders of iteration over maps",
 "The examples are chosen at random by an effect which compares the language with a ref, and the links are put together without encoding; which of some thousand examples are safe in a link depends on their characters.",
 ["web/src/components/Examples.tsx:13-45","web/src/components/App.tsx:38-62","specs/*.hsl"])
p("C85","Every bundled language can be selected on the page",
 "The list of languages has each bundled language exactly once, with its Korean name and its flag, in the order of the names, however the specs are ordered. Selecting a language keeps the word and typing a word keeps the language, whatever happened before.",
 "all orders of the specs, all addresses, all sequences of events, all words of whole characters",
 "The specs come in the order of a map, the flags in a file of their own, and the input and the list write the same two parameters.",
 ["web/src/components/SelectLanguage.tsx:43-112","web/src/components/Prompt.tsx:14-38","web/src/components/flags.json:1-42"])
p("C86","Chinese text is hangulized character by character",
 "A Chinese character has the same result wherever it stands: the result for a text is the results for its characters, one after the other, without anything between them. Text without entry in the dictionary, such as Latin letters and punctuation, is hangulized as if it was alone, and white space becomes a space.",
 "all dictionaries, all orders of iteration over maps, all texts in NFC",
 "The syllables are joined by zero width spaces, which keep the rules from looking at the next syllable and vanish at the end; a test sees some pairs of characters.",
 ["translit/pinyin/pinyin.go:28-57","procedure.go:54-76,110-300","specs/chi.hsl:1-319"])
p("C87","Composed and decomposed letters have the same result",
 "Texts which are canonically equivalent, such as a letter with an accent and the same letter followed by a combining accent, have the same result.",
 "all bundled specs, all orders of iteration over maps, all letters and combining accents, any text before and after them",
 "Tests have composed letters only. Some translits normalize to NFC and others do not, and what becomes of an accent depends on all normalizations and rules of the language.",
 ["procedure.go:54-130,260-315","internal/scripts/latn.go:14-34","internal/scripts/cyrl.go:10-18","translit/furigana/furigana.go:39-52","translit/pinyin/pinyin.go:28-57"])
p("C88","Hiragana and katakana make no difference",
 "In Japanese, texts which differ only in whether kana are written as hiragana or as katakana have the same result.",
 "the bundled specs with kana, all orders of iteration over maps, all tokenizers, all texts, any kana written as hiragana or katakana",
 "Tests have one spelling of each word. The kana pass through iteration marks, long vowels, the normalization of the script and all rules, each with its own table.",
 ["internal/scripts/hrkt.go:10-30","procedure.go:103-315","translit/furigana/furigana.go:39-52","translit/furigana/longvowel.go:8-52","translit/furigana/repeat.go:6-114","specs/jpn.hsl","specs/jpn-ck.hsl"])
p("C89","Results are at most proportional to words",
 "For each bundled language there is a factor by which the result of any word is at most larger than the word, and so are the words of the traces, of which there are at most as many as steps and rules.",
 "all bundled specs, all orders of iteration over maps, all words, all libraries which are proportional themselves",
 "Each of hundreds of rules may make a text longer than what it replaces; that none is applied to its own output, and no match is empty, cannot be seen on samples.",
 ["procedure.go:54-315","pkg/hre/pattern.go:162-265","pkg/hre/rpattern.go:99-136","rule.go:30-47","translit/furigana/typewriter.go:38-204","translit/pinyin/pinyin.go:28-57"])
p("C90","Typing the name of a language finds it",
 "While the Korean name of a language, or the initial consonants of its syllables, are typed into the list of languages, the list has the language after each key, whatever syllables the input method has composed so far. Codes and English names are found in capital and small letters.",
 "all specs, all names of syllables and other text, all keys typed so far, input methods which join consonants and those which do not, all orders of renderings and effects",
 "A syllable changes while it is typed, and its last consonant moves to the next one; tests type whole names.",
 ["web/src/components/SelectLanguage.tsx:43-113"])
p("C91","The workers of the page start in order",
 "Whenever the modules are loaded, no word is hangulized before all translits of the manifest are registered; all calls of the page are handled once, in their order; each worker for translits loads the module of its name before it transliterates, gets only words for this module, and no call throws an Error because of the order.",
 "all lists of methods which have a module, all interleavings of calls of the page and of the worker, messages and loading of modules",
 "The order in which modules are loaded depends on the network; tests have everything at hand.",
 ["web/src/hangulize/useHangulize.ts:64-90","web/src/hangulize/hangulize.worker.ts:25-55","web/src/hangulize/translit.worker.ts:11-53","web/src/hangulize/runWebAssembly.ts:3-24"])
p("C92","Goroutines may share the library",
 "Goroutines may call LoadSpec, Hangulize, hangulizers of their own and Install at the same time: they never access a variable of the library in a conflicting way, and each call returns what it would return in a program with one goroutine.",
 "all numbers of goroutines, all programs of them, all interleavings of their accesses",
 "Whether two accesses collide depends on the schedule.",
 ["hangulize.go:9-17","specs.go:38-73","translit.go:15-64","translit/translit.go:18-40","translit/furigana/furigana.go:18-37"])
p("C93","Patterns mean what their regular expressions mean",
 "Any expression of characters, classes, vars, groups, bars and repetitions, with edges and lookarounds around it, is a pattern, and it finds exactly the texts the expression stands for.",
 "all expression trees, all vars and macros, all words",
 "Patterns are put together from text by five passes which know nothing of the syntax of regular expressions; tests have some fifty patterns.",
 ["pkg/hre/hre.go:5-20","pkg/hre/pattern.go:61-265","pkg/hre/assertions.go:66-210","pkg/hre/var.go:15-36","pkg/hre/util.go:47-49"])
p("C94","Of several texts a pattern takes the one its expression prefers",
 "Where an expression could stand for several texts, the pattern takes the one with the earlier alternative, the earlier value of a var, and as many repetitions as possible, or as few for the lazy ones; choices further left come first. Thus what a pattern finds is determined.",
 "all expression trees, all vars and macros, all words",
 "Texts of specs are chosen so that rules match in one way; where they overlap is known for the words of the tests only.",
 ["pkg/hre/pattern.go:61-265","pkg/hre/assertions.go:66-210","pkg/hre/var.go:15-36","pkg/hre/util.go:47-49"])
p("C95","The groups of a match hold the places of the parts of its text",
 "Beside each text `Find` reports the places of the groups of the expression: of `(a)` and `<v>`, in the order in which they begin. A group holds where its part last stood within the text, and -1 if its part was not used. Groups in lookarounds are not reported.",
 "all expression trees, all vars and macros, all words",
 "The groups say which value of a var a rule maps; the tests look at the results of rules with one or two vars in a row.",
 ["pkg/hre/pattern.go:61-265","pkg/hre/assertions.go:66-210","pkg/hre/var.go:15-36","pkg/hre/util.go:47-49"])
out=os.path.join(os.path.dirname(__file__),"..","properties.jsonl")
with open(out,"w") as f:
    for x in P: f.write(json.dumps(x,ensure_ascii=False)+"\n")
print(len(P))
