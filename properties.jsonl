{"id": "C01", "title": "Composing the Jamo spelling of a text gives the text back", "statement": "For every text of modern Hangul syllables, writing each syllable as compatibility Jamo (lead, medial, and the tail prefixed by a hyphen) and passing it to jamo.ComposeHangul returns exactly the original text.", "quantifier": "all finite sequences of the 11172 modern syllables", "why_tests_cant": "Tests cover two or three words; the composer is a state machine whose buffer carries over between syllables, so every sequence of syllables has to be considered.", "anchors": ["internal/jamo/jamo.go: ComposeHangul, composer.Compose, composer.write, composer.read"]}
{"id": "C02", "title": "Already composed text passes through ComposeHangul unchanged", "statement": "jamo.ComposeHangul returns its argument unchanged whenever it consists of composed syllables and non-Hangul characters other than '-'.", "quantifier": "all valid UTF-8 texts of syllables and non-Hangul, non-hyphen characters", "why_tests_cant": "The set of texts is infinite and syllables are decomposed into the Jamo buffer and recomposed, interacting with stale state after each non-Hangul character.", "anchors": ["internal/jamo/jamo.go: Compose, analyzeHangul"]}
{"id": "C03", "title": "ComposeHangul output is fully composed and stable", "statement": "For every byte string, the output of jamo.ComposeHangul contains no hyphen and no stand-alone compatibility Jamo, and composing it a second time changes nothing.", "quantifier": "all byte strings, including invalid UTF-8", "why_tests_cant": "Universally quantified over arbitrary input; idempotence relates two runs.", "anchors": ["internal/jamo/jamo.go: ComposeHangul"]}
{"id": "C04", "title": "Hangul composition is local", "statement": "A non-Hangul character other than '-' separates the composition: ComposeHangul(a + x + b) = ComposeHangul(a) + x + ComposeHangul(b), and the same holds when b begins with a composed syllable.", "quantifier": "all valid texts a, all b, all separators x", "why_tests_cant": "A relation between three runs over unbounded inputs; the composer keeps a stale score variable across separators.", "anchors": ["internal/jamo/jamo.go: Compose"]}
{"id": "C05", "title": "Incomplete syllables are filled in, one syllable per run", "statement": "ComposeHangul splits a Jamo sequence greedily into syllables (a new syllable starts exactly when a letter does not come strictly later than the previous one in the order lead < medial < tail) and fills a missing lead with ieung and a missing medial with eu; the number of emitted syllables is the number of such groups.", "quantifier": "all Jamo sequences with or without hyphen marks", "why_tests_cant": "Unbounded sequences; the tests only show two interpolation examples.", "anchors": ["internal/jamo/jamo.go: write, Compose"]}
{"id": "C06", "title": "A replacer splices its replacements", "statement": "For sorted, disjoint, in-range replacements, Replacer.String returns the word with each range replaced by its replacement and everything else verbatim, and one level per byte is kept: replaced bytes get the next level and the others keep theirs. Unsorted or out-of-range replacements panic.", "quantifier": "all words, all replacement lists, any number of commit rounds", "why_tests_cant": "The splice arithmetic must be right for every number, position and length of replacements.", "anchors": ["internal/subword/replace.go: NewReplacer, ReplaceBy, commit, String"]}
{"id": "C07", "title": "Subwords of a replacer partition the replaced word", "statement": "Replacer.Subwords returns non-empty chunks whose concatenation is Replacer.String (for valid UTF-8 with level boundaries on characters), neighbouring chunks have different levels, and every byte lies in a chunk of its own level.", "quantifier": "all words and level assignments", "why_tests_cant": "Quantifies over every word, every level vector and every cut point.", "anchors": ["internal/subword/replace.go: Subwords"]}
{"id": "C08", "title": "Builder merges neighbours and loses nothing", "statement": "Builder.Subwords preserves the concatenated text and the per-character levels, never leaves two neighbours with the same level, and merging an already merged list changes nothing.", "quantifier": "all lists of subwords with non-negative levels", "why_tests_cant": "Unbounded lists; the merge loop has a sentinel level and a final flush.", "anchors": ["internal/subword/builder.go: Subwords, Write, String"]}
{"id": "C09", "title": "Reported matches are non-empty, disjoint, in order, in range and at most n", "statement": "Pattern.Find(word, n) returns ranges start < stop inside the word, each starting at or after the previous stop, and at most n of them when n >= 0.", "quantifier": "all patterns NewPattern accepts, all words, all n", "why_tests_cant": "Depends on every regular expression and every word; Replacer and Replace slice the word with these numbers and panic or duplicate text otherwise.", "anchors": ["pkg/hre/pattern.go: Find, pickStartStop"]}
{"id": "C10", "title": "Finding matches always terminates", "statement": "Pattern.Find(word, n) returns (or panics) after finitely many steps for every accepted pattern and word.", "quantifier": "all patterns NewPattern accepts, all words, all n", "why_tests_cant": "Non-termination cannot be observed by a passing test.", "anchors": ["pkg/hre/pattern.go: Find"]}
{"id": "C11", "title": "Negative lookaround is honoured", "statement": "Pattern.Find never reports a match that is followed by text matching its {~...} lookahead or preceded by text matching its {~...} lookbehind.", "quantifier": "all patterns, words and reported matches", "why_tests_cant": "Tests use ASCII patterns only; the window handed to the negative expression is computed from a width for every pattern.", "anchors": ["pkg/hre/pattern.go: Find", "pkg/hre/assertions.go: dissolveLookaround", "pkg/hre/width.go: RegexpMaxWidth"]}
{"id": "C12", "title": "RegexpMaxWidth bounds every match", "statement": "If RegexpMaxWidth(re) is not -1, then no match of re is wider than RegexpMaxWidth(re) characters.", "quantifier": "all regular expressions (unbounded nesting), all texts, all matches", "why_tests_cant": "An induction over all syntax trees and all matches.", "anchors": ["pkg/hre/width.go: RegexpMaxWidth"]}
{"id": "C13", "title": "Unlimited negative lookaround is rejected", "statement": "ParseSpec returns an error for a rule whose {~...} expression can match arbitrarily long text.", "quantifier": "all rules", "why_tests_cant": "Quantifies over every expression; the check relies on one sentinel value.", "anchors": ["spec.go: newRules", "pkg/hre/pattern.go: NegativeLookaroundWidths", "pkg/hre/width.go: RegexpMaxWidth"]}
{"id": "C14", "title": "Replacing touches only the matched ranges, and both replace APIs agree", "statement": "Pattern.Replace and Rule.Replace keep all text outside the reported matches verbatim and in order, keep a match whose interpolation fails, and return the same string for the same pattern, replacement and word.", "quantifier": "all patterns, replacement patterns and words", "why_tests_cant": "Two independent splice implementations must agree on every input.", "anchors": ["pkg/hre/pattern.go: Replace", "rule.go: Replace, replacements"]}
{"id": "C15", "title": "Var-to-var replacement maps by position", "statement": "When <a> in a pattern captures the k-th value of a, the corresponding <b> in the replacement yields value number k modulo the number of values of b; interpolation fails with an error, not a panic, otherwise.", "quantifier": "all patterns with variables, all replacements, all matches", "why_tests_cant": "Depends on group numbering for arbitrary patterns and arbitrary matches.", "anchors": ["pkg/hre/rpattern.go: Interpolate", "pkg/hre/var.go: expandVars", "pkg/hre/util.go: indexOf, captured"]}
{"id": "C16", "title": "^^ matches only at the start of the word", "statement": "A pattern beginning with ^^ reports at most the match that starts at the beginning of the word.", "quantifier": "all words and all patterns beginning with ^^", "why_tests_cant": "Tests look at the first match only; Find restarts the regexp on a shifted word.", "anchors": ["pkg/hre/assertions.go: expandEdges", "pkg/hre/pattern.go: Find"]}
{"id": "C17", "title": "Macro expansion does not depend on map iteration order", "statement": "Expanding the macros of a pattern gives the same expression in every process and on every call.", "quantifier": "all macro tables, all expressions, all iteration orders of the Go map", "why_tests_cant": "Iteration order is randomised by the runtime, so a passing test proves nothing about the next run.", "anchors": ["pkg/hre/macro.go: expandMacros"]}
{"id": "C18", "title": "A variable matches exactly its values", "statement": "The pattern <v> finds exactly the occurrences of the literal values of v (regular expression meta characters in values are taken literally), preferring the value listed first.", "quantifier": "all variable tables and all words", "why_tests_cant": "Values are arbitrary strings and are escaped into a regular expression.", "anchors": ["pkg/hre/var.go: expandVars, getVar"]}
{"id": "C19", "title": "Parsing an HSL source terminates exactly when its quotes are closed", "statement": "hsl.Parse returns (a result, an error or a panic) for every source, i.e. it never runs forever.", "quantifier": "all byte strings", "why_tests_cant": "Non-termination is invisible to tests; the property ranges over all sources.", "anchors": ["pkg/hsl/lexer.go: scanQuotedString, Scan", "pkg/hsl/parser.go: parse"]}
{"id": "C20", "title": "Malformed HSL yields an error, never a panic", "statement": "hsl.Parse reports every malformed source through its error result.", "quantifier": "all byte strings", "why_tests_cant": "All sources, including adversarial ones.", "anchors": ["pkg/hsl/lexer.go: scanArrow", "pkg/hsl/parser.go: parse", "pkg/hsl/structures.go: DictSection.addPair"]}
{"id": "C21", "title": "Every HSL document can be written down and read back", "statement": "Rendering a list of sections (list sections with ordered pairs, dict sections with unique keys) in HSL syntax and parsing it returns the same sections, pairs, order and values.", "quantifier": "all documents whose strings contain no backslash", "why_tests_cant": "An encode/decode round trip over unboundedly many nested strings, pairs and sections.", "anchors": ["pkg/hsl/parser.go: parse, parseValues", "pkg/hsl/lexer.go: Scan", "pkg/hsl/structures.go"]}
{"id": "C22", "title": "Comments do not change the parsed document", "statement": "Adding a '#' comment at the end of a line or on its own line does not change the result of hsl.Parse.", "quantifier": "all documents and comment positions", "why_tests_cant": "All documents and all positions.", "anchors": ["pkg/hsl/lexer.go: scanComment", "pkg/hsl/parser.go: parseValues"]}
{"id": "C23", "title": "Sections keep what was written: no pair lost, reordered or overwritten", "statement": "A list section returned by hsl.Parse has its pairs in source order; a dict section has at most one pair per key and never silently overwrites one.", "quantifier": "all sources", "why_tests_cant": "Invariant over every sequence of addPair operations.", "anchors": ["pkg/hsl/structures.go: ListSection, DictSection, addPair, Map, Injective, One, All"]}
{"id": "C24", "title": "Line numbers point into the source", "statement": "The line reported for every pair returned by hsl.Parse is 1 plus the number of newlines before its '=' or '->' sign, hence between 1 and the number of lines of the source.", "quantifier": "all sources, all pairs", "why_tests_cant": "All sources; unread has to undo the line counter at every position.", "anchors": ["pkg/hsl/lexer.go: read, unread, Line", "pkg/hsl/parser.go: scan"]}
{"id": "C25", "title": "A quoted string can hold any text", "statement": "Every text without a backslash, written between double quotes with its quotes escaped as \\\", is read back unchanged as one String token; a backslash can never be part of a quoted string.", "quantifier": "all texts", "why_tests_cant": "All strings; escapes are a small state machine.", "anchors": ["pkg/hsl/lexer.go: scanQuotedString"]}
{"id": "C26", "title": "A parsed spec reflects its source sections", "statement": "ParseSpec numbers the rewrite and transcribe rules 0,1,2,... in source order, keeps the original expressions, requires exactly two codes when a lang section is present, and rejects unknown scripts.", "quantifier": "all sources", "why_tests_cant": "All sources; rule IDs index the trace records and coverage.", "anchors": ["spec.go: ParseSpec, newRules, newLanguage", "script.go: getScript"]}
{"id": "C27", "title": "Letters introduced by custom normalization survive script normalization", "statement": "Every letter of every target of the normalize section is exempt from per-script normalization.", "quantifier": "all normalize sections, all letters of all targets", "why_tests_cant": "All tables; tests use single-letter targets.", "anchors": ["spec.go: ParseSpec (letters in normalize)", "procedure.go: normalize"]}
{"id": "C28", "title": "Custom normalization does not depend on map iteration order", "statement": "The same spec source normalizes every word the same way in every process.", "quantifier": "all normalize sections, all words, all iteration orders", "why_tests_cant": "Iteration order is randomised by the runtime.", "anchors": ["spec.go: ParseSpec (custom normalization)", "procedure.go: normalize"]}
{"id": "C29", "title": "Punctuation handled by the rules is known to the partition step", "statement": "A punctuation character belongs to the spec's punctuation set iff some rule's pattern mentions it and no rewrite replacement up to and including that rule (any rewrite replacement, for transcribe rules) mentions it.", "quantifier": "all rule lists, all characters", "why_tests_cant": "All rule lists: the order of the scan matters.", "anchors": ["spec.go: collectPuncts", "pkg/hre/pattern.go: Letters", "pkg/hre/rpattern.go: Letters"]}
{"id": "C30", "title": "Tracing never changes the result", "statement": "Hangulize returns the same result and error with and without a trace function.", "quantifier": "all specs, translits, words", "why_tests_cant": "Relates two runs for every spec and word.", "anchors": ["trace.go: tracer, subwordsTracer", "procedure.go: forward, rewrite, transcribe"]}
{"id": "C31", "title": "The trace is a faithful log", "statement": "Consecutive trace events carry different words, the first event is the Input event carrying the input word (when it is non-empty), and the word of the last event is the returned result.", "quantifier": "all specs and words", "why_tests_cant": "All runs.", "anchors": ["trace.go: trace, Commit, RecordSubword", "procedure.go: forward"]}
{"id": "C32", "title": "Text nobody claims passes through untouched", "statement": "If no letter of the (normalized) word belongs to the script, to the rules' punctuation or to white space and no rewrite rule matches, the result is the localized word itself.", "quantifier": "all specs and such words", "why_tests_cant": "All specs and words.", "anchors": ["procedure.go: partition, rewrite, transcribe, syllabify"]}
{"id": "C33", "title": "Transcribed text is never transcribed again", "statement": "In the transcribe step each piece of the word is replaced at most once: a later rule only replaces text no earlier rule replaced, provided no pattern matches a NUL character, and the masked copy always has the same length as the real one.", "quantifier": "all rule lists and words", "why_tests_cant": "All rule sequences; relies on two replacers staying in lockstep.", "anchors": ["procedure.go: transcribe", "internal/subword/replace.go"]}
{"id": "C34", "title": "Hangulize never panics on a well-behaved spec", "statement": "If every rule of a spec only produces proper matches and its replacements interpolate, Hangulize returns normally for every word.", "quantifier": "all such specs, all byte strings", "why_tests_cant": "All words; slices are taken at computed offsets in every step.", "anchors": ["procedure.go: forward", "internal/subword/replace.go: commit, Subwords", "trace.go: Commit"]}
{"id": "C35", "title": "Left-over rewriting hints never reach the output", "statement": "After the transcribe step no level-1 text remains except single spaces: every left-over level-1 piece is dropped, or becomes one space if it contained white space.", "quantifier": "all specs and words", "why_tests_cant": "All specs and words.", "anchors": ["procedure.go: transcribe"]}
{"id": "C36", "title": "Localization only touches punctuation", "statement": "For every script but Japanese kana, the localize step only removes zero-width spaces; for kana it additionally replaces the listed full-width punctuation. Localizing twice changes nothing more.", "quantifier": "all words, all scripts", "why_tests_cant": "All words; idempotence relates two runs.", "anchors": ["procedure.go: localize", "internal/scripts/*.go: LocalizePunct"]}
{"id": "C37", "title": "Localization never stacks spaces", "statement": "Japanese punctuation localization never introduces a space at the start or end of the word or next to another space.", "quantifier": "all words", "why_tests_cant": "All words and neighbourhoods.", "anchors": ["procedure.go: localize", "internal/scripts/hrkt.go: LocalizePunct"]}
{"id": "C38", "title": "Errors are reported with their documented values", "statement": "Hangulize with an unknown language returns the word itself with ErrSpecNotFound; a missing translit gives ErrTranslitNotImported and a failing one ErrTranslit, both with an empty result; otherwise the translits are applied left to right.", "quantifier": "all languages, words, registries", "why_tests_cant": "All registries and translit chains.", "anchors": ["hangulize.go: Hangulize", "procedure.go: transliterate, forward", "errors.go"]}
{"id": "C39", "title": "The output is always valid UTF-8", "statement": "Whatever bytes are passed in, the string returned by a successful Hangulize is valid UTF-8 and contains no zero-width space.", "quantifier": "all byte strings, all specs", "why_tests_cant": "All byte strings, including invalid UTF-8.", "anchors": ["procedure.go: localize, syllabify, normalize"]}
{"id": "C40", "title": "Nothing in, nothing out", "statement": "Hangulizing the empty word yields the empty word, without panicking, for every spec without translit whose normalize section has no empty source.", "quantifier": "all such specs", "why_tests_cant": "All specs.", "anchors": ["procedure.go: forward"]}
{"id": "C41", "title": "A translit registry behaves like a first-wins map", "statement": "After any sequence of UseTranslit/UnuseTranslit calls, Translits() holds, for every scheme, the first translit registered since the last removal; the booleans say whether the call changed the registry; the returned map is an independent copy.", "quantifier": "all operation sequences", "why_tests_cant": "All histories.", "anchors": ["translit.go: Add, Remove, Detach", "hangulize.go: UseTranslit, UnuseTranslit, Translits"]}
{"id": "C42", "title": "Installing the standard translits is all or nothing", "statement": "translit.Install either registers all standard translits and returns true, or returns false and leaves the registry as it was.", "quantifier": "all registry states", "why_tests_cant": "All pre-existing registries.", "anchors": ["translit/translit.go: Install"]}
{"id": "C43", "title": "The spec cache is invisible", "statement": "In any sequence of LoadSpec, UnloadSpec and Hangulize calls, each LoadSpec returns what parsing the bundled source would return, and never a stale or foreign spec.", "quantifier": "all operation sequences", "why_tests_cant": "All histories.", "anchors": ["specs.go: LoadSpec, UnloadSpec"]}
{"id": "C44", "title": "Hangulize may be called concurrently", "statement": "Concurrent calls of Hangulize/LoadSpec never access the spec cache in a conflicting way.", "quantifier": "all interleavings of any number of goroutines", "why_tests_cant": "All schedules.", "anchors": ["specs.go: specs, LoadSpec"]}
{"id": "C45", "title": "Hangulizer instances are isolated", "statement": "Operations on one Hangulizer never change the translits, the trace function or the results of another one or of the package-level functions. A run passes its events to the tracing function of its own Hangulizer, in order and after the earlier ones; nothing else does.", "quantifier": "all operation sequences over any number of instances", "why_tests_cant": "All histories.", "anchors": ["hangulize.go: New, hangulizer"]}
{"id": "C46", "title": "Kana iteration marks resolve to the letter they repeat", "statement": "repeatKana keeps the number of characters, changes nothing but iteration marks that follow a kana of the same syllabary, and replaces such a mark by the unvoiced (or voiced) form of the preceding output character.", "quantifier": "all words", "why_tests_cant": "All words; marks can chain.", "anchors": ["translit/furigana/repeat.go: repeatKana"]}
{"id": "C47", "title": "Voicing and unvoicing are consistent", "statement": "toSeion and toDakuon are idempotent, stay inside their syllabary, and toSeion undoes toDakuon on unvoiced kana.", "quantifier": "all runes", "why_tests_cant": "All runes (range checks with modular arithmetic).", "anchors": ["translit/furigana/repeat.go: toSeion, toDakuon"]}
{"id": "C48", "title": "Merging long vowels is length preserving, local and idempotent", "statement": "mergeLongVowels keeps the number of characters, changes nothing before the offset, replaces a character only by the long-vowel mark and only when it prolongs its predecessor, and is idempotent.", "quantifier": "all words and offsets", "why_tests_cant": "All words and offsets.", "anchors": ["translit/furigana/longvowel.go: mergeLongVowels"]}
{"id": "C49", "title": "The typewriter speaks every token", "statement": "Typewrite emits the pronunciation of every non-dummy token in order, and a second call returns the same text.", "quantifier": "all token sequences", "why_tests_cant": "All token sequences, including dummies between auxiliaries and empty pronunciations.", "anchors": ["translit/furigana/typewriter.go: Typewrite, scanMorpheme, read, unread"]}
{"id": "C50", "title": "Pinyin keeps order and loses nothing", "statement": "Removing the zero-width separators from the Pinyin transliteration gives the in-order concatenation of each character's Pinyin (or the character itself); runs of characters without Pinyin stay unbroken.", "quantifier": "all words, all dictionaries", "why_tests_cant": "All words.", "anchors": ["translit/pinyin/pinyin.go: Transliterate"]}
{"id": "C51", "title": "Cyrillic transliteration is a function of the word", "statement": "The same country translit maps the same word to the same result in every process.", "quantifier": "all words, all iteration orders of the mapping", "why_tests_cant": "Iteration order is randomised by the runtime.", "anchors": ["translit/cyrillic/cyrillic.go: mustNew, Transliterate", "translit/cyrillic/dict.json"]}
{"id": "C52", "title": "Script normalization reaches a fixed point", "statement": "Hrkt.Normalize maps every hiragana letter to its katakana counterpart, leaves everything else alone and is idempotent; Latn.Normalize yields a lower-case basic letter for every decomposable Latin letter.", "quantifier": "all runes", "why_tests_cant": "All runes.", "anchors": ["internal/scripts/hrkt.go: Normalize", "internal/scripts/latn.go: Normalize"]}
{"id": "C53", "title": "Formatting traces never fails and stays aligned", "statement": "FprintTraces never panics; the text column never shrinks and every word is padded to it; different steps have different headings.", "quantifier": "all trace lists, all widths", "why_tests_cant": "All lists: padding is a difference that must never be negative.", "anchors": ["pkg/tracefmt/tracefmt.go: FprintTraces"]}
{"id": "C54", "title": "The command line transcribes every word once, in order", "statement": "Under every schedule of the reader goroutine and the main loop, 'hangulize LANG w1 w2 ...' prints the results of exactly the given non-empty words in order; with standard input it prints the results of all lines.", "quantifier": "all argument lists, all inputs, all schedules", "why_tests_cant": "All schedules and inputs.", "anchors": ["cmd/hangulize/main.go: hangulizeStream, readWords"]}
{"id": "C55", "title": "The test command fails exactly when an example fails", "statement": "'hangulize test' exits with status 1 iff some example's result differs from the expected one, with and without coverage; covered rules are rules of the visited specs.", "quantifier": "all spec files and examples", "why_tests_cant": "All example lists.", "anchors": ["cmd/hangulize/test.go", "cmd/hangulize/cover.go"]}
{"id": "C56", "title": "Safe substring never panics", "statement": "For all integers, substr(s, start, stop) returns the bytes of s between max(start,..) and min(stop,len) or the empty string, and never panics.", "quantifier": "all strings and integers", "why_tests_cant": "All integers, including negative ones.", "anchors": ["pkg/hre/util.go: substr, captured"]}
{"id": "C57", "title": "The coverage profile lists every rule with its line", "statement": "If all examples pass, 'hangulize test --coverprofile' writes one line per rule of every file: its line number, the length of that line plus one, and whether the rule showed in a trace.", "quantifier": "all spec files which can be parsed", "why_tests_cant": "All files: the profile indexes the scanned lines by the line numbers of the HSL parser, and the pairs by the rule IDs.", "anchors": ["cmd/hangulize/cover.go: WriteProfile"]}
{"id": "C58", "title": "Find skips nothing", "statement": "Pattern.Find reports the leftmost occurrence which no negative lookaround forbids, then the leftmost one from its end on, and so on to the end of the word; with a limit it reports the first ones of these.", "quantifier": "all patterns, words and limits", "why_tests_cant": "All words: a search that jumps too far misses matches only for some neighbourhoods of matches and lookarounds.", "anchors": ["pkg/hre/pattern.go: Find"]}
{"id": "C59", "title": "Hangulize computes the documented procedure", "statement": "Hangulize returns a result exactly if a reference description of the procedure relates it to the word: transliterate, substitute the spec's normalizations, normalize the letters of the script, split the word into meaningful and meaningless runs, apply the rewrite rules one by one to each run, join, apply the transcribe rules one by one to text not yet transcribed, drop left-overs, compose syllables in each meaningful run, localize. The reference knows no replacers, builders, masks or records, and relates at most one result to a word.", "quantifier": "all parsed specs, translits and byte strings", "why_tests_cant": "All specs and words: the code keeps levels, masks and records in buffers committed at different times, and a test only sees the final text.", "anchors": ["procedure.go: forward, transliterate, normalize, partition, rewrite, transcribe, syllabify, localize", "internal/subword/replace.go", "internal/subword/builder.go"]}
{"id": "C60", "title": "The trace shows the text after each rule", "statement": "The trace of a successful Hangulize consists of the events of the reference - the input, the word after each transliteration and normalization, the whole word after each rewrite and transcribe rule with NUL shown as a dot, the syllables, the localized result - in order, without those which leave the word as it was.", "quantifier": "all parsed specs, translits and byte strings", "why_tests_cant": "All specs and words: the records of several pieces are interleaved rule by rule by the trace recorder.", "anchors": ["trace.go", "procedure.go"]}
{"id": "C61", "title": "Scripts know their alphabets", "statement": "Each registered script name (ISO 15924 code) stands for a script that recognizes every letter of its alphabet - with combining marks for Cyrillic and the iteration and long vowel marks for kana -, no other name is registered, and no letter other than a mark belongs to two scripts.", "quantifier": "all names, all runes", "why_tests_cant": "All runes of the alphabets; tests sample letters.", "anchors": ["script.go: getScript, scriptRegistry", "internal/scripts: Latn.Is, Cyrl.Is, Geor.Is, Grek.Is, Hrkt.Is"]}
{"id": "C62", "title": "Script normalization lowers letters and stays in the script", "statement": "Normalize maps capital letters to the small ones at the distance given by the code charts, leaves small letters alone and yields letters of the same script. It is idempotent for all scripts but Latin, and for Latin for all runes but eight.", "quantifier": "all scripts, all runes", "why_tests_cant": "All runes; partitioning after normalization relies on letters staying letters.", "anchors": ["internal/scripts: Latn.Normalize, Cyrl.Normalize, Geor.Normalize, Grek.Normalize, Hrkt.Normalize"]}
{"id": "C63", "title": "Cyrillic transliteration only writes the alphabet of the country", "statement": "For each country and every order in which the mapping is visited, transliterating again changes nothing and Cyrillic text is left alone; values only contain letters of the national alphabet; keys that differ in case only stand for letters that differ in case only; each small letter of the alphabet is written for some key if longer keys come first.", "quantifier": "all words, all iteration orders of the mapping", "why_tests_cant": "All words and orders.", "anchors": ["translit/cyrillic/cyrillic.go", "translit/cyrillic/dict.json"]}
{"id": "C64", "title": "A check of the compiled rules rules out panics and endless loops for all words", "statement": "There is a computable check of a compiled rule, looking at its regular expression only, such that a rule which passes it can be applied to every word: Find returns, its matches are non-empty ranges of whole characters in order, and the interpolation of the replacement never fails with a panic. A spec all of whose rules pass the check makes Hangulize return normally for every word, and if no transcribing rule matches a NUL character, every piece of the word is transcribed at most once.", "quantifier": "all rules and specs that pass the check, all byte strings", "why_tests_cant": "The check is sound for all words, also for invalid UTF-8; tests see only single words.", "anchors": ["pkg/hre/pattern.go:178-264", "pkg/hre/rpattern.go:99-134", "rule.go:22-47", "procedure.go:26-47"]}
{"id": "C65", "title": "All bundled specs load", "statement": "ListLangs returns the names of the bundled files without their extension, sorted and each once, and LoadSpec finds exactly these languages. Each of the 40 specs can be loaded after any sequence of calls and with any iteration order of maps while parsing: it is parsed without error, panic or endless loop, its id is the name of its file, its script is registered, each of its rules passes the check of C64, no replacement uses more vars than its pattern has, all replacements are valid text, and the transcribing rules write apostrophes, syllables and letters which can be composed, and match no NUL character.", "quantifier": "all 40 bundled specs, all call sequences, all iteration orders of maps", "why_tests_cant": "LoadSpec panics if a bundled spec does not parse; tests load each spec with one iteration order of the maps.", "anchors": ["specs.go:20-68", "specs/*.hsl", "spec.go: ParseSpec"]}
{"id": "C66", "title": "No program with the bundled specs makes the library panic or loop", "statement": "Any sequence of calls of the API with the bundled specs returns: Hangulize and hangulizers of loaded specs neither panic nor loop on any word (also invalid UTF-8) unless a translit does, and goroutines loading and unloading specs never panic. The standard translits return a word for every word, and once they are installed Hangulize succeeds for every listed language and every word.", "quantifier": "all programs, all bundled specs, all byte strings, all iteration orders", "why_tests_cant": "All words for all 40 specs; an empty match of a single rule in some unlucky context would loop forever.", "anchors": ["hangulize.go", "specs.go", "translit/translit.go", "procedure.go", "specs/*.hsl"]}
{"id": "C67", "title": "Bundled specs write Hangul and leave no letter of the source script", "statement": "Whatever word is hangulized with a bundled spec, each character of the result is a Hangul syllable, an apostrophe, a space, a character of the normalized word which has no meaning for the spec (no letter of its script, and nothing its rules mention as punctuation), or (for kana) the replacement of Japanese punctuation. So no letter of the script of the language and no stand-alone jamo written by a rule is left over, and a word all of whose characters have a meaning for the spec becomes syllables, apostrophes and spaces.", "quantifier": "all 40 bundled specs, all byte strings, all translits", "why_tests_cant": "A transcription with an obsolete jamo or a rewritten letter without transcription would show up for some unlucky word only.", "anchors": ["procedure.go:26-315", "internal/jamo/jamo.go", "specs/*.hsl"]}
{"id": "C68", "title": "Programs with the bundled specs are deterministic", "statement": "Go visits maps in random order. Two specs loaded for one bundled language differ at most in the order of the letters replaced by the normalize step, and for every word, translits and tracer both give the same word and the same events. So two runs of a program which uses the bundled specs return the same results call by call, and pass the same to its tracing functions.", "quantifier": "all bundled specs, all programs, all iteration orders, all byte strings", "why_tests_cant": "The iteration order of a map changes from run to run; with two macros or overlapping normalizations the results would differ once in a while (C17, C28).", "anchors": ["spec.go: ParseSpec", "pkg/hre/macro.go", "hangulize.go", "specs.go", "specs/*.hsl"]}
{"id": "C69", "title": "Texts survive the way between JavaScript and Go", "statement": "JavaScript strings are UTF-16 and Go strings are UTF-8. The text of a well-formed JavaScript string arrives in Go, each lone surrogate becomes a replacement character and nothing else changes, and what arrives is always valid UTF-8. The text of a valid Go string arrives in JavaScript, of a broken one all characters but the broken ones, and a text which goes to JavaScript and comes back is the same.", "quantifier": "all JavaScript strings, all byte strings", "why_tests_cant": "Surrogate pairs, lone surrogates, invalid bytes and byte order marks hardly occur in tests, and the tests of the module do not run in a browser.", "anchors": ["cmd/hangulize.wasm/hangulize.go:15-16,57", "cmd/hangulize.wasm/translit.go:35,46", "web/src/hangulize/wasm_exec.js:91-92,174-178,402-414"]}
{"id": "C70", "title": "The Promises of the JavaScript API are settled as Hangulize returns in Go", "statement": "A page registers translits, calls hangulize any number of times, and the Promises of its translits are settled in any order. Then each Promise of hangulize is settled at most once. It is pending only while it waits for a Promise of a translit which has not been settled. Otherwise it is resolved with the word which Hangulize returns in Go for the language and word with the translits registered before the call, or rejected if Hangulize fails, and the tracing function was given the events of Hangulize, as objects which tell the step, the word, the reason and the rule. Nothing a page does ends the module.", "quantifier": "all sequences of events on a page, all specs, all translits, all JavaScript values", "why_tests_cant": "Calls run as goroutines which wait for each other's translits; a test awaits one call at a time.", "anchors": ["cmd/hangulize.wasm/hangulize.go:14-62", "cmd/hangulize.wasm/translit.go:14-63", "cmd/hangulize.wasm/main.go:13-20"]}
{"id": "C71", "title": "hangulize.specs describes all bundled specs", "statement": "The module starts, and hangulize.specs has one entry for each listed language and no other one. The entry tells the id, the codes, the names, the script, the translits, the authors, the stage, the examples and the source of the spec of this language.", "quantifier": "all 40 bundled specs, all iteration orders of maps", "why_tests_cant": "The fields are copied by hand, and nothing in the repository checks all of them for all languages.", "anchors": ["cmd/hangulize.wasm/encode.go:15-64", "cmd/hangulize.wasm/main.go:16", "specs/*.hsl"]}
{"id": "C72", "title": "The translits of the web page are those of Go", "statement": "The web page runs each translit in a worker with its own WebAssembly module, chosen by the name of the scheme. For each standard scheme and each word the worker returns what the translit returns in Go. So with these workers hangulize gives on the page the same result and the same traces as Hangulize does in Go with the standard translits, for each listed language and each word. A worker answers for every scheme without ending its module.", "quantifier": "all bundled languages, all words, all sequences of events on a page", "why_tests_cant": "A scheme such as cyrillic[ru] is taken apart in TypeScript and put together in Go; a mismatch shows up only on the page, and for some languages only.", "anchors": ["cmd/cyrillic.translit.wasm/main.go:14-30", "cmd/furigana.translit.wasm/main.go:11-19", "cmd/pinyin.translit.wasm/main.go:11-19", "web/src/hangulize/translit.worker.ts:11-51", "web/src/hangulize/useHangulize.ts:73-87"]}
{"id": "C73", "title": "A spec has the authors its source names", "statement": "A spec names its authors in its section config, as the documentation of the package shows it and as all bundled specs do. Then Config.Authors are these names.", "quantifier": "all spec sources, all 40 bundled specs", "why_tests_cant": "Nobody tests the authors; a misspelt key gives an empty list and no error.", "anchors": ["spec.go:261-267", "doc.go:77-81", "specs/*.hsl"]}
{"id": "C74", "title": "manifest.json describes all bundled specs", "statement": "The command manifest.json ends without a panic and writes a JSON text. Read by JavaScript it has the version, an entry for each listed language and no other one, which tells the id, the codes, the names, the script, the translits, the authors, the stage and the examples of the spec of this language, and it has each translit of a bundled spec once. Two runs for one version write the same text.", "quantifier": "all 40 bundled specs, all versions, all iteration orders of maps", "why_tests_cant": "The fields are copied by hand, the error of LoadSpec is dropped and the result dereferenced, and the order of a map changes from run to run.", "anchors": ["cmd/manifest.json/main.go:10-91", "specs.go:14-52", "specs/*.hsl"]}
{"id": "C75", "title": "The commands hangulize, ls and dev serve the bundled specs", "statement": "hangulize LANG WORD... prints the result of each word which is not empty and exits with status 0 if LANG is listed, and with status 1 otherwise, verbose or not. ls prints a table with a row for each bundled spec, in the order of their names; ls HSL... prints a row for each file which is a spec, in the order of the arguments. No command panics. dev with the source of a bundled spec prints what hangulize prints for its language.", "quantifier": "all languages, words, input on stdin, files on disk, dictionaries of the translits and iteration orders of maps", "why_tests_cant": "ls drops the errors of LoadSpec and dereferences the result, widths are counted in runes for any text, and dev and hangulize build their Hangulizer in different places.", "anchors": ["cmd/hangulize/ls.go:16-61", "cmd/hangulize/main.go:30-101", "cmd/hangulize/dev.go:14-39"]}
{"id": "C76", "title": "The web page shows the result of the last input", "statement": "Whatever the user types and however the renderings, timers and answers of the worker are interleaved, the work which this causes comes to an end. Then the page is idle and shows the answer of the worker for the last input if it is valid, and nothing otherwise. No input which is superseded is sent to the worker while it is busy.", "quantifier": "all sequences of inputs, and all interleavings of renderings, effects, timers and answers", "why_tests_cant": "The outcome depends on the order of asynchronous events, of which a test in a browser sees a few.", "anchors": ["web/src/hangulize/useHangulize.ts:92-195"]}
{"id": "C77", "title": "The web page shows the result in the largest size in which it fits", "statement": "The box of the result searches for its font size with a binary search of which each step is a rendering. Whatever texts are shown and however often the window is resized meanwhile, the search ends after a number of renderings which depends on the number of sizes only. Then the size is the largest one in which the last text fits into the box, or the smallest one if none fits, and it stays so.", "quantifier": "all sequences of texts, resizings and renderings, all ways in which texts fit, all numbers of sizes but two (the page has five)", "why_tests_cant": "The bounds of the search live in refs which other events reset in the middle of a search, and whether a text fits depends on the browser.", "anchors": ["web/src/components/Result.tsx:8-74"]}
{"id": "C78", "title": "The address of the web page names the language and the word", "statement": "Whatever the user did before, after typing a word, selecting a language or following a link to an example the page shows this language and this word, nothing changes them but the user, and the page opened anew at its address shows the same. Other parameters of the address are kept. If the address names no language or no word, then random ones are added once.", "quantifier": "all addresses, all sequences of inputs, links, renderings and navigations, all texts of whole characters", "why_tests_cant": "The address is written by three components with different encodings, through a callback which holds the parameters of the first rendering.", "anchors": ["web/src/components/App.tsx:38-79", "web/src/components/Examples.tsx:24-40", "web/src/components/Prompt.tsx:14-38"]}
{"id": "C79", "title": "The web page shows what Hangulize returns in Go for the language and the word of its address", "statement": "Whatever happened before, the user types a word or selects a language. What happens then without the user comes to an end: renderings, effects, timers, answers of the worker. After that the page shows what Hangulize returns in Go for this language and this word with the standard translits, and does not look as if it was loading. For a blank word it shows nothing. No address makes the page empty.", "quantifier": "all addresses, all sequences of events, all listed languages, all words of whole characters", "why_tests_cant": "It takes the address, the hook, the worker, its module and the workers of the translits together, each of which is asynchronous.", "anchors": ["web/src/components/App.tsx:14-108", "web/src/hangulize/useHangulize.ts:34-52,92-195", "web/src/hangulize/hangulize.worker.ts:34-53"]}
{"id": "C80", "title": "Capital letters make no difference", "statement": "Normalization eliminates letter case: in every bundled language, a word in which any letters of the script are replaced by the small letters which unicode.ToLower gives for them has the same result, whatever stands around them.", "quantifier": "all bundled specs, all orders of iteration over maps, all letters of their scripts, all words", "why_tests_cant": "There are more than a thousand capital letters, and the pairs of the spec, the letters exempt from normalization, the case of the script and its decomposition work against each other.", "anchors": ["procedure.go:73-101", "spec.go:118-122,164-185", "internal/scripts/latn.go:18-29"]}
{"id": "C81", "title": "Words are hangulized one by one", "statement": "The result for words with spaces between them is the results for the words with spaces between them: a word is hangulized alike wherever it stands, and no word has an influence on another one.", "quantifier": "all bundled specs, all orders of iteration over maps, all numbers of words, all words without white space, anything after them", "why_tests_cant": "Each of some thousand rules can look past the ends of a word, by itself or by its assertions, and can find text left by an earlier rule; tests try words one by one.", "anchors": ["pkg/hre/pattern.go:144-264", "procedure.go:103-254", "specs/*.hsl"]}
{"id": "C82", "title": "Text of other scripts stays as it is", "statement": "Characters which have no meaning for a language stay in the result as they are, in their order, and what is before and after them is hangulized as if it was alone. So Hangul stays as it is, and hangulizing a result again changes nothing but white space.", "quantifier": "all bundled specs, all orders of iteration over maps, all texts of characters which are no letters of the script, no known punctuation and not normalized, any text before and after them", "why_tests_cant": "Rewriting rules are applied to all pieces of a text, and each of some thousand rules may find something in them, by itself or in what an earlier rule left.", "anchors": ["procedure.go:103-315", "pkg/hre/pattern.go:144-264", "specs/*.hsl"]}
{"id": "C83", "title": "The kind of white space makes no difference", "statement": "Texts which differ only in the kind of white space at some places have the same result. So words are hangulized one by one, whichever white space is between them.", "quantifier": "all bundled specs, all orders of iteration over maps, all pairs of texts which differ only in the kind of white space", "why_tests_cant": "Each of some thousand rules may match one kind of white space and not the other, in its pattern, in its assertions or by the edges of words; tests use single spaces.", "anchors": ["pkg/hre/pattern.go:144-264", "pkg/hre/assertions.go:201-219", "procedure.go:103-315", "space.go:1-26", "specs/*.hsl"]}
{"id": "C84", "title": "The page offers examples of its language, and they work", "statement": "Whatever happened before, the page comes to show up to five different examples of its language, in a few renderings. They stay the same until the user asks for others or the language changes. The link to an example leads to a page with the language and the word of this example, now and when it is opened anew, and then the page shows what Hangulize returns in Go for it. A page opened without a word goes to an example of its language.", "quantifier": "all addresses, all sequences of events, all random choices, all examples of the bundled specs, all orders of iteration over maps", "why_tests_cant": "The examples are chosen at random by an effect which compares the language with a ref, and the links are put together without encoding; which of some thousand examples are safe in a link depends on their characters.", "anchors": ["web/src/components/Examples.tsx:13-45", "web/src/components/App.tsx:38-62", "specs/*.hsl"]}
{"id": "C85", "title": "Every bundled language can be selected on the page", "statement": "The list of languages has each bundled language exactly once, with its Korean name and its flag, in the order of the names, however the specs are ordered. Selecting a language keeps the word and typing a word keeps the language, whatever happened before.", "quantifier": "all orders of the specs, all addresses, all sequences of events, all words of whole characters", "why_tests_cant": "The specs come in the order of a map, the flags in a file of their own, and the input and the list write the same two parameters.", "anchors": ["web/src/components/SelectLanguage.tsx:43-112", "web/src/components/Prompt.tsx:14-38", "web/src/components/flags.json:1-42"]}
{"id": "C86", "title": "Chinese text is hangulized character by character", "statement": "A Chinese character has the same result wherever it stands: the result for a text is the results for its characters, one after the other, without anything between them. Text without entry in the dictionary, such as Latin letters and punctuation, is hangulized as if it was alone, and white space becomes a space.", "quantifier": "all dictionaries, all orders of iteration over maps, all texts in NFC", "why_tests_cant": "The syllables are joined by zero width spaces, which keep the rules from looking at the next syllable and vanish at the end; a test sees some pairs of characters.", "anchors": ["translit/pinyin/pinyin.go:28-57", "procedure.go:54-76,110-300", "specs/chi.hsl:1-319"]}
{"id": "C87", "title": "Composed and decomposed letters have the same result", "statement": "Texts which are canonically equivalent, such as a letter with an accent and the same letter followed by a combining accent, have the same result.", "quantifier": "all bundled specs, all orders of iteration over maps, all letters and combining accents, any text before and after them", "why_tests_cant": "Tests have composed letters only. Some translits normalize to NFC and others do not, and what becomes of an accent depends on all normalizations and rules of the language.", "anchors": ["procedure.go:54-130,260-315", "internal/scripts/latn.go:14-34", "internal/scripts/cyrl.go:10-18", "translit/furigana/furigana.go:39-52", "translit/pinyin/pinyin.go:28-57"]}
{"id": "C88", "title": "Hiragana and katakana make no difference", "statement": "In Japanese, texts which differ only in whether kana are written as hiragana or as katakana have the same result.", "quantifier": "the bundled specs with kana, all orders of iteration over maps, all tokenizers, all texts, any kana written as hiragana or katakana", "why_tests_cant": "Tests have one spelling of each word. The kana pass through iteration marks, long vowels, the normalization of the script and all rules, each with its own table.", "anchors": ["internal/scripts/hrkt.go:10-30", "procedure.go:103-315", "translit/furigana/furigana.go:39-52", "translit/furigana/longvowel.go:8-52", "translit/furigana/repeat.go:6-114", "specs/jpn.hsl", "specs/jpn-ck.hsl"]}
{"id": "C89", "title": "Results are at most proportional to words", "statement": "For each bundled language there is a factor by which the result of any word is at most larger than the word, and so are the words of the traces, of which there are at most as many as steps and rules.", "quantifier": "all bundled specs, all orders of iteration over maps, all words, all libraries which are proportional themselves", "why_tests_cant": "Each of hundreds of rules may make a text longer than what it replaces; that none is applied to its own output, and no match is empty, cannot be seen on samples.", "anchors": ["procedure.go:54-315", "pkg/hre/pattern.go:162-265", "pkg/hre/rpattern.go:99-136", "rule.go:30-47", "translit/furigana/typewriter.go:38-204", "translit/pinyin/pinyin.go:28-57"]}
{"id": "C90", "title": "Typing the name of a language finds it", "statement": "While the Korean name of a language, or the initial consonants of its syllables, are typed into the list of languages, the list has the language after each key, whatever syllables the input method has composed so far. Codes and English names are found in capital and small letters.", "quantifier": "all specs, all names of syllables and other text, all keys typed so far, input methods which join consonants and those which do not, all orders of renderings and effects", "why_tests_cant": "A syllable changes while it is typed, and its last consonant moves to the next one; tests type whole names.", "anchors": ["web/src/components/SelectLanguage.tsx:43-113"]}
{"id": "C91", "title": "The workers of the page start in order", "statement": "Whenever the modules are loaded, no word is hangulized before all translits of the manifest are registered; all calls of the page are handled once, in their order; each worker for translits loads the module of its name before it transliterates, gets only words for this module, and no call throws an Error because of the order.", "quantifier": "all lists of methods which have a module, all interleavings of calls of the page and of the worker, messages and loading of modules", "why_tests_cant": "The order in which modules are loaded depends on the network; tests have everything at hand.", "anchors": ["web/src/hangulize/useHangulize.ts:64-90", "web/src/hangulize/hangulize.worker.ts:25-55", "web/src/hangulize/translit.worker.ts:11-53", "web/src/hangulize/runWebAssembly.ts:3-24"]}
{"id": "C92", "title": "Goroutines may share the library", "statement": "Goroutines may call LoadSpec, Hangulize, hangulizers of their own and Install at the same time: they never access a variable of the library in a conflicting way, and each call returns what it would return in a program with one goroutine.", "quantifier": "all numbers of goroutines, all programs of them, all interleavings of their accesses", "why_tests_cant": "Whether two accesses collide depends on the schedule.", "anchors": ["hangulize.go:9-17", "specs.go:38-73", "translit.go:15-64", "translit/translit.go:18-40", "translit/furigana/furigana.go:18-37"]}
{"id": "C93", "title": "Patterns mean what their regular expressions mean", "statement": "Any expression of characters, classes, vars, groups, bars and repetitions, with edges and lookarounds around it, is a pattern, and it finds exactly the texts the expression stands for.", "quantifier": "all expression trees, all vars and macros, all words", "why_tests_cant": "Patterns are put together from text by five passes which know nothing of the syntax of regular expressions; tests have some fifty patterns.", "anchors": ["pkg/hre/hre.go:5-20", "pkg/hre/pattern.go:61-265", "pkg/hre/assertions.go:66-210", "pkg/hre/var.go:15-36", "pkg/hre/util.go:47-49"]}
{"id": "C94", "title": "Of several texts a pattern takes the one its expression prefers", "statement": "Where an expression could stand for several texts, the pattern takes the one with the earlier alternative, the earlier value of a var, and as many repetitions as possible, or as few for the lazy ones; choices further left come first. Thus what a pattern finds is determined.", "quantifier": "all expression trees, all vars and macros, all words", "why_tests_cant": "Texts of specs are chosen so that rules match in one way; where they overlap is known for the words of the tests only.", "anchors": ["pkg/hre/pattern.go:61-265", "pkg/hre/assertions.go:66-210", "pkg/hre/var.go:15-36", "pkg/hre/util.go:47-49"]}
{"id": "C95", "title": "The groups of a match hold the places of the parts of its text", "statement": "Beside each text `Find` reports the places of the groups of the expression: of `(a)` and `<v>`, in the order in which they begin. A group holds where its part last stood within the text, and -1 if its part was not used. Groups in lookarounds are not reported.", "quantifier": "all expression trees, all vars and macros, all words", "why_tests_cant": "The groups say which value of a var a rule maps; the tests look at the results of rules with one or two vars in a row.", "anchors": ["pkg/hre/pattern.go:61-265", "pkg/hre/assertions.go:66-210", "pkg/hre/var.go:15-36", "pkg/hre/util.go:47-49"]}
