{
 "claims": [
  {
   "property": "C01",
   "status": "proved",
   "theorems": [
    "Verif.Props.C01_compose_spelling"
   ],
   "note": ""
  },
  {
   "property": "C02",
   "status": "proved",
   "theorems": [
    "Verif.Props.C02_compose_composed",
    "Verif.Props.C02_hyphen_dropped"
   ],
   "note": ""
  },
  {
   "property": "C03",
   "status": "proved",
   "theorems": [
    "Verif.Props.C03_compose_no_jamo",
    "Verif.Props.C03_compose_idempotent"
   ],
   "note": ""
  },
  {
   "property": "C04",
   "status": "proved",
   "theorems": [
    "Verif.Props.C04_compose_local",
    "Verif.Props.C04_compose_local_syllable"
   ],
   "note": ""
  },
  {
   "property": "C05",
   "status": "proved",
   "theorems": [
    "Verif.Props.C05_compose_blocks",
    "Verif.Props.C05_compose_count"
   ],
   "note": ""
  },
  {
   "property": "C06",
   "status": "proved",
   "theorems": [
    "Verif.Props.C06_replacer_session",
    "Verif.Props.C06_replacer_splice",
    "Verif.Props.C06_proper_is_edits",
    "Verif.Props.C06_replacer_panics"
   ],
   "note": ""
  },
  {
   "property": "C07",
   "status": "proved",
   "theorems": [
    "Verif.Props.C07_subwords_chunks",
    "Verif.Props.C07_subwords_partition"
   ],
   "note": ""
  },
  {
   "property": "C08",
   "status": "proved",
   "theorems": [
    "Verif.Props.C08_builder_merge",
    "Verif.Props.C08_builder_text",
    "Verif.Props.C08_builder_idempotent"
   ],
   "note": ""
  },
  {
   "property": "C09",
   "status": "partial",
   "theorems": [
    "Verif.Props.C09_matches_partial",
    "Verif.Props.C09_matches_count",
    "Verif.Props.C09_patterns_readable",
    "Verif.Props.C09_matches_refuted"
   ],
   "note": "Proved for patterns whose lookarounds and core are regular expressions on their own; false otherwise."
  },
  {
   "property": "C10",
   "status": "partial",
   "theorems": [
    "Verif.Props.C10_find_terminates_partial",
    "Verif.Props.C10_find_terminates_refuted"
   ],
   "note": "Proved for the patterns of C09; false otherwise."
  },
  {
   "property": "C11",
   "status": "partial",
   "theorems": [
    "Verif.Props.C11_lookahead_partial",
    "Verif.Props.C11_lookbehind_partial",
    "Verif.Props.C11_window_partial",
    "Verif.Props.C11_ahead_partial",
    "Verif.Props.C11_behind_partial",
    "Verif.Props.C11_bundled_partial",
    "Verif.Props.C11_bundled_refuted",
    "Verif.Props.C11_wide_refuted",
    "Verif.Props.C11_begin_refuted",
    "Verif.Props.C11_bar_refuted"
   ],
   "note": "Proved for ASCII words and for unlimited lookarounds, for a lookbehind if it fits before the match; false otherwise. In all words proved for the window which is searched, for ASCII texts, and for the rules of all bundled specs except for the letter ü in four patterns of Catalan."
  },
  {
   "property": "C12",
   "status": "partial",
   "theorems": [
    "Verif.Props.C12_width_partial",
    "Verif.Props.C12_width_refuted"
   ],
   "note": "Proved unless an unlimited expression is repeated a limited number of times; false then."
  },
  {
   "property": "C13",
   "status": "proved",
   "theorems": [
    "Verif.Props.C13_unlimited"
   ],
   "note": ""
  },
  {
   "property": "C14",
   "status": "partial",
   "theorems": [
    "Verif.Props.C14_replace_agree_partial",
    "Verif.Props.C14_replace_splice_partial",
    "Verif.Props.C14_pattern_replace_partial",
    "Verif.Props.C14_replace_refuted"
   ],
   "note": "Proved for the patterns of C09; false otherwise."
  },
  {
   "property": "C15",
   "status": "partial",
   "theorems": [
    "Verif.Props.C15_interpolate_partial",
    "Verif.Props.C15_replace_partial",
    "Verif.Props.C15_interpolate_refuted"
   ],
   "note": "Proved when the vars have captured values of theirs and the vars of the replacement have values; otherwise it panics."
  },
  {
   "property": "C16",
   "status": "partial",
   "theorems": [
    "Verif.Props.C16_anchored_partial",
    "Verif.Props.C16_anchored_refuted",
    "Verif.Props.C16_bar_refuted"
   ],
   "note": "False; what holds is that the matches follow one another from the start of the word."
  },
  {
   "property": "C17",
   "status": "partial",
   "theorems": [
    "Verif.Props.C17_macros_partial",
    "Verif.Props.C17_macros_refuted"
   ],
   "note": "Proved for macros none of which is a prefix of another one; false otherwise."
  },
  {
   "property": "C18",
   "status": "partial",
   "theorems": [
    "Verif.Props.C18_var_partial",
    "Verif.Props.C18_items_partial",
    "Verif.Props.C18_values_refuted"
   ],
   "note": "Proved for words and values that are valid UTF-8, values not empty and without ^, $ and {; false otherwise."
  },
  {
   "property": "C19",
   "status": "partial",
   "theorems": [
    "Verif.Props.C19_terminates_partial",
    "Verif.Props.C19_lexer_hangs",
    "Verif.Props.C19_open_quote",
    "Verif.Props.C19_terminates_refuted"
   ],
   "note": "Proved for sources with closed quotes, exactly those on which the lexer returns; false otherwise."
  },
  {
   "property": "C20",
   "status": "partial",
   "theorems": [
    "Verif.Props.C20_no_panic_partial",
    "Verif.Props.C20_malformed",
    "Verif.Props.C20_no_panic_refuted"
   ],
   "note": "False: stray dashes and repeated keys panic. Proved: nothing else does, and which sources are rejected."
  },
  {
   "property": "C21",
   "status": "proved",
   "theorems": [
    "Verif.Props.C21_roundtrip"
   ],
   "note": ""
  },
  {
   "property": "C22",
   "status": "partial",
   "theorems": [
    "Verif.Props.C22_comments_partial",
    "Verif.Props.C22_comments_refuted",
    "Verif.Props.C22_documentation_refuted"
   ],
   "note": "Proved for comments on their own line; false for comments at the end of a pair."
  },
  {
   "property": "C23",
   "status": "proved",
   "theorems": [
    "Verif.Props.C23_sections",
    "Verif.Props.C23_accessors",
    "Verif.Props.C23_missing"
   ],
   "note": ""
  },
  {
   "property": "C24",
   "status": "proved",
   "theorems": [
    "Verif.Props.C24_lines"
   ],
   "note": ""
  },
  {
   "property": "C25",
   "status": "proved",
   "theorems": [
    "Verif.Props.C25_quoted",
    "Verif.Props.C25_no_backslash"
   ],
   "note": ""
  },
  {
   "property": "C26",
   "status": "proved",
   "theorems": [
    "Verif.Props.C26_spec_reflects_source",
    "Verif.Props.C26_settings",
    "Verif.Props.C26_compiled",
    "Verif.Props.C26_codes",
    "Verif.Props.C26_script"
   ],
   "note": ""
  },
  {
   "property": "C27",
   "status": "partial",
   "theorems": [
    "Verif.Props.C27_letters_partial",
    "Verif.Props.C27_letters_refuted"
   ],
   "note": "Proved for the first letter of each target; false for the others."
  },
  {
   "property": "C28",
   "status": "partial",
   "theorems": [
    "Verif.Props.C28_order_partial",
    "Verif.Props.C28_order_refuted"
   ],
   "note": "Proved for sections none of whose source letters is a prefix of another one; false otherwise."
  },
  {
   "property": "C29",
   "status": "partial",
   "theorems": [
    "Verif.Props.C29_puncts_partial",
    "Verif.Props.C29_class_refuted"
   ],
   "note": "Proved with \"mentions\" read as the result of Letters, which leaves out operators even inside classes."
  },
  {
   "property": "C30",
   "status": "proved",
   "theorems": [
    "Verif.Props.C30_trace_invisible"
   ],
   "note": ""
  },
  {
   "property": "C31",
   "status": "proved",
   "theorems": [
    "Verif.Props.C31_trace_log"
   ],
   "note": ""
  },
  {
   "property": "C32",
   "status": "proved",
   "theorems": [
    "Verif.Props.C32_pass_through"
   ],
   "note": ""
  },
  {
   "property": "C33",
   "status": "proved",
   "theorems": [
    "Verif.Props.C33_transcribed_once",
    "Verif.Props.C33_lockstep"
   ],
   "note": ""
  },
  {
   "property": "C34",
   "status": "proved",
   "theorems": [
    "Verif.Props.C34_no_panic"
   ],
   "note": ""
  },
  {
   "property": "C35",
   "status": "proved",
   "theorems": [
    "Verif.Props.C35_levels",
    "Verif.Props.C35_left_overs"
   ],
   "note": ""
  },
  {
   "property": "C36",
   "status": "proved",
   "theorems": [
    "Verif.Props.C36_other_scripts",
    "Verif.Props.C36_kana",
    "Verif.Props.C36_idempotent"
   ],
   "note": ""
  },
  {
   "property": "C37",
   "status": "partial",
   "theorems": [
    "Verif.Props.C37_spaces_partial",
    "Verif.Props.C37_spaces_refuted"
   ],
   "note": "Proved for words without zero-width spaces; false with them."
  },
  {
   "property": "C38",
   "status": "proved",
   "theorems": [
    "Verif.Props.C38_unknown_language",
    "Verif.Props.C38_translits"
   ],
   "note": ""
  },
  {
   "property": "C39",
   "status": "proved",
   "theorems": [
    "Verif.Props.C39_valid_output"
   ],
   "note": ""
  },
  {
   "property": "C40",
   "status": "proved",
   "theorems": [
    "Verif.Props.C40_empty"
   ],
   "note": ""
  },
  {
   "property": "C41",
   "status": "proved",
   "theorems": [
    "Verif.Props.C41_registry",
    "Verif.Props.C41_independent"
   ],
   "note": ""
  },
  {
   "property": "C42",
   "status": "proved",
   "theorems": [
    "Verif.Props.C42_install"
   ],
   "note": ""
  },
  {
   "property": "C43",
   "status": "proved",
   "theorems": [
    "Verif.Props.C43_cache"
   ],
   "note": ""
  },
  {
   "property": "C44",
   "status": "partial",
   "theorems": [
    "Verif.Props.C44_race_partial",
    "Verif.Props.C44_results_partial",
    "Verif.Props.C44_race_refuted"
   ],
   "note": "False: the cache is not locked. Proved for specs that are already cached."
  },
  {
   "property": "C45",
   "status": "proved",
   "theorems": [
    "Verif.Props.C45_instances",
    "Verif.Props.C45_package",
    "Verif.Props.C45_untraced",
    "Verif.Props.C45_traced",
    "Verif.Props.C45_kept"
   ],
   "note": ""
  },
  {
   "property": "C46",
   "status": "proved",
   "theorems": [
    "Verif.Props.C46_iteration_marks",
    "Verif.Props.C46_others"
   ],
   "note": ""
  },
  {
   "property": "C47",
   "status": "proved",
   "theorems": [
    "Verif.Props.C47_tables",
    "Verif.Props.C47_voicing"
   ],
   "note": ""
  },
  {
   "property": "C48",
   "status": "proved",
   "theorems": [
    "Verif.Props.C48_long_vowels"
   ],
   "note": ""
  },
  {
   "property": "C49",
   "status": "partial",
   "theorems": [
    "Verif.Props.C49_typewriter",
    "Verif.Props.C49_typewriter_partial",
    "Verif.Props.C49_second_call",
    "Verif.Props.C49_silence_refuted"
   ],
   "note": "Proved when every token has a pronunciation; false otherwise, since the first silent morpheme ends the text."
  },
  {
   "property": "C50",
   "status": "proved",
   "theorems": [
    "Verif.Props.C50_pinyin",
    "Verif.Props.C50_nothing_lost"
   ],
   "note": "The normalization into NFC before is not modelled."
  },
  {
   "property": "C51",
   "status": "partial",
   "theorems": [
    "Verif.Props.C51_cyrillic_partial",
    "Verif.Props.C51_unambiguous_perm",
    "Verif.Props.C51_order_refuted"
   ],
   "note": "False for all four countries. Proved for words at no place of which two keys match."
  },
  {
   "property": "C52",
   "status": "partial",
   "theorems": [
    "Verif.Props.C52_hrkt",
    "Verif.Props.C52_letters",
    "Verif.Props.C52_changed",
    "Verif.Props.C52_latn_partial",
    "Verif.Props.C52_latn_basic",
    "Verif.Props.C52_marks_refuted",
    "Verif.Props.C52_latn_refuted"
   ],
   "note": "False for marks in the block of hiragana and for nine Latin letters; proved for all others."
  },
  {
   "property": "C53",
   "status": "proved",
   "theorems": [
    "Verif.Props.C53_format",
    "Verif.Props.C53_steps"
   ],
   "note": ""
  },
  {
   "property": "C54",
   "status": "partial",
   "theorems": [
    "Verif.Props.C54_schedules",
    "Verif.Props.C54_terminates",
    "Verif.Props.C54_args",
    "Verif.Props.C54_error",
    "Verif.Props.C54_stdin_partial",
    "Verif.Props.C54_trim",
    "Verif.Props.C54_stdin_refuted"
   ],
   "note": "Proved for arguments. With the standard input a blank line ends the command and a last line without a newline is not read; proved for lines which are not blank."
  },
  {
   "property": "C55",
   "status": "proved",
   "theorems": [
    "Verif.Props.C55_exit",
    "Verif.Props.C55_covered",
    "Verif.Props.C55_coverage",
    "Verif.Props.C55_returns"
   ],
   "note": "The status is also 1 if a file cannot be opened or parsed or the profile cannot be written."
  },
  {
   "property": "C56",
   "status": "proved",
   "theorems": [
    "Verif.Props.C56_substr"
   ],
   "note": ""
  },
  {
   "property": "C57",
   "status": "partial",
   "theorems": [
    "Verif.Props.C57_profile_partial",
    "Verif.Props.C57_profile_refuted"
   ],
   "note": "Writing the profile panics for a file without a rewrite or a transcribe section; proved for files with both sections and lines of less than 64 KiB."
  },
  {
   "property": "C58",
   "status": "partial",
   "theorems": [
    "Verif.Props.C58_leftmost_partial",
    "Verif.Props.C58_edges_partial",
    "Verif.Props.C58_forward_partial",
    "Verif.Props.C58_limited",
    "Verif.Props.C58_laid_partial",
    "Verif.Props.C58_bundled_partial",
    "Verif.Props.C58_edges_refuted"
   ],
   "note": "Proved in all words for patterns without a top-level bar whose parts are expressions on their own, if the end of each occurrence is taken for the beginning of a text; false for left edges in the whole word. The rules of all bundled specs are such patterns, or have a bar and are covered as well."
  },
  {
   "property": "C59",
   "status": "proved",
   "theorems": [
    "Verif.Props.C59_reference",
    "Verif.Props.C59_functional"
   ],
   "note": "The matches of a single rule and the composition of a run of jamo are those of the other properties."
  },
  {
   "property": "C60",
   "status": "proved",
   "theorems": [
    "Verif.Props.C60_trace"
   ],
   "note": ""
  },
  {
   "property": "C61",
   "status": "proved",
   "theorems": [
    "Verif.Props.C61_alphabets",
    "Verif.Props.C61_names",
    "Verif.Props.C61_disjoint"
   ],
   "note": ""
  },
  {
   "property": "C62",
   "status": "proved",
   "theorems": [
    "Verif.Props.C62_capitals",
    "Verif.Props.C62_small",
    "Verif.Props.C62_idempotent",
    "Verif.Props.C62_latn",
    "Verif.Props.C62_stays"
   ],
   "note": ""
  },
  {
   "property": "C63",
   "status": "proved",
   "theorems": [
    "Verif.Props.C63_idempotent",
    "Verif.Props.C63_cyrillic",
    "Verif.Props.C63_letters",
    "Verif.Props.C63_standard",
    "Verif.Props.C63_alphabet",
    "Verif.Props.C63_case"
   ],
   "note": "Whether longer keys come first is left to the iteration order of the map, see C51."
  },
  {
   "property": "C64",
   "status": "proved",
   "theorems": [
    "Verif.Props.C64_find",
    "Verif.Props.C64_replace",
    "Verif.Props.C64_runs",
    "Verif.Props.C64_once"
   ],
   "note": ""
  },
  {
   "property": "C65",
   "status": "proved",
   "theorems": [
    "Verif.Props.C65_list",
    "Verif.Props.C65_listed",
    "Verif.Props.C65_loads"
   ],
   "note": "The text of the specs is part of the model, copied by tools/gen_specs.py."
  },
  {
   "property": "C66",
   "status": "proved",
   "theorems": [
    "Verif.Props.C66_programs",
    "Verif.Props.C66_goroutines",
    "Verif.Props.C66_standard_translits",
    "Verif.Props.C66_succeeds",
    "Verif.Props.C66_instances"
   ],
   "note": "NFC, the dictionary of go-pinyin and the tokenizer are given; tokens are assumed to have nine features."
  },
  {
   "property": "C67",
   "status": "proved",
   "theorems": [
    "Verif.Props.C67_alphabet",
    "Verif.Props.C67_no_letters",
    "Verif.Props.C67_hangul",
    "Verif.Props.C67_programs"
   ],
   "note": ""
  },
  {
   "property": "C68",
   "status": "proved",
   "theorems": [
    "Verif.Props.C68_specs",
    "Verif.Props.C68_programs"
   ],
   "note": "The translits are given; the orders inside of the Cyrillic translits are those of C51."
  },
  {
   "property": "C69",
   "status": "partial",
   "theorems": [
    "Verif.Props.C69_to_go",
    "Verif.Props.C69_lone",
    "Verif.Props.C69_valid",
    "Verif.Props.C69_to_js_partial",
    "Verif.Props.C69_back_partial",
    "Verif.Props.C69_bom",
    "Verif.Props.C69_broken",
    "Verif.Props.C69_back_refuted"
   ],
   "note": "A byte order mark at the start of a text is lost on the way to JavaScript."
  },
  {
   "property": "C70",
   "status": "partial",
   "theorems": [
    "Verif.Props.C70_results",
    "Verif.Props.C70_once",
    "Verif.Props.C70_traces",
    "Verif.Props.C70_no_crash_partial",
    "Verif.Props.C70_no_crash_refuted",
    "Verif.Props.C70_tracer_refuted"
   ],
   "note": "The module panics for missing arguments, for a tracing function which is no function, and for a translit which rejects its Promise with a string."
  },
  {
   "property": "C71",
   "status": "proved",
   "theorems": [
    "Verif.Props.C71_specs"
   ],
   "note": "The authors are those of Config.Authors, see C73."
  },
  {
   "property": "C72",
   "status": "partial",
   "theorems": [
    "Verif.Props.C72_workers",
    "Verif.Props.C72_page_partial",
    "Verif.Props.C72_resolved_partial",
    "Verif.Props.C72_unknown_refuted"
   ],
   "note": "For texts without a byte order mark at the start. The module for Cyrillic panics for a country it does not know."
  },
  {
   "property": "C73",
   "status": "partial",
   "theorems": [
    "Verif.Props.C73_authors_partial",
    "Verif.Props.C73_authors_refuted"
   ],
   "note": "The code reads the key authors, but the documentation and all bundled specs write author."
  },
  {
   "property": "C74",
   "status": "partial",
   "theorems": [
    "Verif.Props.C74_manifest",
    "Verif.Props.C74_reproducible_partial",
    "Verif.Props.C74_reproducible_refuted"
   ],
   "note": "The translits come in the order of an iteration over a map, so that two builds differ; proved for one order."
  },
  {
   "property": "C75",
   "status": "partial",
   "theorems": [
    "Verif.Props.C75_hangulize",
    "Verif.Props.C75_unsupported",
    "Verif.Props.C75_ls",
    "Verif.Props.C75_ls_files",
    "Verif.Props.C75_dev_partial",
    "Verif.Props.C75_dev_refuted"
   ],
   "note": "dev imports no translits, so that it fails at the first word for a spec which has some; proved for the others."
  },
  {
   "property": "C76",
   "status": "partial",
   "theorems": [
    "Verif.Props.C76_terminates",
    "Verif.Props.C76_settles",
    "Verif.Props.C76_settled",
    "Verif.Props.C76_cleared_partial",
    "Verif.Props.C76_cleared_quiet_partial",
    "Verif.Props.C76_cleared_refuted",
    "Verif.Props.C76_jobs_refuted"
   ],
   "note": "Full for valid inputs. If the input is cleared while the worker is busy, its answer is shown all the same; calls which wait for one job all start their own job after it."
  },
  {
   "property": "C77",
   "status": "proved",
   "theorems": [
    "Verif.Props.C77_settled",
    "Verif.Props.C77_stays"
   ],
   "note": "For any number of sizes but two; the page has five."
  },
  {
   "property": "C78",
   "status": "partial",
   "theorems": [
    "Verif.Props.C78_change_partial",
    "Verif.Props.C78_effect_partial",
    "Verif.Props.C78_example_partial",
    "Verif.Props.C78_example_refuted",
    "Verif.Props.C78_empty_refuted"
   ],
   "note": "Links do not encode the word, so that a word with &, #, + or % is shown as another one; an address with an empty language gives a random one in each rendering."
  },
  {
   "property": "C79",
   "status": "partial",
   "theorems": [
    "Verif.Props.C79_settled",
    "Verif.Props.C79_settles",
    "Verif.Props.C79_terminates",
    "Verif.Props.C79_typed_partial",
    "Verif.Props.C79_unknown_refuted",
    "Verif.Props.C79_inherited_refuted"
   ],
   "note": "A word which is hangulized to nothing looks as if it was loading forever, an unknown language empties the page, and the properties of all objects are taken for languages; for texts without a byte order mark."
  },
  {
   "property": "C80",
   "status": "partial",
   "theorems": [
    "Verif.Props.C80_exact",
    "Verif.Props.C80_after",
    "Verif.Props.C80_letter_partial",
    "Verif.Props.C80_word_partial",
    "Verif.Props.C80_cyrillic",
    "Verif.Props.C80_kana",
    "Verif.Props.C80_pinyin",
    "Verif.Props.C80_standard",
    "Verif.Props.C80_refuted"
   ],
   "note": "Some letters listed per language are told apart, among them C in Serbo-Croatian; for Chinese, text in NFC and a dictionary without Latin letters."
  },
  {
   "property": "C81",
   "status": "partial",
   "theorems": [
    "Verif.Props.C81_two",
    "Verif.Props.C81_spaceless",
    "Verif.Props.C81_words",
    "Verif.Props.C81_fields",
    "Verif.Props.C81_plain",
    "Verif.Props.C81_text",
    "Verif.Props.C81_cyrillic",
    "Verif.Props.C81_vanishing",
    "Verif.Props.C81_refuted"
   ],
   "note": "Welsh (two specs) and Dutch have rules for several words; around a word with an empty result there is one space only, but the words of the result are always the nonempty results for the words; not for Japanese, unless its translit is known to go word by word; for Chinese see C86."
  },
  {
   "property": "C82",
   "status": "partial",
   "theorems": [
    "Verif.Props.C82_anywhere",
    "Verif.Props.C82_around",
    "Verif.Props.C82_between",
    "Verif.Props.C82_unsigned",
    "Verif.Props.C82_cyrillic",
    "Verif.Props.C82_plain",
    "Verif.Props.C82_again",
    "Verif.Props.C82_idempotent",
    "Verif.Props.C82_hangul",
    "Verif.Props.C82_twice",
    "Verif.Props.C82_refuted"
   ],
   "note": "Some signs listed per language are worked on by rewriting rules, for instance ~ in Portuguese; not for Japanese; in languages with such signs, the text before ends and the text after begins with a letter of the script or white space, or else the strange text next to the piece has no signs."
  },
  {
   "property": "C83",
   "status": "partial",
   "theorems": [
    "Verif.Props.C83_kinds",
    "Verif.Props.C83_cyrillic",
    "Verif.Props.C83_after",
    "Verif.Props.C83_text",
    "Verif.Props.C83_refuted",
    "Verif.Props.C83_spanning"
   ],
   "note": "For tab, line feed, form feed, carriage return and space; words do not begin after other white space such as no-break spaces; not for Welsh and Dutch; for Japanese if the transliterations differ in white space only; for Chinese see C86."
  },
  {
   "property": "C84",
   "status": "partial",
   "theorems": [
    "Verif.Props.C84_examples",
    "Verif.Props.C84_settles",
    "Verif.Props.C84_steady",
    "Verif.Props.C84_follow",
    "Verif.Props.C84_shown_partial",
    "Verif.Props.C84_filled"
   ],
   "note": "As in C79, an example which is hangulized to nothing looks as if it was loading forever (that the bundled ones are not is not proved); for translits without a byte order mark in their results."
  },
  {
   "property": "C85",
   "status": "proved",
   "theorems": [
    "Verif.Props.C85_choices",
    "Verif.Props.C85_selected",
    "Verif.Props.C85_typed"
   ],
   "note": "The search in the list is not modelled."
  },
  {
   "property": "C86",
   "status": "proved",
   "theorems": [
    "Verif.Props.C86_two",
    "Verif.Props.C86_pieces",
    "Verif.Props.C86_characters",
    "Verif.Props.C86_words"
   ],
   "note": "For text of which all parts are in NFC, as they are if the text is; normalization to NFC is not modelled."
  },
  {
   "property": "C87",
   "status": "partial",
   "theorems": [
    "Verif.Props.C87_accent",
    "Verif.Props.C87_refuted",
    "Verif.Props.C87_cyrillic",
    "Verif.Props.C87_greek_refuted",
    "Verif.Props.C87_cyrillic_refuted",
    "Verif.Props.C87_composed"
   ],
   "note": "False in the languages without translit but Greek and Belarusian: a combining accent stays in the result. True in Chinese and Japanese. In Cyrillic accents are letters which are never in a result. False in Greek and Russian, shown for some lines of their specs."
  },
  {
   "property": "C88",
   "status": "partial",
   "theorems": [
    "Verif.Props.C88_exact",
    "Verif.Props.C88_after",
    "Verif.Props.C88_word_partial",
    "Verif.Props.C88_unknown_refuted",
    "Verif.Props.C88_iteration_refuted"
   ],
   "note": "For what comes after the transliteration; the digraph yori passes for koto. False before: in words unknown to the tokenizer long vowels are merged in katakana only, and an iteration mark after wa is resolved differently."
  },
  {
   "property": "C89",
   "status": "proved",
   "theorems": [
    "Verif.Props.C89_spec",
    "Verif.Props.C89_linear",
    "Verif.Props.C89_trace",
    "Verif.Props.C89_cyrillic",
    "Verif.Props.C89_pinyin",
    "Verif.Props.C89_furigana",
    "Verif.Props.C89_standard"
   ],
   "note": "The normalization to NFC, the tokenizer and the dictionary are assumed to be proportional."
  },
  {
   "property": "C90",
   "status": "proved",
   "theorems": [
    "Verif.Props.C90_typed",
    "Verif.Props.C90_name",
    "Verif.Props.C90_initials",
    "Verif.Props.C90_english",
    "Verif.Props.C90_keys",
    "Verif.Props.C90_bundled",
    "Verif.Props.C90_ready"
   ],
   "note": "fuse.js is assumed to find at least what begins with the query; hangul-js is modelled from memory."
  },
  {
   "property": "C91",
   "status": "proved",
   "theorems": [
    "Verif.Props.C91_order",
    "Verif.Props.C91_registered",
    "Verif.Props.C91_progress",
    "Verif.Props.C91_translits",
    "Verif.Props.C91_side_progress",
    "Verif.Props.C91_asked",
    "Verif.Props.C91_bundled",
    "Verif.Props.C91_at_hand"
   ],
   "note": "A module which fails to load is one which is never loaded; the order of messages and of what awaits a Promise is that of the standards."
  },
  {
   "property": "C92",
   "status": "partial",
   "theorems": [
    "Verif.Props.C92_calm",
    "Verif.Props.C92_bundled",
    "Verif.Props.C92_warm",
    "Verif.Props.C92_single",
    "Verif.Props.C92_tokenizer_refuted",
    "Verif.Props.C92_install_refuted"
   ],
   "note": "False: nothing is locked. Proved for specs which are cached and a tokenizer which has been made, hence for whatever has succeeded once."
  },
  {
   "property": "C93",
   "status": "partial",
   "theorems": [
    "Verif.Props.C93_means_partial",
    "Verif.Props.C93_found_partial",
    "Verif.Props.C93_whole_partial",
    "Verif.Props.C93_ahead_partial",
    "Verif.Props.C93_behind_partial",
    "Verif.Props.C93_not_refuted",
    "Verif.Props.C93_count_refuted",
    "Verif.Props.C93_dollar_refuted",
    "Verif.Props.C93_paren_refuted",
    "Verif.Props.C93_beside_refuted",
    "Verif.Props.C93_short_refuted"
   ],
   "note": "For expressions without top-level bars; with edges, and lookarounds not beside edges. False for the characters ^, $ and { in expressions, for parentheses in lookarounds, and for lookarounds beside edges."
  },
  {
   "property": "C94",
   "status": "partial",
   "theorems": [
    "Verif.Props.C94_picks_partial",
    "Verif.Props.C94_one",
    "Verif.Props.C94_long"
   ],
   "note": "For the expressions of C93 whose repetitions are of texts which are not empty."
  },
  {
   "property": "C95",
   "status": "partial",
   "theorems": [
    "Verif.Props.C95_groups_partial",
    "Verif.Props.C95_held",
    "Verif.Props.C95_within"
   ],
   "note": "For the expressions of C94."
  }
 ]
}
