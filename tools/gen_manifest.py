#!/usr/bin/env python3
"""Write MANIFEST.json from the table below; unlisted properties are reported as partial."""
import json
import os

ROOT = os.path.join(os.path.dirname(__file__), '..')
P = 'Verif.Props.'

CLAIMS = {
    'C01': ('proved', ['C01_compose_spelling'], ''),
    'C02': ('proved', ['C02_compose_composed', 'C02_hyphen_dropped'], ''),
    'C03': ('proved', ['C03_compose_no_jamo', 'C03_compose_idempotent'], ''),
    'C04': ('proved', ['C04_compose_local', 'C04_compose_local_syllable'], ''),
    'C05': ('proved', ['C05_compose_blocks', 'C05_compose_count'], ''),
    'C06': ('proved', ['C06_replacer_session', 'C06_replacer_splice', 'C06_proper_is_edits', 'C06_replacer_panics'], ''),
    'C07': ('proved', ['C07_subwords_chunks', 'C07_subwords_partition'], ''),
    'C08': ('proved', ['C08_builder_merge', 'C08_builder_text', 'C08_builder_idempotent'], ''),
    'C09': ('partial', ['C09_matches_partial', 'C09_matches_count', 'C09_patterns_readable', 'C09_matches_refuted'],
            'Proved for patterns whose lookarounds and core are regular expressions on their own; false otherwise.'),
    'C10': ('partial', ['C10_find_terminates_partial', 'C10_find_terminates_refuted'],
            'Proved for the patterns of C09; false otherwise.'),
    'C11': ('partial', ['C11_lookahead_partial', 'C11_lookbehind_partial', 'C11_window_partial', 'C11_ahead_partial',
                        'C11_behind_partial', 'C11_bundled_partial', 'C11_bundled_refuted', 'C11_wide_refuted', 'C11_begin_refuted',
                        'C11_bar_refuted'],
            'Proved for ASCII words and for unlimited lookarounds, for a lookbehind if it fits before the match; '
            'false otherwise. In all words proved for the window which is searched, for ASCII texts, and for the rules '
            'of all bundled specs except for the letter ü in four patterns of Catalan.'),
    'C12': ('partial', ['C12_width_partial', 'C12_width_refuted'],
            'Proved unless an unlimited expression is repeated a limited number of times; false then.'),
    'C13': ('proved', ['C13_unlimited'], ''),
    'C14': ('partial', ['C14_replace_agree_partial', 'C14_replace_splice_partial', 'C14_pattern_replace_partial',
                        'C14_replace_refuted'],
            'Proved for the patterns of C09; false otherwise.'),
    'C15': ('partial', ['C15_interpolate_partial', 'C15_replace_partial', 'C15_interpolate_refuted'],
            'Proved when the vars have captured values of theirs and the vars of the replacement have values; otherwise '
            'it panics.'),
    'C16': ('partial', ['C16_anchored_partial', 'C16_anchored_refuted', 'C16_bar_refuted'],
            'False; what holds is that the matches follow one another from the start of the word.'),
    'C17': ('partial', ['C17_macros_partial', 'C17_macros_refuted'],
            'Proved for macros none of which is a prefix of another one; false otherwise.'),
    'C18': ('partial', ['C18_var_partial', 'C18_items_partial', 'C18_values_refuted'],
            'Proved for words and values that are valid UTF-8, values not empty and without ^, $ and {; false otherwise.'),
    'C19': ('partial', ['C19_terminates_partial', 'C19_lexer_hangs', 'C19_open_quote', 'C19_terminates_refuted'],
            'Proved for sources with closed quotes, exactly those on which the lexer returns; false otherwise.'),
    'C20': ('partial', ['C20_no_panic_partial', 'C20_malformed', 'C20_no_panic_refuted'],
            'False: stray dashes and repeated keys panic. Proved: nothing else does, and which sources are rejected.'),
    'C21': ('proved', ['C21_roundtrip'], ''),
    'C22': ('partial', ['C22_comments_partial', 'C22_comments_refuted', 'C22_documentation_refuted'],
            'Proved for comments on their own line; false for comments at the end of a pair.'),
    'C23': ('proved', ['C23_sections', 'C23_accessors', 'C23_missing'], ''),
    'C24': ('proved', ['C24_lines'], ''),
    'C25': ('proved', ['C25_quoted', 'C25_no_backslash'], ''),
    'C26': ('proved', ['C26_spec_reflects_source', 'C26_settings', 'C26_compiled', 'C26_codes', 'C26_script'], ''),
    'C27': ('partial', ['C27_letters_partial', 'C27_letters_refuted'],
            'Proved for the first letter of each target; false for the others.'),
    'C28': ('partial', ['C28_order_partial', 'C28_order_refuted'],
            'Proved for sections none of whose source letters is a prefix of another one; false otherwise.'),
    'C29': ('partial', ['C29_puncts_partial', 'C29_class_refuted'],
            'Proved with "mentions" read as the result of Letters, which leaves out operators even inside classes.'),
    'C30': ('proved', ['C30_trace_invisible'], ''),
    'C31': ('proved', ['C31_trace_log'], ''),
    'C32': ('proved', ['C32_pass_through'], ''),
    'C33': ('proved', ['C33_transcribed_once', 'C33_lockstep'], ''),
    'C34': ('proved', ['C34_no_panic'], ''),
    'C35': ('proved', ['C35_levels', 'C35_left_overs'], ''),
    'C36': ('proved', ['C36_other_scripts', 'C36_kana', 'C36_idempotent'], ''),
    'C37': ('partial', ['C37_spaces_partial', 'C37_spaces_refuted'],
            'Proved for words without zero-width spaces; false with them.'),
    'C38': ('proved', ['C38_unknown_language', 'C38_translits'], ''),
    'C39': ('proved', ['C39_valid_output'], ''),
    'C40': ('proved', ['C40_empty'], ''),
    'C41': ('proved', ['C41_registry', 'C41_independent'], ''),
    'C42': ('proved', ['C42_install'], ''),
    'C43': ('proved', ['C43_cache'], ''),
    'C44': ('partial', ['C44_race_partial', 'C44_results_partial', 'C44_race_refuted'],
            'False: the cache is not locked. Proved for specs that are already cached.'),
    'C45': ('proved', ['C45_instances', 'C45_package', 'C45_untraced', 'C45_traced', 'C45_kept'], ''),
    'C46': ('proved', ['C46_iteration_marks', 'C46_others'], ''),
    'C47': ('proved', ['C47_tables', 'C47_voicing'], ''),
    'C48': ('proved', ['C48_long_vowels'], ''),
    'C49': ('partial', ['C49_typewriter', 'C49_typewriter_partial', 'C49_second_call', 'C49_silence_refuted'],
            'Proved when every token has a pronunciation; false otherwise, since the first silent morpheme ends the text.'),
    'C50': ('proved', ['C50_pinyin', 'C50_nothing_lost'], 'The normalization into NFC before is not modelled.'),
    'C51': ('partial', ['C51_cyrillic_partial', 'C51_unambiguous_perm', 'C51_order_refuted'],
            'False for all four countries. Proved for words at no place of which two keys match.'),
    'C52': ('partial', ['C52_hrkt', 'C52_letters', 'C52_changed', 'C52_latn_partial', 'C52_latn_basic',
                        'C52_marks_refuted', 'C52_latn_refuted'],
            'False for marks in the block of hiragana and for nine Latin letters; proved for all others.'),
    'C53': ('proved', ['C53_format', 'C53_steps'], ''),
    'C54': ('partial', ['C54_schedules', 'C54_terminates', 'C54_args', 'C54_error', 'C54_stdin_partial', 'C54_trim',
                        'C54_stdin_refuted'],
            'Proved for arguments. With the standard input a blank line ends the command and a last line without a '
            'newline is not read; proved for lines which are not blank.'),
    'C55': ('proved', ['C55_exit', 'C55_covered', 'C55_coverage', 'C55_returns'],
            'The status is also 1 if a file cannot be opened or parsed or the profile cannot be written.'),
    'C58': ('partial', ['C58_leftmost_partial', 'C58_edges_partial', 'C58_forward_partial', 'C58_limited',
                        'C58_laid_partial', 'C58_bundled_partial', 'C58_edges_refuted'],
            'Proved in all words for patterns without a top-level bar whose parts are expressions on their own, if the '
            'end of each occurrence is taken for the beginning of a text; false for left edges in the whole word. '
            'The rules of all bundled specs are such patterns, or have a bar and are covered as well.'),
    'C57': ('partial', ['C57_profile_partial', 'C57_profile_refuted'],
            'Writing the profile panics for a file without a rewrite or a transcribe section; proved for files with '
            'both sections and lines of less than 64 KiB.'),
    'C56': ('proved', ['C56_substr'], ''),
    'C59': ('proved', ['C59_reference', 'C59_functional'],
            'The matches of a single rule and the composition of a run of jamo are those of the other properties.'),
    'C60': ('proved', ['C60_trace'], ''),
    'C61': ('proved', ['C61_alphabets', 'C61_names', 'C61_disjoint'], ''),
    'C62': ('proved', ['C62_capitals', 'C62_small', 'C62_idempotent', 'C62_latn', 'C62_stays'], ''),
    'C63': ('proved', ['C63_idempotent', 'C63_cyrillic', 'C63_letters', 'C63_standard', 'C63_alphabet', 'C63_case'],
            'Whether longer keys come first is left to the iteration order of the map, see C51.'),
    'C64': ('proved', ['C64_find', 'C64_replace', 'C64_runs', 'C64_once'], ''),
    'C65': ('proved', ['C65_list', 'C65_listed', 'C65_loads'],
            'The text of the specs is part of the model, copied by tools/gen_specs.py.'),
    'C66': ('proved', ['C66_programs', 'C66_goroutines', 'C66_standard_translits', 'C66_succeeds', 'C66_instances'],
            'NFC, the dictionary of go-pinyin and the tokenizer are given; tokens are assumed to have nine features.'),
    'C67': ('proved', ['C67_alphabet', 'C67_no_letters', 'C67_hangul', 'C67_programs'], ''),
    'C68': ('proved', ['C68_specs', 'C68_programs'],
            'The translits are given; the orders inside of the Cyrillic translits are those of C51.'),
    'C69': ('partial', ['C69_to_go', 'C69_lone', 'C69_valid', 'C69_to_js_partial', 'C69_back_partial', 'C69_bom', 'C69_broken', 'C69_back_refuted'],
            'A byte order mark at the start of a text is lost on the way to JavaScript.'),
    'C70': ('partial', ['C70_results', 'C70_once', 'C70_traces', 'C70_no_crash_partial', 'C70_no_crash_refuted', 'C70_tracer_refuted'],
            'The module panics for missing arguments, for a tracing function which is no function, and for a translit which rejects its Promise with a string.'),
    'C71': ('proved', ['C71_specs'], 'The authors are those of Config.Authors, see C73.'),
    'C72': ('partial', ['C72_workers', 'C72_page_partial', 'C72_resolved_partial', 'C72_unknown_refuted'],
            'For texts without a byte order mark at the start. The module for Cyrillic panics for a country it does not know.'),
    'C73': ('partial', ['C73_authors_partial', 'C73_authors_refuted'],
            'The code reads the key authors, but the documentation and all bundled specs write author.'),
    'C74': ('partial', ['C74_manifest', 'C74_reproducible_partial', 'C74_reproducible_refuted'],
            'The translits come in the order of an iteration over a map, so that two builds differ; proved for one order.'),
    'C75': ('partial', ['C75_hangulize', 'C75_unsupported', 'C75_ls', 'C75_ls_files', 'C75_dev_partial', 'C75_dev_refuted'],
            'dev imports no translits, so that it fails at the first word for a spec which has some; proved for the others.'),
    'C76': ('partial', ['C76_terminates', 'C76_settles', 'C76_settled', 'C76_cleared_partial', 'C76_cleared_quiet_partial',
                        'C76_cleared_refuted', 'C76_jobs_refuted'],
            'Full for valid inputs. If the input is cleared while the worker is busy, its answer is shown all the same; '
            'calls which wait for one job all start their own job after it.'),
    'C77': ('proved', ['C77_settled', 'C77_stays'],
            'For any number of sizes but two; the page has five.'),
    'C78': ('partial', ['C78_change_partial', 'C78_effect_partial', 'C78_example_partial', 'C78_example_refuted',
                        'C78_empty_refuted'],
            'Links do not encode the word, so that a word with &, #, + or % is shown as another one; an address with '
            'an empty language gives a random one in each rendering.'),
    'C79': ('partial', ['C79_settled', 'C79_settles', 'C79_terminates', 'C79_typed_partial', 'C79_unknown_refuted',
                        'C79_inherited_refuted'],
            'A word which is hangulized to nothing looks as if it was loading forever, an unknown language empties the '
            'page, and the properties of all objects are taken for languages; for texts without a byte order mark.'),
    'C80': ('partial', ['C80_exact', 'C80_after', 'C80_letter_partial', 'C80_word_partial',
                        'C80_cyrillic', 'C80_kana', 'C80_pinyin', 'C80_standard', 'C80_refuted'],
            'Some letters listed per language are told apart, among them C in Serbo-Croatian; for Chinese, text in NFC '
            'and a dictionary without Latin letters.'),
    'C81': ('partial', ['C81_two', 'C81_spaceless', 'C81_words', 'C81_fields', 'C81_plain', 'C81_text', 'C81_cyrillic', 'C81_vanishing', 'C81_refuted'],
            'Welsh (two specs) and Dutch have rules for several words; around a word with an empty result there is one '
            'space only, but the words of the result are always the nonempty results for the words; not for Japanese, '
            'unless its translit is known to go word by word; for Chinese see C86.'),
    'C82': ('partial', ['C82_anywhere', 'C82_around', 'C82_between', 'C82_unsigned', 'C82_cyrillic', 'C82_plain', 'C82_again', 'C82_idempotent', 'C82_hangul', 'C82_twice', 'C82_refuted'],
            'Some signs listed per language are worked on by rewriting rules, for instance ~ in Portuguese; not for '
            'Japanese; in languages with such signs, the text before ends and the text after begins with a letter of the '
            'script or white space, or else the strange text next to the piece has no signs.'),
    'C83': ('partial', ['C83_kinds', 'C83_cyrillic', 'C83_after', 'C83_text', 'C83_refuted', 'C83_spanning'],
            'For tab, line feed, form feed, carriage return and space; words do not begin after other white space such '
            'as no-break spaces; not for Welsh and Dutch; for Japanese if the transliterations differ in white space only; '
            'for Chinese see C86.'),
    'C84': ('partial', ['C84_examples', 'C84_settles', 'C84_steady', 'C84_follow', 'C84_shown_partial', 'C84_filled'],
            'As in C79, an example which is hangulized to nothing looks as if it was loading forever (that the bundled '
            'ones are not is not proved); for translits without a byte order mark in their results.'),
    'C85': ('proved', ['C85_choices', 'C85_selected', 'C85_typed'],
            'The search in the list is not modelled.'),
    'C86': ('proved', ['C86_two', 'C86_pieces', 'C86_characters', 'C86_words'],
            'For text of which all parts are in NFC, as they are if the text is; normalization to NFC is not modelled.'),
    'C87': ('partial', ['C87_accent', 'C87_refuted', 'C87_cyrillic', 'C87_greek_refuted', 'C87_cyrillic_refuted', 'C87_composed'],
            'False in the languages without translit but Greek and Belarusian: a combining accent stays in the result. True in '
            'Chinese and Japanese. In Cyrillic accents are letters which are never in a result. False in Greek and Russian, shown '
            'for some lines of their specs.'),
    'C88': ('partial', ['C88_exact', 'C88_after', 'C88_word_partial', 'C88_unknown_refuted', 'C88_iteration_refuted'],
            'For what comes after the transliteration; the digraph yori passes for koto. False before: in words unknown to the '
            'tokenizer long vowels are merged in katakana only, and an iteration mark after wa is resolved differently.'),
    'C89': ('proved', ['C89_spec', 'C89_linear', 'C89_trace', 'C89_cyrillic', 'C89_pinyin', 'C89_furigana', 'C89_standard'],
            'The normalization to NFC, the tokenizer and the dictionary are assumed to be proportional.'),
    'C90': ('proved', ['C90_typed', 'C90_name', 'C90_initials', 'C90_english', 'C90_keys', 'C90_bundled', 'C90_ready'],
            'fuse.js is assumed to find at least what begins with the query; hangul-js is modelled from memory.'),
    'C91': ('proved', ['C91_order', 'C91_registered', 'C91_progress', 'C91_translits', 'C91_side_progress', 'C91_asked', 'C91_bundled', 'C91_at_hand'],
            'A module which fails to load is one which is never loaded; the order of messages and of what awaits a Promise is that of the standards.'),
    'C92': ('partial', ['C92_calm', 'C92_bundled', 'C92_warm', 'C92_single', 'C92_tokenizer_refuted', 'C92_install_refuted'],
            'False: nothing is locked. Proved for specs which are cached and a tokenizer which has been made, hence for whatever has succeeded once.'),
    'C93': ('partial', ['C93_means_partial', 'C93_found_partial', 'C93_whole_partial', 'C93_ahead_partial', 'C93_behind_partial',
                        'C93_not_refuted', 'C93_count_refuted', 'C93_dollar_refuted', 'C93_paren_refuted', 'C93_beside_refuted',
                        'C93_short_refuted'],
            'For expressions without top-level bars; with edges, and lookarounds not beside edges. False for the characters ^, $ and { '
            'in expressions, for parentheses in lookarounds, and for lookarounds beside edges.'),
    'C94': ('partial', ['C94_picks_partial', 'C94_one', 'C94_long'],
            'For the expressions of C93 whose repetitions are of texts which are not empty.'),
    'C95': ('partial', ['C95_groups_partial', 'C95_held', 'C95_within'],
            'For the expressions of C94.'),
}


def main():
    ids = [json.loads(l)['id'] for l in open(os.path.join(ROOT, 'properties.jsonl')) if l.strip()]
    out = []
    for i in ids:
        st, th, note = CLAIMS.get(i, ('partial', [], 'not proved yet'))
        out.append({'property': i, 'status': st, 'theorems': [P + t for t in th], 'note': note})
    with open(os.path.join(ROOT, 'MANIFEST.json'), 'w') as f:
        json.dump({'claims': out}, f, indent=1, ensure_ascii=False)
        f.write('\n')


main()
