# Axioms

The axioms each theorem of MANIFEST.json depends on, as printed by `#print axioms`.
Generated by tools/gen_axioms.py.

## no axioms

* `Verif.Props.C17_macros_refuted`
* `Verif.Props.C52_latn_basic`
* `Verif.Props.C52_marks_refuted`

## propext

* `Verif.Props.C02_hyphen_dropped`
* `Verif.Props.C19_terminates_refuted`
* `Verif.Props.C20_no_panic_refuted`
* `Verif.Props.C22_comments_refuted`
* `Verif.Props.C25_quoted`
* `Verif.Props.C37_spaces_refuted`
* `Verif.Props.C51_order_refuted`
* `Verif.Props.C53_steps`
* `Verif.Props.C95_within`

## propext, Classical.choice, Quot.sound

* `Verif.Props.C01_compose_spelling`
* `Verif.Props.C02_compose_composed`
* `Verif.Props.C03_compose_no_jamo`
* `Verif.Props.C03_compose_idempotent`
* `Verif.Props.C04_compose_local`
* `Verif.Props.C04_compose_local_syllable`
* `Verif.Props.C05_compose_blocks`
* `Verif.Props.C05_compose_count`
* `Verif.Props.C06_replacer_splice`
* `Verif.Props.C06_proper_is_edits`
* `Verif.Props.C06_replacer_panics`
* `Verif.Props.C07_subwords_chunks`
* `Verif.Props.C07_subwords_partition`
* `Verif.Props.C08_builder_merge`
* `Verif.Props.C08_builder_text`
* `Verif.Props.C08_builder_idempotent`
* `Verif.Props.C09_matches_partial`
* `Verif.Props.C09_patterns_readable`
* `Verif.Props.C09_matches_refuted`
* `Verif.Props.C10_find_terminates_partial`
* `Verif.Props.C10_find_terminates_refuted`
* `Verif.Props.C11_lookahead_partial`
* `Verif.Props.C11_lookbehind_partial`
* `Verif.Props.C11_window_partial`
* `Verif.Props.C11_ahead_partial`
* `Verif.Props.C11_behind_partial`
* `Verif.Props.C11_bundled_partial`
* `Verif.Props.C11_bundled_refuted`
* `Verif.Props.C11_wide_refuted`
* `Verif.Props.C11_begin_refuted`
* `Verif.Props.C11_bar_refuted`
* `Verif.Props.C12_width_refuted`
* `Verif.Props.C13_unlimited`
* `Verif.Props.C14_replace_agree_partial`
* `Verif.Props.C14_replace_splice_partial`
* `Verif.Props.C14_pattern_replace_partial`
* `Verif.Props.C14_replace_refuted`
* `Verif.Props.C15_interpolate_partial`
* `Verif.Props.C15_replace_partial`
* `Verif.Props.C15_interpolate_refuted`
* `Verif.Props.C16_anchored_partial`
* `Verif.Props.C16_anchored_refuted`
* `Verif.Props.C16_bar_refuted`
* `Verif.Props.C18_var_partial`
* `Verif.Props.C18_items_partial`
* `Verif.Props.C18_values_refuted`
* `Verif.Props.C19_terminates_partial`
* `Verif.Props.C19_lexer_hangs`
* `Verif.Props.C19_open_quote`
* `Verif.Props.C20_no_panic_partial`
* `Verif.Props.C20_malformed`
* `Verif.Props.C21_roundtrip`
* `Verif.Props.C22_comments_partial`
* `Verif.Props.C22_documentation_refuted`
* `Verif.Props.C23_sections`
* `Verif.Props.C23_accessors`
* `Verif.Props.C23_missing`
* `Verif.Props.C24_lines`
* `Verif.Props.C25_no_backslash`
* `Verif.Props.C26_spec_reflects_source`
* `Verif.Props.C26_settings`
* `Verif.Props.C26_compiled`
* `Verif.Props.C26_codes`
* `Verif.Props.C26_script`
* `Verif.Props.C27_letters_partial`
* `Verif.Props.C27_letters_refuted`
* `Verif.Props.C28_order_partial`
* `Verif.Props.C28_order_refuted`
* `Verif.Props.C29_puncts_partial`
* `Verif.Props.C29_class_refuted`
* `Verif.Props.C30_trace_invisible`
* `Verif.Props.C31_trace_log`
* `Verif.Props.C32_pass_through`
* `Verif.Props.C33_transcribed_once`
* `Verif.Props.C33_lockstep`
* `Verif.Props.C34_no_panic`
* `Verif.Props.C35_levels`
* `Verif.Props.C35_left_overs`
* `Verif.Props.C36_other_scripts`
* `Verif.Props.C36_kana`
* `Verif.Props.C36_idempotent`
* `Verif.Props.C37_spaces_partial`
* `Verif.Props.C38_unknown_language`
* `Verif.Props.C39_valid_output`
* `Verif.Props.C40_empty`
* `Verif.Props.C41_registry`
* `Verif.Props.C41_independent`
* `Verif.Props.C42_install`
* `Verif.Props.C43_cache`
* `Verif.Props.C44_race_partial`
* `Verif.Props.C44_results_partial`
* `Verif.Props.C44_race_refuted`
* `Verif.Props.C45_instances`
* `Verif.Props.C45_package`
* `Verif.Props.C45_untraced`
* `Verif.Props.C45_traced`
* `Verif.Props.C45_kept`
* `Verif.Props.C46_iteration_marks`
* `Verif.Props.C46_others`
* `Verif.Props.C47_tables`
* `Verif.Props.C47_voicing`
* `Verif.Props.C48_long_vowels`
* `Verif.Props.C49_typewriter`
* `Verif.Props.C49_typewriter_partial`
* `Verif.Props.C49_second_call`
* `Verif.Props.C49_silence_refuted`
* `Verif.Props.C50_nothing_lost`
* `Verif.Props.C52_hrkt`
* `Verif.Props.C52_letters`
* `Verif.Props.C52_changed`
* `Verif.Props.C52_latn_partial`
* `Verif.Props.C52_latn_refuted`
* `Verif.Props.C54_args`
* `Verif.Props.C54_error`
* `Verif.Props.C54_trim`
* `Verif.Props.C55_exit`
* `Verif.Props.C55_covered`
* `Verif.Props.C55_coverage`
* `Verif.Props.C55_returns`
* `Verif.Props.C57_profile_partial`
* `Verif.Props.C57_profile_refuted`
* `Verif.Props.C58_leftmost_partial`
* `Verif.Props.C58_edges_partial`
* `Verif.Props.C58_forward_partial`
* `Verif.Props.C58_laid_partial`
* `Verif.Props.C58_bundled_partial`
* `Verif.Props.C58_edges_refuted`
* `Verif.Props.C59_reference`
* `Verif.Props.C59_functional`
* `Verif.Props.C60_trace`
* `Verif.Props.C62_latn`
* `Verif.Props.C62_stays`
* `Verif.Props.C63_letters`
* `Verif.Props.C63_standard`
* `Verif.Props.C63_alphabet`
* `Verif.Props.C63_case`
* `Verif.Props.C64_find`
* `Verif.Props.C64_replace`
* `Verif.Props.C64_runs`
* `Verif.Props.C64_once`
* `Verif.Props.C65_list`
* `Verif.Props.C65_loads`
* `Verif.Props.C66_programs`
* `Verif.Props.C66_goroutines`
* `Verif.Props.C66_standard_translits`
* `Verif.Props.C66_succeeds`
* `Verif.Props.C66_instances`
* `Verif.Props.C67_alphabet`
* `Verif.Props.C67_no_letters`
* `Verif.Props.C67_hangul`
* `Verif.Props.C67_programs`
* `Verif.Props.C68_specs`
* `Verif.Props.C68_programs`
* `Verif.Props.C69_to_go`
* `Verif.Props.C69_lone`
* `Verif.Props.C69_to_js_partial`
* `Verif.Props.C69_back_partial`
* `Verif.Props.C69_bom`
* `Verif.Props.C69_broken`
* `Verif.Props.C70_results`
* `Verif.Props.C70_once`
* `Verif.Props.C70_traces`
* `Verif.Props.C70_no_crash_partial`
* `Verif.Props.C70_no_crash_refuted`
* `Verif.Props.C70_tracer_refuted`
* `Verif.Props.C71_specs`
* `Verif.Props.C72_workers`
* `Verif.Props.C72_page_partial`
* `Verif.Props.C72_resolved_partial`
* `Verif.Props.C72_unknown_refuted`
* `Verif.Props.C73_authors_partial`
* `Verif.Props.C73_authors_refuted`
* `Verif.Props.C74_manifest`
* `Verif.Props.C74_reproducible_partial`
* `Verif.Props.C74_reproducible_refuted`
* `Verif.Props.C75_hangulize`
* `Verif.Props.C75_unsupported`
* `Verif.Props.C75_ls`
* `Verif.Props.C75_ls_files`
* `Verif.Props.C75_dev_partial`
* `Verif.Props.C75_dev_refuted`
* `Verif.Props.C76_settles`
* `Verif.Props.C76_settled`
* `Verif.Props.C76_cleared_partial`
* `Verif.Props.C77_settled`
* `Verif.Props.C77_stays`
* `Verif.Props.C78_change_partial`
* `Verif.Props.C78_effect_partial`
* `Verif.Props.C78_example_partial`
* `Verif.Props.C78_example_refuted`
* `Verif.Props.C78_empty_refuted`
* `Verif.Props.C79_settled`
* `Verif.Props.C79_settles`
* `Verif.Props.C79_terminates`
* `Verif.Props.C79_typed_partial`
* `Verif.Props.C79_unknown_refuted`
* `Verif.Props.C79_inherited_refuted`
* `Verif.Props.C80_exact`
* `Verif.Props.C80_after`
* `Verif.Props.C80_letter_partial`
* `Verif.Props.C80_word_partial`
* `Verif.Props.C80_cyrillic`
* `Verif.Props.C80_pinyin`
* `Verif.Props.C80_standard`
* `Verif.Props.C80_refuted`
* `Verif.Props.C81_two`
* `Verif.Props.C81_spaceless`
* `Verif.Props.C81_words`
* `Verif.Props.C81_fields`
* `Verif.Props.C81_plain`
* `Verif.Props.C81_text`
* `Verif.Props.C81_cyrillic`
* `Verif.Props.C81_vanishing`
* `Verif.Props.C81_refuted`
* `Verif.Props.C82_anywhere`
* `Verif.Props.C82_around`
* `Verif.Props.C82_between`
* `Verif.Props.C82_unsigned`
* `Verif.Props.C82_cyrillic`
* `Verif.Props.C82_plain`
* `Verif.Props.C82_again`
* `Verif.Props.C82_idempotent`
* `Verif.Props.C82_hangul`
* `Verif.Props.C82_twice`
* `Verif.Props.C82_refuted`
* `Verif.Props.C83_kinds`
* `Verif.Props.C83_cyrillic`
* `Verif.Props.C83_after`
* `Verif.Props.C83_text`
* `Verif.Props.C83_refuted`
* `Verif.Props.C83_spanning`
* `Verif.Props.C84_examples`
* `Verif.Props.C84_settles`
* `Verif.Props.C84_steady`
* `Verif.Props.C84_follow`
* `Verif.Props.C84_shown_partial`
* `Verif.Props.C84_filled`
* `Verif.Props.C85_choices`
* `Verif.Props.C85_selected`
* `Verif.Props.C85_typed`
* `Verif.Props.C86_two`
* `Verif.Props.C86_pieces`
* `Verif.Props.C86_characters`
* `Verif.Props.C86_words`
* `Verif.Props.C87_accent`
* `Verif.Props.C87_refuted`
* `Verif.Props.C87_cyrillic`
* `Verif.Props.C87_greek_refuted`
* `Verif.Props.C87_cyrillic_refuted`
* `Verif.Props.C87_composed`
* `Verif.Props.C88_exact`
* `Verif.Props.C88_after`
* `Verif.Props.C88_word_partial`
* `Verif.Props.C88_unknown_refuted`
* `Verif.Props.C88_iteration_refuted`
* `Verif.Props.C89_spec`
* `Verif.Props.C89_linear`
* `Verif.Props.C89_trace`
* `Verif.Props.C89_pinyin`
* `Verif.Props.C89_furigana`
* `Verif.Props.C89_standard`
* `Verif.Props.C90_typed`
* `Verif.Props.C90_name`
* `Verif.Props.C90_initials`
* `Verif.Props.C90_english`
* `Verif.Props.C90_keys`
* `Verif.Props.C90_bundled`
* `Verif.Props.C90_ready`
* `Verif.Props.C91_order`
* `Verif.Props.C91_registered`
* `Verif.Props.C91_progress`
* `Verif.Props.C91_translits`
* `Verif.Props.C91_side_progress`
* `Verif.Props.C91_asked`
* `Verif.Props.C91_bundled`
* `Verif.Props.C91_at_hand`
* `Verif.Props.C92_calm`
* `Verif.Props.C92_bundled`
* `Verif.Props.C92_warm`
* `Verif.Props.C92_single`
* `Verif.Props.C92_tokenizer_refuted`
* `Verif.Props.C92_install_refuted`
* `Verif.Props.C93_means_partial`
* `Verif.Props.C93_found_partial`
* `Verif.Props.C93_whole_partial`
* `Verif.Props.C93_behind_partial`
* `Verif.Props.C93_not_refuted`
* `Verif.Props.C93_count_refuted`
* `Verif.Props.C93_dollar_refuted`
* `Verif.Props.C93_paren_refuted`
* `Verif.Props.C93_beside_refuted`
* `Verif.Props.C93_short_refuted`
* `Verif.Props.C94_picks_partial`
* `Verif.Props.C94_one`
* `Verif.Props.C94_long`
* `Verif.Props.C95_groups_partial`
* `Verif.Props.C95_held`

## propext, Quot.sound

* `Verif.Props.C06_replacer_session`
* `Verif.Props.C09_matches_count`
* `Verif.Props.C12_width_partial`
* `Verif.Props.C17_macros_partial`
* `Verif.Props.C38_translits`
* `Verif.Props.C50_pinyin`
* `Verif.Props.C51_cyrillic_partial`
* `Verif.Props.C51_unambiguous_perm`
* `Verif.Props.C53_format`
* `Verif.Props.C54_schedules`
* `Verif.Props.C54_terminates`
* `Verif.Props.C54_stdin_partial`
* `Verif.Props.C54_stdin_refuted`
* `Verif.Props.C56_substr`
* `Verif.Props.C58_limited`
* `Verif.Props.C61_alphabets`
* `Verif.Props.C61_names`
* `Verif.Props.C61_disjoint`
* `Verif.Props.C62_capitals`
* `Verif.Props.C62_small`
* `Verif.Props.C62_idempotent`
* `Verif.Props.C63_idempotent`
* `Verif.Props.C63_cyrillic`
* `Verif.Props.C65_listed`
* `Verif.Props.C69_valid`
* `Verif.Props.C69_back_refuted`
* `Verif.Props.C76_terminates`
* `Verif.Props.C76_cleared_quiet_partial`
* `Verif.Props.C76_cleared_refuted`
* `Verif.Props.C76_jobs_refuted`
* `Verif.Props.C80_kana`
* `Verif.Props.C89_cyrillic`
* `Verif.Props.C93_ahead_partial`
