# Axioms each theorem of the manifest depends on

Generated with `Lean.collectAxioms`.

| property | theorem | axioms |
|---|---|---|
| C01 | `C01_cut_lossless` | propext, Classical.choice, Quot.sound |
| C01 | `C01_cut_lossless_any_state` | propext, Classical.choice, Quot.sound |
| C02 | `C02_cut_no_empty_token` | propext, Classical.choice, Quot.sound |
| C02 | `C02_full_mode_yields_empty` | propext, Classical.choice, Quot.sound |
| C03 | `C03_no_hmm_token_provenance` | propext, Classical.choice, Quot.sound |
| C03 | `C03_han_characters` | propext |
| C03 | `C03_ascii_letters_digits` | propext, Quot.sound |
| C03 | `C03_word_characters` | propext, Quot.sound |
| C03 | `C03_white_space` | propext, Classical.choice, Quot.sound |
| C04 | `C04_cut_optimal` | propext, Classical.choice, Quot.sound |
| C04 | `C04_cut_max_probability` | propext, Classical.choice, Quot.sound |
| C04 | `C04_path_optimal` | propext, Classical.choice, Quot.sound |
| C05 | `C05_cut_follows_best_path` | propext, Classical.choice, Quot.sound |
| C05 | `C05_best_path_unique` | propext, Quot.sound |
| C06 | `C06_cut_never_raises` | propext, Classical.choice, Quot.sound |
| C06 | `C06_cut_raises` | propext, Classical.choice, Quot.sound |
| C07 | `C07_hmm_only_inside_single_runs` | propext, Classical.choice, Quot.sound |
| C07 | `C07_multichar_words_kept` | propext, Classical.choice, Quot.sound |
| C08 | `C08_finalseg_lossless` | propext, Classical.choice, Quot.sound |
| C09 | `C09_viterbi_valid_optimal` | propext, Classical.choice, Quot.sound |
| C09 | `C09_words_of_best_tagging` | propext, Classical.choice, Quot.sound |
| C09 | `C09_ties` | propext, Classical.choice, Quot.sound |
| C10 | `C10_full_mode_complete` | propext, Classical.choice, Quot.sound |
| C10 | `C10_fails_with_letters` | propext, Quot.sound |
| C10 | `C10_complete_with_letters` | propext, Classical.choice, Quot.sound |
| C10 | `C10_part_of_token` | propext, Classical.choice, Quot.sound |
| C100 | `C100_probabilities_lost` | propext, Classical.choice, Quot.sound |
| C100 | `C100_strange_run` | propext, Classical.choice, Quot.sound |
| C100 | `C100_strange_text` | propext, Classical.choice, Quot.sound |
| C100 | `C100_exact_differs` | propext, Classical.choice, Quot.sound |
| C101 | `C101_lines` | propext, Classical.choice, Quot.sound |
| C101 | `C101_words_distinct` | propext, Classical.choice, Quot.sound |
| C101 | `C101_encodes` | propext, Classical.choice, Quot.sound |
| C101 | `C101_load` | propext, Classical.choice, Quot.sound |
| C101 | `C101_tags` | propext, Classical.choice, Quot.sound |
| C101 | `C101_initialize` | propext, Classical.choice, Quot.sound |
| C101 | `C101_cut` | propext, Classical.choice, Quot.sound |
| C101 | `C101_best` | propext, Classical.choice, Quot.sound |
| C101 | `C101_cost` | propext, Classical.choice, Quot.sound |
| C101 | `C101_posseg` | propext, Classical.choice, Quot.sound |
| C102 | `C102_cut` | propext, Classical.choice, Quot.sound |
| C102 | `C102_search` | propext, Classical.choice, Quot.sound |
| C102 | `C102_posseg` | propext, Classical.choice, Quot.sound |
| C102 | `C102_shipped_tables` | propext, Classical.choice, Quot.sound |
| C102 | `C102_small_dictionary` | propext, Classical.choice, Quot.sound |
| C102 | `C102_small_best` | propext, Classical.choice, Quot.sound |
| C102 | `C102_suggest` | propext, Classical.choice, Quot.sound |
| C102 | `C102_add_word_whole` | propext, Classical.choice, Quot.sound |
| C102 | `C102_size_needed` | propext, Classical.choice, Quot.sound |
| C102 | `C102_textrank_same` | propext, Classical.choice, Quot.sound |
| C102 | `C102_textrank` | propext, Classical.choice, Quot.sound |
| C102 | `C102_textrank_errors` | propext, Classical.choice, Quot.sound |
| C103 | `C103_split_close` | propext, Classical.choice, Quot.sound |
| C103 | `C103_word_close` | propext, Classical.choice, Quot.sound |
| C103 | `C103_off_by_at_most_one` | propext, Classical.choice, Quot.sound |
| C103 | `C103_pair` | propext, Classical.choice, Quot.sound |
| C103 | `C103_small_pair` | propext, Classical.choice, Quot.sound |
| C103 | `C103_small_split` | propext, Classical.choice, Quot.sound |
| C103 | `C103_one_less` | propext, Classical.choice, Quot.sound |
| C103 | `C103_one_more` | propext, Classical.choice, Quot.sound |
| C104 | `C104_weights` | propext, Classical.choice, Quot.sound |
| C105 | `C105_weights` | propext, Classical.choice, Quot.sound |
| C105 | `C105_order_can_differ` | propext, Classical.choice, Quot.sound |
| C106 | `C106_no_exception` | propext, Classical.choice, Quot.sound |
| C106 | `C106_returned` | propext, Classical.choice, Quot.sound |
| C106 | `C106_table` | propext, Classical.choice, Quot.sound |
| C106 | `C106_prefix_closed` | propext, Classical.choice, Quot.sound |
| C106 | `C106_returns` | propext, Classical.choice, Quot.sound |
| C106 | `C106_tagged_words` | propext, Classical.choice, Quot.sound |
| C106 | `C106_tags` | propext, Classical.choice, Quot.sound |
| C106 | `C106_cut` | propext, Classical.choice, Quot.sound |
| C106 | `C106_tag_can_be_lost` | propext, Quot.sound |
| C107 | `C107_no_exception` | propext, Classical.choice, Quot.sound |
| C107 | `C107_returned` | propext, Classical.choice, Quot.sound |
| C107 | `C107_table` | propext, Classical.choice, Quot.sound |
| C107 | `C107_once` | propext, Classical.choice, Quot.sound |
| C107 | `C107_prefix_closed` | propext, Classical.choice, Quot.sound |
| C107 | `C107_returns` | propext, Classical.choice, Quot.sound |
| C107 | `C106_tagged_words` | propext, Classical.choice, Quot.sound |
| C107 | `C106_cut` | propext, Classical.choice, Quot.sound |
| C108 | `C108_no_exception` | propext, Classical.choice, Quot.sound |
| C108 | `C108_returns` | propext, Classical.choice, Quot.sound |
| C108 | `C108_tokenizer_calls` | propext, Classical.choice, Quot.sound |
| C108 | `C108_stop_words` | propext, Classical.choice, Quot.sound |
| C108 | `C108_stop_words_added` | propext, Classical.choice, Quot.sound |
| C108 | `C108_extract_tags` | propext, Classical.choice, Quot.sound |
| C108 | `C108_extract_tags_as_alone` | propext, Classical.choice, Quot.sound |
| C108 | `C108_textrank` | propext, Classical.choice, Quot.sound |
| C108 | `C108_textrank_as_alone` | propext, Classical.choice, Quot.sound |
| C108 | `C108_textrank_filter_is_shared` | propext, Classical.choice, Quot.sound |
| C108 | `numOk_exact` | propext, Classical.choice, Quot.sound |
| C108 | `numOk_doubles` | propext, Classical.choice, Quot.sound |
| C108 | `C108_extract_tags_alone` | propext, Classical.choice, Quot.sound |
| C108 | `C108_textrank_alone` | propext, Quot.sound |
| C108 | `C108_stop_words_alone` | propext, Quot.sound |
| C109 | `C109_as_alone` | propext, Classical.choice, Quot.sound |
| C109 | `C109_ends` | propext, Classical.choice, Quot.sound |
| C109 | `C109_table` | propext, Classical.choice, Quot.sound |
| C109 | `C109_old_or_new` | propext, Classical.choice, Quot.sound |
| C109 | `C109_weights` | propext, Classical.choice, Quot.sound |
| C109 | `C109_new_table_old_median` | propext, Classical.choice, Quot.sound |
| C109 | `C109_two_files` | propext, Classical.choice, Quot.sound |
| C109 | `C109_same_file` | propext, Classical.choice, Quot.sound |
| C11 | `C11_full_mode_covers` | propext, Classical.choice, Quot.sound |
| C11 | `C11_fails_with_letters` | propext, Quot.sound |
| C11 | `C11_full_mode_pieces` | propext, Classical.choice, Quot.sound |
| C11 | `C11_letter_run` | propext, Classical.choice, Quot.sound |
| C11 | `C11_repeats_letters` | propext, Quot.sound |
| C11 | `C11_full_mode_exact` | propext, Classical.choice, Quot.sound |
| C11 | `C11_full_mode_separators` | propext, Classical.choice, Quot.sound |
| C11 | `C11_full_mode_runs` | propext, Classical.choice, Quot.sound |
| C110 | `C110_tables` | propext, Classical.choice, Quot.sound |
| C110 | `C110_counts` | propext, Classical.choice, Quot.sound |
| C110 | `C110_lists` | propext, Classical.choice, Quot.sound |
| C110 | `C110_unknown_text` | propext, Classical.choice, Quot.sound |
| C111 | `C111_run` | propext, Classical.choice, Quot.sound |
| C111 | `C111_counts` | propext, Classical.choice, Quot.sound |
| C111 | `C111_cut` | propext, Classical.choice, Quot.sound |
| C111 | `C111_only_single` | propext, Classical.choice, Quot.sound |
| C112 | `C112_alone` | propext, Quot.sound |
| C112 | `C112_no_exception` | propext, Classical.choice, Quot.sound |
| C112 | `C112_returns` | propext, Classical.choice, Quot.sound |
| C112 | `C112_returned` | propext, Classical.choice, Quot.sound |
| C112 | `C112_table` | propext, Classical.choice, Quot.sound |
| C112 | `C112_tagged_words` | propext, Classical.choice, Quot.sound |
| C112 | `C112_tags` | propext, Classical.choice, Quot.sound |
| C112 | `C112_table_afterwards` | propext, Classical.choice, Quot.sound |
| C112 | `C112_not_atomic` | propext, Quot.sound |
| C113 | `C113_float` | propext, Classical.choice, Quot.sound |
| C113 | `C113_nearest` | propext, Classical.choice, Quot.sound |
| C113 | `C113_fifteen_digits` | propext, Classical.choice, Quot.sound |
| C113 | `C113_sixteen_digits` | propext, Classical.choice, Quot.sound |
| C113 | `C113_table` | propext, Classical.choice, Quot.sound |
| C113 | `C113_bad_number` | propext, Classical.choice, Quot.sound |
| C113 | `C113_weights` | propext, Classical.choice, Quot.sound |
| C114 | `C114_add_word_again` | propext, Classical.choice, Quot.sound |
| C114 | `C114_again_float` | propext, Classical.choice, Quot.sound |
| C114 | `C114_float_witness` | propext, Classical.choice, Quot.sound |
| C114 | `C114_split_again` | propext, Classical.choice, Quot.sound |
| C115 | `C115_cut` | propext, Classical.choice, Quot.sound |
| C115 | `C115_cut_hmm` | propext, Classical.choice, Quot.sound |
| C115 | `C115_search` | propext, Classical.choice, Quot.sound |
| C115 | `C115_letters` | propext, Quot.sound |
| C115 | `C115_hmm_joins` | propext, Quot.sound |
| C115 | `C115_search_hmm` | propext, Classical.choice, Quot.sound |
| C115 | `C115_posseg` | propext, Classical.choice, Quot.sound |
| C115 | `C115_full` | propext, Classical.choice, Quot.sound |
| C115 | `C115_full_separators` | propext, Quot.sound |
| C116 | `C116_same_words` | propext, Classical.choice, Quot.sound |
| C116 | `C116_greater_total` | propext, Classical.choice, Quot.sound |
| C116 | `C116_state` | propext, Classical.choice, Quot.sound |
| C116 | `C116_added_and_deleted` | propext, Classical.choice, Quot.sound |
| C116 | `C116_deleted_and_restored` | propext, Classical.choice, Quot.sound |
| C116 | `C116_not_undone` | propext, Classical.choice, Quot.sound |
| C116 | `C116_not_restored` | propext, Quot.sound |
| C117 | `C117_hmm_only_joins` | propext, Classical.choice, Quot.sound |
| C117 | `C117_long_tokens_survive` | propext, Classical.choice, Quot.sound |
| C117 | `C117_no_more_tokens` | propext, Classical.choice, Quot.sound |
| C117 | `C117_posseg` | propext, Classical.choice, Quot.sound |
| C117 | `C117_letters_may_split` | propext, Quot.sound |
| C118 | `C118_no_bounded_lookahead` | propext, Classical.choice, Quot.sound |
| C119 | `C119_accurate` | propext, Classical.choice, Quot.sound |
| C119 | `C119_search` | propext, Classical.choice, Quot.sound |
| C119 | `C119_full` | propext, Classical.choice, Quot.sound |
| C119 | `C119_world` | propext, Classical.choice, Quot.sound |
| C119 | `C119_posseg` | propext, Classical.choice, Quot.sound |
| C119 | `C119_add_word_iff` | propext, Classical.choice, Quot.sound |
| C119 | `C119_hyphen_differs` | propext, Quot.sound |
| C119 | `C119_own_userdict` | propext, Classical.choice, Quot.sound |
| C119 | `C03_word_characters` | propext, Quot.sound |
| C119 | `C46_word_characters` | propext, Quot.sound |
| C12 | `C12_search_extends_accurate` | propext, Classical.choice, Quot.sound |
| C12 | `C12_accurate_is_subsequence` | propext, Quot.sound |
| C12 | `C14_search_offsets` | propext, Classical.choice, Quot.sound |
| C120 | `C120_hmm` | propext, Classical.choice, Quot.sound |
| C120 | `C120_no_hmm` | propext, Classical.choice, Quot.sound |
| C120 | `C120_percentage` | propext, Classical.choice, Quot.sound |
| C120 | `C120_numberTokens_unique` | propext, Quot.sound |
| C120 | `C120_letterRuns_unique` | propext |
| C120 | `C120_posseg` | propext, Classical.choice, Quot.sound |
| C120 | `C120_posseg_example` | propext, Quot.sound |
| C120 | `C120_word_inside` | propext, Quot.sound |
| C121 | `C121_no_hmm_bounded` | propext, Classical.choice, Quot.sound |
| C121 | `C121_hmm_word` | propext, Classical.choice, Quot.sound |
| C121 | `C121_hmm_unbounded` | propext, Classical.choice, Quot.sound |
| C122 | `C122_weighted_mean` | propext, Classical.choice, Quot.sound |
| C122 | `C122_order_kept` | propext, Classical.choice, Quot.sound |
| C122 | `C122_exchanged` | propext, Classical.choice, Quot.sound |
| C123 | `C123_proportional` | propext, Classical.choice, Quot.sound |
| C123 | `C123_proportional_search` | propext, Classical.choice, Quot.sound |
| C123 | `C123_proportional_posseg` | propext, Classical.choice, Quot.sound |
| C123 | `C123_scaled` | propext, Classical.choice, Quot.sound |
| C123 | `C123_unknown_characters` | propext, Classical.choice, Quot.sound |
| C123 | `C123_fewest_words` | propext, Classical.choice, Quot.sound |
| C124 | `C124_parsed` | propext, Classical.choice, Quot.sound |
| C124 | `C124_two_files` | propext, Classical.choice, Quot.sound |
| C124 | `C124_order` | propext, Classical.choice, Quot.sound |
| C124 | `C124_swallowed` | propext, Classical.choice, Quot.sound |
| C124 | `C124_swallowed_output` | propext, Classical.choice, Quot.sound |
| C124 | `C124_input` | propext, Classical.choice, Quot.sound |
| C124 | `C124_missing_value` | propext, Classical.choice, Quot.sound |
| C124 | `C124_version` | propext, Classical.choice, Quot.sound |
| C124 | `C124_unknown` | propext, Classical.choice, Quot.sound |
| C124 | `C124_empty_pos` | propext, Quot.sound |
| C124 | `C124_dashes` | propext, Classical.choice, Quot.sound |
| C124 | `C124_dashes_two_files` | propext, Classical.choice, Quot.sound |
| C125 | `C125_state` | propext, Classical.choice, Quot.sound |
| C125 | `C125_full_mode` | propext, Classical.choice, Quot.sound |
| C125 | `C125_coarser` | propext, Classical.choice, Quot.sound |
| C125 | `C125_fewest_words` | propext, Classical.choice, Quot.sound |
| C125 | `C125_twice_is_not_once` | propext, Classical.choice, Quot.sound |
| C126 | `C126_accurate` | propext, Classical.choice, Quot.sound |
| C126 | `C126_tagging` | propext, Classical.choice, Quot.sound |
| C126 | `C126_search` | propext, Classical.choice, Quot.sound |
| C126 | `C126_search_sharp` | propext, Classical.choice, Quot.sound |
| C126 | `C126_full_mode` | propext, Classical.choice, Quot.sound |
| C126 | `C126_full_mode_quadratic` | propext, Classical.choice, Quot.sound |
| C127 | `C127_short_stop_words` | propext, Quot.sound |
| C127 | `C127_shipped_list` | propext, Classical.choice, Quot.sound |
| C127 | `C127_shipped_effect` | propext, Classical.choice, Quot.sound |
| C127 | `C127_pairs_matter` | propext, Classical.choice, Quot.sound |
| C128 | `C128_calc_succeeds` | propext, Classical.choice, Quot.sound |
| C128 | `C128_calc_best` | propext, Classical.choice, Quot.sound |
| C128 | `C128_before_first_use` | propext, Classical.choice, Quot.sound |
| C128 | `C128_after_set_dictionary` | propext, Classical.choice, Quot.sound |
| C128 | `C128_as_cut` | propext, Classical.choice, Quot.sound |
| C129 | `C129_appendix` | propext, Classical.choice, Quot.sound |
| C129 | `C129_segmentation` | propext, Classical.choice, Quot.sound |
| C129 | `C129_tags` | propext, Classical.choice, Quot.sound |
| C129 | `C129_other_lines` | propext, Classical.choice, Quot.sound |
| C13 | `C13_tokenize_default` | propext, Classical.choice, Quot.sound |
| C130 | `C130_passed_on` | propext, Quot.sound |
| C130 | `C130_refused` | propext, Quot.sound |
| C130 | `C130_which` | propext, Quot.sound |
| C130 | `C130_assignment` | propext, Quot.sound |
| C130 | `C130_without_tokenizer` | propext, Classical.choice, Quot.sound |
| C130 | `C130_nested_tags` | propext, Quot.sound |
| C131 | `C131_only_words_of_text` | propext, Classical.choice, Quot.sound |
| C131 | `C131_tags` | propext, Classical.choice, Quot.sound |
| C131 | `C131_restricted` | propext, Classical.choice, Quot.sound |
| C131 | `C131_deleted_elsewhere` | propext, Classical.choice, Quot.sound |
| C131 | `C131_added_elsewhere` | propext, Classical.choice, Quot.sound |
| C131 | `C131_needs_prefixes` | propext |
| C132 | `C132_renaming` | propext, Classical.choice, Quot.sound |
| C132 | `C132_tags` | propext, Classical.choice, Quot.sound |
| C132 | `C132_unknown_characters` | propext, Classical.choice, Quot.sound |
| C132 | `C132_only_in_range` | propext, Classical.choice, Quot.sound |
| C133 | `C133_common_refinement` | propext, Classical.choice, Quot.sound |
| C133 | `C133_difference` | propext, Classical.choice, Quot.sound |
| C133 | `C133_forced_splits_not_in_posseg` | propext, Quot.sound |
| C134 | `C134_rest_untouched` | propext, Quot.sound |
| C134 | `C134_route_before_is_ignored` | propext, Classical.choice, Quot.sound |
| C134 | `C134_calc_succeeds` | propext, Classical.choice, Quot.sound |
| C134 | `C134_route_reused` | propext, Classical.choice, Quot.sound |
| C134 | `C134_stale_entries` | propext |
| C135 | `C135_repr_is_literal` | propext, Quot.sound |
| C135 | `C135_one_line` | propext, Classical.choice, Quot.sound |
| C135 | `C135_pair` | propext, Quot.sound |
| C135 | `C135_lists` | propext, Quot.sound |
| C135 | `C135_printed_cut` | propext, Classical.choice, Quot.sound |
| C135 | `C135_printed_tags` | propext, Classical.choice, Quot.sound |
| C135 | `C135_tokenizers` | propext, Quot.sound |
| C135 | `C135_plain` | propext, Quot.sound |
| C135 | `C135_layout` | propext |
| C136 | `C136_pieces` | propext, Classical.choice, Quot.sound |
| C136 | `C136_stable_tokens` | propext, Classical.choice, Quot.sound |
| C136 | `C136_segmented_again` | propext, Classical.choice, Quot.sound |
| C136 | `C136_posseg_pieces` | propext, Classical.choice, Quot.sound |
| C136 | `C136_tagged_again` | propext, Classical.choice, Quot.sound |
| C136 | `C136_fails_with_hmm` | propext, Quot.sound |
| C136 | `C136_word_character` | propext, Quot.sound |
| C137 | `C137_dictionary` | propext, Classical.choice, Quot.sound |
| C137 | `C137_tags` | propext, Classical.choice, Quot.sound |
| C137 | `C137_readable` | propext, Quot.sound |
| C137 | `C137_repair` | propext, Classical.choice, Quot.sound |
| C138 | `C138_absolute` | propext, Classical.choice, Quot.sound |
| C138 | `C138_one_place` | propext, Quot.sound |
| C138 | `C138_again` | propext, Classical.choice, Quot.sound |
| C138 | `C138_same` | propext, Classical.choice, Quot.sound |
| C138 | `C138_spellings` | propext, Classical.choice, Quot.sound |
| C138 | `C138_dictionaries` | propext, Classical.choice, Quot.sound |
| C138 | `C138_double_slash` | none |
| C138 | `C138_more_slashes` | propext, Classical.choice, Quot.sound |
| C139 | `C139_results` | propext |
| C139 | `C139_silent` | propext, Quot.sound |
| C139 | `C139_default` | propext, Quot.sound |
| C139 | `C139_given` | propext, Quot.sound |
| C139 | `C139_levels` | propext, Classical.choice, Quot.sound |
| C139 | `C139_levels_only_show` | propext |
| C139 | `C139_quiet` | propext, Classical.choice, Quot.sound |
| C139 | `C139_paddle` | propext, Classical.choice, Quot.sound |
| C139 | `C139_not_silent` | propext, Classical.choice, Quot.sound |
| C139 | `C139_enable` | propext, Quot.sound |
| C14 | `C14_tokenize_search` | propext, Classical.choice, Quot.sound |
| C14 | `C14_search_offsets` | propext, Classical.choice, Quot.sound |
| C140 | `C140_irrelevant` | propext, Classical.choice, Quot.sound |
| C140 | `C140_raised` | propext, Classical.choice, Quot.sound |
| C140 | `C140_top` | propext, Classical.choice, Quot.sound |
| C140 | `C140_scaled` | propext, Classical.choice, Quot.sound |
| C140 | `C140_raised_float` | propext, Classical.choice, Quot.sound |
| C140 | `C140_top_float` | propext, Classical.choice, Quot.sound |
| C141 | `C141_more_stop_words` | propext, Classical.choice, Quot.sound |
| C141 | `C141_top` | propext, Classical.choice, Quot.sound |
| C141 | `C141_fewer_tags` | propext, Classical.choice, Quot.sound |
| C142 | `C142_no_window` | propext, Classical.choice, Quot.sound |
| C142 | `C142_grows` | propext, Classical.choice, Quot.sound |
| C142 | `C142_wide` | propext, Quot.sound |
| C142 | `C142_two_keywords` | propext, Classical.choice, Quot.sound |
| C142 | `C142_neighbour_lost` | propext, Classical.choice, Quot.sound |
| C143 | `C143_dt` | propext, Classical.choice, Quot.sound |
| C143 | `C143_get_FREQ` | propext, Classical.choice, Quot.sound |
| C143 | `C143_never_switched` | propext, Quot.sound |
| C143 | `C143_disabled` | propext, Classical.choice, Quot.sound |
| C143 | `C143_enabled` | propext, Classical.choice, Quot.sound |
| C143 | `C143_enable_fails` | propext, Classical.choice, Quot.sound |
| C143 | `C143_documented` | propext, Quot.sound |
| C143 | `C143_not_one_tokenizer` | propext, Quot.sound |
| C144 | `C144_more_often` | propext, Classical.choice, Quot.sound |
| C144 | `C144_rises` | propext, Classical.choice, Quot.sound |
| C145 | `C145_size` | propext, Classical.choice, Quot.sound |
| C145 | `C145_size_raises` | propext, Quot.sound |
| C145 | `C145_ids` | propext, Classical.choice, Quot.sound |
| C145 | `C145_labels` | propext, Quot.sound |
| C145 | `C145_labels_below` | propext, Classical.choice, Quot.sound |
| C145 | `C145_labels_raise` | propext, Quot.sound |
| C145 | `C145_shipped` | propext, Classical.choice, Quot.sound |
| C145 | `C145_no_exception` | propext, Classical.choice, Quot.sound |
| C145 | `C145_round_trip` | propext, Classical.choice, Quot.sound |
| C146 | `C146_same_ids` | propext, Quot.sound |
| C146 | `C146_same_words` | propext, Quot.sound |
| C146 | `C146_cut` | propext, Quot.sound |
| C146 | `C146_whitespace` | propext, Classical.choice, Quot.sound |
| C15 | `C15_cut_local` | propext, Classical.choice, Quot.sound |
| C15 | `C15_cut_around_separator` | propext, Classical.choice, Quot.sound |
| C15 | `C15_cut_around_crlf` | propext, Classical.choice, Quot.sound |
| C15 | `C15_posseg_local` | propext, Classical.choice, Quot.sound |
| C15 | `C15_posseg_around_separator` | propext, Classical.choice, Quot.sound |
| C15 | `C15_posseg_around_crlf` | propext, Classical.choice, Quot.sound |
| C16 | `C16_parallel_cut` | propext, Classical.choice, Quot.sound |
| C16 | `C16_parallel_cut_for_search` | propext, Classical.choice, Quot.sound |
| C16 | `pool_outcome` | propext, Classical.choice, Quot.sound |
| C16 | `C16_line_breaks` | propext, Classical.choice, Quot.sound |
| C17 | `C17_parallel_full_mode` | propext, Classical.choice, Quot.sound |
| C17 | `C17_literal_equality_fails` | propext, Quot.sound |
| C18 | `C18_workers_keep_dictionary` | propext, Quot.sound |
| C18 | `C18_reenable_refreshes` | propext, Quot.sound |
| C18 | `C18_disable_returns_to_serial` | propext, Quot.sound |
| C18 | `C18_parallel_and_serial_differ` | propext, Quot.sound |
| C18 | `C18_pool_present` | propext, Quot.sound |
| C18 | `C18_enable_fails` | propext, Quot.sound |
| C19 | `C19_bytes_as_text` | propext, Classical.choice, Quot.sound |
| C19 | `C19_bytes_arguments` | propext, Classical.choice, Quot.sound |
| C19 | `C19_decode_cases` | propext, Classical.choice, Quot.sound |
| C20 | `C20_prefixes_registered` | propext, Classical.choice, Quot.sound |
| C21 | `C21_dag_exact` | propext, Classical.choice, Quot.sound |
| C22 | `C22_total_of_add_words` | propext, Classical.choice, Quot.sound |
| C22 | `C22_total_ledger` | propext, Classical.choice, Quot.sound |
| C22 | `C22_total_at_least_sum` | propext, Classical.choice, Quot.sound |
| C22 | `C22_total_is_not_the_sum` | propext, Quot.sound |
| C23 | `C23_load` | propext, Classical.choice, Quot.sound |
| C23 | `C23_round_trip` | propext, Classical.choice, Quot.sound |
| C23 | `C23_byte_order_mark` | propext, Quot.sound |
| C23 | `C23_digit_values` | propext, Classical.choice, Quot.sound |
| C23 | `C23_blanks` | propext, Classical.choice, Quot.sound |
| C24 | `C24_add_word_map` | propext, Classical.choice, Quot.sound |
| C24 | `C24_add_word_rest` | propext, Classical.choice, Quot.sound |
| C24 | `C24_freq_as_text` | propext, Quot.sound |
| C25 | `C25_deleted_word_not_output` | propext, Classical.choice, Quot.sound |
| C26 | `C26_isolation` | propext, Classical.choice, Quot.sound |
| C26 | `C26_fails_with_hmm` | propext, Quot.sound |
| C27 | `C27_add_word_whole` | propext, Classical.choice, Quot.sound |
| C27 | `C27_fails_with_letters` | propext, Classical.choice, Quot.sound |
| C28 | `C28_zero_forces_split` | propext, Classical.choice, Quot.sound |
| C28 | `C28_split_criterion` | propext, Classical.choice, Quot.sound |
| C28 | `C28_does_not_force_split` | propext, Classical.choice, Quot.sound |
| C29 | `C29_reading_changes_nothing` | propext, Quot.sound |
| C29 | `C29_reading_only_initialises` | propext, Quot.sound |
| C29 | `C29_cut_initialises` | propext, Classical.choice, Quot.sound |
| C29 | `C29_tagging_initialises` | propext, Classical.choice, Quot.sound |
| C29 | `C29_extraction_initialises` | propext, Classical.choice, Quot.sound |
| C30 | `C30_word_freq_tag` | propext, Classical.choice, Quot.sound |
| C30 | `C30_word_freq` | propext, Classical.choice, Quot.sound |
| C30 | `C30_word_tag` | propext, Classical.choice, Quot.sound |
| C30 | `C30_word_only` | propext, Classical.choice, Quot.sound |
| C30 | `C30_file_line` | propext, Classical.choice, Quot.sound |
| C30 | `C30_ambiguity` | none |
| C30 | `C30_every_line` | propext, Classical.choice, Quot.sound |
| C30 | `C30_byte_order_mark` | propext, Classical.choice, Quot.sound |
| C30 | `C30_field_characters` | propext |
| C31 | `C31_load_userdict_is_add_words` | propext, Quot.sound |
| C31 | `C31_failing_line` | propext, Quot.sound |
| C31 | `C31_load_userdict_file` | propext, Quot.sound |
| C31 | `C31_load_userdict` | propext, Classical.choice, Quot.sound |
| C31 | `C31_file_line_matches` | propext, Quot.sound |
| C31 | `C31_attribute_error` | propext, Quot.sound |
| C31 | `C31_missing_file` | propext, Quot.sound |
| C32 | `C32_failed_initialize` | propext, Classical.choice, Quot.sound |
| C32 | `C32_malformed_raises` | propext, Classical.choice, Quot.sound |
| C33 | `C33_crash` | propext, Quot.sound |
| C34 | `C34_initialize_current` | propext, Quot.sound |
| C34 | `C34_default_cache_never_expires` | propext |
| C34 | `C34_shared_cache_file_mixes` | propext |
| C34 | `C34_edit_while_building_is_lost` | propext, Quot.sound |
| C35 | `C35_cache_irrelevant` | propext, Quot.sound |
| C35 | `C35_same_tokens` | propext, Quot.sound |
| C36 | `C36_built_once` | propext, Classical.choice, Quot.sound |
| C36 | `C36_return` | propext, Quot.sound |
| C36 | `C36_published` | propext, Quot.sound |
| C36 | `C36_words_of_the_dictionary` | propext, Classical.choice, Quot.sound |
| C37 | `C37_no_deadlock` | propext, Quot.sound |
| C37 | `C37_no_livelock` | propext, Quot.sound |
| C37 | `C37_all_calls_return` | propext, Classical.choice, Quot.sound |
| C38 | `C38_cache_holds_dictionary` | propext, Quot.sound |
| C38 | `C38_racing_initialize_poisons_cache` | propext, Quot.sound |
| C39 | `C39_set_dictionary` | propext, Quot.sound |
| C39 | `C39_missing_path` | none |
| C40 | `C40_posseg_lossless` | propext, Classical.choice, Quot.sound |
| C40 | `C40_posseg_lossless_no_hmm` | propext, Classical.choice, Quot.sound |
| C40 | `C40_posseg_total` | propext, Classical.choice, Quot.sound |
| C40 | `C40_posseg_lossless_any_state` | propext, Classical.choice, Quot.sound |
| C41 | `C41_hash_order_irrelevant` | propext, Classical.choice, Quot.sound |
| C41 | `C41_viterbi_order_irrelevant` | propext, Classical.choice, Quot.sound |
| C42 | `C42_viterbi_never_fails` | propext, Classical.choice, Quot.sound |
| C42 | `C42_empty_text` | propext, Quot.sound |
| C43 | `C43_tag_known` | propext, Quot.sound |
| C43 | `C43_user_tag_no_hmm` | propext, Classical.choice, Quot.sound |
| C43 | `C43_tags_no_hmm` | propext, Classical.choice, Quot.sound |
| C43 | `C43_tags_hmm` | propext, Classical.choice, Quot.sound |
| C43 | `C43_second_tokenizer_misses_tag` | propext, Quot.sound |
| C44 | `C44_nonword_is_x` | propext, Classical.choice, Quot.sound |
| C44 | `C44_branches_unreachable` | propext, Classical.choice, Quot.sound |
| C45 | `C45_parallel_posseg` | propext, Classical.choice, Quot.sound |
| C46 | `C46_posseg_words_are_cut` | propext, Classical.choice, Quot.sound |
| C46 | `C46_hyphen_differs` | propext, Quot.sound |
| C46 | `C46_word_characters` | propext, Quot.sound |
| C47 | `C47_keywords_pass_filter` | propext, Classical.choice, Quot.sound |
| C47 | `C47_keywords_pass_filter_flags` | propext, Classical.choice, Quot.sound |
| C48 | `C48_distinct` | propext, Quot.sound |
| C48 | `C48_sorted` | propext, Classical.choice, Quot.sound |
| C48 | `C48_topK` | propext, Quot.sound |
| C48 | `C48_topK_zero` | propext, Quot.sound |
| C48 | `C48_topK_negative` | propext, Quot.sound |
| C48 | `C48_textrank_sorted` | propext, Classical.choice, Quot.sound |
| C48 | `C48_textrank_topK` | propext, Quot.sound |
| C49 | `C49_with_weight_only_adds_weights` | propext, Quot.sound |
| C49 | `C49_textrank_with_weight_only_adds_weights` | propext, Quot.sound |
| C50 | `C50_weights` | propext, Classical.choice, Quot.sound |
| C50 | `C50_segmentation_fails` | propext, Quot.sound |
| C51 | `C51_stop_words_accumulate` | propext, Quot.sound |
| C51 | `C51_filtered_stay_filtered` | propext, Quot.sound |
| C51 | `C51_adds_lines` | propext, Classical.choice, Quot.sound |
| C51 | `C51_load_file` | propext, Classical.choice, Quot.sound |
| C51 | `C51_capital_stop_word_no_effect` | propext |
| C51 | `C51_capital_stop_words_same_result` | propext, Quot.sound |
| C51 | `C51_raises` | propext, Classical.choice, Quot.sound |
| C52 | `C52_set_idf_path` | propext, Classical.choice, Quot.sound |
| C52 | `C52_load_file` | propext, Classical.choice, Quot.sound |
| C52 | `C52_repeat_after_failure` | propext, Quot.sound |
| C52 | `C52_same_path_not_reloaded` | propext, Quot.sound |
| C52 | `C52_empty_file` | propext |
| C52 | `C52_returned_but_not_loaded` | propext, Classical.choice, Quot.sound |
| C52 | `C52_raises` | propext, Classical.choice, Quot.sound |
| C52 | `C52_failure_keeps_table` | propext |
| C52 | `C52_repeat` | propext, Quot.sound |
| C53 | `C53_weights_normalised` | propext, Classical.choice, Quot.sound |
| C54 | `C54_keywords_cooccur` | propext, Classical.choice, Quot.sound |
| C54 | `C54_all_cooccurring_words` | propext, Classical.choice, Quot.sound |
| C55 | `C55_never_divides_by_zero` | propext, Classical.choice, Quot.sound |
| C56 | `C56_cut_interrupted` | propext, Classical.choice, Quot.sound |
| C56 | `C56_cut_any_interleaving` | propext, Classical.choice, Quot.sound |
| C56 | `C56_cut_alone` | propext, Classical.choice, Quot.sound |
| C56 | `C56_search_any_interleaving` | propext, Classical.choice, Quot.sound |
| C56 | `C56_tokenize_any_interleaving` | propext, Classical.choice, Quot.sound |
| C57 | `C57_words` | propext, Quot.sound |
| C57 | `C57_lossless` | propext, Quot.sound |
| C57 | `C57_batch` | propext, Quot.sound |
| C57 | `C57_fails_for_empty_piece` | none |
| C57 | `C57_raises` | propext |
| C58 | `C58_one_print_per_line` | propext, Classical.choice, Quot.sound |
| C58 | `C58_prints_segmentation` | propext, Classical.choice, Quot.sound |
| C58 | `C58_one_line_per_line` | propext, Classical.choice, Quot.sound |
| C58 | `C58_default_delimiter` | propext, Classical.choice, Quot.sound |
| C58 | `C58_disjoint_delimiter` | propext, Classical.choice, Quot.sound |
| C58 | `C58_fails_for_overlapping_delimiter` | propext, Quot.sound |
| C58 | `C58_given_dictionary` | propext, Classical.choice, Quot.sound |
| C58 | `C58_user_dictionary` | propext, Classical.choice, Quot.sound |
| C59 | `C59_token_exact` | propext, Classical.choice, Quot.sound |
| C59 | `C59_token_complete` | propext, Quot.sound |
| C60 | `C60_load_tags` | propext, Classical.choice, Quot.sound |
| C60 | `C60_read_back` | propext, Classical.choice, Quot.sound |
| C60 | `C60_dictionary_without_tags` | propext |
| C61 | `C61_initialize_replaces_tags` | propext |
| C61 | `C61_set_dictionary_keeps_old_tags` | propext, Quot.sound |
| C62 | `C62_uninterrupted_initialize` | propext, Quot.sound |
| C62 | `C62_initialize_can_be_lost` | propext, Quot.sound |
| C63 | `C63_one_builder_per_tokenizer` | propext, Quot.sound |
| C63 | `C63_same_dictionary_built_twice_at_once` | propext, Quot.sound |
| C64 | `C64_block_snapshot` | propext, Classical.choice, Quot.sound |
| C64 | `C64_single_run` | propext, Classical.choice, Quot.sound |
| C64 | `C64_fails_with_hmm` | propext, Quot.sound |
| C65 | `C65_never_raises` | propext, Classical.choice, Quot.sound |
| C65 | `C65_segmentation` | propext, Classical.choice, Quot.sound |
| C65 | `C65_add_word_allowed` | propext, Classical.choice, Quot.sound |
| C65 | `C65_store_allowed` | propext, Quot.sound |
| C65 | `C65_total_allowed` | propext, Quot.sound |
| C65 | `C65_sequences_allowed` | none |
| C65 | `C65_caller_adds_words` | propext, Classical.choice, Quot.sound |
| C65 | `C65_reinitialise_race` | propext, Quot.sound |
| C66 | `C66_prints_tagged` | propext, Classical.choice, Quot.sound |
| C66 | `C66_dict_option_keeps_default_tags` | propext, Quot.sound |
| C66 | `C66_given_dictionary` | propext, Classical.choice, Quot.sound |
| C67 | `C67_end_to_end` | propext, Quot.sound |
| C67 | `C67_known_text_lossless` | propext, Quot.sound |
| C67 | `C67_tables` | propext, Quot.sound |
| C67 | `C67_not_lossless` | propext, Quot.sound |
| C67 | `C67_words` | propext, Quot.sound |
| C67 | `C67_raises` | propext, Quot.sound |
| C67 | `C67_decimal` | propext, Classical.choice, Quot.sound |
| C67 | `C67_load` | propext, Quot.sound |
| C67 | `C67_load_raises` | propext, Classical.choice, Quot.sound |
| C68 | `C68_whitespace_reaches_network` | propext, Quot.sound |
| C68 | `C68_empty_bytes` | propext, Quot.sound |
| C69 | `C69_tokens_are_stable` | propext, Classical.choice, Quot.sound |
| C69 | `C69_fails_with_hmm` | propext, Quot.sound |
| C69 | `C69_rest_is_stable` | propext, Classical.choice, Quot.sound |
| C69 | `C69_beginning_is_not_stable` | propext, Quot.sound |
| C70 | `C70_unrelated_word` | propext, Classical.choice, Quot.sound |
| C70 | `C70_unrelated_word_changes` | propext, Classical.choice, Quot.sound |
| C71 | `C71_deleting_unused_word` | propext, Classical.choice, Quot.sound |
| C71 | `C71_deleting_unused_word_matters` | propext, Classical.choice, Quot.sound |
| C71 | `C71_raising_removes` | propext, Classical.choice, Quot.sound |
| C72 | `C72_prefix_closed` | propext, Classical.choice, Quot.sound |
| C72 | `C72_cut_beside_adders` | propext, Classical.choice, Quot.sound |
| C72 | `C72_frequency_kept` | propext, Quot.sound |
| C72 | `C72_alone` | propext, Quot.sound |
| C72 | `C72_word_can_be_lost` | propext, Quot.sound |
| C72 | `C72_total_can_be_lost` | propext, Quot.sound |
| C72 | `C72_alone_first_use` | propext, Quot.sound |
| C73 | `C73_user_word_in_cache` | propext, Quot.sound |
| C74 | `C74_split_value` | propext, Classical.choice, Quot.sound |
| C74 | `C74_word_value` | propext, Classical.choice, Quot.sound |
| C74 | `C74_tune_stores_value` | propext, Classical.choice, Quot.sound |
| C74 | `C74_prefix_segment_gives_zero` | propext, Classical.choice, Quot.sound |
| C74 | `C74_empty_word` | propext, Classical.choice, Quot.sound |
| C74 | `C74_bytes` | propext, Quot.sound |
| C75 | `C75_best_states` | propext, Classical.choice, Quot.sound |
| C75 | `C75_tagged_words` | propext, Classical.choice, Quot.sound |
| C75 | `C75_latin_unique` | propext |
| C76 | `C76_weights` | propext, Classical.choice, Quot.sound |
| C77 | `C77_cache_is_written` | propext, Quot.sound |
| C77 | `C77_cache_is_read` | propext, Quot.sound |
| C77 | `C77_only_caches_change` | propext, Quot.sound |
| C78 | `C78_modes_nested` | propext, Classical.choice, Quot.sound |
| C78 | `C78_fails_with_letters` | propext, Quot.sound |
| C78 | `C78_full_mode_words_independent` | propext, Classical.choice, Quot.sound |
| C79 | `C79_proportions` | propext, Classical.choice, Quot.sound |
| C79 | `C79_repeated_text` | propext, Classical.choice, Quot.sound |
| C80 | `C80_set_stop_words` | propext, Classical.choice, Quot.sound |
| C80 | `C80_same_stop_words` | propext, Classical.choice, Quot.sound |
| C80 | `C80_textrank_keywords_are_tfidf_keywords` | propext, Classical.choice, Quot.sound |
| C80 | `C80_import` | propext, Classical.choice, Quot.sound |
| C80 | `C80_default_stop_words` | propext, Classical.choice, Quot.sound |
| C81 | `C81_cut_linear` | propext, Classical.choice, Quot.sound |
| C81 | `C81_search_linear` | propext, Classical.choice, Quot.sound |
| C81 | `C81_tokenize_linear` | propext, Classical.choice, Quot.sound |
| C81 | `C81_cut_alone` | propext, Classical.choice, Quot.sound |
| C81 | `C81_posseg_linear` | propext, Classical.choice, Quot.sound |
| C81 | `C81_posseg_alone` | propext, Classical.choice, Quot.sound |
| C82 | `C82_any_interleaving` | propext, Classical.choice, Quot.sound |
| C82 | `C82_any_interleaving_no_hmm` | propext, Classical.choice, Quot.sound |
| C82 | `C82_interrupted` | propext, Classical.choice, Quot.sound |
| C82 | `C82_alone` | propext, Quot.sound |
| C83 | `C83_tag_kept` | propext, Quot.sound |
| C83 | `C83_tag_lost` | propext, Quot.sound |
| C84 | `C84_dictionary_file` | propext, Classical.choice, Quot.sound |
| C84 | `C84_user_dictionary` | propext, Classical.choice, Quot.sound |
| C84 | `C84_order_matters_without_frequency` | propext, Classical.choice, Quot.sound |
| C84 | `C84_order_matters_for_duplicates` | propext, Classical.choice, Quot.sound |
| C85 | `C85_tag_source` | propext, Classical.choice, Quot.sound |
| C85 | `C85_shipped_tags` | propext, Classical.choice, Quot.sound |
| C86 | `C86_print_injective` | propext |
| C86 | `C86_printed_output` | propext, Classical.choice, Quot.sound |
| C86 | `C86_slash_in_tag` | propext |
| C86 | `C86_equality` | propext, Quot.sound |
| C86 | `C86_order` | propext, Classical.choice, Quot.sound |
| C86 | `C86_sorted` | propext, Classical.choice, Quot.sound |
| C87 | `C87_flag` | propext, Classical.choice, Quot.sound |
| C87 | `C87_raises` | propext |
| C87 | `C87_version` | propext, Classical.choice, Quot.sound |
| C87 | `C87_version_order` | propext, Classical.choice, Quot.sound |
| C87 | `C87_not_enabled` | propext, Classical.choice, Quot.sound |
| C87 | `C87_enabled` | propext, Classical.choice, Quot.sound |
| C87 | `C87_parallel` | propext, Quot.sound |
| C87 | `C87_lcut_loses_hmm` | propext, Quot.sound |
| C88 | `C88_seen` | propext, Quot.sound |
| C88 | `C88_list` | propext, Quot.sound |
| C89 | `C89_links_decide` | propext, Classical.choice, Quot.sound |
| C89 | `C89_paragraphs` | propext, Classical.choice, Quot.sound |
| C89 | `C89_short_separators` | propext, Classical.choice, Quot.sound |
| C90 | `C90_almost_best` | propext, Classical.choice, Quot.sound |
| C90 | `C90_clear_best` | propext, Classical.choice, Quot.sound |
| C90 | `C90_floats_monotone` | propext, Classical.choice, Quot.sound |
| C90 | `C90_int` | propext, Classical.choice, Quot.sound |
| C91 | `C91_unknown_character` | propext, Classical.choice, Quot.sound |
| C91 | `C91_exact_differs` | propext, Classical.choice, Quot.sound |
| C92 | `C92_weights_normalised` | propext, Classical.choice, Quot.sound |
| C92 | `C92_never_divides_by_zero` | propext, Classical.choice, Quot.sound |
| C93 | `C93_near_limit` | propext, Classical.choice, Quot.sound |
| C94 | `C94_cut` | propext, Classical.choice, Quot.sound |
| C94 | `C94_cut_for_search` | propext, Classical.choice, Quot.sound |
| C94 | `C94_posseg_cut` | propext, Classical.choice, Quot.sound |
| C94 | `C94_pool_present` | propext, Quot.sound |
| C94 | `C94_lcut_is_serial` | propext, Quot.sound |
| C94 | `C94_functions_disagree` | propext, Classical.choice, Quot.sound |
| C95 | `C95_counts` | propext, Classical.choice, Quot.sound |
| C95 | `C95_range` | propext, Classical.choice, Quot.sound |
| C95 | `C95_unknown_character` | propext, Classical.choice, Quot.sound |
| C96 | `C96_run` | propext, Classical.choice, Quot.sound |
| C96 | `C96_cut` | propext, Classical.choice, Quot.sound |
| C96 | `C96_only_single` | propext, Classical.choice, Quot.sound |
| C97 | `C97_load` | propext, Classical.choice, Quot.sound |
| C97 | `C97_counts` | propext, Classical.choice, Quot.sound |
| C97 | `C97_words` | propext, Classical.choice, Quot.sound |
| C97 | `C97_raises` | propext, Classical.choice, Quot.sound |
| C97 | `C97_flags` | propext, Classical.choice, Quot.sound |
| C98 | `C98_add_word_whole` | propext, Classical.choice, Quot.sound |
| C99 | `C99_no_exception` | propext, Classical.choice, Quot.sound |
| C99 | `C99_returned` | propext, Classical.choice, Quot.sound |
| C99 | `C99_table` | propext, Classical.choice, Quot.sound |
| C99 | `C99_prefix_closed` | propext, Classical.choice, Quot.sound |
| C99 | `C99_cut` | propext, Classical.choice, Quot.sound |
| C99 | `C99_search` | propext, Classical.choice, Quot.sound |
| C99 | `C99_returns` | propext, Classical.choice, Quot.sound |
| C99 | `C99_alone` | propext, Classical.choice, Quot.sound |
| C99 | `C99_not_atomic` | propext, Quot.sound |
