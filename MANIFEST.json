{
 "claims": [
  {
   "property": "C01",
   "status": "proved",
   "theorems": [
    "Jieba.Props.C01_cut_lossless",
    "Jieba.Props.C01_cut_lossless_any_state"
   ],
   "note": "The second theorem is about the public cut in any process state (any history of calls, initialised or not, any io outcome)."
  },
  {
   "property": "C02",
   "status": "proved",
   "theorems": [
    "Jieba.Props.C02_cut_no_empty_token",
    "Jieba.Props.C02_full_mode_yields_empty"
   ],
   "note": ""
  },
  {
   "property": "C03",
   "status": "proved",
   "theorems": [
    "Jieba.Props.C03_no_hmm_token_provenance",
    "Jieba.Props.C03_han_characters",
    "Jieba.Props.C03_ascii_letters_digits",
    "Jieba.Props.C03_word_characters",
    "Jieba.Props.C03_white_space"
   ],
   "note": "The theorems after the first say what Han, letter/digit, word and white-space characters are, so that the theorems that use these classes mean what they say."
  },
  {
   "property": "C04",
   "status": "proved",
   "theorems": [
    "Jieba.Props.C04_cut_optimal",
    "Jieba.Props.C04_cut_max_probability",
    "Jieba.Props.C04_path_optimal"
   ],
   "note": ""
  },
  {
   "property": "C05",
   "status": "proved",
   "theorems": [
    "Jieba.Props.C05_cut_follows_best_path",
    "Jieba.Props.C05_best_path_unique"
   ],
   "note": ""
  },
  {
   "property": "C06",
   "status": "proved",
   "theorems": [
    "Jieba.Props.C06_cut_never_raises",
    "Jieba.Props.C06_cut_raises"
   ],
   "note": ""
  },
  {
   "property": "C07",
   "status": "proved",
   "theorems": [
    "Jieba.Props.C07_hmm_only_inside_single_runs",
    "Jieba.Props.C07_multichar_words_kept"
   ],
   "note": ""
  },
  {
   "property": "C08",
   "status": "proved",
   "theorems": [
    "Jieba.Props.C08_finalseg_lossless"
   ],
   "note": ""
  },
  {
   "property": "C09",
   "status": "proved",
   "theorems": [
    "Jieba.Props.C09_viterbi_valid_optimal",
    "Jieba.Props.C09_words_of_best_tagging",
    "Jieba.Props.C09_ties"
   ],
   "note": ""
  },
  {
   "property": "C10",
   "status": "proved",
   "theorems": [
    "Jieba.Props.C10_full_mode_complete",
    "Jieba.Props.C10_fails_with_letters",
    "Jieba.Props.C10_complete_with_letters",
    "Jieba.Props.C10_part_of_token"
   ],
   "note": ""
  },
  {
   "property": "C100",
   "status": "proved",
   "theorems": [
    "Jieba.Props.C100_probabilities_lost",
    "Jieba.Props.C100_strange_run",
    "Jieba.Props.C100_strange_text",
    "Jieba.Props.C100_exact_differs"
   ],
   "note": "PosModerate and ShippedStart state the facts about the shipped numbers that are used (which start values are -3.14e100, all others small); twoTags and flatTables are instances. C100_exact_differs: a pair of tables for which exact arithmetic gives different tags."
  },
  {
   "property": "C101",
   "status": "proved",
   "theorems": [
    "Jieba.Props.C101_lines",
    "Jieba.Props.C101_words_distinct",
    "Jieba.Props.C101_encodes",
    "Jieba.Props.C101_load",
    "Jieba.Props.C101_tags",
    "Jieba.Props.C101_initialize",
    "Jieba.Props.C101_cut",
    "Jieba.Props.C101_best",
    "Jieba.Props.C101_cost",
    "Jieba.Props.C101_posseg"
   ],
   "note": "The lines are data of the model (Data/DictSmall.lean, generated from the file and compared with it byte by byte by a script); lengths, ranges, sum and distinctness are checked by the kernel with decide +kernel, everything else is proved from them."
  },
  {
   "property": "C102",
   "status": "proved",
   "theorems": [
    "Jieba.Props.C102_cut",
    "Jieba.Props.C102_search",
    "Jieba.Props.C102_posseg",
    "Jieba.Props.C102_shipped_tables",
    "Jieba.Props.C102_small_dictionary",
    "Jieba.Props.C102_small_best",
    "Jieba.Props.C102_suggest",
    "Jieba.Props.C102_add_word_whole",
    "Jieba.Props.C102_size_needed",
    "Jieba.Props.C102_textrank_same",
    "Jieba.Props.C102_textrank",
    "Jieba.Props.C102_textrank_errors"
   ],
   "note": "NaN and the sign of zero are left out (no operation of segmentation produces NaN when nothing overflows). The numbers of the posseg tables are parameters."
  },
  {
   "property": "C103",
   "status": "proved",
   "theorems": [
    "Jieba.Props.C103_split_close",
    "Jieba.Props.C103_word_close",
    "Jieba.Props.C103_off_by_at_most_one",
    "Jieba.Props.C103_pair",
    "Jieba.Props.C103_small_pair",
    "Jieba.Props.C103_small_split",
    "Jieba.Props.C103_one_less",
    "Jieba.Props.C103_one_more"
   ],
   "note": "Doubles with bounded exponents (`ieeeArith`). `exactNumber` is the unrounded quotient, `expected` (C74) the one rounded down. The two last theorems are computed witnesses that `C103_pair` cannot be strengthened."
  },
  {
   "property": "C104",
   "status": "proved",
   "theorems": [
    "Jieba.Props.C104_weights"
   ],
   "note": ""
  },
  {
   "property": "C105",
   "status": "proved",
   "theorems": [
    "Jieba.Props.C105_weights",
    "Jieba.Props.C105_order_can_differ"
   ],
   "note": ""
  },
  {
   "property": "C106",
   "status": "proved",
   "theorems": [
    "Jieba.Props.C106_no_exception",
    "Jieba.Props.C106_returned",
    "Jieba.Props.C106_table",
    "Jieba.Props.C106_prefix_closed",
    "Jieba.Props.C106_returns",
    "Jieba.Props.C106_tagged_words",
    "Jieba.Props.C106_tags",
    "Jieba.Props.C106_cut",
    "Jieba.Props.C106_tag_can_be_lost"
   ],
   "note": "Interleaving of single accesses to the shared state; check_initialized is one access (it holds the lock). Numbers: any arithmetic that respects signs."
  },
  {
   "property": "C107",
   "status": "proved",
   "theorems": [
    "Jieba.Props.C107_no_exception",
    "Jieba.Props.C107_returned",
    "Jieba.Props.C107_table",
    "Jieba.Props.C107_once",
    "Jieba.Props.C107_prefix_closed",
    "Jieba.Props.C107_returns",
    "Jieba.Props.C106_tagged_words",
    "Jieba.Props.C106_cut"
   ],
   "note": "check_initialized() holds the lock and is one access; threads going through initialize() step by step are the subject of C36 and C37. The tags of words during first use are not stated here (C106 states them for an initialised tokenizer)."
  },
  {
   "property": "C108",
   "status": "proved",
   "theorems": [
    "Jieba.Props.C108_no_exception",
    "Jieba.Props.C108_returns",
    "Jieba.Props.C108_tokenizer_calls",
    "Jieba.Props.C108_stop_words",
    "Jieba.Props.C108_stop_words_added",
    "Jieba.Props.C108_extract_tags",
    "Jieba.Props.C108_extract_tags_as_alone",
    "Jieba.Props.C108_textrank",
    "Jieba.Props.C108_textrank_as_alone",
    "Jieba.Props.C108_textrank_filter_is_shared",
    "Jieba.Props.numOk_exact",
    "Jieba.Props.numOk_doubles",
    "Jieba.Props.C108_extract_tags_alone",
    "Jieba.Props.C108_textrank_alone",
    "Jieba.Props.C108_stop_words_alone"
   ],
   "note": "That allowPOS of one call of textrank takes effect in another is a fault of the code; C108_textrank_filter_is_shared exhibits it. That no number is divided by zero is a hypothesis (NumOk), discharged for exact numbers and for doubles by numOk_exact and numOk_doubles."
  },
  {
   "property": "C109",
   "status": "proved",
   "theorems": [
    "Jieba.Props.C109_as_alone",
    "Jieba.Props.C109_ends",
    "Jieba.Props.C109_table",
    "Jieba.Props.C109_old_or_new",
    "Jieba.Props.C109_weights",
    "Jieba.Props.C109_new_table_old_median",
    "Jieba.Props.C109_two_files",
    "Jieba.Props.C109_same_file"
   ],
   "note": "That two reloads of one extractor at the same time disturb each other is a fault of the code (C109_two_files, C109_same_file exhibit it)."
  },
  {
   "property": "C11",
   "status": "proved",
   "theorems": [
    "Jieba.Props.C11_full_mode_covers",
    "Jieba.Props.C11_fails_with_letters",
    "Jieba.Props.C11_full_mode_pieces",
    "Jieba.Props.C11_letter_run",
    "Jieba.Props.C11_repeats_letters",
    "Jieba.Props.C11_full_mode_exact",
    "Jieba.Props.C11_full_mode_separators",
    "Jieba.Props.C11_full_mode_runs"
   ],
   "note": ""
  },
  {
   "property": "C110",
   "status": "proved",
   "theorems": [
    "Jieba.Props.C110_tables",
    "Jieba.Props.C110_counts",
    "Jieba.Props.C110_lists",
    "Jieba.Props.C110_unknown_text"
   ],
   "note": "The tables are generated from the files (Data/PosEmit*, PosNumbers, PosTables) and checked by the kernel; examples: 両 and 鿕 are unknown, 跛 alone becomes the beginning of a noun."
  },
  {
   "property": "C111",
   "status": "proved",
   "theorems": [
    "Jieba.Props.C111_run",
    "Jieba.Props.C111_counts",
    "Jieba.Props.C111_cut",
    "Jieba.Props.C111_only_single"
   ],
   "note": "C111_run is for all tables with the shipped keys and values of ordinary size, the others for the shipped tables; example: 醍醐 becomes the unfinished beginning of an idiom."
  },
  {
   "property": "C112",
   "status": "proved",
   "theorems": [
    "Jieba.Props.C112_alone",
    "Jieba.Props.C112_no_exception",
    "Jieba.Props.C112_returns",
    "Jieba.Props.C112_returned",
    "Jieba.Props.C112_table",
    "Jieba.Props.C112_tagged_words",
    "Jieba.Props.C112_tags",
    "Jieba.Props.C112_table_afterwards",
    "Jieba.Props.C112_not_atomic"
   ],
   "note": "initialize() without argument, on an initialised tokenizer (initialize of the tokenizer does nothing then); looking up word_tag_tab and storing an entry are one step; the dictionary file is read when it is opened."
  },
  {
   "property": "C113",
   "status": "proved",
   "theorems": [
    "Jieba.Props.C113_float",
    "Jieba.Props.C113_nearest",
    "Jieba.Props.C113_fifteen_digits",
    "Jieba.Props.C113_sixteen_digits",
    "Jieba.Props.C113_table",
    "Jieba.Props.C113_bad_number",
    "Jieba.Props.C113_weights"
   ],
   "note": "Model/FloatText is a model of CPython 3 float(str), which is not part of the repository: dg_strtod is taken to round correctly, the sign of zero is left out; it was compared with Python on 1853 strings."
  },
  {
   "property": "C114",
   "status": "proved",
   "theorems": [
    "Jieba.Props.C114_add_word_again",
    "Jieba.Props.C114_again_float",
    "Jieba.Props.C114_float_witness",
    "Jieba.Props.C114_split_again"
   ],
   "note": "add_word_again and split_again with exact arithmetic; again_float with IEEE doubles and a total of at most 2^50."
  },
  {
   "property": "C115",
   "status": "proved",
   "theorems": [
    "Jieba.Props.C115_cut",
    "Jieba.Props.C115_cut_hmm",
    "Jieba.Props.C115_search",
    "Jieba.Props.C115_letters",
    "Jieba.Props.C115_hmm_joins",
    "Jieba.Props.C115_search_hmm",
    "Jieba.Props.C115_posseg",
    "Jieba.Props.C115_full",
    "Jieba.Props.C115_full_separators"
   ],
   "note": "Addition of scores without rounding (ExactAdd; the real numbers are such); full mode needs none."
  },
  {
   "property": "C116",
   "status": "proved",
   "theorems": [
    "Jieba.Props.C116_same_words",
    "Jieba.Props.C116_greater_total",
    "Jieba.Props.C116_state",
    "Jieba.Props.C116_added_and_deleted",
    "Jieba.Props.C116_deleted_and_restored",
    "Jieba.Props.C116_not_undone",
    "Jieba.Props.C116_not_restored"
   ],
   "note": "C116_same_words for every arithmetic; C116_greater_total and the texts without HMM in exact arithmetic."
  },
  {
   "property": "C117",
   "status": "proved",
   "theorems": [
    "Jieba.Props.C117_hmm_only_joins",
    "Jieba.Props.C117_long_tokens_survive",
    "Jieba.Props.C117_no_more_tokens",
    "Jieba.Props.C117_posseg",
    "Jieba.Props.C117_letters_may_split"
   ],
   "note": "The sub-segmenter may be any function that cuts its argument into non-empty pieces; the two HMMs are shown to be such functions."
  },
  {
   "property": "C118",
   "status": "proved",
   "theorems": [
    "Jieba.Props.C118_no_bounded_lookahead"
   ],
   "note": "A negative result by an explicit family of texts; exact real arithmetic."
  },
  {
   "property": "C119",
   "status": "proved",
   "theorems": [
    "Jieba.Props.C119_accurate",
    "Jieba.Props.C119_search",
    "Jieba.Props.C119_full",
    "Jieba.Props.C119_world",
    "Jieba.Props.C119_posseg",
    "Jieba.Props.C119_add_word_iff",
    "Jieba.Props.C119_hyphen_differs",
    "Jieba.Props.C119_own_userdict",
    "Jieba.Props.C03_word_characters",
    "Jieba.Props.C46_word_characters"
   ],
   "note": "posseg with HMM: the shipped states, transitions and character table, any numbers."
  },
  {
   "property": "C12",
   "status": "proved",
   "theorems": [
    "Jieba.Props.C12_search_extends_accurate",
    "Jieba.Props.C12_accurate_is_subsequence",
    "Jieba.Props.C14_search_offsets"
   ],
   "note": ""
  },
  {
   "property": "C120",
   "status": "proved",
   "theorems": [
    "Jieba.Props.C120_hmm",
    "Jieba.Props.C120_no_hmm",
    "Jieba.Props.C120_percentage",
    "Jieba.Props.C120_numberTokens_unique",
    "Jieba.Props.C120_letterRuns_unique",
    "Jieba.Props.C120_posseg",
    "Jieba.Props.C120_posseg_example",
    "Jieba.Props.C120_word_inside"
   ],
   "note": "C120_hmm and C120_no_hmm give the tokens as relations NumberTokens and LetterRuns; the two uniqueness theorems say that these relations leave no choice. C120_percentage is the consequence for numbers with decimals and a percent sign. C120_posseg is for the shipped tables of the POS tagger; C120_posseg_example shows both modes on one number. C120_word_inside: the hypothesis on dictionary words is needed."
  },
  {
   "property": "C121",
   "status": "proved",
   "theorems": [
    "Jieba.Props.C121_no_hmm_bounded",
    "Jieba.Props.C121_hmm_word",
    "Jieba.Props.C121_hmm_unbounded"
   ],
   "note": "C121_hmm_word is for finalseg.cut, C121_hmm_unbounded for cut of a tokenizer. The word 早稲田 itself is the case k = 1. The doubles are those of Model/Double."
  },
  {
   "property": "C122",
   "status": "proved",
   "theorems": [
    "Jieba.Props.C122_weighted_mean",
    "Jieba.Props.C122_order_kept",
    "Jieba.Props.C122_exchanged"
   ],
   "note": "For topK=None and withWeight=True; C49 and C79 say how topK and withWeight select from this result. Exact arithmetic only: with doubles the sums and quotients round."
  },
  {
   "property": "C123",
   "status": "proved",
   "theorems": [
    "Jieba.Props.C123_proportional",
    "Jieba.Props.C123_proportional_search",
    "Jieba.Props.C123_proportional_posseg",
    "Jieba.Props.C123_scaled",
    "Jieba.Props.C123_unknown_characters",
    "Jieba.Props.C123_fewest_words"
   ],
   "note": "Exact arithmetic only: with doubles the logarithms of proportional numbers round differently. C123_fewest_words is for runs of word characters without ASCII letters and digits, whose characters are in the dictionary or whose words all have frequency 1."
  },
  {
   "property": "C124",
   "status": "proved",
   "theorems": [
    "Jieba.Props.C124_parsed",
    "Jieba.Props.C124_two_files",
    "Jieba.Props.C124_order",
    "Jieba.Props.C124_swallowed",
    "Jieba.Props.C124_swallowed_output",
    "Jieba.Props.C124_input",
    "Jieba.Props.C124_missing_value",
    "Jieba.Props.C124_version",
    "Jieba.Props.C124_unknown",
    "Jieba.Props.C124_empty_pos",
    "Jieba.Props.C124_dashes",
    "Jieba.Props.C124_dashes_two_files"
   ],
   "note": "Model of parse_args of CPython 3.11 for the options declared in __main__.py. The ways of writing are those of Spec.Chunk."
  },
  {
   "property": "C125",
   "status": "proved",
   "theorems": [
    "Jieba.Props.C125_state",
    "Jieba.Props.C125_full_mode",
    "Jieba.Props.C125_coarser",
    "Jieba.Props.C125_fewest_words",
    "Jieba.Props.C125_twice_is_not_once"
   ],
   "note": "C125_coarser also says when the segmentation stops changing. C125_twice_is_not_once is the concrete witness."
  },
  {
   "property": "C126",
   "status": "proved",
   "theorems": [
    "Jieba.Props.C126_accurate",
    "Jieba.Props.C126_tagging",
    "Jieba.Props.C126_search",
    "Jieba.Props.C126_search_sharp",
    "Jieba.Props.C126_full_mode",
    "Jieba.Props.C126_full_mode_quadratic"
   ],
   "note": "C126_search_sharp is for texts of one repeated character whose pairs and triples are words."
  },
  {
   "property": "C127",
   "status": "proved",
   "theorems": [
    "Jieba.Props.C127_short_stop_words",
    "Jieba.Props.C127_shipped_list",
    "Jieba.Props.C127_shipped_effect",
    "Jieba.Props.C127_pairs_matter"
   ],
   "note": "Data/StopWords holds the bytes of the file; that they are those of the file was checked by the script that generated them."
  },
  {
   "property": "C128",
   "status": "proved",
   "theorems": [
    "Jieba.Props.C128_calc_succeeds",
    "Jieba.Props.C128_calc_best",
    "Jieba.Props.C128_before_first_use",
    "Jieba.Props.C128_after_set_dictionary",
    "Jieba.Props.C128_as_cut"
   ],
   "note": "Ends in the graph are not negative and the keys are 0 up to some number; route is empty before the call. C128_as_cut: word characters other than ASCII letters and digits."
  },
  {
   "property": "C129",
   "status": "proved",
   "theorems": [
    "Jieba.Props.C129_appendix",
    "Jieba.Props.C129_segmentation",
    "Jieba.Props.C129_tags",
    "Jieba.Props.C129_other_lines"
   ],
   "note": ""
  },
  {
   "property": "C13",
   "status": "proved",
   "theorems": [
    "Jieba.Props.C13_tokenize_default"
   ],
   "note": ""
  },
  {
   "property": "C130",
   "status": "proved",
   "theorems": [
    "Jieba.Props.C130_passed_on",
    "Jieba.Props.C130_refused",
    "Jieba.Props.C130_which",
    "Jieba.Props.C130_assignment",
    "Jieba.Props.C130_without_tokenizer",
    "Jieba.Props.C130_nested_tags"
   ],
   "note": "Attribute access as in Python: instance, class, then __getattr__; data descriptors of object are not distinguished and methods are not bound (Model/Attr)."
  },
  {
   "property": "C131",
   "status": "proved",
   "theorems": [
    "Jieba.Props.C131_only_words_of_text",
    "Jieba.Props.C131_tags",
    "Jieba.Props.C131_restricted",
    "Jieba.Props.C131_deleted_elsewhere",
    "Jieba.Props.C131_added_elsewhere",
    "Jieba.Props.C131_needs_prefixes"
   ],
   "note": "Any arithmetic. C131_needs_prefixes shows by a concrete dictionary that prefix closure cannot be dropped (C20: reachable dictionaries have it). That the total does matter is C70_unrelated_word_changes."
  },
  {
   "property": "C132",
   "status": "proved",
   "theorems": [
    "Jieba.Props.C132_renaming",
    "Jieba.Props.C132_tags",
    "Jieba.Props.C132_unknown_characters",
    "Jieba.Props.C132_only_in_range"
   ],
   "note": "The iteration order of sets in the POS tagger is renamed along (C41: results do not depend on it). C132_only_in_range is a concrete witness."
  },
  {
   "property": "C133",
   "status": "proved",
   "theorems": [
    "Jieba.Props.C133_common_refinement",
    "Jieba.Props.C133_difference",
    "Jieba.Props.C133_forced_splits_not_in_posseg"
   ],
   "note": "Texts with ASCII letters and digits are excluded because the HMM may split them (C117_letters_may_split), % and - because posseg treats them as parts of words (C46)."
  },
  {
   "property": "C134",
   "status": "proved",
   "theorems": [
    "Jieba.Props.C134_rest_untouched",
    "Jieba.Props.C134_route_before_is_ignored",
    "Jieba.Props.C134_calc_succeeds",
    "Jieba.Props.C134_route_reused",
    "Jieba.Props.C134_stale_entries"
   ],
   "note": "Model/Route has DAG and route as dicts with int keys, and the partly filled route if an exception is raised; C134_route_before_is_ignored relates it to the model with natural numbers (C128)."
  },
  {
   "property": "C135",
   "status": "proved",
   "theorems": [
    "Jieba.Props.C135_repr_is_literal",
    "Jieba.Props.C135_one_line",
    "Jieba.Props.C135_pair",
    "Jieba.Props.C135_lists",
    "Jieba.Props.C135_printed_cut",
    "Jieba.Props.C135_printed_tags",
    "Jieba.Props.C135_tokenizers",
    "Jieba.Props.C135_plain",
    "Jieba.Props.C135_layout"
   ],
   "note": "Python 3. Spec/Literal defines what a literal denotes, apart from how repr writes it. Which characters are printable is a parameter. The printed-output theorems assume that the call did not raise (C06 says when cut raises)."
  },
  {
   "property": "C136",
   "status": "proved",
   "theorems": [
    "Jieba.Props.C136_pieces",
    "Jieba.Props.C136_stable_tokens",
    "Jieba.Props.C136_segmented_again",
    "Jieba.Props.C136_posseg_pieces",
    "Jieba.Props.C136_tagged_again",
    "Jieba.Props.C136_fails_with_hmm",
    "Jieba.Props.C136_word_character"
   ],
   "note": "Exact (real) arithmetic where tokens have to be stable (C69); the statements about pieces hold in any arithmetic. The negative statements use concrete dictionaries."
  },
  {
   "property": "C137",
   "status": "proved",
   "theorems": [
    "Jieba.Props.C137_dictionary",
    "Jieba.Props.C137_tags",
    "Jieba.Props.C137_readable",
    "Jieba.Props.C137_repair"
   ],
   "note": "Python 3. The name of the file is a parameter. C23 and C60 say what is loaded if there is no such line."
  },
  {
   "property": "C138",
   "status": "proved",
   "theorems": [
    "Jieba.Props.C138_absolute",
    "Jieba.Props.C138_one_place",
    "Jieba.Props.C138_again",
    "Jieba.Props.C138_same",
    "Jieba.Props.C138_spellings",
    "Jieba.Props.C138_dictionaries",
    "Jieba.Props.C138_double_slash",
    "Jieba.Props.C138_more_slashes"
   ],
   "note": "POSIX paths, as in posixpath.py of CPython 3.11. Symbolic links are not considered: _get_abs_path does not look at the file system either, so with links d/../p may be another file than p."
  },
  {
   "property": "C139",
   "status": "proved",
   "theorems": [
    "Jieba.Props.C139_results",
    "Jieba.Props.C139_silent",
    "Jieba.Props.C139_default",
    "Jieba.Props.C139_given",
    "Jieba.Props.C139_levels",
    "Jieba.Props.C139_levels_only_show",
    "Jieba.Props.C139_quiet",
    "Jieba.Props.C139_paddle",
    "Jieba.Props.C139_not_silent",
    "Jieba.Props.C139_enable"
   ],
   "note": "Messages stand for their texts; the seconds and the traceback are left out. logging of CPython 3.11 with its defaults (see Model/Logging)."
  },
  {
   "property": "C14",
   "status": "proved",
   "theorems": [
    "Jieba.Props.C14_tokenize_search",
    "Jieba.Props.C14_search_offsets"
   ],
   "note": ""
  },
  {
   "property": "C140",
   "status": "proved",
   "theorems": [
    "Jieba.Props.C140_irrelevant",
    "Jieba.Props.C140_raised",
    "Jieba.Props.C140_top",
    "Jieba.Props.C140_scaled",
    "Jieba.Props.C140_raised_float",
    "Jieba.Props.C140_top_float"
   ],
   "note": "C140_irrelevant for every arithmetic. C140_raised_float and C140_top_float for IEEE doubles, texts with up to 2^53 accepted tokens and IDFs of the raised words that are 0 or between 2^-100 and 2^100; the other theorems with exact arithmetic. The one-word statements are for withFlag=False, where a word is one keyword. A new IDF file may also change the median and with it the IDFs of all words that it does not list."
  },
  {
   "property": "C141",
   "status": "proved",
   "theorems": [
    "Jieba.Props.C141_more_stop_words",
    "Jieba.Props.C141_top",
    "Jieba.Props.C141_fewer_tags"
   ],
   "note": "Exact arithmetic. Which words set_stop_words adds is C51."
  },
  {
   "property": "C142",
   "status": "proved",
   "theorems": [
    "Jieba.Props.C142_no_window",
    "Jieba.Props.C142_grows",
    "Jieba.Props.C142_wide",
    "Jieba.Props.C142_two_keywords",
    "Jieba.Props.C142_neighbour_lost"
   ],
   "note": "C142_two_keywords with exact arithmetic; the others for every arithmetic. That textrank does not raise is C55."
  },
  {
   "property": "C143",
   "status": "proved",
   "theorems": [
    "Jieba.Props.C143_dt",
    "Jieba.Props.C143_get_FREQ",
    "Jieba.Props.C143_never_switched",
    "Jieba.Props.C143_disabled",
    "Jieba.Props.C143_enabled",
    "Jieba.Props.C143_enable_fails",
    "Jieba.Props.C143_documented",
    "Jieba.Props.C143_not_one_tokenizer"
   ],
   "note": "Stated for cut; cut_for_search is bound at the same places. jieba.posseg.dt is not part of this model."
  },
  {
   "property": "C144",
   "status": "proved",
   "theorems": [
    "Jieba.Props.C144_more_often",
    "Jieba.Props.C144_rises"
   ],
   "note": "Exact arithmetic. Counts are those of accepted tokens (C47, C50 say which those are)."
  },
  {
   "property": "C145",
   "status": "proved",
   "theorems": [
    "Jieba.Props.C145_size",
    "Jieba.Props.C145_size_raises",
    "Jieba.Props.C145_ids",
    "Jieba.Props.C145_labels",
    "Jieba.Props.C145_labels_below",
    "Jieba.Props.C145_labels_raise",
    "Jieba.Props.C145_shipped",
    "Jieba.Props.C145_no_exception",
    "Jieba.Props.C145_round_trip"
   ],
   "note": "The network itself is an arbitrary function."
  },
  {
   "property": "C146",
   "status": "proved",
   "theorems": [
    "Jieba.Props.C146_same_ids",
    "Jieba.Props.C146_same_words",
    "Jieba.Props.C146_cut",
    "Jieba.Props.C146_whitespace"
   ],
   "note": "The network is an arbitrary function of the ids. The shipped tables are inverse to each other and have OOV (C97)."
  },
  {
   "property": "C15",
   "status": "proved",
   "theorems": [
    "Jieba.Props.C15_cut_local",
    "Jieba.Props.C15_cut_around_separator",
    "Jieba.Props.C15_cut_around_crlf",
    "Jieba.Props.C15_posseg_local",
    "Jieba.Props.C15_posseg_around_separator",
    "Jieba.Props.C15_posseg_around_crlf"
   ],
   "note": ""
  },
  {
   "property": "C16",
   "status": "proved",
   "theorems": [
    "Jieba.Props.C16_parallel_cut",
    "Jieba.Props.C16_parallel_cut_for_search",
    "Jieba.Props.pool_outcome",
    "Jieba.Props.C16_line_breaks"
   ],
   "note": "For every outcome of the pool (relation PoolMap); if a line raises, an exception of one of the lines is raised."
  },
  {
   "property": "C17",
   "status": "proved",
   "theorems": [
    "Jieba.Props.C17_parallel_full_mode",
    "Jieba.Props.C17_literal_equality_fails"
   ],
   "note": "Equality after dropping empty tokens; negative witness for literal equality."
  },
  {
   "property": "C18",
   "status": "proved",
   "theorems": [
    "Jieba.Props.C18_workers_keep_dictionary",
    "Jieba.Props.C18_reenable_refreshes",
    "Jieba.Props.C18_disable_returns_to_serial",
    "Jieba.Props.C18_parallel_and_serial_differ",
    "Jieba.Props.C18_pool_present",
    "Jieba.Props.C18_enable_fails"
   ],
   "note": "Fork start method; workers are copies of the process state."
  },
  {
   "property": "C19",
   "status": "proved",
   "theorems": [
    "Jieba.Props.C19_bytes_as_text",
    "Jieba.Props.C19_bytes_arguments",
    "Jieba.Props.C19_decode_cases"
   ],
   "note": "GBK decoding with errors=ignore is an uninterpreted total function."
  },
  {
   "property": "C20",
   "status": "proved",
   "theorems": [
    "Jieba.Props.C20_prefixes_registered"
   ],
   "note": "All histories, with files changed from outside; cache files must be dumps of prefix-complete tables."
  },
  {
   "property": "C21",
   "status": "proved",
   "theorems": [
    "Jieba.Props.C21_dag_exact"
   ],
   "note": ""
  },
  {
   "property": "C22",
   "status": "proved",
   "theorems": [
    "Jieba.Props.C22_total_of_add_words",
    "Jieba.Props.C22_total_ledger",
    "Jieba.Props.C22_total_at_least_sum",
    "Jieba.Props.C22_total_is_not_the_sum"
   ],
   "note": ""
  },
  {
   "property": "C23",
   "status": "proved",
   "theorems": [
    "Jieba.Props.C23_load",
    "Jieba.Props.C23_round_trip",
    "Jieba.Props.C23_byte_order_mark",
    "Jieba.Props.C23_digit_values",
    "Jieba.Props.C23_blanks"
   ],
   "note": ""
  },
  {
   "property": "C24",
   "status": "proved",
   "theorems": [
    "Jieba.Props.C24_add_word_map",
    "Jieba.Props.C24_add_word_rest",
    "Jieba.Props.C24_freq_as_text"
   ],
   "note": ""
  },
  {
   "property": "C25",
   "status": "proved",
   "theorems": [
    "Jieba.Props.C25_deleted_word_not_output"
   ],
   "note": ""
  },
  {
   "property": "C26",
   "status": "proved",
   "theorems": [
    "Jieba.Props.C26_isolation",
    "Jieba.Props.C26_fails_with_hmm"
   ],
   "note": "Isolation for HMM=False and full mode; negative witness for HMM=True."
  },
  {
   "property": "C27",
   "status": "proved",
   "theorems": [
    "Jieba.Props.C27_add_word_whole",
    "Jieba.Props.C27_fails_with_letters"
   ],
   "note": "Exact (real) arithmetic; the negation for words with ASCII letters is proved with a witness."
  },
  {
   "property": "C28",
   "status": "proved",
   "theorems": [
    "Jieba.Props.C28_zero_forces_split",
    "Jieba.Props.C28_split_criterion",
    "Jieba.Props.C28_does_not_force_split"
   ],
   "note": "The general claim is false (witness in exact arithmetic); it is proved when the suggested frequency is 0, and an exact criterion is given for f >= 1."
  },
  {
   "property": "C29",
   "status": "proved",
   "theorems": [
    "Jieba.Props.C29_reading_changes_nothing",
    "Jieba.Props.C29_reading_only_initialises",
    "Jieba.Props.C29_cut_initialises",
    "Jieba.Props.C29_tagging_initialises",
    "Jieba.Props.C29_extraction_initialises"
   ],
   "note": "Also exactly when cut, posseg.cut, extract_tags and textrank initialise the tokenizer (at the first character that can belong to a word) and that they do nothing else to the state."
  },
  {
   "property": "C30",
   "status": "proved",
   "theorems": [
    "Jieba.Props.C30_word_freq_tag",
    "Jieba.Props.C30_word_freq",
    "Jieba.Props.C30_word_tag",
    "Jieba.Props.C30_word_only",
    "Jieba.Props.C30_file_line",
    "Jieba.Props.C30_ambiguity",
    "Jieba.Props.C30_every_line",
    "Jieba.Props.C30_byte_order_mark",
    "Jieba.Props.C30_field_characters"
   ],
   "note": ""
  },
  {
   "property": "C31",
   "status": "proved",
   "theorems": [
    "Jieba.Props.C31_load_userdict_is_add_words",
    "Jieba.Props.C31_failing_line",
    "Jieba.Props.C31_load_userdict_file",
    "Jieba.Props.C31_load_userdict",
    "Jieba.Props.C31_file_line_matches",
    "Jieba.Props.C31_attribute_error",
    "Jieba.Props.C31_missing_file"
   ],
   "note": ""
  },
  {
   "property": "C32",
   "status": "proved",
   "theorems": [
    "Jieba.Props.C32_failed_initialize",
    "Jieba.Props.C32_malformed_raises"
   ],
   "note": "Any failing initialize; the dictionary attribute may already have been switched."
  },
  {
   "property": "C33",
   "status": "proved",
   "theorems": [
    "Jieba.Props.C33_crash"
   ],
   "note": "Every reachable state of the thread machine (Model/Threads.lean) is a possible crash point. Assumes that temporary names are never cache names and that no other process writes the cache or the temporary files; atomicity of rename is part of the model."
  },
  {
   "property": "C34",
   "status": "proved",
   "theorems": [
    "Jieba.Props.C34_initialize_current",
    "Jieba.Props.C34_default_cache_never_expires",
    "Jieba.Props.C34_shared_cache_file_mixes",
    "Jieba.Props.C34_edit_while_building_is_lost"
   ],
   "note": "initialize is atomic in the positive part (no write to the dictionary while it runs). md5 is assumed injective on the dictionaries in use. Negative parts: default dictionary, shared cache_file, dictionary edited while it is being cached."
  },
  {
   "property": "C35",
   "status": "proved",
   "theorems": [
    "Jieba.Props.C35_cache_irrelevant",
    "Jieba.Props.C35_same_tokens"
   ],
   "note": ""
  },
  {
   "property": "C36",
   "status": "proved",
   "theorems": [
    "Jieba.Props.C36_built_once",
    "Jieba.Props.C36_return",
    "Jieba.Props.C36_published",
    "Jieba.Props.C36_words_of_the_dictionary"
   ],
   "note": "Any number of threads, any interleaving, other tokenizers doing anything. Calls on the tokenizer: initialize() and check_initialized(); add_word and friends at the same time are not modelled."
  },
  {
   "property": "C37",
   "status": "proved",
   "theorems": [
    "Jieba.Props.C37_no_deadlock",
    "Jieba.Props.C37_no_livelock",
    "Jieba.Props.C37_all_calls_return"
   ],
   "note": ""
  },
  {
   "property": "C38",
   "status": "proved",
   "theorems": [
    "Jieba.Props.C38_cache_holds_dictionary",
    "Jieba.Props.C38_racing_initialize_poisons_cache"
   ],
   "note": "The positive part holds if every tokenizer keeps its dictionary path; the statement without that is refuted by a concrete schedule."
  },
  {
   "property": "C39",
   "status": "proved",
   "theorems": [
    "Jieba.Props.C39_set_dictionary",
    "Jieba.Props.C39_missing_path"
   ],
   "note": "The force-split set of finalseg is kept; user tags are kept too (see C43)."
  },
  {
   "property": "C40",
   "status": "proved",
   "theorems": [
    "Jieba.Props.C40_posseg_lossless",
    "Jieba.Props.C40_posseg_lossless_no_hmm",
    "Jieba.Props.C40_posseg_total",
    "Jieba.Props.C40_posseg_lossless_any_state"
   ],
   "note": "Any dictionary, any arithmetic; tables: shipped transition/char-state tables (Shipped), any emission values. Transition tables are checked as data generated from the shipped files."
  },
  {
   "property": "C41",
   "status": "proved",
   "theorems": [
    "Jieba.Props.C41_hash_order_irrelevant",
    "Jieba.Props.C41_viterbi_order_irrelevant"
   ],
   "note": "Iteration order of the intermediate sets is an arbitrary permutation per call."
  },
  {
   "property": "C42",
   "status": "proved",
   "theorems": [
    "Jieba.Props.C42_viterbi_never_fails",
    "Jieba.Props.C42_empty_text"
   ],
   "note": "The second theorem is the exception that makes the restriction to non-empty texts necessary."
  },
  {
   "property": "C43",
   "status": "proved",
   "theorems": [
    "Jieba.Props.C43_tag_known",
    "Jieba.Props.C43_user_tag_no_hmm",
    "Jieba.Props.C43_tags_no_hmm",
    "Jieba.Props.C43_tags_hmm",
    "Jieba.Props.C43_second_tokenizer_misses_tag"
   ],
   "note": "All histories that keep the tag (KeepsTag); negative part by a concrete witness."
  },
  {
   "property": "C44",
   "status": "proved",
   "theorems": [
    "Jieba.Props.C44_nonword_is_x",
    "Jieba.Props.C44_branches_unreachable"
   ],
   "note": ""
  },
  {
   "property": "C45",
   "status": "proved",
   "theorems": [
    "Jieba.Props.C45_parallel_posseg"
   ],
   "note": "Pool map modelled as map over lines with the dictionary of the workers equal to the current one."
  },
  {
   "property": "C46",
   "status": "proved",
   "theorems": [
    "Jieba.Props.C46_posseg_words_are_cut",
    "Jieba.Props.C46_hyphen_differs",
    "Jieba.Props.C46_word_characters"
   ],
   "note": "Second theorem: the restriction on '-' is needed."
  },
  {
   "property": "C47",
   "status": "proved",
   "theorems": [
    "Jieba.Props.C47_keywords_pass_filter",
    "Jieba.Props.C47_keywords_pass_filter_flags"
   ],
   "note": "str.lower is any function; blank = Python's Unicode whitespace."
  },
  {
   "property": "C48",
   "status": "proved",
   "theorems": [
    "Jieba.Props.C48_distinct",
    "Jieba.Props.C48_sorted",
    "Jieba.Props.C48_topK",
    "Jieba.Props.C48_topK_zero",
    "Jieba.Props.C48_topK_negative",
    "Jieba.Props.C48_textrank_sorted",
    "Jieba.Props.C48_textrank_topK"
   ],
   "note": "Any arithmetic over a linear order, so without NaN."
  },
  {
   "property": "C49",
   "status": "proved",
   "theorems": [
    "Jieba.Props.C49_with_weight_only_adds_weights",
    "Jieba.Props.C49_textrank_with_weight_only_adds_weights"
   ],
   "note": ""
  },
  {
   "property": "C50",
   "status": "proved",
   "theorems": [
    "Jieba.Props.C50_weights",
    "Jieba.Props.C50_segmentation_fails"
   ],
   "note": "The weight is the expression as computed in any arithmetic: count summed from zero, times idf, divided by the total."
  },
  {
   "property": "C51",
   "status": "proved",
   "theorems": [
    "Jieba.Props.C51_stop_words_accumulate",
    "Jieba.Props.C51_filtered_stay_filtered",
    "Jieba.Props.C51_adds_lines",
    "Jieba.Props.C51_load_file",
    "Jieba.Props.C51_capital_stop_word_no_effect",
    "Jieba.Props.C51_capital_stop_words_same_result",
    "Jieba.Props.C51_raises"
   ],
   "note": "str.lower: any function whose results contain no ASCII capital."
  },
  {
   "property": "C52",
   "status": "proved",
   "theorems": [
    "Jieba.Props.C52_set_idf_path",
    "Jieba.Props.C52_load_file",
    "Jieba.Props.C52_repeat_after_failure",
    "Jieba.Props.C52_same_path_not_reloaded",
    "Jieba.Props.C52_empty_file",
    "Jieba.Props.C52_returned_but_not_loaded",
    "Jieba.Props.C52_raises",
    "Jieba.Props.C52_failure_keeps_table",
    "Jieba.Props.C52_repeat"
   ],
   "note": "'Returned normally implies loaded' is refuted by C52_returned_but_not_loaded (concrete history) and C52_repeat_after_failure (all of them)."
  },
  {
   "property": "C53",
   "status": "proved",
   "theorems": [
    "Jieba.Props.C53_weights_normalised"
   ],
   "note": "Exact arithmetic (any ordered field), 0 <= d < 1 (shipped d = 0.85), float_info.min < 1 - d, float_info.max greater than twice the number of window positions. IEEE rounding is not modelled."
  },
  {
   "property": "C54",
   "status": "proved",
   "theorems": [
    "Jieba.Props.C54_keywords_cooccur",
    "Jieba.Props.C54_all_cooccurring_words"
   ],
   "note": "Any arithmetic. By positions in the token list of posseg.cut; that those words are substrings of the text is C40."
  },
  {
   "property": "C55",
   "status": "proved",
   "theorems": [
    "Jieba.Props.C55_never_divides_by_zero"
   ],
   "note": "Same hypotheses as C53."
  },
  {
   "property": "C56",
   "status": "proved",
   "theorems": [
    "Jieba.Props.C56_cut_interrupted",
    "Jieba.Props.C56_cut_any_interleaving",
    "Jieba.Props.C56_cut_alone",
    "Jieba.Props.C56_search_any_interleaving",
    "Jieba.Props.C56_tokenize_any_interleaving"
   ],
   "note": "If an exception is raised (e.g. KeyError after a concurrent re-initialisation) the tokens join to a beginning of the text."
  },
  {
   "property": "C57",
   "status": "proved",
   "theorems": [
    "Jieba.Props.C57_words",
    "Jieba.Props.C57_lossless",
    "Jieba.Props.C57_batch",
    "Jieba.Props.C57_fails_for_empty_piece",
    "Jieba.Props.C57_raises"
   ],
   "note": ""
  },
  {
   "property": "C58",
   "status": "proved",
   "theorems": [
    "Jieba.Props.C58_one_print_per_line",
    "Jieba.Props.C58_prints_segmentation",
    "Jieba.Props.C58_one_line_per_line",
    "Jieba.Props.C58_default_delimiter",
    "Jieba.Props.C58_disjoint_delimiter",
    "Jieba.Props.C58_fails_for_overlapping_delimiter",
    "Jieba.Props.C58_given_dictionary",
    "Jieba.Props.C58_user_dictionary"
   ],
   "note": "The literal statement is false for delimiters that overlap the text (refuted by C58_fails_for_overlapping_delimiter); proved for the default delimiter and every line, and for delimiters sharing no character with the line. Recovery is for runs without -p and -a. In runs ending with an exception, for the lines printed before it."
  },
  {
   "property": "C59",
   "status": "proved",
   "theorems": [
    "Jieba.Props.C59_token_exact",
    "Jieba.Props.C59_token_complete"
   ],
   "note": ""
  },
  {
   "property": "C60",
   "status": "proved",
   "theorems": [
    "Jieba.Props.C60_load_tags",
    "Jieba.Props.C60_read_back",
    "Jieba.Props.C60_dictionary_without_tags"
   ],
   "note": ""
  },
  {
   "property": "C61",
   "status": "proved",
   "theorems": [
    "Jieba.Props.C61_initialize_replaces_tags",
    "Jieba.Props.C61_set_dictionary_keeps_old_tags"
   ],
   "note": ""
  },
  {
   "property": "C62",
   "status": "proved",
   "theorems": [
    "Jieba.Props.C62_uninterrupted_initialize",
    "Jieba.Props.C62_initialize_can_be_lost"
   ],
   "note": ""
  },
  {
   "property": "C63",
   "status": "proved",
   "theorems": [
    "Jieba.Props.C63_one_builder_per_tokenizer",
    "Jieba.Props.C63_same_dictionary_built_twice_at_once"
   ],
   "note": ""
  },
  {
   "property": "C64",
   "status": "proved",
   "theorems": [
    "Jieba.Props.C64_block_snapshot",
    "Jieba.Props.C64_single_run",
    "Jieba.Props.C64_fails_with_hmm"
   ],
   "note": "C64_block_snapshot is for runs without an exception."
  },
  {
   "property": "C65",
   "status": "proved",
   "theorems": [
    "Jieba.Props.C65_never_raises",
    "Jieba.Props.C65_segmentation",
    "Jieba.Props.C65_add_word_allowed",
    "Jieba.Props.C65_store_allowed",
    "Jieba.Props.C65_total_allowed",
    "Jieba.Props.C65_sequences_allowed",
    "Jieba.Props.C65_caller_adds_words",
    "Jieba.Props.C65_reinitialise_race"
   ],
   "note": ""
  },
  {
   "property": "C66",
   "status": "proved",
   "theorems": [
    "Jieba.Props.C66_prints_tagged",
    "Jieba.Props.C66_dict_option_keeps_default_tags",
    "Jieba.Props.C66_given_dictionary"
   ],
   "note": "For the shipped POS tables."
  },
  {
   "property": "C67",
   "status": "proved",
   "theorems": [
    "Jieba.Props.C67_end_to_end",
    "Jieba.Props.C67_known_text_lossless",
    "Jieba.Props.C67_tables",
    "Jieba.Props.C67_not_lossless",
    "Jieba.Props.C67_words",
    "Jieba.Props.C67_raises",
    "Jieba.Props.C67_decimal",
    "Jieba.Props.C67_load",
    "Jieba.Props.C67_load_raises"
   ],
   "note": "The hypothesis on the files (canonical ids) is proved for the shipped word.dic in C97."
  },
  {
   "property": "C68",
   "status": "proved",
   "theorems": [
    "Jieba.Props.C68_whitespace_reaches_network",
    "Jieba.Props.C68_empty_bytes"
   ],
   "note": "What the shipped network does with an empty input is outside the model; the theorems assume an exception, as the comment in the code says."
  },
  {
   "property": "C69",
   "status": "proved",
   "theorems": [
    "Jieba.Props.C69_tokens_are_stable",
    "Jieba.Props.C69_fails_with_hmm",
    "Jieba.Props.C69_rest_is_stable",
    "Jieba.Props.C69_beginning_is_not_stable"
   ],
   "note": "Exact (real) arithmetic; the witness for HMM uses the sample tables and integer scores."
  },
  {
   "property": "C70",
   "status": "proved",
   "theorems": [
    "Jieba.Props.C70_unrelated_word",
    "Jieba.Props.C70_unrelated_word_changes"
   ],
   "note": "Exact arithmetic. The text has no ASCII letters or digits, because runs of those are glued together after the route is computed."
  },
  {
   "property": "C71",
   "status": "proved",
   "theorems": [
    "Jieba.Props.C71_deleting_unused_word",
    "Jieba.Props.C71_deleting_unused_word_matters",
    "Jieba.Props.C71_raising_removes"
   ],
   "note": "First part for every arithmetic with monotone addition; witnesses in exact arithmetic."
  },
  {
   "property": "C72",
   "status": "proved",
   "theorems": [
    "Jieba.Props.C72_prefix_closed",
    "Jieba.Props.C72_cut_beside_adders",
    "Jieba.Props.C72_frequency_kept",
    "Jieba.Props.C72_alone",
    "Jieba.Props.C72_word_can_be_lost",
    "Jieba.Props.C72_total_can_be_lost",
    "Jieba.Props.C72_alone_first_use"
   ],
   "note": "Reading the attribute self.FREQ and the operation on the dict are one step; add_word with a given frequency."
  },
  {
   "property": "C73",
   "status": "proved",
   "theorems": [
    "Jieba.Props.C73_user_word_in_cache"
   ],
   "note": "The negative result, by a schedule of the machine of Model/AddRace. Without add_word, C38 holds."
  },
  {
   "property": "C74",
   "status": "proved",
   "theorems": [
    "Jieba.Props.C74_split_value",
    "Jieba.Props.C74_word_value",
    "Jieba.Props.C74_tune_stores_value",
    "Jieba.Props.C74_prefix_segment_gives_zero",
    "Jieba.Props.C74_empty_word",
    "Jieba.Props.C74_bytes"
   ],
   "note": "The arithmetic is over the reals; the code uses floats (see DESIGN.md)."
  },
  {
   "property": "C75",
   "status": "proved",
   "theorems": [
    "Jieba.Props.C75_best_states",
    "Jieba.Props.C75_tagged_words",
    "Jieba.Props.C75_latin_unique"
   ],
   "note": ""
  },
  {
   "property": "C76",
   "status": "proved",
   "theorems": [
    "Jieba.Props.C76_weights"
   ],
   "note": "Exact arithmetic (ordered field). `Ranking.unique` (Spec/Ranking) shows that the described values are unique."
  },
  {
   "property": "C77",
   "status": "proved",
   "theorems": [
    "Jieba.Props.C77_cache_is_written",
    "Jieba.Props.C77_cache_is_read",
    "Jieba.Props.C77_only_caches_change"
   ],
   "note": "Temporary files left over by a failed dump are not modelled; loading is a partial function of the contents of the file."
  },
  {
   "property": "C78",
   "status": "proved",
   "theorems": [
    "Jieba.Props.C78_modes_nested",
    "Jieba.Props.C78_fails_with_letters",
    "Jieba.Props.C78_full_mode_words_independent"
   ],
   "note": ""
  },
  {
   "property": "C79",
   "status": "proved",
   "theorems": [
    "Jieba.Props.C79_proportions",
    "Jieba.Props.C79_repeated_text"
   ],
   "note": "Exact arithmetic: with floats the sums and quotients are rounded."
  },
  {
   "property": "C80",
   "status": "proved",
   "theorems": [
    "Jieba.Props.C80_set_stop_words",
    "Jieba.Props.C80_same_stop_words",
    "Jieba.Props.C80_textrank_keywords_are_tfidf_keywords",
    "Jieba.Props.C80_import",
    "Jieba.Props.C80_default_stop_words"
   ],
   "note": "The import of ChineseAnalyzer is not part of the model of the module."
  },
  {
   "property": "C81",
   "status": "proved",
   "theorems": [
    "Jieba.Props.C81_cut_linear",
    "Jieba.Props.C81_search_linear",
    "Jieba.Props.C81_tokenize_linear",
    "Jieba.Props.C81_cut_alone",
    "Jieba.Props.C81_posseg_linear",
    "Jieba.Props.C81_posseg_alone"
   ],
   "note": "Counts accesses to the tables (each dictionary operation is one; check_initialized() is one). The work inside the HMM, the regular expressions and the copying of fragments is not counted."
  },
  {
   "property": "C82",
   "status": "proved",
   "theorems": [
    "Jieba.Props.C82_any_interleaving",
    "Jieba.Props.C82_any_interleaving_no_hmm",
    "Jieba.Props.C82_interrupted",
    "Jieba.Props.C82_alone"
   ],
   "note": "With the HMM: for the shipped state tables (any probabilities)."
  },
  {
   "property": "C83",
   "status": "proved",
   "theorems": [
    "Jieba.Props.C83_tag_kept",
    "Jieba.Props.C83_tag_lost"
   ],
   "note": "The update itself counts as one access, as in CPython (dict.update with a dict of strings)."
  },
  {
   "property": "C84",
   "status": "proved",
   "theorems": [
    "Jieba.Props.C84_dictionary_file",
    "Jieba.Props.C84_user_dictionary",
    "Jieba.Props.C84_order_matters_without_frequency",
    "Jieba.Props.C84_order_matters_for_duplicates"
   ],
   "note": ""
  },
  {
   "property": "C85",
   "status": "proved",
   "theorems": [
    "Jieba.Props.C85_tag_source",
    "Jieba.Props.C85_shipped_tags"
   ],
   "note": ""
  },
  {
   "property": "C86",
   "status": "proved",
   "theorems": [
    "Jieba.Props.C86_print_injective",
    "Jieba.Props.C86_printed_output",
    "Jieba.Props.C86_slash_in_tag",
    "Jieba.Props.C86_equality",
    "Jieba.Props.C86_order",
    "Jieba.Props.C86_sorted"
   ],
   "note": "sorted is the stable insertion sort of the model; the hash of strings is arbitrary."
  },
  {
   "property": "C87",
   "status": "proved",
   "theorems": [
    "Jieba.Props.C87_flag",
    "Jieba.Props.C87_raises",
    "Jieba.Props.C87_version",
    "Jieba.Props.C87_version_order",
    "Jieba.Props.C87_not_enabled",
    "Jieba.Props.C87_enabled",
    "Jieba.Props.C87_parallel",
    "Jieba.Props.C87_lcut_loses_hmm"
   ],
   "note": "The outcomes of import statements are arbitrary."
  },
  {
   "property": "C88",
   "status": "proved",
   "theorems": [
    "Jieba.Props.C88_seen",
    "Jieba.Props.C88_list"
   ],
   "note": ""
  },
  {
   "property": "C89",
   "status": "proved",
   "theorems": [
    "Jieba.Props.C89_links_decide",
    "Jieba.Props.C89_paragraphs",
    "Jieba.Props.C89_short_separators"
   ],
   "note": "Exact arithmetic; bounds on fmin and fmax are hypotheses (sys.float_info)."
  },
  {
   "property": "C90",
   "status": "proved",
   "theorems": [
    "Jieba.Props.C90_almost_best",
    "Jieba.Props.C90_clear_best",
    "Jieba.Props.C90_floats_monotone",
    "Jieba.Props.C90_int"
   ],
   "note": "doubles without overflow and underflow (Model/Double)"
  },
  {
   "property": "C91",
   "status": "proved",
   "theorems": [
    "Jieba.Props.C91_unknown_character",
    "Jieba.Props.C91_exact_differs"
   ],
   "note": "doubles; tables are parameters with values up to 2^100"
  },
  {
   "property": "C92",
   "status": "proved",
   "theorems": [
    "Jieba.Props.C92_weights_normalised",
    "Jieba.Props.C92_never_divides_by_zero"
   ],
   "note": "doubles; d at most 7/8, sys.float_info.max above 2^45"
  },
  {
   "property": "C93",
   "status": "proved",
   "theorems": [
    "Jieba.Props.C93_near_limit"
   ],
   "note": "exact arithmetic; Spec/Stationary states the equation"
  },
  {
   "property": "C94",
   "status": "proved",
   "theorems": [
    "Jieba.Props.C94_cut",
    "Jieba.Props.C94_cut_for_search",
    "Jieba.Props.C94_posseg_cut",
    "Jieba.Props.C94_pool_present",
    "Jieba.Props.C94_lcut_is_serial",
    "Jieba.Props.C94_functions_disagree"
   ],
   "note": "Fork start method; workers do not die and are not replaced. A worker keeps the effects of its earlier tasks."
  },
  {
   "property": "C95",
   "status": "proved",
   "theorems": [
    "Jieba.Props.C95_counts",
    "Jieba.Props.C95_range",
    "Jieba.Props.C95_unknown_character"
   ],
   "note": "the shipped tables of finalseg are in Data/HmmTables.lean, generated from the three prob_*.py files"
  },
  {
   "property": "C96",
   "status": "proved",
   "theorems": [
    "Jieba.Props.C96_run",
    "Jieba.Props.C96_cut",
    "Jieba.Props.C96_only_single"
   ],
   "note": "C96_run without Force_Split_Words; C96_cut and C96_only_single for accurate mode"
  },
  {
   "property": "C97",
   "status": "proved",
   "theorems": [
    "Jieba.Props.C97_load",
    "Jieba.Props.C97_counts",
    "Jieba.Props.C97_words",
    "Jieba.Props.C97_raises",
    "Jieba.Props.C97_flags"
   ],
   "note": "The two files are generated into Data/LacTables; the network is an arbitrary function. C97_words assumes, like C67, that the network gives each character a label."
  },
  {
   "property": "C98",
   "status": "proved",
   "theorems": [
    "Jieba.Props.C98_add_word_whole"
   ],
   "note": "Doubles as in C90: no underflow. Where the product of suggest_freq would underflow in Python, int() of it is 0 with and without underflow; this is not part of the model."
  },
  {
   "property": "C99",
   "status": "proved",
   "theorems": [
    "Jieba.Props.C99_no_exception",
    "Jieba.Props.C99_returned",
    "Jieba.Props.C99_table",
    "Jieba.Props.C99_prefix_closed",
    "Jieba.Props.C99_cut",
    "Jieba.Props.C99_search",
    "Jieba.Props.C99_returns",
    "Jieba.Props.C99_alone",
    "Jieba.Props.C99_not_atomic"
   ],
   "note": "Calls as programs with one access to the shared state at a time (Model/Calls); C99_alone: without interference they are the functions of the sequential model. dbl_signOk and exact_signOk show that doubles and exact arithmetic meet the hypothesis on the arithmetic; busy_ready is an instance."
  }
 ]
}