{
 "claims": [
  {
   "property": "C01",
   "status": "proved",
   "theorems": [
    "Verif.Numeric.C01_totals",
    "Verif.Numeric.C01_batch_independent"
   ],
   "note": "All histories of create/update/merge, any valid options, any parser."
  },
  {
   "property": "C02",
   "status": "proved",
   "theorems": [
    "Verif.Numeric.C02_variance"
   ],
   "note": "Population / unbiased sample variance and stddev of all data for every history."
  },
  {
   "property": "C03",
   "status": "proved",
   "theorems": [
    "Verif.Numeric.C03_skewness",
    "Verif.Numeric.C03_unresolved_fails"
   ],
   "note": "Hypothesis: no batch deviation sum in (0,1e-14), which the code rounds to 0; C03_unresolved_fails shows the hypothesis is needed."
  },
  {
   "property": "C04",
   "status": "partial",
   "theorems": [
    "Verif.Numeric.C04_kurtosis_partial",
    "Verif.Numeric.C04_empty",
    "Verif.Numeric.C04_constant_data_fails"
   ],
   "note": "Proved for non-constant data; for constant data the code is batch dependent (counterexample proved)."
  },
  {
   "property": "C05",
   "status": "partial",
   "theorems": [
    "Verif.Numeric.C05_min_max_partial",
    "Verif.Numeric.C05_min_max_sound",
    "Verif.Numeric.C05_zero_min_fails"
   ],
   "note": "Holds unless an update hits a profile whose running extremum is exactly 0; the code then forgets it (counterexample proved)."
  },
  {
   "property": "C06",
   "status": "proved",
   "theorems": [
    "Verif.Numeric.C06_merge_is_concat",
    "Verif.Numeric.C06_order_irrelevant",
    "Verif.Numeric.C06_merge_laws"
   ],
   "note": "Merge = profile of concatenation; order-independence gives commutativity, associativity, neutral element. min/max under the C05 no-zero hypothesis on the operands' own updates."
  },
  {
   "property": "C23",
   "status": "proved",
   "theorems": [
    "Verif.ChiSquared.C23_is_pearson",
    "Verif.ChiSquared.C23_degenerate",
    "Verif.ChiSquared.C23_symmetric",
    "Verif.ChiSquared.C23_nonneg",
    "Verif.ChiSquared.C23_zero_iff_proportional",
    "Verif.ChiSquared.C23_matrix_entries",
    "Verif.ChiSquared.C23_matrix_symmetric"
   ],
   "note": "Statistic over exact reals equals Pearson's; the distribution function is a parameter."
  },
  {
   "property": "C24",
   "status": "proved",
   "theorems": [
    "Verif.Nested.C24_pointwise",
    "Verif.Nested.C24_ok_iff_compatible",
    "Verif.Nested.C24_clash_is_type_error",
    "Verif.Nested.C24_comm",
    "Verif.Nested.C24_assoc"
   ],
   "note": "All nested dictionaries of any depth."
  },
  {
   "property": "C25",
   "status": "partial",
   "theorems": [
    "Verif.Chunks.C25_partition",
    "Verif.Chunks.C25_chunk",
    "Verif.Chunks.C25_text_blocks",
    "Verif.Chunks.C25_records",
    "Verif.Chunks.C25_records_empty_fails",
    "Verif.Chunks.C25_batch_generator",
    "Verif.Chunks.C25_json_blocks_partial",
    "Verif.Chunks.C25_json_blocks_fails"
   ],
   "note": "partition/chunk/text/records/batches proved; the JSON text view drops an incomplete last block (counterexample), the record view of an empty data set raises."
  },
  {
   "property": "C26",
   "status": "proved",
   "theorems": [
    "Verif.Shuffle.C26_permutation",
    "Verif.Shuffle.C26_chunk_sizes",
    "Verif.Shuffle.C26_chunking_irrelevant",
    "Verif.Shuffle.C26_draws_determine_order",
    "Verif.Shuffle.C26_every_order_possible"
   ],
   "note": "For every stream of draws; additionally the draws/orders correspondence is a bijection."
  },
  {
   "property": "C27",
   "status": "proved",
   "theorems": [
    "Verif.MergeList.C27_pool_order_irrelevant",
    "Verif.MergeList.C27_merge_each_once",
    "Verif.MergeList.C27_merge_is_fold",
    "Verif.MergeList.C27_empty"
   ],
   "note": "For every completion order of the pool's workers and every '+', possibly raising."
  },
  {
   "property": "C28",
   "status": "partial",
   "theorems": [
    "Verif.Diffs.C28_numbers",
    "Verif.Diffs.C28_numbers_missing",
    "Verif.Diffs.C28_strings_bools",
    "Verif.Diffs.C28_dates",
    "Verif.Diffs.C28_lists",
    "Verif.Diffs.C28_lists_unchanged_partial",
    "Verif.Diffs.C28_lists_multiplicity_fails",
    "Verif.Diffs.C28_sets",
    "Verif.Diffs.C28_lists_swap",
    "Verif.Diffs.C28_dicts",
    "Verif.Diffs.C28_dicts_three_parts",
    "Verif.Diffs.C28_self_unchanged",
    "Verif.Diffs.C28_nan_self_fails",
    "Verif.Diffs.C28_matrices",
    "Verif.Diffs.C28_matrix_nan_hides_change",
    "Verif.Diffs.C28_unchanged_means_same",
    "Verif.Diffs.C28_three_parts_unchanged",
    "Verif.Diffs.C28_three_parts_unchanged_means_same"
   ],
   "note": "Proved except: lists differing only in multiplicities are reported unchanged (counterexample)."
  },
  {
   "property": "C47",
   "status": "partial",
   "theorems": [
    "Verif.Pool.C47_suggestion_bounds_partial",
    "Verif.Pool.C47_zero_fails",
    "Verif.Pool.C47_memory_figure_grows",
    "Verif.Pool.C47_pool_created",
    "Verif.Pool.C47_toggle_monotone",
    "Verif.Pool.C47_toggle_exact"
   ],
   "note": "Upper bounds proved; the lower bound 1 is false (counterexample)."
  },
  {
   "property": "C49",
   "status": "proved",
   "theorems": [
    "Verif.Calculations.C49_filter",
    "Verif.Calculations.C49_merge_is_intersection",
    "Verif.Calculations.C49_merge_warnings",
    "Verif.Calculations.C49_merge_comm",
    "Verif.Calculations.C49_runs"
   ],
   "note": ""
  },
  {
   "property": "C50",
   "status": "proved",
   "theorems": [
    "Verif.Nested.C50_update_leaves",
    "Verif.Nested.C50_update_sets_and_keeps",
    "Verif.Nested.C50_idempotent"
   ],
   "note": ""
  },
  {
   "property": "C07",
   "status": "proved",
   "theorems": [
    "Verif.Histogram.C07_mass",
    "Verif.Histogram.C07_whole",
    "Verif.Histogram.C07_local",
    "Verif.Histogram.C07_regenerate",
    "Verif.Histogram.C07_no_bins"
   ],
   "note": "Exact rationals. Conservation needs at least one destination bin (C07_no_bins shows why); bounds on where the mass goes are in C07_local."
  },
  {
   "property": "C08",
   "status": "partial",
   "theorems": [
    "Verif.Histogram.C08_merge_total",
    "Verif.Histogram.C08_merge_range_partial",
    "Verif.Histogram.C08_range_fails",
    "Verif.Histogram.C08_merge_streams",
    "Verif.Histogram.C08_bin_methods",
    "Verif.Histogram.C08_stream",
    "Verif.Histogram.C08_single_batch_exact",
    "Verif.Histogram.C08_update_after_merge_fails",
    "Verif.Histogram.C08_reported_total",
    "Verif.Histogram.C08_least_loss_partial",
    "Verif.Histogram.C08_zero_loss_displaced_fails"
   ],
   "note": "Totals always conserved; the range covers both operands when the merged min/max do (the zero-minimum bug of C05 breaks it); an update after a merge is silently ignored by the histogram (counterexample)."
  },
  {
   "property": "C09",
   "status": "partial",
   "theorems": [
    "Verif.Histogram.C09_range",
    "Verif.Histogram.C09_monotone_partial",
    "Verif.Histogram.C09_monotone_fails",
    "Verif.Histogram.C09_order",
    "Verif.Histogram.C09_quantiles_sorted",
    "Verif.Histogram.C09_splits_mass",
    "Verif.Histogram.C09_median_shift_fails"
   ],
   "note": "Whole counts; range for totals up to 1e15, monotonicity for totals below 5e9 and no request in (50, 50+1e-13), where it is false (counterexample). The reported quantiles never request that sliver."
  },
  {
   "property": "C10",
   "status": "proved",
   "theorems": [
    "Verif.Histogram.C10_modes",
    "Verif.Histogram.C10_count_and_range"
   ],
   "note": "Exactly the first top_k maximal bins."
  },
  {
   "property": "C11",
   "status": "partial",
   "theorems": [
    "Verif.Histogram.C11_bounds",
    "Verif.Histogram.C11_half_mass_partial",
    "Verif.Histogram.C11_first_bin_zero_fails"
   ],
   "note": "Bounds proved for equal bins; the half-mass meaning holds when the median is past the first bin, otherwise the code returns 0 (counterexample)."
  },
  {
   "property": "C12",
   "status": "proved",
   "theorems": [
    "Verif.Categorical.C12_counts_exact",
    "Verif.Categorical.C12_batch_independent",
    "Verif.Categorical.C12_addition_is_nested_addition"
   ],
   "note": "All histories of updates and merges that did not stop."
  },
  {
   "property": "C13",
   "status": "proved",
   "theorems": [
    "Verif.Categorical.C13_stops_only_when_asked",
    "Verif.Categorical.C13_never_without_options",
    "Verif.Categorical.C13_update_stops_iff",
    "Verif.Categorical.C13_stop_permanent"
   ],
   "note": ""
  },
  {
   "property": "C14",
   "status": "partial",
   "theorems": [
    "Verif.Categorical.C14_merge_unstopped",
    "Verif.Categorical.C14_merge_stopped_partial",
    "Verif.Categorical.C14_merge_laws",
    "Verif.Categorical.C14_stopped_size_fails",
    "Verif.Categorical.C14_stopped_reason_lost_fails"
   ],
   "note": "Exact for unstopped operands; with a stopped operand the code reports only the larger sample (counterexamples proved)."
  },
  {
   "property": "C15",
   "status": "proved",
   "theorems": [
    "Verif.Categorical.C15_unique_ratio_range",
    "Verif.Categorical.C15_gini",
    "Verif.Categorical.C15_unalikeability",
    "Verif.Categorical.C15_small",
    "Verif.Categorical.C15_stopped_zero_fails"
   ],
   "note": "Gini/unalikeability for unstopped profiles (the report omits them after a stop); unique ratio for all."
  },
  {
   "property": "C51",
   "status": "partial",
   "theorems": [
    "Verif.Categorical.C51_heavy_hitters",
    "Verif.Categorical.C51_exact_sketch",
    "Verif.Categorical.C51_works_iff",
    "Verif.Categorical.C51_merged_unusable_fails"
   ],
   "note": "Assumes only that the sketch never underestimates. A column works exactly while it is not updated or merged after a merge and its sketches share one size (C51_works_iff); so merged sketch profiles cannot be used further (counterexample)."
  },
  {
   "property": "C52",
   "status": "partial",
   "theorems": [
    "Verif.Psi.C52_psi",
    "Verif.Psi.C52_symmetric",
    "Verif.Psi.C52_disjoint_zero_fails",
    "Verif.Psi.C52_empty_raises_fails"
   ],
   "note": "Over the reals; zero only says shared categories agree, and an empty column makes diff raise (counterexamples)."
  },
  {
   "property": "C53",
   "status": "partial",
   "theorems": [
    "Verif.Categorical.C53_top_k",
    "Verif.Categorical.C53_match",
    "Verif.Categorical.C53_top_k_lost_by_merge_fails"
   ],
   "note": "Proved for every history; the limit itself is lost by merging (counterexample)."
  },
  {
   "property": "C16",
   "status": "partial",
   "theorems": [
    "Verif.Order.C16_expected_unique",
    "Verif.Order.C16_single_batch",
    "Verif.Order.C16_none_iff",
    "Verif.Order.C16_fails_constant",
    "Verif.Order.C16_fails_ascending",
    "Verif.Order.C16_fails_enveloped",
    "Verif.Order.C16_fails_batching",
    "Verif.Order.C16_sound_ascending_partial",
    "Verif.Order.C16_sound_descending_partial",
    "Verif.Order.C16_sound_constant_partial",
    "Verif.Order.C16_sound_random",
    "Verif.Order.C16_complete_ascending",
    "Verif.Order.C16_complete_descending",
    "Verif.Order.C16_complete_constant",
    "Verif.Order.C16_random_final",
    "Verif.Order.C16_neutral",
    "Verif.Order.C16_numeric",
    "Verif.Order.C16_text_stays",
    "Verif.Order.C16_column_random_final",
    "Verif.Order.C16_column_merge_comm",
    "Verif.Order.C16_column_numbers",
    "Verif.Order.C16_column_none_iff",
    "Verif.Order.C16_fails_mixed"
   ],
   "note": "One batch is classified exactly and ordered data are never called random; across batches a reported direction only holds inside each batch (counterexamples proved)."
  },
  {
   "property": "C17",
   "status": "partial",
   "theorems": [
    "Verif.Nulls.C17_taken_unique",
    "Verif.Nulls.C17_partition",
    "Verif.Nulls.C17_in_order",
    "Verif.Nulls.C17_whole_column",
    "Verif.Nulls.C17_own_chunks",
    "Verif.Nulls.C17_table_chunks",
    "Verif.Nulls.C17_history",
    "Verif.Nulls.C17_index_total",
    "Verif.Nulls.C17_positions_unshifted",
    "Verif.Nulls.C17_foreign",
    "Verif.Nulls.C17_duplicate_labels_fails",
    "Verif.Nulls.C17_in_order_fails",
    "Verif.Nulls.C17_ratio_fails",
    "Verif.Nulls.C17_merge_fresh_fails",
    "Verif.Nulls.C17_negative_labels_fails"
   ],
   "note": "Counts, positions and accumulation proved for distinct labels; the order of the passed-on values is proved only on the sorting paths (a set's iteration order is used otherwise, counterexample); duplicated or negative labels miscount (counterexamples)."
  },
  {
   "property": "C19",
   "status": "proved",
   "theorems": [
    "Verif.Schema.C19_ok_iff",
    "Verif.Schema.C19_bijection",
    "Verif.Schema.C19_repeated_in_place",
    "Verif.Schema.C19_only_value_error",
    "Verif.Schema.C19_empty",
    "Verif.Schema.C19_empty_profile_accepts_all"
   ],
   "note": "All column name lists; str.lower is any idempotent function. A profile without columns accepts every table (C19_empty_profile_accepts_all)."
  },
  {
   "property": "C18",
   "status": "partial",
   "theorems": [
    "Verif.Table.C18_null_rows",
    "Verif.Table.C18_null_rows_whole",
    "Verif.Table.C18_unique",
    "Verif.Table.C18_swapped_columns_fails",
    "Verif.Table.C18_min_true_fails"
   ],
   "note": "For every history of updates and merges: null rows over the sampled rows, distinct rows under a collision-free hash. Rows are hashed in the batch's own column order, so a batch with permuted columns breaks the unique count (counterexample), and with a minimum of true samples a stale shift loses null rows (counterexample). The HyperLogLog count is a parameter."
  },
  {
   "property": "C20",
   "status": "partial",
   "theorems": [
    "Verif.Table.C20_pairs_by_name",
    "Verif.Table.C20_ok_iff",
    "Verif.Table.C20_column_ok_iff",
    "Verif.Table.C20_refused",
    "Verif.Table.C20_operand_unchanged",
    "Verif.Table.C20_describes",
    "Verif.Table.C20_whole_table",
    "Verif.Table.C20_raises_and_changes_fails",
    "Verif.Table.C20_case_fails"
   ],
   "note": "Pairing, order, totals and meaning proved; a merge that raises in a column may leave an operand changed and names differing only in case raise (counterexamples). Correlation and null replication matrices are not part of this model."
  },
  {
   "property": "C21",
   "status": "proved",
   "theorems": [
    "Verif.Table.C21_pool_equals_serial",
    "Verif.Table.C21_each_column_once"
   ],
   "note": "For every schedule of the worker pool and every set of failing tasks."
  },
  {
   "property": "C29",
   "status": "proved",
   "theorems": [
    "Verif.SampleSize.C29_bounds",
    "Verif.SampleSize.C29_monotone",
    "Verif.SampleSize.C29_rows_looked_at",
    "Verif.SampleSize.C29_per_update_fails"
   ],
   "note": "Exact ratio arithmetic. A fixed samples_per_update is returned unbounded (C29_per_update_fails), but the number of rows looked at is still bounded by the data (C29_rows_looked_at)."
  },
  {
   "property": "C22",
   "status": "partial",
   "theorems": [
    "Verif.Correlation.C22_history",
    "Verif.Correlation.C22_matrix",
    "Verif.Correlation.C22_symmetric",
    "Verif.Correlation.C22_range",
    "Verif.Correlation.C22_diagonal",
    "Verif.Correlation.C22_batch_nulls",
    "Verif.Correlation.C22_updates_go_through",
    "Verif.Correlation.C22_merge_empty",
    "Verif.Correlation.C22_after_merge_raises_fails",
    "Verif.Correlation.C22_merge_mixed_raises_fails",
    "Verif.Correlation.C22_constant_batch_fails",
    "Verif.Correlation.C22_nulls_batching_fails",
    "Verif.Correlation.C22_merge_permuted_fails"
   ],
   "note": "Proved for every history of complete batches in which numeric columns vary, and merges of all-numeric profiles; one batch with nulls is also exact (mean imputation). Counterexamples: merging raises when some column is not numeric, a constant batch erases the value for good, nulls make it batch dependent, merged correlations pair columns by position, and after a merge a batch without values in a numeric column raises."
  },
  {
   "property": "C48",
   "status": "partial",
   "theorems": [
    "Verif.NullRep.C48_from_zero",
    "Verif.NullRep.C48_rising",
    "Verif.NullRep.C48_merge_rising",
    "Verif.NullRep.C48_goes_through",
    "Verif.NullRep.C48_priors",
    "Verif.NullRep.C48_integer_batch_raises_fails",
    "Verif.NullRep.C48_merge_dates_raises_fails",
    "Verif.NullRep.C48_with_correlation_raises_fails",
    "Verif.NullRep.C48_stale_shift_fails",
    "Verif.NullRep.C48_negative_label_fails",
    "Verif.NullRep.C48_batch_order_fails",
    "Verif.NullRep.C48_merge_order_fails",
    "Verif.NullRep.C48_merge_empty_column_fails",
    "Verif.NullRep.C48_text_column_fails"
   ],
   "note": "Class shares, sums and means proved for histories labelled from 0 or with rising labels and matching column order; shares add to 1 always; without correlations, which histories go through is characterised exactly. Counterexamples where the code departs: a batch of integers after float sums raises, merging tables with a column of dates raises, with correlations enabled a non-numeric column raises; stale index shift, negative labels, permuted columns in a batch or merge, a column empty in one operand, text columns. The code computes no covariances, so none are modelled."
  },
  {
   "property": "C30",
   "status": "partial",
   "theorems": [
    "Verif.ColumnTypes.C30_selected",
    "Verif.ColumnTypes.C30_unseen",
    "Verif.ColumnTypes.C30_text_fallback",
    "Verif.ColumnTypes.C30_ratios",
    "Verif.ColumnTypes.C30_int_is_float",
    "Verif.ColumnTypes.C30_report",
    "Verif.ColumnTypes.C30_label",
    "Verif.ColumnTypes.C30_merged_label_fails",
    "Verif.ColumnTypes.C30_empty_strings_label"
   ],
   "note": "Selection and ratios proved for every history of updates and merges; the string/text label is not recomputed by merging (counterexample). float() and the number of dates in a batch are parameters."
  },
  {
   "property": "C35",
   "status": "proved",
   "theorems": [
    "Verif.Vocab.C35_vocab",
    "Verif.Vocab.C35_batching"
   ],
   "note": "For every order in which Python may list a set."
  },
  {
   "property": "C36",
   "status": "partial",
   "theorems": [
    "Verif.Precision.C36_figures",
    "Verif.Precision.C36_exponent",
    "Verif.Precision.C36_capital_exponent_fails",
    "Verif.Precision.C36_sample_size",
    "Verif.Precision.C36_stats",
    "Verif.Precision.C36_default_drawn",
    "Verif.Precision.C36_all_values",
    "Verif.Precision.C36_variance_partial",
    "Verif.Precision.C36_variance_fails",
    "Verif.Precision.C36_small_ratio_fails",
    "Verif.Precision.C36_merge_forgets_ratio"
   ],
   "note": "Count, sum, mean and extremes exact for every history; variance exact only when data come together by merging, wrong when one profile is updated twice (counterexample). A sampling ratio too small for the first batch makes the report raise from then on."
  },
  {
   "property": "C37",
   "status": "partial",
   "theorems": [
    "Verif.DateTime.C37_batch",
    "Verif.DateTime.C37_count_exact",
    "Verif.DateTime.C37_sample_honest",
    "Verif.DateTime.C37_history",
    "Verif.DateTime.C37_batching_partial",
    "Verif.DateTime.C37_all_dates",
    "Verif.DateTime.C37_threshold_fails",
    "Verif.DateTime.C37_may_fails",
    "Verif.DateTime.C37_last_date_fails"
   ],
   "note": "Soundness of counted values, formats, minimum and maximum proved for every history and every parser; batch independence proved for dense samples without May under a %b format, false otherwise (counterexamples)."
  },
  {
   "property": "C38",
   "status": "partial",
   "theorems": [
    "Verif.LabelsProps.C38_representation_partial",
    "Verif.LabelsProps.C38_average_partial",
    "Verif.LabelsProps.C38_data_label_partial",
    "Verif.LabelsProps.C38_votes",
    "Verif.LabelsProps.C38_merge_succeeds_iff",
    "Verif.LabelsProps.C38_merge_empty_fails"
   ],
   "note": "Votes, shares, averages and the reported label proved for every history of updates and merges and every tie breaking, except that merging a profile with data and one without raises TypeError (proved; exact condition in C38_merge_succeeds_iff)."
  },
  {
   "property": "C39",
   "status": "partial",
   "theorems": [
    "Verif.EntitiesProps.C39_characters",
    "Verif.EntitiesProps.C39_characters_total",
    "Verif.EntitiesProps.C39_predictions",
    "Verif.EntitiesProps.C39_words",
    "Verif.EntitiesProps.C39_shares",
    "Verif.EntitiesProps.C39_shares_aligned",
    "Verif.EntitiesProps.C39_shares_fails",
    "Verif.EntitiesProps.C39_runs",
    "Verif.EntitiesProps.C39_batching",
    "Verif.EntitiesProps.C39_last_word_fails",
    "Verif.EntitiesProps.C39_joined_words_fails"
   ],
   "note": "Character counts exact and conserved for every history; percentages of postprocessed labels add up to 1 exactly when the labeler predicts every character (counterexample otherwise). Word counts characterised exactly; the last word of a text is not counted (proved)."
  },
  {
   "property": "C40",
   "status": "partial",
   "theorems": [
    "Verif.WordsProps.C40_split",
    "Verif.WordsProps.C40_count",
    "Verif.WordsProps.C40_stopped_partial",
    "Verif.WordsProps.C40_vocab",
    "Verif.WordsProps.C40_batching",
    "Verif.WordsProps.C40_ascii_sane",
    "Verif.WordsProps.C40_merge_fails",
    "Verif.WordsProps.C40_report",
    "Verif.WordsProps.C40_limits"
   ],
   "note": "Words and character counts exact for every history of updates and merges, for every case mapping that commutes with splitting (ASCII lower case is one). Stopped words are absent, except after merging a profile with one whose stop words are all among its own but fewer (counterexample C40_merge_fails)."
  },
  {
   "property": "C31",
   "status": "partial",
   "theorems": [
    "Verif.QuantilesProps.C31_quantiles",
    "Verif.QuantilesProps.C31_exact",
    "Verif.QuantilesProps.C31_sorted",
    "Verif.QuantilesProps.C31_fallback",
    "Verif.QuantilesProps.C31_doubles",
    "Verif.QuantilesProps.C31_small_fails",
    "Verif.QuantilesProps.C31_rounding_fails"
   ],
   "note": "Proved for every rounding with relative error 2^-53 that keeps moderate integers, in particular IEEE doubles (C31_doubles), for up to 2^25 stored quantiles. Rounding may pick the next quantile (C31_rounding_fails). The fallback to quartiles raises IndexError when one or two quantiles are stored (C31_small_fails)."
  },
  {
   "property": "C32",
   "status": "partial",
   "theorems": [
    "Verif.FlatProps.C32_flat",
    "Verif.FlatProps.C32_exact",
    "Verif.FlatProps.C32_plain",
    "Verif.FlatProps.C32_collision_fails"
   ],
   "note": "Every entry is a leaf under its joined path; leaves are lost only if joined paths coincide, which does happen (counterexample)."
  },
  {
   "property": "C54",
   "status": "partial",
   "theorems": [
    "Verif.PrepareProps.C54_omit",
    "Verif.PrepareProps.C54_succeeds",
    "Verif.PrepareProps.C54_nothing_omitted",
    "Verif.PrepareProps.C54_columns",
    "Verif.PrepareProps.C54_compact",
    "Verif.PrepareProps.C54_compact_covers",
    "Verif.PrepareProps.C54_compact_only",
    "Verif.PrepareProps.C54_wildcards_fails",
    "Verif.PrepareProps.C54_compact_mutates_fails",
    "Verif.PrepareProps.C54_schema_partial",
    "Verif.PrepareProps.C54_schema_keys",
    "Verif.PrepareProps.C54_schema_fails"
   ],
   "note": "Exact set of kept positions proved for all reports with addressable keys and all patterns; the pattern *.* raises IndexError and the compact format extends the caller's list; columns whose names have the same text are merged in the schema (counterexamples)."
  },
  {
   "property": "C33",
   "status": "partial",
   "theorems": [
    "Verif.Props.OptionsValid.C33_numeric",
    "Verif.Props.OptionsValid.C33_text",
    "Verif.Props.OptionsValid.C33_partial",
    "Verif.Props.OptionsValid.C33_accepted",
    "Verif.Props.OptionsValid.C33_default",
    "Verif.Props.OptionsValid.C33_presets",
    "Verif.Props.OptionsValid.C33_rows",
    "Verif.Props.OptionsValid.C33_rows_fails",
    "Verif.Props.OptionsValid.C33_text_fails",
    "Verif.Props.OptionsValid.C33_nan_fails"
   ],
   "note": "Numeric and text columns: accepted iff valid, for all values. Whole tree: valid options are always accepted; invalid ones are always reported, except those nested in row statistics or unstructured text and NaN ratios (counterexamples)."
  },
  {
   "property": "C34",
   "status": "partial",
   "theorems": [
    "Verif.Props.OptionsSet.C34_partial",
    "Verif.Props.OptionsSet.C34_shape",
    "Verif.Props.OptionsSet.C34_ambiguous",
    "Verif.Props.OptionsSet.C34_clear",
    "Verif.Props.OptionsSet.C34_exact",
    "Verif.Props.OptionsSet.C34_unknown",
    "Verif.Props.OptionsSet.C34_star",
    "Verif.Props.OptionsSet.C34_star_fails",
    "Verif.Props.OptionsSet.C34_unknown_fails",
    "Verif.Props.OptionsSet.C34_atomic_fails"
   ],
   "note": "Exactly the addressed values change, for all option trees, path lists and values. A star addresses only the topmost options of a name, unknown dotted or starred names are ignored and a failing call may have changed options (counterexamples)."
  },
  {
   "property": "C41",
   "status": "partial",
   "theorems": [
    "Verif.Props.Graph.C41_partial",
    "Verif.Props.Graph.C41_succeeds_iff",
    "Verif.Props.Graph.C41_attributes",
    "Verif.Props.Graph.C41_empty",
    "Verif.Props.Graph.C41_last",
    "Verif.Props.Graph.C41_report",
    "Verif.Props.Graph.C41_size_fails",
    "Verif.Props.Graph.C41_edges_fails",
    "Verif.Props.Graph.C41_ragged_fails",
    "Verif.Props.Graph.C41_likelihood_fails"
   ],
   "note": "All simple undirected graphs and all sequences of updates, for any correct component search and set order. The component statistic is the number of edges of the component with the most nodes, edges with different attributes and negative log-likelihoods above 1000 make the update raise (counterexamples)."
  },
  {
   "property": "C42",
   "status": "partial",
   "theorems": [
    "Verif.Props.Persist.C42_save_unchanged",
    "Verif.Props.Persist.C42_pickle_partial",
    "Verif.Props.Persist.C42_pickle_report_partial",
    "Verif.Props.Persist.C42_crash_partial",
    "Verif.Props.Persist.C42_crash_report",
    "Verif.Props.Persist.C42_json_partial",
    "Verif.Props.Persist.C42_json_report",
    "Verif.Props.Persist.C42_json_labelers",
    "Verif.Props.Persist.C42_unstructured",
    "Verif.Props.Persist.C42_method",
    "Verif.Props.Persist.C42_crash_fails",
    "Verif.Props.Persist.C42_pickle_fails",
    "Verif.Props.Persist.C42_metrics_fails",
    "Verif.Props.Persist.C42_labeler",
    "Verif.Props.Persist.C42_labeler_fails",
    "Verif.Props.Persist.C42_empty_fails",
    "Verif.Props.Persist.C42_json_names_fails",
    "Verif.Props.Persist.C42_json_metrics_fails",
    "Verif.Props.Persist.C42_json_null_fails",
    "Verif.Props.Persist.C42_json_save_fails",
    "Verif.Props.Persist.C42_method_fails",
    "Verif.Props.Persist.C42_graph_fails"
   ],
   "note": "For all profilers, attribute values and labelers: exactly what survives pickle and JSON round trips, what a failed save leaves in memory and which loader a file gets; the rest of the claim is refuted by the _fails theorems. Serialisation of individual attribute values (pickle, json, numpy) is assumed lossless."
  },
  {
   "property": "C43",
   "status": "proved",
   "theorems": [
    "Verif.Props.Reservoir.C43_reservoir",
    "Verif.Props.Reservoir.C43_zero",
    "Verif.Props.Reservoir.C43_subperm",
    "Verif.Props.Reservoir.C43_text",
    "Verif.Props.Reservoir.C43_parquet",
    "Verif.Props.Reservoir.C43_quoted_fails"
   ],
   "note": "All files, sample sizes and draws; the distribution of the sample is not modelled. Rows are physical lines, so quoted line breaks are torn (C43_quoted_fails)."
  },
  {
   "property": "C44",
   "status": "partial",
   "theorems": [
    "Verif.Props.Sniff.C44_find",
    "Verif.Props.Sniff.C44_find_each",
    "Verif.Props.Sniff.C44_prefix",
    "Verif.Props.Sniff.C44_cut_partial",
    "Verif.Props.Sniff.C44_whole_partial",
    "Verif.Props.Sniff.C44_lines",
    "Verif.Props.Sniff.C44_last_fails",
    "Verif.Props.Sniff.C44_border_fails",
    "Verif.Props.Sniff.C44_bytes_fails"
   ],
   "note": "All files and limits. The last character may be lost and runs of line ends at chunk borders count twice, both refuting the full claim. Files opened as text only."
  },
  {
   "property": "C46",
   "status": "partial",
   "theorems": [
    "Verif.Props.Validator.C46_partial",
    "Verif.Props.Validator.C46_new",
    "Verif.Props.Validator.C46_get",
    "Verif.Props.Validator.C46_succeeds",
    "Verif.Props.Validator.C46_stale_fails",
    "Verif.Props.Validator.C46_failed_fails",
    "Verif.Props.Validator.C46_empty_fails"
   ],
   "note": "All data, configurations and histories of calls; reports keep entries of earlier and of failed runs, which refutes the rest of the claim."
  },
  {
   "property": "C45",
   "status": "partial",
   "theorems": [
    "Verif.Props.Json.C45_values",
    "Verif.Props.Json.C45_coalesce",
    "Verif.Props.Json.C45_names_partial",
    "Verif.Props.Json.C45_names_fails",
    "Verif.Props.Json.C45_empty",
    "Verif.Props.Json.C45_cells_partial",
    "Verif.Props.Json.C45_rows_fails",
    "Verif.Props.Json.C45_document_partial",
    "Verif.Props.Json.C45_all_cells_partial",
    "Verif.Props.Json.C45_scalar_payload"
   ],
   "note": "Values found are exactly the leaves and coalescing loses, doubles and overwrites none: every document. Names are the key paths for keys that are not empty and do not end like the separator; C45_names_fails shows other keys collide. Normalising a list payload (pandas) is a parameter. C45_rows_fails: rows are not records."
  },
  {
   "property": "C55",
   "status": "proved",
   "theorems": [
    "Verif.CharProcess.C55_samples",
    "Verif.CharProcess.C55_match",
    "Verif.CharProcess.C55_separator",
    "Verif.CharProcess.C55_predict",
    "Verif.CharProcess.C55_label",
    "Verif.CharProcess.C55_charwise",
    "Verif.CharProcess.C55_separator_fails",
    "Verif.Props.CharShare.C55_share",
    "Verif.Props.CharShare.C55_share_none"
   ],
   "note": "The share of samples put together from several texts follows flatten_split at every point (C55_share). All texts, parameters with a separator shorter than the maximal length, batch sizes and networks. Pre- and postprocessor must use separators of the same length (C55_separator_fails)."
  },
  {
   "property": "C56",
   "status": "partial",
   "theorems": [
    "Verif.CharLabels.C56_rows_partial",
    "Verif.CharLabels.C56_length",
    "Verif.CharLabels.C56_unknown",
    "Verif.CharLabels.C56_empty_separator_fails",
    "Verif.CharLabels.C56_convert_partial",
    "Verif.CharLabels.C56_convert_fails",
    "Verif.CharLabels.C56_cells"
   ],
   "note": "All texts, entities with bounds >= 0 and parameters with a non-empty separator; with an empty one, which passes validation, labels are lost (counterexample). convert_to_unstructured_format labels all separators unless the last cell is empty (counterexample)."
  },
  {
   "property": "C57",
   "status": "proved",
   "theorems": [
    "Verif.Postprocess.C57_entities",
    "Verif.Postprocess.C57_unique",
    "Verif.Postprocess.C57_ok",
    "Verif.Postprocess.C57_adjacent_fails",
    "Verif.Postprocess.C57_alias_fails"
   ],
   "note": "All predictions and mappings. Entities that touch and share a label are one run, so they are reported as one; labels with two names are reported under the last."
  },
  {
   "property": "C58",
   "status": "partial",
   "theorems": [
    "Verif.Postprocess.C58_length",
    "Verif.Postprocess.C58_words_partial",
    "Verif.Postprocess.C58_last_partial",
    "Verif.Postprocess.C58_separators",
    "Verif.Postprocess.C58_single",
    "Verif.Postprocess.C58_last_fails",
    "Verif.Postprocess.C58_only_fails",
    "Verif.Postprocess.C58_one_character"
   ],
   "note": "All texts, predictions and shares. The last character of a text not ended by a separator and texts of one word keep their own predictions (counterexamples); one-character words always become background."
  },
  {
   "property": "C59",
   "status": "partial",
   "theorems": [
    "Verif.Postprocess.C59_label",
    "Verif.Postprocess.C59_confidence",
    "Verif.Postprocess.C59_sum",
    "Verif.Postprocess.C59_confidence_ok",
    "Verif.Postprocess.C59_names_partial",
    "Verif.Postprocess.C59_empty_fails",
    "Verif.Postprocess.C59_none_fails"
   ],
   "note": "All predictions and every choice among ties. Naming an empty column raises and a missing label becomes None or the text 'None' depending on the first cell (counterexamples). Confidences are exact fractions."
  },
  {
   "property": "C60",
   "status": "partial",
   "theorems": [
    "Verif.RegexLabel.C60_votes_partial",
    "Verif.RegexLabel.C60_split",
    "Verif.RegexLabel.C60_priority_partial",
    "Verif.RegexLabel.C60_random",
    "Verif.RegexLabel.C60_cells_partial",
    "Verif.RegexLabel.C60_empty_fails",
    "Verif.RegexLabel.C60_compiled_fails",
    "Verif.RegexLabel.C60_default_fails",
    "Verif.RegexLabel.C60_order_fails",
    "Verif.RegexLabel.C60_empty_cell_fails"
   ],
   "note": "All texts, patterns, matchers and mappings. Missing, with counterexamples: no texts give one empty prediction; compiled patterns raise; patterns of the default label depend on order; priority orders without the labels voted for; empty cells get label number 0."
  },
  {
   "property": "C61",
   "status": "partial",
   "theorems": [
    "Verif.LabelMap.C61_list_partial",
    "Verif.LabelMap.C61_list_fails",
    "Verif.LabelMap.C61_labels",
    "Verif.LabelMap.C61_all",
    "Verif.LabelMap.C61_num",
    "Verif.LabelMap.C61_add",
    "Verif.LabelMap.C61_add_same",
    "Verif.LabelMap.C61_add_known",
    "Verif.LabelMap.C61_add_unknown",
    "Verif.LabelMap.C61_same_fails",
    "Verif.LabelMap.C61_network_dict",
    "Verif.LabelMap.C61_network_list_partial",
    "Verif.LabelMap.C61_network_list_fails",
    "Verif.LabelMap.C61_average_partial",
    "Verif.LabelMap.C61_average_fails"
   ],
   "note": "Proved for distinct labels and, for averages, numbers in use without gaps from zero. The failing cases are proved too: repeated labels lose entries, a label added as the same as another replaces its name in the list, a list with padding not first is accepted by the network, and list labels of a model without padding start at one so that averages are shifted by one label."
  },
  {
   "property": "C62",
   "status": "partial",
   "theorems": [
    "Verif.ClassReport.C62_confusion",
    "Verif.ClassReport.C62_confusion_empty",
    "Verif.ClassReport.C62_ok",
    "Verif.ClassReport.C62_rows_partial",
    "Verif.ClassReport.C62_bounds",
    "Verif.ClassReport.C62_macro_partial",
    "Verif.ClassReport.C62_accuracy",
    "Verif.ClassReport.C62_micro",
    "Verif.ClassReport.C62_weighted",
    "Verif.ClassReport.C62_padding",
    "Verif.ClassReport.C62_padding_fails",
    "Verif.ClassReport.C62_ragged_fails",
    "Verif.ClassReport.C62_name_fails"
   ],
   "note": "Proved with rational arithmetic for label names that differ from the names of the averages and from each other. The failing cases are proved too: a label called like an average loses its row, padding counts for label zero if that is a real one, and predictions of different lengths are compared with wrong positions."
  },
  {
   "property": "C63",
   "status": "partial",
   "theorems": [
    "Verif.Training.C63_errors",
    "Verif.Training.C63_split_partial",
    "Verif.Training.C63_all",
    "Verif.Training.C63_split_fails",
    "Verif.Training.C63_single_fails",
    "Verif.Training.C63_table"
   ],
   "note": "Permutations and the size of the training part are parameters. With a split that leaves one training sample, the other samples are used neither for training nor validation; this is proved as a failing case. Label setting and the model itself are not modelled."
  },
  {
   "property": "C64",
   "status": "partial",
   "theorems": [
    "Verif.ColumnName.C64_negative",
    "Verif.ColumnName.C64_predict",
    "Verif.ColumnName.C64_aligned_partial",
    "Verif.ColumnName.C64_aligned_fails",
    "Verif.ColumnName.C64_nolabel",
    "Verif.ColumnName.C64_labels",
    "Verif.ColumnName.C64_labels_fails"
   ],
   "note": "For any similarity function. The failing cases are proved too: labels of fewer names than given stand at other positions, labels unknown to the model pass validation, and a model without labels in its results raises at the first match."
  },
  {
   "property": "C65",
   "status": "proved",
   "theorems": [
    "Verif.Pipeline.C65_check",
    "Verif.Pipeline.C65_warned",
    "Verif.Pipeline.C65_component",
    "Verif.Pipeline.C65_get",
    "Verif.Pipeline.C65_refused",
    "Verif.Pipeline.C65_set",
    "Verif.Pipeline.C65_set_check",
    "Verif.Pipeline.C65_atomic_fails",
    "Verif.Pipeline.C65_missing_fails"
   ],
   "note": "Everything stated is proved, StructRegexPostProcessor (which hands its parameters on) included. Beyond the statement: setting parameters is not atomic across components and is done before a missing component is noticed (failing cases proved)."
  },
  {
   "property": "C66",
   "status": "partial",
   "theorems": [
    "Verif.Props.Csv.C66_cut",
    "Verif.Props.Csv.C66_cells",
    "Verif.Props.Csv.C66_quoted_partial",
    "Verif.Props.Csv.C66_quoted_fails",
    "Verif.Props.Csv.C66_guess",
    "Verif.Props.Csv.C66_tie",
    "Verif.Props.Csv.C66_long_partial",
    "Verif.Props.Csv.C66_random_fails",
    "Verif.Props.Csv.C66_not_drawn",
    "Verif.Props.Csv.C66_rest_fails"
   ],
   "note": "Lines with a quote character left open and texts of more than 25 lines are treated differently; the failing cases are proved. Cell types, the quote character found by csv.Sniffer and the random lines are parameters; lines have no line ends."
  },
  {
   "property": "C67",
   "status": "partial",
   "theorems": [
    "Verif.Props.Csv.C67_types",
    "Verif.Props.Csv.C67_text",
    "Verif.Props.Csv.C67_range",
    "Verif.Props.Csv.C67_first",
    "Verif.Props.Csv.C67_local",
    "Verif.Props.Csv.C67_names_fails",
    "Verif.Props.Csv.C67_data_fails",
    "Verif.Props.Csv.C67_gap_fails"
   ],
   "note": "What is found is fully characterised; that it is the header a reader would see fails for tables of text, as proved. Cell types and stripping are parameters."
  },
  {
   "property": "C68",
   "status": "partial",
   "theorems": [
    "Verif.Props.Csv.C68_match",
    "Verif.Props.Csv.C68_short",
    "Verif.Props.Csv.C68_clean",
    "Verif.Props.Csv.C68_empty_fails",
    "Verif.Props.Csv.C68_quote_fails",
    "Verif.Props.Csv.C68_thousand_fails"
   ],
   "note": "The decision is fully characterised on the text read; only ten lines of the file are read. Recognition of JSON, Parquet and Avro files is a parameter."
  },
  {
   "property": "C69",
   "status": "partial",
   "theorems": [
    "Verif.Props.GraphRead.C69_find",
    "Verif.Props.GraphRead.C69_match",
    "Verif.Props.GraphRead.C69_names",
    "Verif.Props.GraphRead.C69_graph_partial",
    "Verif.Props.GraphRead.C69_found_partial",
    "Verif.Props.GraphRead.C69_uniform",
    "Verif.Props.GraphRead.C69_plain_fails",
    "Verif.Props.GraphRead.C69_far_fails",
    "Verif.Props.GraphRead.C69_text_fails",
    "Verif.Props.GraphRead.C69_ends_fails",
    "Verif.Props.GraphRead.C69_unfound_fails",
    "Verif.Props.GraphRead.C69_shared_fails",
    "Verif.Props.GraphRead.C69_header_fails",
    "Verif.Props.GraphRead.C69_sign_fails"
   ],
   "note": "Proved for tables of numbers with two different node columns. The failing cases are proved: a cell that is not a number stops the reading even if it names a node, node columns become attributes as well, without keywords the last column is used for both nodes, tables without a header raise a type error, headers past row 256 are not found, and signed integers stay texts. pandas, csv.reader and float are parameters."
  },
  {
   "property": "C70",
   "status": "partial",
   "theorems": [
    "Verif.Props.Reader.C70_arguments",
    "Verif.Props.Reader.C70_file",
    "Verif.Props.Reader.C70_text_takes_all",
    "Verif.Props.Reader.C70_memory",
    "Verif.Props.Reader.C70_options_kept",
    "Verif.Props.Reader.C70_credentials_fails",
    "Verif.Props.Reader.C70_csv_last",
    "Verif.Props.Reader.C70_csv_options",
    "Verif.Props.Reader.C70_given",
    "Verif.Props.Reader.C70_settings",
    "Verif.Props.Reader.C70_data",
    "Verif.Props.Reader.C70_text_options"
   ],
   "note": "For all recognisers, which are parameters (two of them are C68 and C69). The credentials for S3 are removed from the caller's options (counterexample)."
  },
  {
   "property": "C71",
   "status": "partial",
   "theorems": [
    "Verif.Props.Reader.C71_reload_fresh",
    "Verif.Props.Reader.C71_history_free",
    "Verif.Props.Reader.C71_refused",
    "Verif.Props.Reader.C71_keys_forgotten_fails",
    "Verif.Props.Reader.C71_csv_partial",
    "Verif.Props.Reader.C71_csv_fails",
    "Verif.Props.Reader.C71_graph_fails",
    "Verif.Props.Reader.C71_rejected_fails"
   ],
   "note": "Proved for text, Parquet, JSON and Avro. A CSV reader keeps its old header, delimiter and quote character and writes them over the caller's options; a graph reader ignores data and options; a refused reload makes a JSON reader forget its selected keys, and data or options that are refused cost a text or CSV reader its own (all proved)."
  },
  {
   "property": "C72",
   "status": "partial",
   "theorems": [
    "Verif.Props.Reader.C72_read_once",
    "Verif.Props.Reader.C72_format",
    "Verif.Props.Reader.C72_set_format",
    "Verif.Props.Reader.C72_late_fails",
    "Verif.Props.Reader.C72_no_file",
    "Verif.Props.Reader.C72_empty_path"
   ],
   "note": "Reading and conversion are parameters. A format given in the options is not checked until the data are read (CSV apart) and must be in lower case there (counterexample)."
  },
  {
   "property": "C73",
   "status": "partial",
   "theorems": [
    "Verif.Props.JsonNest.C73_nested",
    "Verif.Props.JsonNest.C73_all_kept",
    "Verif.Props.JsonNest.C73_document",
    "Verif.Props.JsonNest.C73_error",
    "Verif.Props.JsonNest.C73_refused",
    "Verif.Props.JsonNest.C73_null_fails",
    "Verif.Props.JsonNest.C73_lost_fails"
   ],
   "note": "Rows as pandas gives them are the input. Proved for cells above others that are blank and come first or stand at the top. Failing cases: a null with fields elsewhere raises, and below the top a blank behind the fields replaces them (data lost); both are proved."
  },
  {
   "property": "C74",
   "status": "partial",
   "theorems": [
    "Verif.Props.JsonRead.C74_recognised",
    "Verif.Props.JsonRead.C74_undecodable",
    "Verif.Props.JsonRead.C74_sixty",
    "Verif.Props.JsonRead.C74_sixty_fails",
    "Verif.Props.JsonRead.C74_lines",
    "Verif.Props.JsonRead.C74_document",
    "Verif.Props.JsonRead.C74_readable_partial",
    "Verif.Props.JsonRead.C74_surrogate_fails",
    "Verif.Props.JsonRead.C74_late_fails",
    "Verif.Props.JsonRead.C74_text",
    "Verif.Props.JsonRead.C74_same_partial",
    "Verif.Props.JsonRead.C74_blank_fails",
    "Verif.Props.JsonRead.C74_separator_fails",
    "Verif.Props.JsonRead.C74_mixed",
    "Verif.Props.JsonRead.C74_frame_fails",
    "Verif.Props.JsonRead.C74_single",
    "Verif.Props.JsonRead.C74_scalar_fails",
    "Verif.Props.JsonRead.C74_parquet_text",
    "Verif.Props.JsonRead.C74_parquet_none",
    "Verif.Props.JsonRead.C74_parquet_list_fails",
    "Verif.Props.JsonRead.C74_unicode"
   ],
   "note": "json.loads is a parameter; carriage returns are left out. Failing cases are proved: fewer than sixty of a hundred are accepted, undecodable lines after the thousandth stop the reading, in memory everything behind an empty line is lost and values with rare line separators are lost, documents on lines are not normalised while those in a list are, a file with one number is recognised but gives no data, a file of lists with half a surrogate pair in a text is recognised but cannot be read, and a list of documents given as the text of a Parquet file makes one row."
  },
  {
   "property": "C75",
   "status": "partial",
   "theorems": [
    "Verif.Props.HistColumn.C75_histogram",
    "Verif.Props.HistColumn.C75_report_twice",
    "Verif.Props.HistColumn.C75_report_changes_fails",
    "Verif.Props.HistColumn.C75_merge",
    "Verif.Props.HistColumn.C75_merged_frozen_fails",
    "Verif.Props.HistColumn.C75_user_bins_fails",
    "Verif.Props.HistColumn.C75_empty_operand_fails",
    "Verif.Props.HistColumn.C75_empty_left_fails",
    "Verif.Props.HistColumn.C75_no_method",
    "Verif.Props.HistColumn.C75_shared_fails",
    "Verif.Props.BatchBins.C75_one_batch",
    "Verif.Props.BatchBins.C75_rule_counts"
   ],
   "note": "Proved for columns that were only updated, and for the report of a merge. Failing cases, proved: a report between two updates leaves 1000 bins in later ones, a merged column ignores updates, merging columns that ask for a number of bins makes every report raise KeyError, merging with a column without values loses the histogram, median and mode, and updating such a merge empties the histogram the operand reports. The estimates of the number of bins are parameters in HistColumn; BatchBins puts in those of the code."
  },
  {
   "property": "C76",
   "status": "partial",
   "theorems": [
    "Verif.Props.BinWidth.C76_counts",
    "Verif.Props.BinWidth.C76_numpy",
    "Verif.Props.BinWidth.C76_scott",
    "Verif.Props.BinWidth.C76_scott_fails",
    "Verif.Props.BinWidth.C76_auto",
    "Verif.Props.BinWidth.C76_positive",
    "Verif.Props.BinWidth.C76_units",
    "Verif.Props.BinWidth.C76_edges",
    "Verif.Props.BinWidth.C76_extremes",
    "Verif.Props.BinWidth.C76_infinite_fails",
    "Verif.Props.BinWidth.C76_collapsed_fails",
    "Verif.Props.BinWidth.C76_uncapped_fails",
    "Verif.Props.BatchBins.C76_batch_counts",
    "Verif.Props.BatchBins.C76_batch_numpy",
    "Verif.Props.BatchBins.C76_batch_positive",
    "Verif.Props.BatchBins.C76_merge_batch"
   ],
   "note": "Proved over the reals with infinities and NaN. Failing cases, proved: by Scott's rule the suggestion can be smaller than numpy's (sample instead of population deviation); an infinite maximum makes the default rule raise; equal recorded extremes with positive deviation give zero bins; the cap of 100000 bins is not applied. Freedman-Diaconis is not compared with numpy because a profile takes its quartiles from its histogram."
  },
  {
   "property": "C77",
   "status": "proved",
   "theorems": [
    "Verif.Props.TTest.C77_defined",
    "Verif.Props.TTest.C77_swap",
    "Verif.Props.TTest.C77_freedom",
    "Verif.Props.TTest.C77_p_values",
    "Verif.Props.TTest.C77_conservative",
    "Verif.Props.TTest.C77_distance",
    "Verif.Props.TTest.C77_units"
   ],
   "note": "scipy's distribution function is a parameter with the properties used as hypotheses; infinite means are left out."
  },
  {
   "property": "C78",
   "status": "partial",
   "theorems": [
    "Verif.Props.NumPsi.C78_psi_partial",
    "Verif.Props.NumPsi.C78_swap_partial",
    "Verif.Props.NumPsi.C78_ten",
    "Verif.Props.NumPsi.C78_degenerate",
    "Verif.Props.NumPsi.C78_few_bins_fails",
    "Verif.Props.NumPsi.C78_itself_fails",
    "Verif.Props.NumPsi.C78_ten_bins_fails",
    "Verif.Props.NumPsi.C78_disjoint_fails"
   ],
   "note": "Proved when the edges differ and the first column does not have ten bins, and for equal edges with ten bins. Failing cases, proved: equal edges with fewer than ten bins raise IndexError (text columns too), with a thousand bins a column compared with itself has a positive index, a histogram with ten bins is not moved to the common range, and columns that share no bin have index zero."
  },
  {
   "property": "C79",
   "status": "partial",
   "theorems": [
    "Verif.Props.ProfileDiff.C79_raises",
    "Verif.Props.ProfileDiff.C79_entries",
    "Verif.Props.ProfileDiff.C79_data_type",
    "Verif.Props.ProfileDiff.C79_statistics",
    "Verif.Props.ProfileDiff.C79_representation",
    "Verif.Props.ProfileDiff.C79_missing",
    "Verif.Props.ProfileDiff.C79_psi_partial",
    "Verif.Props.ProfileDiff.C79_psi_fails",
    "Verif.Props.ProfileDiff.C79_columns",
    "Verif.Props.ProfileDiff.C79_table_raises",
    "Verif.Props.ProfileDiff.C79_global",
    "Verif.Props.ProfileDiff.C79_no_values_fails",
    "Verif.Props.ProfileDiff.C79_no_statistics_fails",
    "Verif.Props.ProfileDiff.C79_null_rows_fails",
    "Verif.Props.ProfileDiff.C79_null_ratio_partial",
    "Verif.Props.ProfileDiff.C79_null_ratio_fails",
    "Verif.Props.ProfileDiff.C79_merge_empty_fails"
   ],
   "note": "Tests and stability indices are parameters here (C52, C77, C78). Failing cases, proved: a categorical column with values cannot be compared with a column of nulls (ZeroDivisionError); columns of different types cannot be compared without categories and labels (KeyError); the stability index of numbers is replaced by that of the categories; rows that are null only in the second profile are not reported; the null ratio is that of the last batch or of the right operand of a merge, and a column without data cannot be merged."
  },
  {
   "property": "C80",
   "status": "partial",
   "theorems": [
    "Verif.Props.Unstructured.C80_counts",
    "Verif.Props.Unstructured.C80_whole",
    "Verif.Props.Unstructured.C80_text",
    "Verif.Props.Unstructured.C80_report",
    "Verif.Props.Unstructured.C80_update_raises",
    "Verif.Props.Unstructured.C80_merge_raises",
    "Verif.Props.Unstructured.C80_file",
    "Verif.Props.Unstructured.C80_file_merge",
    "Verif.Props.Unstructured.C80_name",
    "Verif.Props.Unstructured.C80_merge_names",
    "Verif.Props.Unstructured.C80_labels_fails",
    "Verif.Props.Unstructured.C80_unfed_fails",
    "Verif.Props.Unstructured.C80_names_fails"
   ],
   "note": "Proved for distinct index labels. Failing cases, proved: with repeated labels (a concatenation of series) full lines count as empty and blank lines are profiled; a profile without lines can be neither reported nor merged; the same lines given as a list and as a named column cannot be merged. The labeler is disabled in this model (C39 has it)."
  },
  {
   "property": "C81",
   "status": "partial",
   "theorems": [
    "Verif.Props.UnstructuredDiff.C81_characters",
    "Verif.Props.UnstructuredDiff.C81_words_partial",
    "Verif.Props.UnstructuredDiff.C81_words_case_partial",
    "Verif.Props.UnstructuredDiff.C81_labels",
    "Verif.Props.UnstructuredDiff.C81_report",
    "Verif.Props.UnstructuredDiff.C81_reports",
    "Verif.Props.UnstructuredDiff.C81_fed",
    "Verif.Props.UnstructuredDiff.C81_case_fails",
    "Verif.Props.UnstructuredDiff.C81_limits_fails"
   ],
   "note": "Words are proved for profiles of the same case option, and for different ones if no two words of the case sensitive profile have the same lower case; otherwise (proved) spellings are reported as surplus words and only the count of one spelling is compared. The limit of the first profile is applied to both tables, so that shared words can appear as words of one side and the reverse difference is another (proved)."
  },
  {
   "property": "C82",
   "status": "partial",
   "theorems": [
    "Verif.Props.Report.C82_statistics",
    "Verif.Props.Report.C82_shares",
    "Verif.Props.Report.C82_reported",
    "Verif.Props.Report.C82_head",
    "Verif.Props.Report.C82_times",
    "Verif.Props.Report.C82_columns",
    "Verif.Props.Report.C82_globals",
    "Verif.Props.Report.C82_schema",
    "Verif.Props.Report.C82_disabled_partial",
    "Verif.Props.Report.C82_mixin_partial",
    "Verif.Props.Report.C82_removed_fails",
    "Verif.Props.Report.C82_kept_fails",
    "Verif.Props.Report.C82_mixin_fails",
    "Verif.Props.Report.C82_lost_times_fails"
   ],
   "note": "Everything but the last sentence is proved in full, for columns that were given data (the others raise KeyError, proved). With the flag, shown statistics of decimal and text columns are calculated ones and all calculated ones of integer and date columns are shown; the converses fail: decimals lose all but the precision, integers keep disabled statistics, and the numeric report itself never keeps mean and median (proved). The final formatting is C54, C31 and C32."
  },
  {
   "property": "C83",
   "status": "partial",
   "theorems": [
    "Verif.Props.LabelerDisk.C83_saves",
    "Verif.Props.LabelerDisk.C83_kept",
    "Verif.Props.LabelerDisk.C83_labels",
    "Verif.Props.LabelerDisk.C83_network",
    "Verif.Props.LabelerDisk.C83_save_again",
    "Verif.Props.LabelerDisk.C83_round_partial",
    "Verif.Props.LabelerDisk.C83_equal_partial",
    "Verif.Props.LabelerDisk.C83_failed",
    "Verif.Props.LabelerDisk.C83_options",
    "Verif.Props.LabelerDisk.C83_trainable",
    "Verif.Props.LabelerDisk.C83_order_fails",
    "Verif.Props.LabelerDisk.C83_split_fails",
    "Verif.Props.LabelerDisk.C83_pad_fails",
    "Verif.Props.LabelerDisk.C83_relabel_fails",
    "Verif.Props.LabelerDisk.C83_tuple_fails",
    "Verif.Props.LabelerDisk.C83_generator_fails",
    "Verif.Props.LabelerDisk.C83_mixed_fails",
    "Verif.Props.LabelerDisk.C83_encoded_fails",
    "Verif.Props.LabelerDisk.C83_column_fails"
   ],
   "note": "Proved for labelers whose settings go together (`Usable`), with tuples compared as lists and generators by their state; equality by `==` if there is no tuple and the postprocessor does not compare generators. Failing cases, proved: a priority set without an order, and expressions for labels that were replaced, are saved but cannot be loaded; the hidden split of the structured preprocessor and a changed padding label are lost; the loaded labeler does not equal the saved one for default separators and for regex postprocessors; a failed save destroys the labeler that was there or leaves a mixture of both. TensorFlow's saving of weights is a parameter; CharLoadTFModel is left out."
  },
  {
   "property": "C84",
   "status": "partial",
   "theorems": [
    "Verif.Props.LabelerEq.C84_equal_partial",
    "Verif.Props.LabelerEq.C84_symm",
    "Verif.Props.LabelerEq.C84_equivalence",
    "Verif.Props.LabelerEq.C84_merge_iff",
    "Verif.Props.LabelerEq.C84_weights_fails",
    "Verif.Props.LabelerEq.C84_merge_fails",
    "Verif.Props.LabelerEq.C84_generator_fails"
   ],
   "note": "Everything but the last sentence is proved, for labelers without numpy arrays among their parameters (comparing those raises in Python). The last sentence fails: weights are not compared, so differently trained networks are equal and profiles made with them can be merged (proved); conversely two regex postprocessors made from one seed are unequal (proved)."
  },
  {
   "property": "C85",
   "status": "partial",
   "theorems": [
    "Verif.Props.ColumnJson.C85_writes",
    "Verif.Props.ColumnJson.C85_write_errors",
    "Verif.Props.ColumnJson.C85_new",
    "Verif.Props.ColumnJson.C85_profile",
    "Verif.Props.ColumnJson.C85_attributes",
    "Verif.Props.ColumnJson.C85_numbers",
    "Verif.Props.ColumnJson.C85_compiler",
    "Verif.Props.ColumnJson.C85_options",
    "Verif.Props.ColumnJson.C85_column",
    "Verif.Props.ColumnJson.C85_labeler_option",
    "Verif.Props.ColumnJson.C85_unknown",
    "Verif.Props.ColumnJson.C85_former_name",
    "Verif.Props.ColumnJson.C85_sketch_fails",
    "Verif.Props.ColumnJson.C85_labeler_fails",
    "Verif.Props.ColumnJson.C85_date_fails",
    "Verif.Props.ColumnJson.C85_merged_fails",
    "Verif.Props.ColumnJson.C85_class_fails",
    "Verif.Props.ColumnJson.C85_keys_fails",
    "Verif.Props.ColumnHistory.C85_history",
    "Verif.Props.ColumnHistory.C85_history_saved",
    "Verif.Props.ColumnHistory.C85_history_numbers",
    "Verif.Props.ColumnHistory.C85_history_size"
   ],
   "note": "Proved for objects whose attributes are of the kinds given in `Spec/ColumnJson`. New profiles have them (`C85_new`), and any history of updates, reports and options, saved and loaded in between, keeps them and ends as if it had never been saved (`C85_history`). The steps of a history give the kinds that updates store and take the values as parameters; merged histograms, sketches and a dictionary shared by two attributes are not among them. Failing cases, proved: categories with a count-min sketch and labelers of the user cannot be saved; a date without a pandas timestamp is saved but not loaded; the losses that merged histograms carry are loaded as arrays; options with the missing value 'class' are saved but not loaded; missing values by number of column are loaded with strings as keys, so they are not applied any more. Sharing between attributes (the stored histogram and that of the selected method) is not modelled here."
  },
  {
   "property": "C86",
   "status": "partial",
   "theorems": [
    "Verif.Props.FScore.C86_make",
    "Verif.Props.FScore.C86_config",
    "Verif.Props.FScore.C86_f1",
    "Verif.Props.FScore.C86_score",
    "Verif.Props.FScore.C86_batches",
    "Verif.Props.FScore.C86_weights",
    "Verif.Props.FScore.C86_batch",
    "Verif.Props.FScore.C86_range",
    "Verif.Props.FScore.C86_perfect",
    "Verif.Props.FScore.C86_accuracy",
    "Verif.Props.FScore.C86_ties_fails",
    "Verif.Props.FScore.C86_absent_fails"
   ],
   "note": "Everything but the last sentence is proved over exact rationals (TensorFlow computes in 32 bit floats). The last sentence fails: all classes that share the largest value are predicted, and none if the largest value is 0 (C86_ties_fails). The mean over classes counts absent classes as 0 (C86_absent_fails)."
  },
  {
   "property": "C87",
   "status": "partial",
   "theorems": [
    "Verif.Props.Network.C87_encode",
    "Verif.Props.Network.C87_same",
    "Verif.Props.Network.C87_distinct",
    "Verif.Props.Network.C87_embedding",
    "Verif.Props.Network.C87_threshold",
    "Verif.Props.Network.C87_current",
    "Verif.Props.Network.C87_predict_partial",
    "Verif.Props.Network.C87_loaded",
    "Verif.Props.Network.C87_numbers",
    "Verif.Props.Network.C87_relabel",
    "Verif.Props.Network.C87_refused",
    "Verif.Props.Network.C87_epochs",
    "Verif.Props.Network.C87_fit",
    "Verif.Props.Network.C87_trains_partial",
    "Verif.Props.Network.C87_validation",
    "Verif.Props.Network.C87_deep_fails",
    "Verif.Props.Network.C87_length_fails",
    "Verif.Props.Network.C87_rename_fails",
    "Verif.Props.Network.C87_gap_fails",
    "Verif.Props.Network.C87_empty_fails"
   ],
   "note": "The calculations of layers, the first weights, what a batch of training does and the evaluation are parameters. C87_predict_partial is for networks made by the class and histories that leave max_length and max_char_encoding_id alone (C87_length_fails shows why); C87_trains_partial for at most two dense layers (C87_deep_fails shows why). C87_rename_fails and C87_gap_fails show that the check for other labels sees only their number and the number of the default label."
  },
  {
   "property": "C88",
   "status": "partial",
   "theorems": [
    "Verif.Props.Source.C88_pieces",
    "Verif.Props.Source.C88_closed",
    "Verif.Props.Source.C88_handle",
    "Verif.Props.Source.C88_same",
    "Verif.Props.Source.C88_detect",
    "Verif.Props.Source.C88_detect_valid",
    "Verif.Props.Source.C88_utf8",
    "Verif.Props.Source.C88_detect_same",
    "Verif.Props.Source.C88_detect_text",
    "Verif.Props.Source.C88_lines",
    "Verif.Props.Source.C88_lines_found",
    "Verif.Props.Source.C88_s3_partial",
    "Verif.Props.Source.C88_path",
    "Verif.Props.Source.C88_url",
    "Verif.Props.Source.C88_client",
    "Verif.Props.Source.C88_download",
    "Verif.Props.Source.C88_download_size",
    "Verif.Props.Source.C88_s3_fails",
    "Verif.Props.Source.C88_download_fails",
    "Verif.Props.Source.C88_position_fails",
    "Verif.Props.Source.C88_newline_fails",
    "Verif.Props.Source.C88_late_fails",
    "Verif.Props.Source.C88_close_fails",
    "Verif.Props.Source.C88_offset_fails"
   ],
   "note": "Decoding, chardet, charset_normalizer, the server and the S3 client are parameters; Sound says that reading a beginning agrees with reading everything and that names of encodings may be written in any case. C88_s3_partial is for keys without ? and # that do not begin with a slash; C88_s3_fails shows what happens to others."
  },
  {
   "property": "C89",
   "status": "partial",
   "theorems": [
    "Verif.Props.TableRead.C89_cells_partial",
    "Verif.Props.TableRead.C89_integers",
    "Verif.Props.TableRead.C89_division",
    "Verif.Props.TableRead.C89_missing",
    "Verif.Props.TableRead.C89_labels",
    "Verif.Props.TableRead.C89_nulls",
    "Verif.Props.TableRead.C89_sample_partial",
    "Verif.Props.TableRead.C89_sample_all",
    "Verif.Props.TableRead.C89_given",
    "Verif.Props.TableRead.C89_given_sample",
    "Verif.Props.TableRead.C89_guessed",
    "Verif.Props.TableRead.C89_text_settings",
    "Verif.Props.TableRead.C89_file_settings",
    "Verif.Props.TableRead.C89_text",
    "Verif.Props.TableRead.C89_integers_fails",
    "Verif.Props.TableRead.C89_sample_fails",
    "Verif.Props.TableRead.C89_nulls_fails",
    "Verif.Props.TableRead.C89_empty_fails",
    "Verif.Props.TableRead.C89_blank_fails",
    "Verif.Props.TableRead.C89_quote_fails",
    "Verif.Props.TableRead.C89_trailing_fails"
   ],
   "note": "Proved for cells other than integers in columns with nulls (these become doubles, counterexample, also between a sample and the whole file), for divisions, selection, samples and settings. Row groups are put together without renumbering: labels are distinct only for one non-empty row group, and a column without nulls is reported to have as many nulls as there are rows beyond the largest row group. A file without row groups loses its columns; a delimited file with a line of blanks and one delimiter is not read; the quote character is not passed to the parser; a delimiter ending every line becomes part of the cells, but not when a text is read (counterexamples). Parser, guesses and library conversions are parameters."
  },
  {
   "property": "C90",
   "status": "partial",
   "theorems": [
    "Verif.Props.Plot.C90_all",
    "Verif.Props.Plot.C90_named",
    "Verif.Props.Plot.C90_inds",
    "Verif.Props.Plot.C90_unknown",
    "Verif.Props.Plot.C90_refused",
    "Verif.Props.Plot.C90_grid",
    "Verif.Props.Plot.C90_nodata",
    "Verif.Props.Plot.C90_bars",
    "Verif.Props.Plot.C90_mass",
    "Verif.Props.Plot.C90_missing_none",
    "Verif.Props.Plot.C90_missing_partial",
    "Verif.Props.Plot.C90_colors",
    "Verif.Props.Plot.C90_integers_fails",
    "Verif.Props.Plot.C90_order_fails",
    "Verif.Props.Plot.C90_bars_fails",
    "Verif.Props.Plot.C90_missing_fails",
    "Verif.Props.Plot.C90_onecolor_fails"
   ],
   "note": "C90_missing_partial is an equivalence: the rows of a null value are marked right if and only if none of them stands alone between others. For a lone row the end of an earlier stretch is used, so that the rows before it are marked instead (rows 0, 5, 10 missing: 1 to 4 marked, 5 not). The columns asked for are not sorted, integer names are refused although documented, and bins without width lose their bar. seaborn and matplotlib are modelled by what the calls draw."
  },
  {
   "property": "C91",
   "status": "partial",
   "theorems": [
    "Verif.Props.Factory.C91_infer",
    "Verif.Props.Factory.C91_kind",
    "Verif.Props.Factory.C91_unknown",
    "Verif.Props.Factory.C91_data",
    "Verif.Props.Factory.C91_options",
    "Verif.Props.Factory.C91_labeler_refused",
    "Verif.Props.Factory.C91_defaults",
    "Verif.Props.Factory.C91_alone",
    "Verif.Props.Factory.C91_again",
    "Verif.Props.Factory.C91_refused",
    "Verif.Props.Factory.C91_update",
    "Verif.Props.Factory.C91_given_min",
    "Verif.Props.Factory.C91_plain",
    "Verif.Props.Factory.C91_graph",
    "Verif.Props.Factory.C91_graph_fails",
    "Verif.Props.Factory.C91_directory_fails",
    "Verif.Props.Factory.C91_lost_fails",
    "Verif.Props.Factory.C91_trace_fails",
    "Verif.Props.Factory.C91_labeler",
    "Verif.Props.Factory.C91_trainable",
    "Verif.Props.Factory.C91_components",
    "Verif.Props.Factory.C91_graph_data"
   ],
   "note": "Proved for all data, options and histories. The expectation that options and min_true_samples are checked by every profiler fails for graph profilers (C91_graph_fails); a changed labeler directory is ignored by later profilers from the same options (C91_directory_fails), a failed load switches the labeler off in the caller's options for good (C91_lost_fails), and making a profiler that fails because of its data still changes them (C91_trace_fails)."
  },
  {
   "property": "C92",
   "status": "partial",
   "theorems": [
    "Verif.Props.Predict.C92_table",
    "Verif.Props.Predict.C92_column",
    "Verif.Props.Predict.C92_refused",
    "Verif.Props.Predict.C92_purpose",
    "Verif.Props.Predict.C92_ragged_fails",
    "Verif.Props.Predict.C92_labels",
    "Verif.Props.Predict.C92_entities",
    "Verif.Props.Predict.C92_words",
    "Verif.Props.Predict.C92_inside",
    "Verif.Props.Predict.C92_batch",
    "Verif.Props.Predict.C92_alone",
    "Verif.Props.Predict.C92_cells_partial",
    "Verif.Props.Predict.C92_names_partial",
    "Verif.Props.Predict.C92_cell_partial",
    "Verif.Props.Predict.C92_cells_batch_partial",
    "Verif.Props.Predict.C92_zero_fails",
    "Verif.Props.Predict.C92_numbers_fails",
    "Verif.Props.Predict.C92_empty_fails"
   ],
   "note": "The statements about cells are for cells that do not end with a zero character: such a zero is dropped before the prediction but counted afterwards, so that the cells after it get labels of other characters (C92_zero_fails). Names are for cells with a label other than padding (see C59). Rows of different lengths are labelled as printed lists (C92_ragged_fails), numbers cannot be labelled by words (C92_numbers_fails) and a structured labeler raises on no cells (C92_empty_fails). The values of a frame are taken as pandas gives them, printing of values other than texts is a parameter."
  },
  {
   "property": "C93",
   "status": "partial",
   "theorems": [
    "Verif.Props.Enabled.C93_partial",
    "Verif.Props.Enabled.C93_calculated",
    "Verif.Props.Enabled.C93_default",
    "Verif.Props.Enabled.C93_property",
    "Verif.Props.Enabled.C93_lacking",
    "Verif.Props.Enabled.C93_closed",
    "Verif.Props.Enabled.C93_merged",
    "Verif.Props.Enabled.C93_independent",
    "Verif.Props.Enabled.C93_untouched",
    "Verif.Props.Enabled.C93_ordered",
    "Verif.Props.Enabled.C93_first",
    "Verif.Props.Enabled.C93_needed",
    "Verif.Props.Enabled.C93_switch",
    "Verif.Props.Enabled.C93_none",
    "Verif.Props.Enabled.C93_created",
    "Verif.Props.Enabled.C93_enabled",
    "Verif.Props.Enabled.C93_presets",
    "Verif.Props.Enabled.C93_overflow_fails",
    "Verif.Props.Enabled.C93_quantiles",
    "Verif.Props.Enabled.C93_quantiles_fails",
    "Verif.Props.Enabled.C93_modes_fails",
    "Verif.Props.Enabled.C93_type_fails",
    "Verif.Props.Enabled.C93_modes"
   ],
   "note": "False in full: a sum that overflows to infinity while the variance stays finite makes the next update raise KeyError (C93_overflow_fails); `num_quantiles` and `top_k_modes` may be None according to validation, but then no quantiles are calculated and equal bins raise TypeError (C93_quantiles_fails, C93_modes_fails); the type of a column of text depends on whether its maximum is calculated (C93_type_fails). Proved for arithmetic without overflow, and for every arithmetic under an explicit condition on the state (C93_ordered). A profile that cannot be made is left out with a warning, except that a ValueError is raised again (C93_created). Histograms are an arbitrary state."
  },
  {
   "property": "C94",
   "status": "partial",
   "theorems": [
    "Verif.Props.EncodedChars.C94_rows",
    "Verif.Props.EncodedChars.C94_told",
    "Verif.Props.EncodedChars.C94_list",
    "Verif.Props.EncodedChars.C94_array",
    "Verif.Props.EncodedChars.C94_nested",
    "Verif.Props.EncodedChars.C94_blank",
    "Verif.Props.EncodedChars.C94_array_fails",
    "Verif.Props.EncodedChars.C94_unknown_fails",
    "Verif.Props.EncodedChars.C94_accepts",
    "Verif.Props.EncodedChars.C94_accepts_fails"
   ],
   "note": "Rows and batches are proved for all texts and maps of 64-bit integers, on top of the splitting of C55; telling texts apart for injective codes other than zero. Labels are proved to stay with their rows if they are given as a list; given as an array, as documented, they raise for two texts or more, for any array NumPy makes of entities, and for one text without entities (witness). An unknown character is encoded like padding (witness). A map is accepted if its keys are texts or its values integers, so that encoding may raise later (witness); the constructor without a map is refused. One-hot encoding of labels and batches yielded before an error are not modelled."
  },
  {
   "property": "C95",
   "status": "partial",
   "theorems": [
    "Verif.Props.Avro.C95_covers",
    "Verif.Props.Avro.C95_needed",
    "Verif.Props.Avro.C95_distinct",
    "Verif.Props.Avro.C95_order",
    "Verif.Props.Avro.C95_first",
    "Verif.Props.Avro.C95_error",
    "Verif.Props.Avro.C95_agree",
    "Verif.Props.Avro.C95_clash",
    "Verif.Props.Avro.C95_fits_partial",
    "Verif.Props.Avro.C95_agree_fits",
    "Verif.Props.Avro.C95_names",
    "Verif.Props.Avro.C95_null_first_fails",
    "Verif.Props.Avro.C95_scalar_later_fails",
    "Verif.Props.Avro.C95_list_fails",
    "Verif.Props.Avro.C95_names_fails"
   ],
   "note": "That every record fits the derived schema is proved for records whose scalars clash with objects only as nulls against objects with keys and that have no lists; without these conditions it is false (C95_null_first_fails, C95_scalar_later_fails, C95_list_fails). What the AVRO library does with the schema is not modelled."
  },
  {
   "property": "C96",
   "status": "partial",
   "theorems": [
    "Verif.Props.Seed.C96_set_seed",
    "Verif.Props.Seed.C96_one_seed",
    "Verif.Props.Seed.C96_generator",
    "Verif.Props.Seed.C96_unseeded",
    "Verif.Props.Seed.C96_positions",
    "Verif.Props.Seed.C96_statistics",
    "Verif.Props.Seed.C96_updated",
    "Verif.Props.Seed.C96_everything",
    "Verif.Props.Seed.C96_lines",
    "Verif.Props.Seed.C96_sampled",
    "Verif.Props.Seed.C96_nested",
    "Verif.Props.Seed.C96_merged_sample",
    "Verif.Props.Seed.C96_updated_sample",
    "Verif.Props.Seed.C96_unseeded_fails",
    "Verif.Props.Seed.C96_merge_fails",
    "Verif.Props.Seed.C96_shared_fails",
    "Verif.Props.Seed.C96_repeats_fails"
   ],
   "note": "Everything stated is proved for the serial code and integer index labels; generators are parameters that keep what their documentation promises. The wider expectation that a seed fixes all results fails for displayed values after merges, unstructured text and Parquet samples (C96_merge_fails, C96_shared_fails) and holds if the process-wide generators are in the same state, too (C96_everything, merges included). C96_sampled and C96_nested are for no minimum of true samples."
  },
  {
   "property": "C97",
   "status": "partial",
   "theorems": [
    "Verif.Props.Column.C97_describes",
    "Verif.Props.Column.C97_adds_up",
    "Verif.Props.Column.C97_whole",
    "Verif.Props.Column.C97_same",
    "Verif.Props.Column.C97_type",
    "Verif.Props.Column.C97_vocab",
    "Verif.Props.Column.C97_dates",
    "Verif.Props.Column.C97_order",
    "Verif.Props.Column.C97_order_at_once",
    "Verif.Props.Column.C97_duplicate_labels_fails",
    "Verif.Props.ColumnHist.C97_histogram",
    "Verif.Props.ColumnHist.C97_histogram_fails",
    "Verif.Props.ColumnHist.C97_precision",
    "Verif.Props.ColumnLabel.C97_labels",
    "Verif.Props.ColumnLabel.C97_labels_fails"
   ],
   "note": "Proved on top of the models of C01-C06, C12-C14, C16, C17, C30, C35 and C37, run together. Labels must be distinct: with rows that share a label the counts do not add up (C97_duplicate_labels_fails). Minimum and maximum are proved to be values of the column, and the extreme ones if no value is zero (see C05); category counts are for profiles that were not told to stop; the type of two profiles agrees when dates are disabled, since whether a batch counts as dates is decided on a random sample. The order is settled only for columns of numbers given at once (see C16 for what batches do to it). Histograms are settled for profiles that are not updated after a merge and do not merge numbers with no numbers; an update after a merge is not counted by the histogram (C97_histogram_fails). Precision is that of the decimals drawn, all of them up to 20000 in a batch. Labels are those of the values drawn, all of them up to the maximum per batch, for a labeler that labels each value by itself; merging a column that had only nulls with one that had values raises (C97_labels_fails)."
  },
  {
   "property": "C98",
   "status": "partial",
   "theorems": [
    "Verif.Props.TableStats.C98_succeeds",
    "Verif.Props.TableStats.C98_columns",
    "Verif.Props.TableStats.C98_whole",
    "Verif.Props.TableStats.C98_same",
    "Verif.Props.TableStats.C98_type",
    "Verif.Props.TableStats.C98_all_dates",
    "Verif.Props.TableStats.C98_same_columns",
    "Verif.Props.TableStats.C98_any_order",
    "Verif.Props.TableMore.C98_more_columns",
    "Verif.Props.TableMore.C98_more_succeeds",
    "Verif.Props.TableMore.C98_more_update",
    "Verif.Props.TableMore.C98_more_merge"
   ],
   "note": "Proved by putting the column profiles of C97 into the table model of C19-C21. Minimum and maximum are proved to be values of the column, and the extreme ones if no value is zero (a zero can be forgotten: C05_zero_min_fails). Category counts are for profiles that were not told to stop; equality of variances is for at least two numbers. Order, vocabulary and dates are those of C16, C35 and C37; how many values are counted as dates depends on the values drawn to look for dates. With the precision of decimals and labels: what they say is proved (C98_more_columns; of values drawn, all up to 20000 and up to the sample of the labeler), and exactly when updates and merges succeed; with labels, two tables cannot be merged if a column has only nulls in one of them and other values in the other (C98_more_merge). Options are the same for all columns; histograms are left out. Names that differ in case only are matched and then raise (C20_case_fails)."
  },
  {
   "property": "C99",
   "status": "partial",
   "theorems": [
    "Verif.Props.NullMatch.C99_pattern",
    "Verif.Props.NullMatch.C99_words",
    "Verif.Props.NullMatch.C99_default",
    "Verif.Props.NullMatch.C99_none",
    "Verif.Props.NullMatch.C99_refused",
    "Verif.Props.NullMatch.C99_flags",
    "Verif.Props.NullMatch.C99_promised_partial",
    "Verif.Props.NullMatch.C99_counts",
    "Verif.Props.NullMatch.C99_columns",
    "Verif.Props.NullMatch.C99_same_order_partial",
    "Verif.Props.NullMatch.C99_missing",
    "Verif.Props.NullMatch.C99_flags_fails",
    "Verif.Props.NullMatch.C99_line_end_fails",
    "Verif.Props.NullMatch.C99_point_fails",
    "Verif.Props.NullMatch.C99_star_fails",
    "Verif.Props.NullMatch.C99_missing_fails",
    "Verif.Props.NullMatch.C99_order_fails"
   ],
   "note": "The parser and matcher of expressions of literals, points and * + ? are modelled; other expressions are a parameter. Not true of the code, with proofs: flags have no effect, case is always ignored (C99_flags, C99_flags_fails); a line end after a null value is overlooked (C99_line_end_fails); NaT and <NA> are not null (C99_missing_fails); without null values the empty cell is still null (C99_none); null values of a column are used for whatever column is at that position in later data (C99_order_fails). What is promised is proved for flags that ignore case, cells without line end and data with the columns in the order of the profile."
  },
  {
   "property": "C100",
   "status": "partial",
   "theorems": [
    "Verif.Props.CsvRecords.C100_rows",
    "Verif.Props.CsvRecords.C100_one",
    "Verif.Props.CsvRecords.C100_unique",
    "Verif.Props.CsvRecords.C100_text",
    "Verif.Props.CsvRecords.C100_count",
    "Verif.Props.CsvRecords.C100_same",
    "Verif.Props.CsvRecords.C100_refused",
    "Verif.Props.CsvRecords.C100_zero_fails",
    "Verif.Props.CsvRecords.C100_break_fails",
    "Verif.Props.CsvRecords.C100_separator_fails",
    "Verif.Props.CsvRecords.C100_missing_fails"
   ],
   "note": "The writer of the module csv as pandas uses it is modelled; which further fields it quotes is a parameter. Not true of the code, with proofs: a line feed in a cell makes two records of a row (C100_break_fails, C100_count tells how many), a vertical tab or another separator in a cell ends a row (C100_separator_fails), missing cells are written as empty ones (C100_missing_fails), and 0 lines per record are accepted as an option although no records can be made (C100_zero_fails)."
  },
  {
   "property": "C101",
   "status": "partial",
   "theorems": [
    "Verif.Props.Attribute.C101_own",
    "Verif.Props.Attribute.C101_data",
    "Verif.Props.Attribute.C101_of_data",
    "Verif.Props.Attribute.C101_neither",
    "Verif.Props.Attribute.C101_hasattr",
    "Verif.Props.Attribute.C101_unreadable",
    "Verif.Props.Attribute.C101_property",
    "Verif.Props.Attribute.C101_once",
    "Verif.Props.Attribute.C101_set",
    "Verif.Props.Attribute.C101_set_data",
    "Verif.Props.Attribute.C101_recursion_fails",
    "Verif.Props.Attribute.C101_column_fails"
   ],
   "note": "Proved for arbitrary classes, with Python's lookup (properties, instance, class) as the model. False in two ways, both shown: attributes that the class of the data makes up in __getattr__ (the columns of a data frame) are not found (C101_column_fails); and when opening the file raises AttributeError, as it does for no file or a path object, the data are asked for again until the recursion limit, so data and every unknown name end in RecursionError (C101_recursion_fails). An AttributeError inside a property of the dataset is raised only after the data were read (C101_property). Special methods called by syntax, such as indexing, are looked up on the class by Python and are not part of this."
  },
  {
   "property": "C102",
   "status": "partial",
   "theorems": [
    "Verif.Props.ModelObjects.C102_own",
    "Verif.Props.ModelObjects.C102_new",
    "Verif.Props.ModelObjects.C102_set",
    "Verif.Props.ModelObjects.C102_get",
    "Verif.Props.ModelObjects.C102_get_all",
    "Verif.Props.ModelObjects.C102_round_partial",
    "Verif.Props.ModelObjects.C102_shared_fails",
    "Verif.Props.ModelObjects.C102_shared_set_fails",
    "Verif.Props.ModelObjects.C102_written_fails",
    "Verif.Props.ModelObjects.C102_caller_fails",
    "Verif.Props.ModelObjects.C102_same_dict_fails",
    "Verif.Props.ModelObjects.C102_round_fails",
    "Verif.Props.ModelObjects.C102_equal_fails"
   ],
   "note": "Proved for all programs that hand over dictionaries they use for nothing else (Own): models do not influence each other, whatever is made, refused or changed. False when a dictionary is used twice, for any state: the constructors keep the dictionary itself, so a second network takes over the path of the first (C102_shared_fails), set_params of one model sets the other (C102_shared_set_fails), the program's assignments become unchecked settings (C102_written_fails), and the defaults are left in the program's dictionary even if the constructor raises (C102_caller_fails). Saving and loading (C102_round_partial) is without the network and its files; it needs a default label that is a label, as set_params does not check this (C102_round_fails); the loaded model is not equal to the saved one (C102_equal_fails)."
  },
  {
   "property": "C103",
   "status": "partial",
   "theorems": [
    "Verif.Props.ProcParams.C103_new",
    "Verif.Props.ProcParams.C103_refused",
    "Verif.Props.ProcParams.C103_made",
    "Verif.Props.ProcParams.C103_set",
    "Verif.Props.ProcParams.C103_get",
    "Verif.Props.ProcParams.C103_legal",
    "Verif.Props.ProcParams.C103_case_fails",
    "Verif.Props.ProcParams.C103_hidden_fails",
    "Verif.Props.ProcParams.C103_seed_fails",
    "Verif.Props.ProcParams.C103_inner_fails"
   ],
   "note": "Proved as exact conditions for all classes and arguments, with four exceptions that the code has: the aggregation by priority written in another case needs no order (C103_case_fails); the share of texts put together of a preprocessor for structured data can be set to anything and not be read (C103_hidden_fails); seeds and states are taken by the constructors only (C103_seed_fails); the only setting of the structured regular expression postprocessor cannot be read by its name (C103_inner_fails). That the aggregation can be set to priority without an order is C83_order_fails. Positional arguments and texts of messages are not modelled; a state of a generator is not checked for its length."
  },
  {
   "property": "C104",
   "status": "proved",
   "theorems": [
    "Verif.Props.FloatStats.C104_sum",
    "Verif.Props.FloatStats.C104_mean",
    "Verif.Props.FloatStats.C104_agree",
    "Verif.Props.FloatStats.C104_adds",
    "Verif.Props.FloatStats.C104_variance",
    "Verif.Props.FloatStats.C104_loss",
    "Verif.Props.FloatStats.C104_small",
    "Verif.Props.FloatStats.C104_nonneg",
    "Verif.Props.FloatStats.C104_corrected",
    "Verif.Props.FloatStats.C104_double",
    "Verif.Props.FloatStats.C104_integers",
    "Verif.Props.FloatStats.C104_batches_fails",
    "Verif.Props.FloatStats.C104_constant_fails"
   ],
   "note": "Errors are bounded by (1+u)^k - 1, with k counted by recursion over the history (adds, loss) and bounded by the numbers of values and operations (C104_adds, C104_loss); C104_small turns this into 2ku. Doubles are an instance with u = 2^-53 (C104_double). Overflow, underflow and values that are not numbers are not modelled; counts are exact. Skewness and kurtosis are in exact arithmetic only (C01 to C06). Beyond the claim: the same numbers in other batches can have another sum (C104_batches_fails), and a column holding one number three times has a variance above zero and a mean above its maximum (C104_constant_fails)."
  },
  {
   "property": "C105",
   "status": "partial",
   "theorems": [
    "Verif.Props.Streams.C105_start",
    "Verif.Props.Streams.C105_anywhere",
    "Verif.Props.Streams.C105_bytes",
    "Verif.Props.Streams.C105_chars",
    "Verif.Props.Streams.C105_json",
    "Verif.Props.Streams.C105_typed",
    "Verif.Props.Streams.C105_left",
    "Verif.Props.Streams.C105_read",
    "Verif.Props.Streams.C105_after",
    "Verif.Props.Streams.C105_read_bytes",
    "Verif.Props.Streams.C105_read_from",
    "Verif.Props.Streams.C105_graph_from",
    "Verif.Props.Streams.C105_after_from",
    "Verif.Props.Streams.C105_again",
    "Verif.Props.Streams.C105_written_fails",
    "Verif.Props.Streams.C105_middle_fails",
    "Verif.Props.Streams.C105_avro_fails",
    "Verif.Props.Streams.C105_graph_fails"
   ],
   "note": "The full claim is false in the code: a text at another position is JSON if its rest is (C105_written_fails, C105_middle_fails), data_type='avro' looks at the position (C105_avro_fails), and a second reader of a graph reads nothing (C105_graph_fails). Proved: what is opened and read at the start and from any position, and where the stream is afterwards. What the parsers say is a parameter."
  },
  {
   "property": "C106",
   "status": "partial",
   "theorems": [
    "Verif.Props.MethodChoice.C106_selected",
    "Verif.Props.MethodChoice.C106_unique",
    "Verif.Props.MethodChoice.C106_short",
    "Verif.Props.MethodChoice.C106_zero_sum",
    "Verif.Props.MethodChoice.C106_average",
    "Verif.Props.MethodChoice.C106_dominates",
    "Verif.Props.MethodChoice.C106_rounds",
    "Verif.Props.MethodChoice.C106_estimate",
    "Verif.Props.MethodChoice.C106_estimate_error",
    "Verif.Props.MethodChoice.C106_inside",
    "Verif.Props.MethodChoice.C106_series_fails"
   ],
   "note": "Exact arithmetic. For a pandas series (which the signature admits) the variance inside the bins is not a number as soon as a bin holds one value (C106_series_fails); everything else is proved."
  },
  {
   "property": "C107",
   "status": "proved",
   "theorems": [
    "Verif.Props.OptionObjects.C107_equal_iff",
    "Verif.Props.OptionObjects.C107_equivalence",
    "Verif.Props.OptionObjects.C107_copy_equal",
    "Verif.Props.OptionObjects.C107_copy_shares",
    "Verif.Props.OptionObjects.C107_copy_apart",
    "Verif.Props.OptionObjects.C107_properties_values",
    "Verif.Props.OptionObjects.C107_properties_apart",
    "Verif.Props.OptionObjects.C107_properties_labeler",
    "Verif.Props.OptionObjects.C107_numeric_stats"
   ],
   "note": "Objects carry addresses; == includes Python's rule that the method of a right operand of a derived class goes first. Data labelers are expected only as data_labeler_object of options of data labelers, and option objects do not contain themselves."
  },
  {
   "property": "C108",
   "status": "partial",
   "theorems": [
    "Verif.Props.Snapshot.C108_pretty",
    "Verif.Props.Snapshot.C108_serializable_partial",
    "Verif.Props.Snapshot.C108_plain_partial",
    "Verif.Props.Snapshot.C108_later",
    "Verif.Props.Snapshot.C108_plain_shares",
    "Verif.Props.Snapshot.C108_serializable_shares",
    "Verif.Props.Snapshot.C108_fails"
   ],
   "note": "Proved for pretty and compact reports. False otherwise: without a format the lists and arrays (samples, null types, histograms, correlations) and with serializable the lists are those of the profile, so emptying the samples of a report empties those of the profile (C108_plain_shares, C108_serializable_shares, C108_fails). The objects under profile_schema are handed on as well; the profiler makes them for each report. Assumed: sets hold immutable values, arrays hold immutable values or arrays, data_stats is a list of dictionaries. Omitted keys and the format flat are not part of this model."
  },
  {
   "property": "C109",
   "status": "partial",
   "theorems": [
    "Verif.Props.Apart.C109_contents",
    "Verif.Props.Apart.C109_count",
    "Verif.Props.Apart.C109_full",
    "Verif.Props.Apart.C109_full_ratio",
    "Verif.Props.Apart.C109_hll_partial",
    "Verif.Props.Apart.C109_hll_shared",
    "Verif.Props.Apart.C109_options",
    "Verif.Props.Apart.C109_hll_fails",
    "Verif.Props.Apart.C109_hll_later_fails",
    "Verif.Props.Apart.C109_options_fails"
   ],
   "note": "Holds for full hashing of rows. False with HyperLogLog: the left operand of a merge and the sum keep one sketch, so the operand reports rows it was not given (a ratio above one) and changes with every update of the sum; proved for histories that do not use a left operand again. Options are shared between the left operand and the sum; the exact extent of the sharing is proved."
  },
  {
   "property": "C110",
   "status": "partial",
   "theorems": [
    "Verif.Props.Registry.C110_model",
    "Verif.Props.Registry.C110_needs_ml",
    "Verif.Props.Registry.C110_processor",
    "Verif.Props.Registry.C110_package_processors",
    "Verif.Props.Registry.C110_load",
    "Verif.Props.Registry.C110_package_partial",
    "Verif.Props.Registry.C110_own_partial",
    "Verif.Props.Registry.C110_plugins",
    "Verif.Props.Registry.C110_preset_package",
    "Verif.Props.Registry.C110_preset_plugin",
    "Verif.Props.Registry.C110_loaded",
    "Verif.Props.Registry.C110_package_fails",
    "Verif.Props.Registry.C110_own_fails",
    "Verif.Props.Registry.C110_processor_fails"
   ],
   "note": "What is found is characterised for all processes. False as stated: no module of the package imports CharLoadTFModel, so a labeler saved with it is not loaded in a process that imports only the package; a model of the user with the name of one of the package (upper and lower case alike) is replaced by it in the lookup itself; processors without the registering metaclass are never found; without the optional libraries every lookup of a model raises, also of the regex model."
  },
  {
   "property": "C111",
   "status": "partial",
   "theorems": [
    "Verif.Props.Abort.C111_refused",
    "Verif.Props.Abort.C111_outcome",
    "Verif.Props.Abort.C111_exact",
    "Verif.Props.Abort.C111_reached_clean",
    "Verif.Props.Abort.C111_reached_total",
    "Verif.Props.Abort.C111_consistent_partial",
    "Verif.Props.Abort.C111_never_repaired",
    "Verif.Props.Abort.C111_retry",
    "Verif.Props.Abort.C111_first",
    "Verif.Props.Abort.C111_fails"
   ],
   "note": "That an update that raises changes nothing is proved for refused updates and false for those that raise in the middle (C111_fails): tried again, every column counts the batch twice and the table once (C111_retry), and a first update that raises fixes the columns for good (C111_first). What is left behind is characterised exactly (C111_exact). C111_consistent_partial is for histories without updates that raise in the middle. Column names are different; one process; a step that raises is taken to change nothing."
  },
  {
   "property": "C112",
   "status": "partial",
   "theorems": [
    "Verif.Props.Logging.C112_once_partial",
    "Verif.Props.Logging.C112_first",
    "Verif.Props.Logging.C112_sequential",
    "Verif.Props.Logging.C112_handlers",
    "Verif.Props.Logging.C112_mutex",
    "Verif.Props.Logging.C112_progress",
    "Verif.Props.Logging.C112_ends",
    "Verif.Props.Logging.C112_released",
    "Verif.Props.Logging.C112_printed",
    "Verif.Props.Logging.C112_notset",
    "Verif.Props.Logging.C112_notset_fails",
    "Verif.Props.Logging.C112_fails",
    "Verif.Props.Logging.C112_level_fails"
   ],
   "note": "Proved for everything after a first call that is made alone, as the import of the package does. False if first calls overlap: _dp_logger is not looked at again inside the lock, so any number of threads can each add a handler (C112_fails), and a level that was set is overwritten with INFO (C112_level_fails). False for the documented level NOTSET: the level of the root logger decides then, and INFO messages disappear (C112_notset_fails). If the module is reloaded, the next call is a first call and adds a handler (C112_first). Of the module logging, effective levels and handlers are modelled."
  },
  {
   "property": "C113",
   "status": "proved",
   "theorems": [
    "Verif.Props.Embedding.C113_parse",
    "Verif.Props.Embedding.C113_read",
    "Verif.Props.Embedding.C113_blank",
    "Verif.Props.Embedding.C113_newlines",
    "Verif.Props.Embedding.C113_round",
    "Verif.Props.Embedding.C113_words",
    "Verif.Props.Embedding.C113_created",
    "Verif.Props.Embedding.C113_refused",
    "Verif.Props.Embedding.C113_blank_word"
   ],
   "note": "Numbers are the texts in the file, as in the code; the principal component analysis is a parameter that gives as many vectors as it is given, with texts of numbers that are not empty and without white space. A table made otherwise with a blank as a word would not be read back (C113_blank_word), but such a table cannot come from a file (C113_words)."
  },
  {
   "property": "C114",
   "status": "partial",
   "theorems": [
    "Verif.Props.Require.C114_warned",
    "Verif.Props.Require.C114_runs",
    "Verif.Props.Require.C114_history_partial",
    "Verif.Props.Require.C114_stays",
    "Verif.Props.Require.C114_stuck",
    "Verif.Props.Require.C114_fails",
    "Verif.Props.Require.C114_predict"
   ],
   "note": "What a call does is characterised for all states. C114_history_partial is for modules that nobody else imports after the package or that were there from the start. False otherwise: a module that is installed later and imported by other code passes the check but has no name in the module of the function, so every call raises a NameError for good (C114_fails, C114_stuck). For the labels of column names the check comes too late: rapidfuzz is used in the arguments of the guarded function, so without it predict raises a NameError instead of warning, also after it has been installed (C114_predict)."
  },
  {
   "property": "C115",
   "status": "partial",
   "theorems": [
    "Verif.Props.F1Text.C115_table",
    "Verif.Props.F1Text.C115_width",
    "Verif.Props.F1Text.C115_raises",
    "Verif.Props.F1Text.C115_accuracy_fails",
    "Verif.Props.F1Text.C115_names_fails",
    "Verif.Props.F1Text.C115_columns_fails"
   ],
   "note": "C115_table is for reports whose classes are labels, with numbers of at most nine characters, and with a number for the accuracy only. False otherwise: a class called accuracy raises a TypeError (C115_accuracy_fails), a class with the name of an average is printed among the averages (C115_names_fails), and the lines of classes that are not among the labels can be longer (C115_columns_fails)."
  },
  {
   "property": "C116",
   "status": "proved",
   "theorems": [
    "Verif.Props.Memory.C116_size",
    "Verif.Props.Memory.C116_raises",
    "Verif.Props.Memory.C116_history",
    "Verif.Props.Memory.C116_batches",
    "Verif.Props.Memory.C116_history_raises",
    "Verif.Props.Memory.C116_double",
    "Verif.Props.Memory.C116_report"
   ],
   "note": "For all roundings that leave numbers of bytes below 2^53 divided by units as they are (Exact); C116_double: binary64 does. Bytes are those of String.utf8ByteSize of Lean. C116_report is about the model of whole profiles of text (C80), with exact arithmetic."
  },
  {
   "property": "C117",
   "status": "partial",
   "theorems": [
    "Verif.Props.Metadata.C117_metadata",
    "Verif.Props.Metadata.C117_both",
    "Verif.Props.Metadata.C117_plain",
    "Verif.Props.Metadata.C117_cells_partial",
    "Verif.Props.Metadata.C117_format_fails",
    "Verif.Props.Metadata.C117_early_fails"
   ],
   "note": "Proved for all documents and histories in the flattened format. Missing: payloads that are not objects in C117_cells_partial. C117_early_fails and C117_format_fails show where the result depends on what was read before. Assigning a format that does not exist and errors of loading the file are not modelled here."
  },
  {
   "property": "C118",
   "status": "partial",
   "theorems": [
    "Verif.Props.Origin.C118_type",
    "Verif.Props.Origin.C118_encoding",
    "Verif.Props.Origin.C118_one_type",
    "Verif.Props.Origin.C118_one_encoding",
    "Verif.Props.Origin.C118_merged",
    "Verif.Props.Origin.C118_last_fails",
    "Verif.Props.Origin.C118_apart_fails",
    "Verif.Props.Origin.C118_empty_fails"
   ],
   "note": "Proved for all histories as far as it is true. That different files are always reported as such fails for updates (C118_last_fails, C118_apart_fails), and one file is reported as several after merging with a profiler without data (C118_empty_fails)."
  },
  {
   "property": "C119",
   "status": "partial",
   "theorems": [
    "Verif.Props.Mergeable.C119_add",
    "Verif.Props.Mergeable.C119_symmetric",
    "Verif.Props.Mergeable.C119_sum",
    "Verif.Props.Mergeable.C119_diff",
    "Verif.Props.Mergeable.C119_nan_fails",
    "Verif.Props.Mergeable.C119_class_fails"
   ],
   "note": "Proved for all profiles and orders of merging, C119_symmetric and C119_sum for calculations that can always be merged (some in which they cannot are in C38, C51 and C75). False for columns named NaN (C119_nan_fails) and for derived classes (C119_class_fails)."
  },
  {
   "property": "C120",
   "status": "partial",
   "theorems": [
    "Verif.Props.WholeText.C120_digits_partial",
    "Verif.Props.WholeText.C120_small",
    "Verif.Props.WholeText.C120_huge",
    "Verif.Props.WholeText.C120_digits_fails",
    "Verif.Props.WholeText.C120_float",
    "Verif.Props.WholeText.C120_other",
    "Verif.Props.WholeText.C120_text",
    "Verif.Props.WholeText.C120_zeros_fails"
   ],
   "note": "False in full: whole numbers pass through a float, so 9007199254740993 is written as 9007199254740992 (C120_digits_fails), and digits of a text are not kept, '007' becomes '7' (C120_zeros_fails). Proved: whole numbers below 2^53 and those from 2^1024 on are written with their digits (C120_small, C120_huge), all others as a whole number that differs by at most a part of 2^-53 (C120_digits_partial); of floats and of texts that are numbers the whole part is written (C120_float, C120_text) and everything else is kept (C120_other). Parameters: how Python reads a text as a float and writes a float. The limit of newer Pythons on the digits of str is not modelled. The package itself does not call this function."
  }
 ]
}