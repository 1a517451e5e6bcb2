# Axioms of the claimed theorems

Printed by `#print axioms` for every theorem named in MANIFEST.json. p = `propext`, c = `Classical.choice`, q = `Quot.sound`; none means no axiom at all. No other axiom occurs.

## C01

* `Verif.Numeric.C01_totals`: c q p
* `Verif.Numeric.C01_batch_independent`: c q p

## C02

* `Verif.Numeric.C02_variance`: c q p

## C03

* `Verif.Numeric.C03_skewness`: c q p
* `Verif.Numeric.C03_unresolved_fails`: c q p

## C04

* `Verif.Numeric.C04_kurtosis_partial`: c q p
* `Verif.Numeric.C04_empty`: c q p
* `Verif.Numeric.C04_constant_data_fails`: c q p

## C05

* `Verif.Numeric.C05_min_max_partial`: c q p
* `Verif.Numeric.C05_min_max_sound`: c q p
* `Verif.Numeric.C05_zero_min_fails`: c q p

## C06

* `Verif.Numeric.C06_merge_is_concat`: c q p
* `Verif.Numeric.C06_order_irrelevant`: c q p
* `Verif.Numeric.C06_merge_laws`: p

## C23

* `Verif.ChiSquared.C23_is_pearson`: c q p
* `Verif.ChiSquared.C23_degenerate`: c q p
* `Verif.ChiSquared.C23_symmetric`: c q p
* `Verif.ChiSquared.C23_nonneg`: c q p
* `Verif.ChiSquared.C23_zero_iff_proportional`: c q p
* `Verif.ChiSquared.C23_matrix_entries`: c q p
* `Verif.ChiSquared.C23_matrix_symmetric`: c q p

## C24

* `Verif.Nested.C24_pointwise`: q p
* `Verif.Nested.C24_ok_iff_compatible`: q p
* `Verif.Nested.C24_clash_is_type_error`: none
* `Verif.Nested.C24_comm`: q p
* `Verif.Nested.C24_assoc`: q p

## C25

* `Verif.Chunks.C25_partition`: q p
* `Verif.Chunks.C25_chunk`: q p
* `Verif.Chunks.C25_text_blocks`: q p
* `Verif.Chunks.C25_records`: q p
* `Verif.Chunks.C25_records_empty_fails`: p
* `Verif.Chunks.C25_batch_generator`: q p
* `Verif.Chunks.C25_json_blocks_partial`: c q p
* `Verif.Chunks.C25_json_blocks_fails`: c q p

## C26

* `Verif.Shuffle.C26_permutation`: c q p
* `Verif.Shuffle.C26_chunk_sizes`: q p
* `Verif.Shuffle.C26_chunking_irrelevant`: q p
* `Verif.Shuffle.C26_draws_determine_order`: q p
* `Verif.Shuffle.C26_every_order_possible`: c q p

## C27

* `Verif.MergeList.C27_pool_order_irrelevant`: q p
* `Verif.MergeList.C27_merge_each_once`: c q p
* `Verif.MergeList.C27_merge_is_fold`: c q p
* `Verif.MergeList.C27_empty`: q p

## C28

* `Verif.Diffs.C28_numbers`: c q p
* `Verif.Diffs.C28_numbers_missing`: c q p
* `Verif.Diffs.C28_strings_bools`: p
* `Verif.Diffs.C28_dates`: q p
* `Verif.Diffs.C28_lists`: c q p
* `Verif.Diffs.C28_lists_unchanged_partial`: c q p
* `Verif.Diffs.C28_lists_multiplicity_fails`: c q p
* `Verif.Diffs.C28_sets`: c q p
* `Verif.Diffs.C28_lists_swap`: c q p
* `Verif.Diffs.C28_dicts`: c q p
* `Verif.Diffs.C28_dicts_three_parts`: c q p
* `Verif.Diffs.C28_self_unchanged`: c q p
* `Verif.Diffs.C28_nan_self_fails`: c q p
* `Verif.Diffs.C28_matrices`: c q p
* `Verif.Diffs.C28_matrix_nan_hides_change`: c q p
* `Verif.Diffs.C28_unchanged_means_same`: c q p
* `Verif.Diffs.C28_three_parts_unchanged`: c q p
* `Verif.Diffs.C28_three_parts_unchanged_means_same`: c q p

## C47

* `Verif.Pool.C47_suggestion_bounds_partial`: c q p
* `Verif.Pool.C47_zero_fails`: c q p
* `Verif.Pool.C47_memory_figure_grows`: c q p
* `Verif.Pool.C47_pool_created`: c q p
* `Verif.Pool.C47_toggle_monotone`: q p
* `Verif.Pool.C47_toggle_exact`: c q p

## C49

* `Verif.Calculations.C49_filter`: q p
* `Verif.Calculations.C49_merge_is_intersection`: q p
* `Verif.Calculations.C49_merge_warnings`: p
* `Verif.Calculations.C49_merge_comm`: q p
* `Verif.Calculations.C49_runs`: q p

## C50

* `Verif.Nested.C50_update_leaves`: q p
* `Verif.Nested.C50_update_sets_and_keeps`: q p
* `Verif.Nested.C50_idempotent`: q p

## C07

* `Verif.Histogram.C07_mass`: c q p
* `Verif.Histogram.C07_whole`: c q p
* `Verif.Histogram.C07_local`: c q p
* `Verif.Histogram.C07_regenerate`: c q p
* `Verif.Histogram.C07_no_bins`: c q p

## C08

* `Verif.Histogram.C08_merge_total`: c q p
* `Verif.Histogram.C08_merge_range_partial`: c q p
* `Verif.Histogram.C08_range_fails`: c q p
* `Verif.Histogram.C08_merge_streams`: c q p
* `Verif.Histogram.C08_bin_methods`: c q p
* `Verif.Histogram.C08_stream`: c q p
* `Verif.Histogram.C08_single_batch_exact`: c q p
* `Verif.Histogram.C08_update_after_merge_fails`: c q p
* `Verif.Histogram.C08_reported_total`: c q p
* `Verif.Histogram.C08_least_loss_partial`: c q p
* `Verif.Histogram.C08_zero_loss_displaced_fails`: c q p

## C09

* `Verif.Histogram.C09_range`: c q p
* `Verif.Histogram.C09_monotone_partial`: c q p
* `Verif.Histogram.C09_monotone_fails`: c q p
* `Verif.Histogram.C09_order`: c q p
* `Verif.Histogram.C09_quantiles_sorted`: c q p
* `Verif.Histogram.C09_splits_mass`: c q p
* `Verif.Histogram.C09_median_shift_fails`: c q p

## C10

* `Verif.Histogram.C10_modes`: c q p
* `Verif.Histogram.C10_count_and_range`: c q p

## C11

* `Verif.Histogram.C11_bounds`: c q p
* `Verif.Histogram.C11_half_mass_partial`: c q p
* `Verif.Histogram.C11_first_bin_zero_fails`: c q p

## C12

* `Verif.Categorical.C12_counts_exact`: c q p
* `Verif.Categorical.C12_batch_independent`: c q p
* `Verif.Categorical.C12_addition_is_nested_addition`: p

## C13

* `Verif.Categorical.C13_stops_only_when_asked`: c q p
* `Verif.Categorical.C13_never_without_options`: c q p
* `Verif.Categorical.C13_update_stops_iff`: c q p
* `Verif.Categorical.C13_stop_permanent`: c q p

## C14

* `Verif.Categorical.C14_merge_unstopped`: c q p
* `Verif.Categorical.C14_merge_stopped_partial`: c q p
* `Verif.Categorical.C14_merge_laws`: c q p
* `Verif.Categorical.C14_stopped_size_fails`: c q p
* `Verif.Categorical.C14_stopped_reason_lost_fails`: c q p

## C15

* `Verif.Categorical.C15_unique_ratio_range`: c q p
* `Verif.Categorical.C15_gini`: c q p
* `Verif.Categorical.C15_unalikeability`: c q p
* `Verif.Categorical.C15_small`: c q p
* `Verif.Categorical.C15_stopped_zero_fails`: c q p

## C51

* `Verif.Categorical.C51_heavy_hitters`: c q p
* `Verif.Categorical.C51_exact_sketch`: c q p
* `Verif.Categorical.C51_works_iff`: c q p
* `Verif.Categorical.C51_merged_unusable_fails`: c q p

## C52

* `Verif.Psi.C52_psi`: c q p
* `Verif.Psi.C52_symmetric`: c q p
* `Verif.Psi.C52_disjoint_zero_fails`: c q p
* `Verif.Psi.C52_empty_raises_fails`: c q p

## C53

* `Verif.Categorical.C53_top_k`: c q p
* `Verif.Categorical.C53_match`: c q p
* `Verif.Categorical.C53_top_k_lost_by_merge_fails`: c q p

## C16

* `Verif.Order.C16_expected_unique`: c q p
* `Verif.Order.C16_single_batch`: q p
* `Verif.Order.C16_none_iff`: q p
* `Verif.Order.C16_fails_constant`: c q p
* `Verif.Order.C16_fails_ascending`: c q p
* `Verif.Order.C16_fails_enveloped`: c q p
* `Verif.Order.C16_fails_batching`: c q p
* `Verif.Order.C16_sound_ascending_partial`: q p
* `Verif.Order.C16_sound_descending_partial`: q p
* `Verif.Order.C16_sound_constant_partial`: q p
* `Verif.Order.C16_sound_random`: q p
* `Verif.Order.C16_complete_ascending`: q p
* `Verif.Order.C16_complete_descending`: q p
* `Verif.Order.C16_complete_constant`: q p
* `Verif.Order.C16_random_final`: p
* `Verif.Order.C16_neutral`: p
* `Verif.Order.C16_numeric`: c q p
* `Verif.Order.C16_text_stays`: c q p
* `Verif.Order.C16_column_random_final`: c q p
* `Verif.Order.C16_column_merge_comm`: c q p
* `Verif.Order.C16_column_numbers`: c q p
* `Verif.Order.C16_column_none_iff`: c q p
* `Verif.Order.C16_fails_mixed`: c q p

## C17

* `Verif.Nulls.C17_taken_unique`: q p
* `Verif.Nulls.C17_partition`: c q p
* `Verif.Nulls.C17_in_order`: c q p
* `Verif.Nulls.C17_whole_column`: c q p
* `Verif.Nulls.C17_own_chunks`: c q p
* `Verif.Nulls.C17_table_chunks`: c q p
* `Verif.Nulls.C17_history`: c q p
* `Verif.Nulls.C17_index_total`: c q p
* `Verif.Nulls.C17_positions_unshifted`: c q p
* `Verif.Nulls.C17_foreign`: q p
* `Verif.Nulls.C17_duplicate_labels_fails`: q p
* `Verif.Nulls.C17_in_order_fails`: q p
* `Verif.Nulls.C17_ratio_fails`: c q p
* `Verif.Nulls.C17_merge_fresh_fails`: c q p
* `Verif.Nulls.C17_negative_labels_fails`: c q p

## C19

* `Verif.Schema.C19_ok_iff`: c q p
* `Verif.Schema.C19_bijection`: c q p
* `Verif.Schema.C19_repeated_in_place`: c q p
* `Verif.Schema.C19_only_value_error`: c q p
* `Verif.Schema.C19_empty`: c q p
* `Verif.Schema.C19_empty_profile_accepts_all`: q p

## C18

* `Verif.Table.C18_null_rows`: c q p
* `Verif.Table.C18_null_rows_whole`: c q p
* `Verif.Table.C18_unique`: c q p
* `Verif.Table.C18_swapped_columns_fails`: c q p
* `Verif.Table.C18_min_true_fails`: c q p

## C20

* `Verif.Table.C20_pairs_by_name`: c q p
* `Verif.Table.C20_ok_iff`: c q p
* `Verif.Table.C20_column_ok_iff`: c q p
* `Verif.Table.C20_refused`: c q p
* `Verif.Table.C20_operand_unchanged`: c q p
* `Verif.Table.C20_describes`: c q p
* `Verif.Table.C20_whole_table`: c q p
* `Verif.Table.C20_raises_and_changes_fails`: c q p
* `Verif.Table.C20_case_fails`: c q p

## C21

* `Verif.Table.C21_pool_equals_serial`: c q p
* `Verif.Table.C21_each_column_once`: c q p

## C29

* `Verif.SampleSize.C29_bounds`: c q p
* `Verif.SampleSize.C29_monotone`: c q p
* `Verif.SampleSize.C29_rows_looked_at`: c q p
* `Verif.SampleSize.C29_per_update_fails`: c q p

## C22

* `Verif.Correlation.C22_history`: c q p
* `Verif.Correlation.C22_matrix`: c q p
* `Verif.Correlation.C22_symmetric`: c q p
* `Verif.Correlation.C22_range`: c q p
* `Verif.Correlation.C22_diagonal`: c q p
* `Verif.Correlation.C22_batch_nulls`: c q p
* `Verif.Correlation.C22_updates_go_through`: c q p
* `Verif.Correlation.C22_merge_empty`: c q p
* `Verif.Correlation.C22_after_merge_raises_fails`: c q p
* `Verif.Correlation.C22_merge_mixed_raises_fails`: c q p
* `Verif.Correlation.C22_constant_batch_fails`: c q p
* `Verif.Correlation.C22_nulls_batching_fails`: c q p
* `Verif.Correlation.C22_merge_permuted_fails`: c q p

## C48

* `Verif.NullRep.C48_from_zero`: c q p
* `Verif.NullRep.C48_rising`: c q p
* `Verif.NullRep.C48_merge_rising`: c q p
* `Verif.NullRep.C48_goes_through`: c q p
* `Verif.NullRep.C48_priors`: c q p
* `Verif.NullRep.C48_integer_batch_raises_fails`: c q p
* `Verif.NullRep.C48_merge_dates_raises_fails`: c q p
* `Verif.NullRep.C48_with_correlation_raises_fails`: c q p
* `Verif.NullRep.C48_stale_shift_fails`: c q p
* `Verif.NullRep.C48_negative_label_fails`: c q p
* `Verif.NullRep.C48_batch_order_fails`: c q p
* `Verif.NullRep.C48_merge_order_fails`: c q p
* `Verif.NullRep.C48_merge_empty_column_fails`: c q p
* `Verif.NullRep.C48_text_column_fails`: c q p

## C30

* `Verif.ColumnTypes.C30_selected`: c q p
* `Verif.ColumnTypes.C30_unseen`: c q p
* `Verif.ColumnTypes.C30_text_fallback`: c q p
* `Verif.ColumnTypes.C30_ratios`: c q p
* `Verif.ColumnTypes.C30_int_is_float`: q p
* `Verif.ColumnTypes.C30_report`: c q p
* `Verif.ColumnTypes.C30_label`: c q p
* `Verif.ColumnTypes.C30_merged_label_fails`: c q p
* `Verif.ColumnTypes.C30_empty_strings_label`: c q p

## C35

* `Verif.Vocab.C35_vocab`: c q p
* `Verif.Vocab.C35_batching`: c q p

## C36

* `Verif.Precision.C36_figures`: c q p
* `Verif.Precision.C36_exponent`: c q p
* `Verif.Precision.C36_capital_exponent_fails`: c q p
* `Verif.Precision.C36_sample_size`: c q p
* `Verif.Precision.C36_stats`: c q p
* `Verif.Precision.C36_default_drawn`: c q p
* `Verif.Precision.C36_all_values`: c q p
* `Verif.Precision.C36_variance_partial`: c q p
* `Verif.Precision.C36_variance_fails`: c q p
* `Verif.Precision.C36_small_ratio_fails`: c q p
* `Verif.Precision.C36_merge_forgets_ratio`: c q p

## C37

* `Verif.DateTime.C37_batch`: c q p
* `Verif.DateTime.C37_count_exact`: c q p
* `Verif.DateTime.C37_sample_honest`: c q p
* `Verif.DateTime.C37_history`: c q p
* `Verif.DateTime.C37_batching_partial`: c q p
* `Verif.DateTime.C37_all_dates`: c q p
* `Verif.DateTime.C37_threshold_fails`: p
* `Verif.DateTime.C37_may_fails`: p
* `Verif.DateTime.C37_last_date_fails`: p

## C38

* `Verif.LabelsProps.C38_representation_partial`: c q p
* `Verif.LabelsProps.C38_average_partial`: c q p
* `Verif.LabelsProps.C38_data_label_partial`: c q p
* `Verif.LabelsProps.C38_votes`: c q p
* `Verif.LabelsProps.C38_merge_succeeds_iff`: c q p
* `Verif.LabelsProps.C38_merge_empty_fails`: c q p

## C39

* `Verif.EntitiesProps.C39_characters`: c q p
* `Verif.EntitiesProps.C39_characters_total`: c q p
* `Verif.EntitiesProps.C39_predictions`: c q p
* `Verif.EntitiesProps.C39_words`: c q p
* `Verif.EntitiesProps.C39_shares`: c q p
* `Verif.EntitiesProps.C39_shares_aligned`: c q p
* `Verif.EntitiesProps.C39_shares_fails`: c q p
* `Verif.EntitiesProps.C39_runs`: c q p
* `Verif.EntitiesProps.C39_batching`: c q p
* `Verif.EntitiesProps.C39_last_word_fails`: c q p
* `Verif.EntitiesProps.C39_joined_words_fails`: c q p

## C40

* `Verif.WordsProps.C40_split`: c q p
* `Verif.WordsProps.C40_count`: c q p
* `Verif.WordsProps.C40_stopped_partial`: c q p
* `Verif.WordsProps.C40_vocab`: c q p
* `Verif.WordsProps.C40_batching`: c q p
* `Verif.WordsProps.C40_ascii_sane`: c q p
* `Verif.WordsProps.C40_merge_fails`: c q p
* `Verif.WordsProps.C40_report`: c q p
* `Verif.WordsProps.C40_limits`: c q p

## C31

* `Verif.QuantilesProps.C31_quantiles`: c q p
* `Verif.QuantilesProps.C31_exact`: c q p
* `Verif.QuantilesProps.C31_sorted`: c q p
* `Verif.QuantilesProps.C31_fallback`: c q p
* `Verif.QuantilesProps.C31_doubles`: c q p
* `Verif.QuantilesProps.C31_small_fails`: c q p
* `Verif.QuantilesProps.C31_rounding_fails`: c q p

## C32

* `Verif.FlatProps.C32_flat`: c q p
* `Verif.FlatProps.C32_exact`: c q p
* `Verif.FlatProps.C32_plain`: c q p
* `Verif.FlatProps.C32_collision_fails`: c q p

## C54

* `Verif.PrepareProps.C54_omit`: c q p
* `Verif.PrepareProps.C54_succeeds`: c q p
* `Verif.PrepareProps.C54_nothing_omitted`: c q p
* `Verif.PrepareProps.C54_columns`: c q p
* `Verif.PrepareProps.C54_compact`: c q p
* `Verif.PrepareProps.C54_compact_covers`: c q p
* `Verif.PrepareProps.C54_compact_only`: c q p
* `Verif.PrepareProps.C54_wildcards_fails`: c q p
* `Verif.PrepareProps.C54_compact_mutates_fails`: c q p
* `Verif.PrepareProps.C54_schema_partial`: q p
* `Verif.PrepareProps.C54_schema_keys`: q p
* `Verif.PrepareProps.C54_schema_fails`: c q p

## C33

* `Verif.Props.OptionsValid.C33_numeric`: c q p
* `Verif.Props.OptionsValid.C33_text`: c q p
* `Verif.Props.OptionsValid.C33_partial`: c q p
* `Verif.Props.OptionsValid.C33_accepted`: c q p
* `Verif.Props.OptionsValid.C33_default`: c q p
* `Verif.Props.OptionsValid.C33_presets`: c q p
* `Verif.Props.OptionsValid.C33_rows`: c q p
* `Verif.Props.OptionsValid.C33_rows_fails`: c q p
* `Verif.Props.OptionsValid.C33_text_fails`: c q p
* `Verif.Props.OptionsValid.C33_nan_fails`: c q p

## C34

* `Verif.Props.OptionsSet.C34_partial`: c q p
* `Verif.Props.OptionsSet.C34_shape`: c q p
* `Verif.Props.OptionsSet.C34_ambiguous`: c q p
* `Verif.Props.OptionsSet.C34_clear`: c q p
* `Verif.Props.OptionsSet.C34_exact`: q p
* `Verif.Props.OptionsSet.C34_unknown`: q p
* `Verif.Props.OptionsSet.C34_star`: q p
* `Verif.Props.OptionsSet.C34_star_fails`: c q p
* `Verif.Props.OptionsSet.C34_unknown_fails`: c q p
* `Verif.Props.OptionsSet.C34_atomic_fails`: c q p

## C41

* `Verif.Props.Graph.C41_partial`: c q p
* `Verif.Props.Graph.C41_succeeds_iff`: c q p
* `Verif.Props.Graph.C41_attributes`: c q p
* `Verif.Props.Graph.C41_empty`: c q p
* `Verif.Props.Graph.C41_last`: c q p
* `Verif.Props.Graph.C41_report`: c q p
* `Verif.Props.Graph.C41_size_fails`: c q p
* `Verif.Props.Graph.C41_edges_fails`: c q p
* `Verif.Props.Graph.C41_ragged_fails`: c q p
* `Verif.Props.Graph.C41_likelihood_fails`: c q p

## C42

* `Verif.Props.Persist.C42_save_unchanged`: c q p
* `Verif.Props.Persist.C42_pickle_partial`: c q p
* `Verif.Props.Persist.C42_pickle_report_partial`: c q p
* `Verif.Props.Persist.C42_crash_partial`: c q p
* `Verif.Props.Persist.C42_crash_report`: c q p
* `Verif.Props.Persist.C42_json_partial`: q p
* `Verif.Props.Persist.C42_json_report`: q p
* `Verif.Props.Persist.C42_json_labelers`: p
* `Verif.Props.Persist.C42_unstructured`: p
* `Verif.Props.Persist.C42_method`: c q p
* `Verif.Props.Persist.C42_crash_fails`: q p
* `Verif.Props.Persist.C42_pickle_fails`: p
* `Verif.Props.Persist.C42_metrics_fails`: p
* `Verif.Props.Persist.C42_labeler`: q p
* `Verif.Props.Persist.C42_labeler_fails`: p
* `Verif.Props.Persist.C42_empty_fails`: p
* `Verif.Props.Persist.C42_json_names_fails`: c q p
* `Verif.Props.Persist.C42_json_metrics_fails`: c q p
* `Verif.Props.Persist.C42_json_null_fails`: c q p
* `Verif.Props.Persist.C42_json_save_fails`: p
* `Verif.Props.Persist.C42_method_fails`: c q p
* `Verif.Props.Persist.C42_graph_fails`: p

## C43

* `Verif.Props.Reservoir.C43_reservoir`: c q p
* `Verif.Props.Reservoir.C43_zero`: q p
* `Verif.Props.Reservoir.C43_subperm`: q p
* `Verif.Props.Reservoir.C43_text`: c q p
* `Verif.Props.Reservoir.C43_parquet`: q p
* `Verif.Props.Reservoir.C43_quoted_fails`: c q p

## C44

* `Verif.Props.Sniff.C44_find`: q p
* `Verif.Props.Sniff.C44_find_each`: q p
* `Verif.Props.Sniff.C44_prefix`: c q p
* `Verif.Props.Sniff.C44_cut_partial`: c q p
* `Verif.Props.Sniff.C44_whole_partial`: c q p
* `Verif.Props.Sniff.C44_lines`: q p
* `Verif.Props.Sniff.C44_last_fails`: c q p
* `Verif.Props.Sniff.C44_border_fails`: c q p
* `Verif.Props.Sniff.C44_bytes_fails`: c q p

## C46

* `Verif.Props.Validator.C46_partial`: c q p
* `Verif.Props.Validator.C46_new`: c q p
* `Verif.Props.Validator.C46_get`: p
* `Verif.Props.Validator.C46_succeeds`: c q p
* `Verif.Props.Validator.C46_stale_fails`: c q p
* `Verif.Props.Validator.C46_failed_fails`: q p
* `Verif.Props.Validator.C46_empty_fails`: p

## C45

* `Verif.Props.Json.C45_values`: p
* `Verif.Props.Json.C45_coalesce`: q p
* `Verif.Props.Json.C45_names_partial`: q p
* `Verif.Props.Json.C45_names_fails`: c q p
* `Verif.Props.Json.C45_empty`: p
* `Verif.Props.Json.C45_cells_partial`: q p
* `Verif.Props.Json.C45_rows_fails`: p
* `Verif.Props.Json.C45_document_partial`: q p
* `Verif.Props.Json.C45_all_cells_partial`: q p
* `Verif.Props.Json.C45_scalar_payload`: p

## C55

* `Verif.CharProcess.C55_samples`: c q p
* `Verif.CharProcess.C55_match`: c q p
* `Verif.CharProcess.C55_separator`: c q p
* `Verif.CharProcess.C55_predict`: c q p
* `Verif.CharProcess.C55_label`: c q p
* `Verif.CharProcess.C55_charwise`: c q p
* `Verif.CharProcess.C55_separator_fails`: c q p
* `Verif.Props.CharShare.C55_share`: c q p
* `Verif.Props.CharShare.C55_share_none`: c q p

## C56

* `Verif.CharLabels.C56_rows_partial`: c q p
* `Verif.CharLabels.C56_length`: c q p
* `Verif.CharLabels.C56_unknown`: q p
* `Verif.CharLabels.C56_empty_separator_fails`: c q p
* `Verif.CharLabels.C56_convert_partial`: c q p
* `Verif.CharLabels.C56_convert_fails`: c q p
* `Verif.CharLabels.C56_cells`: c q p

## C57

* `Verif.Postprocess.C57_entities`: c q p
* `Verif.Postprocess.C57_unique`: q p
* `Verif.Postprocess.C57_ok`: c q p
* `Verif.Postprocess.C57_adjacent_fails`: none
* `Verif.Postprocess.C57_alias_fails`: c q p

## C58

* `Verif.Postprocess.C58_length`: c q p
* `Verif.Postprocess.C58_words_partial`: c q p
* `Verif.Postprocess.C58_last_partial`: c q p
* `Verif.Postprocess.C58_separators`: c q p
* `Verif.Postprocess.C58_single`: c q p
* `Verif.Postprocess.C58_last_fails`: c q p
* `Verif.Postprocess.C58_only_fails`: c q p
* `Verif.Postprocess.C58_one_character`: c q p

## C59

* `Verif.Postprocess.C59_label`: c q p
* `Verif.Postprocess.C59_confidence`: c q p
* `Verif.Postprocess.C59_sum`: c q p
* `Verif.Postprocess.C59_confidence_ok`: c q p
* `Verif.Postprocess.C59_names_partial`: c q p
* `Verif.Postprocess.C59_empty_fails`: q p
* `Verif.Postprocess.C59_none_fails`: q p

## C60

* `Verif.RegexLabel.C60_votes_partial`: c q p
* `Verif.RegexLabel.C60_split`: c q p
* `Verif.RegexLabel.C60_priority_partial`: c q p
* `Verif.RegexLabel.C60_random`: c q p
* `Verif.RegexLabel.C60_cells_partial`: c q p
* `Verif.RegexLabel.C60_empty_fails`: c q p
* `Verif.RegexLabel.C60_compiled_fails`: q p
* `Verif.RegexLabel.C60_default_fails`: none
* `Verif.RegexLabel.C60_order_fails`: q p
* `Verif.RegexLabel.C60_empty_cell_fails`: c q p

## C61

* `Verif.LabelMap.C61_list_partial`: c q p
* `Verif.LabelMap.C61_list_fails`: p
* `Verif.LabelMap.C61_labels`: c q p
* `Verif.LabelMap.C61_all`: c q p
* `Verif.LabelMap.C61_num`: q p
* `Verif.LabelMap.C61_add`: c q p
* `Verif.LabelMap.C61_add_same`: q p
* `Verif.LabelMap.C61_add_known`: q p
* `Verif.LabelMap.C61_add_unknown`: q p
* `Verif.LabelMap.C61_same_fails`: p
* `Verif.LabelMap.C61_network_dict`: q p
* `Verif.LabelMap.C61_network_list_partial`: c q p
* `Verif.LabelMap.C61_network_list_fails`: q p
* `Verif.LabelMap.C61_average_partial`: c q p
* `Verif.LabelMap.C61_average_fails`: c q p

## C62

* `Verif.ClassReport.C62_confusion`: c q p
* `Verif.ClassReport.C62_confusion_empty`: none
* `Verif.ClassReport.C62_ok`: c q p
* `Verif.ClassReport.C62_rows_partial`: c q p
* `Verif.ClassReport.C62_bounds`: c q p
* `Verif.ClassReport.C62_macro_partial`: c q p
* `Verif.ClassReport.C62_accuracy`: c q p
* `Verif.ClassReport.C62_micro`: c q p
* `Verif.ClassReport.C62_weighted`: c q p
* `Verif.ClassReport.C62_padding`: c q p
* `Verif.ClassReport.C62_padding_fails`: c q p
* `Verif.ClassReport.C62_ragged_fails`: c q p
* `Verif.ClassReport.C62_name_fails`: c q p

## C63

* `Verif.Training.C63_errors`: q p
* `Verif.Training.C63_split_partial`: c q p
* `Verif.Training.C63_all`: c q p
* `Verif.Training.C63_split_fails`: p
* `Verif.Training.C63_single_fails`: c q p
* `Verif.Training.C63_table`: q p

## C64

* `Verif.ColumnName.C64_negative`: c q p
* `Verif.ColumnName.C64_predict`: c q p
* `Verif.ColumnName.C64_aligned_partial`: c q p
* `Verif.ColumnName.C64_aligned_fails`: q p
* `Verif.ColumnName.C64_nolabel`: c q p
* `Verif.ColumnName.C64_labels`: c q p
* `Verif.ColumnName.C64_labels_fails`: q p

## C65

* `Verif.Pipeline.C65_check`: c q p
* `Verif.Pipeline.C65_warned`: q p
* `Verif.Pipeline.C65_component`: q p
* `Verif.Pipeline.C65_get`: q p
* `Verif.Pipeline.C65_refused`: q p
* `Verif.Pipeline.C65_set`: c q p
* `Verif.Pipeline.C65_set_check`: c q p
* `Verif.Pipeline.C65_atomic_fails`: p
* `Verif.Pipeline.C65_missing_fails`: p

## C66

* `Verif.Props.Csv.C66_cut`: c q p
* `Verif.Props.Csv.C66_cells`: c q p
* `Verif.Props.Csv.C66_quoted_partial`: c q p
* `Verif.Props.Csv.C66_quoted_fails`: c q p
* `Verif.Props.Csv.C66_guess`: c q p
* `Verif.Props.Csv.C66_tie`: c q p
* `Verif.Props.Csv.C66_long_partial`: c q p
* `Verif.Props.Csv.C66_random_fails`: c q p
* `Verif.Props.Csv.C66_not_drawn`: q p
* `Verif.Props.Csv.C66_rest_fails`: q p

## C67

* `Verif.Props.Csv.C67_types`: c q p
* `Verif.Props.Csv.C67_text`: c q p
* `Verif.Props.Csv.C67_range`: c q p
* `Verif.Props.Csv.C67_first`: c q p
* `Verif.Props.Csv.C67_local`: c q p
* `Verif.Props.Csv.C67_names_fails`: c q p
* `Verif.Props.Csv.C67_data_fails`: c q p
* `Verif.Props.Csv.C67_gap_fails`: c q p

## C68

* `Verif.Props.Csv.C68_match`: c q p
* `Verif.Props.Csv.C68_short`: q p
* `Verif.Props.Csv.C68_clean`: c q p
* `Verif.Props.Csv.C68_empty_fails`: c q p
* `Verif.Props.Csv.C68_quote_fails`: c q p
* `Verif.Props.Csv.C68_thousand_fails`: c q p

## C69

* `Verif.Props.GraphRead.C69_find`: c q p
* `Verif.Props.GraphRead.C69_match`: c q p
* `Verif.Props.GraphRead.C69_names`: c q p
* `Verif.Props.GraphRead.C69_graph_partial`: c q p
* `Verif.Props.GraphRead.C69_found_partial`: c q p
* `Verif.Props.GraphRead.C69_uniform`: c q p
* `Verif.Props.GraphRead.C69_plain_fails`: c q p
* `Verif.Props.GraphRead.C69_far_fails`: c q p
* `Verif.Props.GraphRead.C69_text_fails`: c q p
* `Verif.Props.GraphRead.C69_ends_fails`: c q p
* `Verif.Props.GraphRead.C69_unfound_fails`: c q p
* `Verif.Props.GraphRead.C69_shared_fails`: c q p
* `Verif.Props.GraphRead.C69_header_fails`: c q p
* `Verif.Props.GraphRead.C69_sign_fails`: q p

## C70

* `Verif.Props.Reader.C70_arguments`: q p
* `Verif.Props.Reader.C70_file`: q p
* `Verif.Props.Reader.C70_text_takes_all`: q p
* `Verif.Props.Reader.C70_memory`: p
* `Verif.Props.Reader.C70_options_kept`: q p
* `Verif.Props.Reader.C70_credentials_fails`: p
* `Verif.Props.Reader.C70_csv_last`: none
* `Verif.Props.Reader.C70_csv_options`: q p
* `Verif.Props.Reader.C70_given`: q p
* `Verif.Props.Reader.C70_settings`: q p
* `Verif.Props.Reader.C70_data`: c q p
* `Verif.Props.Reader.C70_text_options`: none

## C71

* `Verif.Props.Reader.C71_reload_fresh`: p
* `Verif.Props.Reader.C71_history_free`: p
* `Verif.Props.Reader.C71_refused`: p
* `Verif.Props.Reader.C71_keys_forgotten_fails`: p
* `Verif.Props.Reader.C71_csv_partial`: p
* `Verif.Props.Reader.C71_csv_fails`: p
* `Verif.Props.Reader.C71_graph_fails`: p
* `Verif.Props.Reader.C71_rejected_fails`: q p

## C72

* `Verif.Props.Reader.C72_read_once`: p
* `Verif.Props.Reader.C72_format`: p
* `Verif.Props.Reader.C72_set_format`: p
* `Verif.Props.Reader.C72_late_fails`: c q p
* `Verif.Props.Reader.C72_no_file`: p
* `Verif.Props.Reader.C72_empty_path`: p

## C73

* `Verif.Props.JsonNest.C73_nested`: c q p
* `Verif.Props.JsonNest.C73_all_kept`: c q p
* `Verif.Props.JsonNest.C73_document`: c q p
* `Verif.Props.JsonNest.C73_error`: c q p
* `Verif.Props.JsonNest.C73_refused`: c q p
* `Verif.Props.JsonNest.C73_null_fails`: c q p
* `Verif.Props.JsonNest.C73_lost_fails`: c q p

## C74

* `Verif.Props.JsonRead.C74_recognised`: q p
* `Verif.Props.JsonRead.C74_undecodable`: q p
* `Verif.Props.JsonRead.C74_sixty`: q p
* `Verif.Props.JsonRead.C74_sixty_fails`: c q p
* `Verif.Props.JsonRead.C74_lines`: c q p
* `Verif.Props.JsonRead.C74_document`: q p
* `Verif.Props.JsonRead.C74_readable_partial`: c q p
* `Verif.Props.JsonRead.C74_surrogate_fails`: c q p
* `Verif.Props.JsonRead.C74_late_fails`: q p
* `Verif.Props.JsonRead.C74_text`: c q p
* `Verif.Props.JsonRead.C74_same_partial`: c q p
* `Verif.Props.JsonRead.C74_blank_fails`: c q p
* `Verif.Props.JsonRead.C74_separator_fails`: c q p
* `Verif.Props.JsonRead.C74_mixed`: q p
* `Verif.Props.JsonRead.C74_frame_fails`: p
* `Verif.Props.JsonRead.C74_single`: p
* `Verif.Props.JsonRead.C74_scalar_fails`: q p
* `Verif.Props.JsonRead.C74_parquet_text`: c q p
* `Verif.Props.JsonRead.C74_parquet_none`: c q p
* `Verif.Props.JsonRead.C74_parquet_list_fails`: c q p
* `Verif.Props.JsonRead.C74_unicode`: c q p

## C75

* `Verif.Props.HistColumn.C75_histogram`: c q p
* `Verif.Props.HistColumn.C75_report_twice`: c q p
* `Verif.Props.HistColumn.C75_report_changes_fails`: c q p
* `Verif.Props.HistColumn.C75_merge`: c q p
* `Verif.Props.HistColumn.C75_merged_frozen_fails`: c q p
* `Verif.Props.HistColumn.C75_user_bins_fails`: c q p
* `Verif.Props.HistColumn.C75_empty_operand_fails`: c q p
* `Verif.Props.HistColumn.C75_empty_left_fails`: c q p
* `Verif.Props.HistColumn.C75_no_method`: c q p
* `Verif.Props.HistColumn.C75_shared_fails`: c q p
* `Verif.Props.BatchBins.C75_one_batch`: c q p
* `Verif.Props.BatchBins.C75_rule_counts`: c q p

## C76

* `Verif.Props.BinWidth.C76_counts`: c q p
* `Verif.Props.BinWidth.C76_numpy`: c q p
* `Verif.Props.BinWidth.C76_scott`: c q p
* `Verif.Props.BinWidth.C76_scott_fails`: c q p
* `Verif.Props.BinWidth.C76_auto`: c q p
* `Verif.Props.BinWidth.C76_positive`: c q p
* `Verif.Props.BinWidth.C76_units`: c q p
* `Verif.Props.BinWidth.C76_edges`: c q p
* `Verif.Props.BinWidth.C76_extremes`: c q p
* `Verif.Props.BinWidth.C76_infinite_fails`: c q p
* `Verif.Props.BinWidth.C76_collapsed_fails`: c q p
* `Verif.Props.BinWidth.C76_uncapped_fails`: c q p
* `Verif.Props.BatchBins.C76_batch_counts`: c q p
* `Verif.Props.BatchBins.C76_batch_numpy`: c q p
* `Verif.Props.BatchBins.C76_batch_positive`: c q p
* `Verif.Props.BatchBins.C76_merge_batch`: c q p

## C77

* `Verif.Props.TTest.C77_defined`: c q p
* `Verif.Props.TTest.C77_swap`: c q p
* `Verif.Props.TTest.C77_freedom`: c q p
* `Verif.Props.TTest.C77_p_values`: c q p
* `Verif.Props.TTest.C77_conservative`: c q p
* `Verif.Props.TTest.C77_distance`: c q p
* `Verif.Props.TTest.C77_units`: c q p

## C78

* `Verif.Props.NumPsi.C78_psi_partial`: c q p
* `Verif.Props.NumPsi.C78_swap_partial`: c q p
* `Verif.Props.NumPsi.C78_ten`: c q p
* `Verif.Props.NumPsi.C78_degenerate`: c q p
* `Verif.Props.NumPsi.C78_few_bins_fails`: c q p
* `Verif.Props.NumPsi.C78_itself_fails`: c q p
* `Verif.Props.NumPsi.C78_ten_bins_fails`: c q p
* `Verif.Props.NumPsi.C78_disjoint_fails`: c q p

## C79

* `Verif.Props.ProfileDiff.C79_raises`: c q p
* `Verif.Props.ProfileDiff.C79_entries`: c q p
* `Verif.Props.ProfileDiff.C79_data_type`: c q p
* `Verif.Props.ProfileDiff.C79_statistics`: c q p
* `Verif.Props.ProfileDiff.C79_representation`: c q p
* `Verif.Props.ProfileDiff.C79_missing`: c q p
* `Verif.Props.ProfileDiff.C79_psi_partial`: c q p
* `Verif.Props.ProfileDiff.C79_psi_fails`: c q p
* `Verif.Props.ProfileDiff.C79_columns`: c q p
* `Verif.Props.ProfileDiff.C79_table_raises`: c q p
* `Verif.Props.ProfileDiff.C79_global`: c q p
* `Verif.Props.ProfileDiff.C79_no_values_fails`: c q p
* `Verif.Props.ProfileDiff.C79_no_statistics_fails`: c q p
* `Verif.Props.ProfileDiff.C79_null_rows_fails`: q p
* `Verif.Props.ProfileDiff.C79_null_ratio_partial`: c q p
* `Verif.Props.ProfileDiff.C79_null_ratio_fails`: c q p
* `Verif.Props.ProfileDiff.C79_merge_empty_fails`: c q p

## C80

* `Verif.Props.Unstructured.C80_counts`: c q p
* `Verif.Props.Unstructured.C80_whole`: c q p
* `Verif.Props.Unstructured.C80_text`: c q p
* `Verif.Props.Unstructured.C80_report`: c q p
* `Verif.Props.Unstructured.C80_update_raises`: c q p
* `Verif.Props.Unstructured.C80_merge_raises`: c q p
* `Verif.Props.Unstructured.C80_file`: c q p
* `Verif.Props.Unstructured.C80_file_merge`: c q p
* `Verif.Props.Unstructured.C80_name`: c q p
* `Verif.Props.Unstructured.C80_merge_names`: c q p
* `Verif.Props.Unstructured.C80_labels_fails`: c q p
* `Verif.Props.Unstructured.C80_unfed_fails`: c q p
* `Verif.Props.Unstructured.C80_names_fails`: c q p

## C81

* `Verif.Props.UnstructuredDiff.C81_characters`: c q p
* `Verif.Props.UnstructuredDiff.C81_words_partial`: c q p
* `Verif.Props.UnstructuredDiff.C81_words_case_partial`: c q p
* `Verif.Props.UnstructuredDiff.C81_labels`: c q p
* `Verif.Props.UnstructuredDiff.C81_report`: c q p
* `Verif.Props.UnstructuredDiff.C81_reports`: c q p
* `Verif.Props.UnstructuredDiff.C81_fed`: c q p
* `Verif.Props.UnstructuredDiff.C81_case_fails`: c q p
* `Verif.Props.UnstructuredDiff.C81_limits_fails`: c q p

## C82

* `Verif.Props.Report.C82_statistics`: c q p
* `Verif.Props.Report.C82_shares`: c q p
* `Verif.Props.Report.C82_reported`: c q p
* `Verif.Props.Report.C82_head`: c q p
* `Verif.Props.Report.C82_times`: c q p
* `Verif.Props.Report.C82_columns`: c q p
* `Verif.Props.Report.C82_globals`: q p
* `Verif.Props.Report.C82_schema`: c q p
* `Verif.Props.Report.C82_disabled_partial`: c q p
* `Verif.Props.Report.C82_mixin_partial`: c q p
* `Verif.Props.Report.C82_removed_fails`: c q p
* `Verif.Props.Report.C82_kept_fails`: c q p
* `Verif.Props.Report.C82_mixin_fails`: q p
* `Verif.Props.Report.C82_lost_times_fails`: c q p

## C83

* `Verif.Props.LabelerDisk.C83_saves`: c q p
* `Verif.Props.LabelerDisk.C83_kept`: c q p
* `Verif.Props.LabelerDisk.C83_labels`: c q p
* `Verif.Props.LabelerDisk.C83_network`: c q p
* `Verif.Props.LabelerDisk.C83_save_again`: c q p
* `Verif.Props.LabelerDisk.C83_round_partial`: c q p
* `Verif.Props.LabelerDisk.C83_equal_partial`: c q p
* `Verif.Props.LabelerDisk.C83_failed`: c q p
* `Verif.Props.LabelerDisk.C83_options`: c q p
* `Verif.Props.LabelerDisk.C83_trainable`: c q p
* `Verif.Props.LabelerDisk.C83_order_fails`: c q p
* `Verif.Props.LabelerDisk.C83_split_fails`: c q p
* `Verif.Props.LabelerDisk.C83_pad_fails`: c q p
* `Verif.Props.LabelerDisk.C83_relabel_fails`: c q p
* `Verif.Props.LabelerDisk.C83_tuple_fails`: c q p
* `Verif.Props.LabelerDisk.C83_generator_fails`: c q p
* `Verif.Props.LabelerDisk.C83_mixed_fails`: c q p
* `Verif.Props.LabelerDisk.C83_encoded_fails`: c q p
* `Verif.Props.LabelerDisk.C83_column_fails`: c q p

## C84

* `Verif.Props.LabelerEq.C84_equal_partial`: c q p
* `Verif.Props.LabelerEq.C84_symm`: c q p
* `Verif.Props.LabelerEq.C84_equivalence`: c q p
* `Verif.Props.LabelerEq.C84_merge_iff`: c q p
* `Verif.Props.LabelerEq.C84_weights_fails`: c q p
* `Verif.Props.LabelerEq.C84_merge_fails`: q p
* `Verif.Props.LabelerEq.C84_generator_fails`: c q p

## C85

* `Verif.Props.ColumnJson.C85_writes`: q p
* `Verif.Props.ColumnJson.C85_write_errors`: q p
* `Verif.Props.ColumnJson.C85_new`: c q p
* `Verif.Props.ColumnJson.C85_profile`: c q p
* `Verif.Props.ColumnJson.C85_attributes`: c q p
* `Verif.Props.ColumnJson.C85_numbers`: c q p
* `Verif.Props.ColumnJson.C85_compiler`: c q p
* `Verif.Props.ColumnJson.C85_options`: c q p
* `Verif.Props.ColumnJson.C85_column`: c q p
* `Verif.Props.ColumnJson.C85_labeler_option`: q p
* `Verif.Props.ColumnJson.C85_unknown`: c q p
* `Verif.Props.ColumnJson.C85_former_name`: c q p
* `Verif.Props.ColumnJson.C85_sketch_fails`: c q p
* `Verif.Props.ColumnJson.C85_labeler_fails`: c q p
* `Verif.Props.ColumnJson.C85_date_fails`: c q p
* `Verif.Props.ColumnJson.C85_merged_fails`: c q p
* `Verif.Props.ColumnJson.C85_class_fails`: c q p
* `Verif.Props.ColumnJson.C85_keys_fails`: c q p
* `Verif.Props.ColumnHistory.C85_history`: c q p
* `Verif.Props.ColumnHistory.C85_history_saved`: c q p
* `Verif.Props.ColumnHistory.C85_history_numbers`: c q p
* `Verif.Props.ColumnHistory.C85_history_size`: c q p

## C86

* `Verif.Props.FScore.C86_make`: c q p
* `Verif.Props.FScore.C86_config`: q p
* `Verif.Props.FScore.C86_f1`: q p
* `Verif.Props.FScore.C86_score`: c q p
* `Verif.Props.FScore.C86_batches`: c q p
* `Verif.Props.FScore.C86_weights`: c q p
* `Verif.Props.FScore.C86_batch`: c q p
* `Verif.Props.FScore.C86_range`: c q p
* `Verif.Props.FScore.C86_perfect`: c q p
* `Verif.Props.FScore.C86_accuracy`: c q p
* `Verif.Props.FScore.C86_ties_fails`: c q p
* `Verif.Props.FScore.C86_absent_fails`: c q p

## C87

* `Verif.Props.Network.C87_encode`: q p
* `Verif.Props.Network.C87_same`: c q p
* `Verif.Props.Network.C87_distinct`: c q p
* `Verif.Props.Network.C87_embedding`: q p
* `Verif.Props.Network.C87_threshold`: c q p
* `Verif.Props.Network.C87_current`: c q p
* `Verif.Props.Network.C87_predict_partial`: c q p
* `Verif.Props.Network.C87_loaded`: c q p
* `Verif.Props.Network.C87_numbers`: q p
* `Verif.Props.Network.C87_relabel`: c q p
* `Verif.Props.Network.C87_refused`: q p
* `Verif.Props.Network.C87_epochs`: c q p
* `Verif.Props.Network.C87_fit`: c q p
* `Verif.Props.Network.C87_trains_partial`: c q p
* `Verif.Props.Network.C87_validation`: p
* `Verif.Props.Network.C87_deep_fails`: c q p
* `Verif.Props.Network.C87_length_fails`: c q p
* `Verif.Props.Network.C87_rename_fails`: q p
* `Verif.Props.Network.C87_gap_fails`: q p
* `Verif.Props.Network.C87_empty_fails`: q p

## C88

* `Verif.Props.Source.C88_pieces`: q p
* `Verif.Props.Source.C88_closed`: p
* `Verif.Props.Source.C88_handle`: q p
* `Verif.Props.Source.C88_same`: q p
* `Verif.Props.Source.C88_detect`: c q p
* `Verif.Props.Source.C88_detect_valid`: p
* `Verif.Props.Source.C88_utf8`: c q p
* `Verif.Props.Source.C88_detect_same`: c q p
* `Verif.Props.Source.C88_detect_text`: q p
* `Verif.Props.Source.C88_lines`: q p
* `Verif.Props.Source.C88_lines_found`: c q p
* `Verif.Props.Source.C88_s3_partial`: c q p
* `Verif.Props.Source.C88_path`: q p
* `Verif.Props.Source.C88_url`: c q p
* `Verif.Props.Source.C88_client`: p
* `Verif.Props.Source.C88_download`: q p
* `Verif.Props.Source.C88_download_size`: c q p
* `Verif.Props.Source.C88_s3_fails`: c q p
* `Verif.Props.Source.C88_download_fails`: q p
* `Verif.Props.Source.C88_position_fails`: p
* `Verif.Props.Source.C88_newline_fails`: p
* `Verif.Props.Source.C88_late_fails`: c q p
* `Verif.Props.Source.C88_close_fails`: p
* `Verif.Props.Source.C88_offset_fails`: q p

## C89

* `Verif.Props.TableRead.C89_cells_partial`: c q p
* `Verif.Props.TableRead.C89_integers`: q p
* `Verif.Props.TableRead.C89_division`: q p
* `Verif.Props.TableRead.C89_missing`: c q p
* `Verif.Props.TableRead.C89_labels`: c q p
* `Verif.Props.TableRead.C89_nulls`: c q p
* `Verif.Props.TableRead.C89_sample_partial`: c q p
* `Verif.Props.TableRead.C89_sample_all`: c q p
* `Verif.Props.TableRead.C89_given`: c q p
* `Verif.Props.TableRead.C89_given_sample`: c q p
* `Verif.Props.TableRead.C89_guessed`: c q p
* `Verif.Props.TableRead.C89_text_settings`: c q p
* `Verif.Props.TableRead.C89_file_settings`: c q p
* `Verif.Props.TableRead.C89_text`: c q p
* `Verif.Props.TableRead.C89_integers_fails`: c q p
* `Verif.Props.TableRead.C89_sample_fails`: c q p
* `Verif.Props.TableRead.C89_nulls_fails`: c q p
* `Verif.Props.TableRead.C89_empty_fails`: c q p
* `Verif.Props.TableRead.C89_blank_fails`: c q p
* `Verif.Props.TableRead.C89_quote_fails`: c q p
* `Verif.Props.TableRead.C89_trailing_fails`: c q p

## C90

* `Verif.Props.Plot.C90_all`: c q p
* `Verif.Props.Plot.C90_named`: c q p
* `Verif.Props.Plot.C90_inds`: c q p
* `Verif.Props.Plot.C90_unknown`: c q p
* `Verif.Props.Plot.C90_refused`: c q p
* `Verif.Props.Plot.C90_grid`: c q p
* `Verif.Props.Plot.C90_nodata`: c q p
* `Verif.Props.Plot.C90_bars`: c q p
* `Verif.Props.Plot.C90_mass`: c q p
* `Verif.Props.Plot.C90_missing_none`: c q p
* `Verif.Props.Plot.C90_missing_partial`: c q p
* `Verif.Props.Plot.C90_colors`: c q p
* `Verif.Props.Plot.C90_integers_fails`: c q p
* `Verif.Props.Plot.C90_order_fails`: c q p
* `Verif.Props.Plot.C90_bars_fails`: c q p
* `Verif.Props.Plot.C90_missing_fails`: c q p
* `Verif.Props.Plot.C90_onecolor_fails`: c q p

## C91

* `Verif.Props.Factory.C91_infer`: p
* `Verif.Props.Factory.C91_kind`: c q p
* `Verif.Props.Factory.C91_unknown`: p
* `Verif.Props.Factory.C91_data`: p
* `Verif.Props.Factory.C91_options`: q p
* `Verif.Props.Factory.C91_labeler_refused`: q p
* `Verif.Props.Factory.C91_defaults`: q p
* `Verif.Props.Factory.C91_alone`: c q p
* `Verif.Props.Factory.C91_again`: q p
* `Verif.Props.Factory.C91_refused`: p
* `Verif.Props.Factory.C91_update`: p
* `Verif.Props.Factory.C91_given_min`: p
* `Verif.Props.Factory.C91_plain`: q p
* `Verif.Props.Factory.C91_graph`: p
* `Verif.Props.Factory.C91_graph_fails`: p
* `Verif.Props.Factory.C91_directory_fails`: p
* `Verif.Props.Factory.C91_lost_fails`: p
* `Verif.Props.Factory.C91_trace_fails`: p
* `Verif.Props.Factory.C91_labeler`: q p
* `Verif.Props.Factory.C91_trainable`: p
* `Verif.Props.Factory.C91_components`: p
* `Verif.Props.Factory.C91_graph_data`: p

## C92

* `Verif.Props.Predict.C92_table`: c q p
* `Verif.Props.Predict.C92_column`: p
* `Verif.Props.Predict.C92_refused`: p
* `Verif.Props.Predict.C92_purpose`: c q p
* `Verif.Props.Predict.C92_ragged_fails`: q p
* `Verif.Props.Predict.C92_labels`: c q p
* `Verif.Props.Predict.C92_entities`: c q p
* `Verif.Props.Predict.C92_words`: c q p
* `Verif.Props.Predict.C92_inside`: c q p
* `Verif.Props.Predict.C92_batch`: c q p
* `Verif.Props.Predict.C92_alone`: c q p
* `Verif.Props.Predict.C92_cells_partial`: c q p
* `Verif.Props.Predict.C92_names_partial`: c q p
* `Verif.Props.Predict.C92_cell_partial`: c q p
* `Verif.Props.Predict.C92_cells_batch_partial`: c q p
* `Verif.Props.Predict.C92_zero_fails`: c q p
* `Verif.Props.Predict.C92_numbers_fails`: c q p
* `Verif.Props.Predict.C92_empty_fails`: c q p

## C93

* `Verif.Props.Enabled.C93_partial`: c q p
* `Verif.Props.Enabled.C93_calculated`: q p
* `Verif.Props.Enabled.C93_default`: q p
* `Verif.Props.Enabled.C93_property`: q p
* `Verif.Props.Enabled.C93_lacking`: q p
* `Verif.Props.Enabled.C93_closed`: c q p
* `Verif.Props.Enabled.C93_merged`: q p
* `Verif.Props.Enabled.C93_independent`: q p
* `Verif.Props.Enabled.C93_untouched`: q p
* `Verif.Props.Enabled.C93_ordered`: q p
* `Verif.Props.Enabled.C93_first`: c q p
* `Verif.Props.Enabled.C93_needed`: c q p
* `Verif.Props.Enabled.C93_switch`: c q p
* `Verif.Props.Enabled.C93_none`: c q p
* `Verif.Props.Enabled.C93_created`: q p
* `Verif.Props.Enabled.C93_enabled`: q p
* `Verif.Props.Enabled.C93_presets`: c q p
* `Verif.Props.Enabled.C93_overflow_fails`: c q p
* `Verif.Props.Enabled.C93_quantiles`: q p
* `Verif.Props.Enabled.C93_quantiles_fails`: q p
* `Verif.Props.Enabled.C93_modes_fails`: q p
* `Verif.Props.Enabled.C93_type_fails`: c q p
* `Verif.Props.Enabled.C93_modes`: c q p

## C94

* `Verif.Props.EncodedChars.C94_rows`: c q p
* `Verif.Props.EncodedChars.C94_told`: c q p
* `Verif.Props.EncodedChars.C94_list`: c q p
* `Verif.Props.EncodedChars.C94_array`: c q p
* `Verif.Props.EncodedChars.C94_nested`: c q p
* `Verif.Props.EncodedChars.C94_blank`: c q p
* `Verif.Props.EncodedChars.C94_array_fails`: c q p
* `Verif.Props.EncodedChars.C94_unknown_fails`: c q p
* `Verif.Props.EncodedChars.C94_accepts`: q p
* `Verif.Props.EncodedChars.C94_accepts_fails`: c q p

## C95

* `Verif.Props.Avro.C95_covers`: c q p
* `Verif.Props.Avro.C95_needed`: q p
* `Verif.Props.Avro.C95_distinct`: q p
* `Verif.Props.Avro.C95_order`: q p
* `Verif.Props.Avro.C95_first`: c q p
* `Verif.Props.Avro.C95_error`: q p
* `Verif.Props.Avro.C95_agree`: c q p
* `Verif.Props.Avro.C95_clash`: c q p
* `Verif.Props.Avro.C95_fits_partial`: c q p
* `Verif.Props.Avro.C95_agree_fits`: c q p
* `Verif.Props.Avro.C95_names`: q p
* `Verif.Props.Avro.C95_null_first_fails`: c q p
* `Verif.Props.Avro.C95_scalar_later_fails`: c q p
* `Verif.Props.Avro.C95_list_fails`: c q p
* `Verif.Props.Avro.C95_names_fails`: c q p

## C96

* `Verif.Props.Seed.C96_set_seed`: q p
* `Verif.Props.Seed.C96_one_seed`: q p
* `Verif.Props.Seed.C96_generator`: q p
* `Verif.Props.Seed.C96_unseeded`: q p
* `Verif.Props.Seed.C96_positions`: q p
* `Verif.Props.Seed.C96_statistics`: c q p
* `Verif.Props.Seed.C96_updated`: c q p
* `Verif.Props.Seed.C96_everything`: c q p
* `Verif.Props.Seed.C96_lines`: c q p
* `Verif.Props.Seed.C96_sampled`: c q p
* `Verif.Props.Seed.C96_nested`: c q p
* `Verif.Props.Seed.C96_merged_sample`: c q p
* `Verif.Props.Seed.C96_updated_sample`: c q p
* `Verif.Props.Seed.C96_unseeded_fails`: c q p
* `Verif.Props.Seed.C96_merge_fails`: c q p
* `Verif.Props.Seed.C96_shared_fails`: p
* `Verif.Props.Seed.C96_repeats_fails`: p

## C97

* `Verif.Props.Column.C97_describes`: c q p
* `Verif.Props.Column.C97_adds_up`: c q p
* `Verif.Props.Column.C97_whole`: c q p
* `Verif.Props.Column.C97_same`: c q p
* `Verif.Props.Column.C97_type`: c q p
* `Verif.Props.Column.C97_vocab`: c q p
* `Verif.Props.Column.C97_dates`: c q p
* `Verif.Props.Column.C97_order`: c q p
* `Verif.Props.Column.C97_order_at_once`: c q p
* `Verif.Props.Column.C97_duplicate_labels_fails`: c q p
* `Verif.Props.ColumnHist.C97_histogram`: c q p
* `Verif.Props.ColumnHist.C97_histogram_fails`: c q p
* `Verif.Props.ColumnHist.C97_precision`: c q p
* `Verif.Props.ColumnLabel.C97_labels`: c q p
* `Verif.Props.ColumnLabel.C97_labels_fails`: c q p

## C98

* `Verif.Props.TableStats.C98_succeeds`: c q p
* `Verif.Props.TableStats.C98_columns`: c q p
* `Verif.Props.TableStats.C98_whole`: c q p
* `Verif.Props.TableStats.C98_same`: c q p
* `Verif.Props.TableStats.C98_type`: c q p
* `Verif.Props.TableStats.C98_all_dates`: c q p
* `Verif.Props.TableStats.C98_same_columns`: c q p
* `Verif.Props.TableStats.C98_any_order`: c q p
* `Verif.Props.TableMore.C98_more_columns`: c q p
* `Verif.Props.TableMore.C98_more_succeeds`: c q p
* `Verif.Props.TableMore.C98_more_update`: c q p
* `Verif.Props.TableMore.C98_more_merge`: c q p

## C99

* `Verif.Props.NullMatch.C99_pattern`: c q p
* `Verif.Props.NullMatch.C99_words`: c q p
* `Verif.Props.NullMatch.C99_default`: c q p
* `Verif.Props.NullMatch.C99_none`: c q p
* `Verif.Props.NullMatch.C99_refused`: c q p
* `Verif.Props.NullMatch.C99_flags`: c q p
* `Verif.Props.NullMatch.C99_promised_partial`: c q p
* `Verif.Props.NullMatch.C99_counts`: c q p
* `Verif.Props.NullMatch.C99_columns`: c q p
* `Verif.Props.NullMatch.C99_same_order_partial`: c q p
* `Verif.Props.NullMatch.C99_missing`: c q p
* `Verif.Props.NullMatch.C99_flags_fails`: c q p
* `Verif.Props.NullMatch.C99_line_end_fails`: c q p
* `Verif.Props.NullMatch.C99_point_fails`: c q p
* `Verif.Props.NullMatch.C99_star_fails`: c q p
* `Verif.Props.NullMatch.C99_missing_fails`: c q p
* `Verif.Props.NullMatch.C99_order_fails`: c q p

## C100

* `Verif.Props.CsvRecords.C100_rows`: c q p
* `Verif.Props.CsvRecords.C100_one`: c q p
* `Verif.Props.CsvRecords.C100_unique`: p
* `Verif.Props.CsvRecords.C100_text`: c q p
* `Verif.Props.CsvRecords.C100_count`: c q p
* `Verif.Props.CsvRecords.C100_same`: c q p
* `Verif.Props.CsvRecords.C100_refused`: c q p
* `Verif.Props.CsvRecords.C100_zero_fails`: c q p
* `Verif.Props.CsvRecords.C100_break_fails`: c q p
* `Verif.Props.CsvRecords.C100_separator_fails`: c q p
* `Verif.Props.CsvRecords.C100_missing_fails`: c q p

## C101

* `Verif.Props.Attribute.C101_own`: q p
* `Verif.Props.Attribute.C101_data`: p
* `Verif.Props.Attribute.C101_of_data`: q p
* `Verif.Props.Attribute.C101_neither`: q p
* `Verif.Props.Attribute.C101_hasattr`: c q p
* `Verif.Props.Attribute.C101_unreadable`: q p
* `Verif.Props.Attribute.C101_property`: q p
* `Verif.Props.Attribute.C101_once`: q p
* `Verif.Props.Attribute.C101_set`: q p
* `Verif.Props.Attribute.C101_set_data`: p
* `Verif.Props.Attribute.C101_recursion_fails`: q p
* `Verif.Props.Attribute.C101_column_fails`: c q p

## C102

* `Verif.Props.ModelObjects.C102_own`: c q p
* `Verif.Props.ModelObjects.C102_new`: c q p
* `Verif.Props.ModelObjects.C102_set`: c q p
* `Verif.Props.ModelObjects.C102_get`: q p
* `Verif.Props.ModelObjects.C102_get_all`: q p
* `Verif.Props.ModelObjects.C102_round_partial`: c q p
* `Verif.Props.ModelObjects.C102_shared_fails`: c q p
* `Verif.Props.ModelObjects.C102_shared_set_fails`: c q p
* `Verif.Props.ModelObjects.C102_written_fails`: c q p
* `Verif.Props.ModelObjects.C102_caller_fails`: c q p
* `Verif.Props.ModelObjects.C102_same_dict_fails`: c q p
* `Verif.Props.ModelObjects.C102_round_fails`: c q p
* `Verif.Props.ModelObjects.C102_equal_fails`: c q p

## C103

* `Verif.Props.ProcParams.C103_new`: c q p
* `Verif.Props.ProcParams.C103_refused`: c q p
* `Verif.Props.ProcParams.C103_made`: c q p
* `Verif.Props.ProcParams.C103_set`: c q p
* `Verif.Props.ProcParams.C103_get`: q p
* `Verif.Props.ProcParams.C103_legal`: c q p
* `Verif.Props.ProcParams.C103_case_fails`: c q p
* `Verif.Props.ProcParams.C103_hidden_fails`: c q p
* `Verif.Props.ProcParams.C103_seed_fails`: c q p
* `Verif.Props.ProcParams.C103_inner_fails`: c q p

## C104

* `Verif.Props.FloatStats.C104_sum`: c q p
* `Verif.Props.FloatStats.C104_mean`: c q p
* `Verif.Props.FloatStats.C104_agree`: c q p
* `Verif.Props.FloatStats.C104_adds`: q p
* `Verif.Props.FloatStats.C104_variance`: c q p
* `Verif.Props.FloatStats.C104_loss`: q p
* `Verif.Props.FloatStats.C104_small`: c q p
* `Verif.Props.FloatStats.C104_nonneg`: c q p
* `Verif.Props.FloatStats.C104_corrected`: c q p
* `Verif.Props.FloatStats.C104_double`: c q p
* `Verif.Props.FloatStats.C104_integers`: c q p
* `Verif.Props.FloatStats.C104_batches_fails`: c q p
* `Verif.Props.FloatStats.C104_constant_fails`: c q p

## C105

* `Verif.Props.Streams.C105_start`: q p
* `Verif.Props.Streams.C105_anywhere`: c q p
* `Verif.Props.Streams.C105_bytes`: q p
* `Verif.Props.Streams.C105_chars`: none
* `Verif.Props.Streams.C105_json`: c q p
* `Verif.Props.Streams.C105_typed`: c q p
* `Verif.Props.Streams.C105_left`: q p
* `Verif.Props.Streams.C105_read`: q p
* `Verif.Props.Streams.C105_after`: p
* `Verif.Props.Streams.C105_read_bytes`: p
* `Verif.Props.Streams.C105_read_from`: q p
* `Verif.Props.Streams.C105_graph_from`: q p
* `Verif.Props.Streams.C105_after_from`: p
* `Verif.Props.Streams.C105_again`: c q p
* `Verif.Props.Streams.C105_written_fails`: c q p
* `Verif.Props.Streams.C105_middle_fails`: c q p
* `Verif.Props.Streams.C105_avro_fails`: p
* `Verif.Props.Streams.C105_graph_fails`: c q p

## C106

* `Verif.Props.MethodChoice.C106_selected`: c q p
* `Verif.Props.MethodChoice.C106_unique`: c q p
* `Verif.Props.MethodChoice.C106_short`: c q p
* `Verif.Props.MethodChoice.C106_zero_sum`: c q p
* `Verif.Props.MethodChoice.C106_average`: c q p
* `Verif.Props.MethodChoice.C106_dominates`: c q p
* `Verif.Props.MethodChoice.C106_rounds`: c q p
* `Verif.Props.MethodChoice.C106_estimate`: c q p
* `Verif.Props.MethodChoice.C106_estimate_error`: c q p
* `Verif.Props.MethodChoice.C106_inside`: c q p
* `Verif.Props.MethodChoice.C106_series_fails`: c q p

## C107

* `Verif.Props.OptionObjects.C107_equal_iff`: c q p
* `Verif.Props.OptionObjects.C107_equivalence`: c q p
* `Verif.Props.OptionObjects.C107_copy_equal`: c q p
* `Verif.Props.OptionObjects.C107_copy_shares`: c q p
* `Verif.Props.OptionObjects.C107_copy_apart`: c q p
* `Verif.Props.OptionObjects.C107_properties_values`: c q p
* `Verif.Props.OptionObjects.C107_properties_apart`: c q p
* `Verif.Props.OptionObjects.C107_properties_labeler`: q p
* `Verif.Props.OptionObjects.C107_numeric_stats`: c q p

## C108

* `Verif.Props.Snapshot.C108_pretty`: c q p
* `Verif.Props.Snapshot.C108_serializable_partial`: c q p
* `Verif.Props.Snapshot.C108_plain_partial`: c q p
* `Verif.Props.Snapshot.C108_later`: c q p
* `Verif.Props.Snapshot.C108_plain_shares`: q p
* `Verif.Props.Snapshot.C108_serializable_shares`: c q p
* `Verif.Props.Snapshot.C108_fails`: c q p

## C109

* `Verif.Props.Apart.C109_contents`: c q p
* `Verif.Props.Apart.C109_count`: c q p
* `Verif.Props.Apart.C109_full`: c q p
* `Verif.Props.Apart.C109_full_ratio`: c q p
* `Verif.Props.Apart.C109_hll_partial`: c q p
* `Verif.Props.Apart.C109_hll_shared`: c q p
* `Verif.Props.Apart.C109_options`: c q p
* `Verif.Props.Apart.C109_hll_fails`: q p
* `Verif.Props.Apart.C109_hll_later_fails`: q p
* `Verif.Props.Apart.C109_options_fails`: q p

## C110

* `Verif.Props.Registry.C110_model`: c q p
* `Verif.Props.Registry.C110_needs_ml`: p
* `Verif.Props.Registry.C110_processor`: q p
* `Verif.Props.Registry.C110_package_processors`: c q p
* `Verif.Props.Registry.C110_load`: p
* `Verif.Props.Registry.C110_package_partial`: c q p
* `Verif.Props.Registry.C110_own_partial`: c q p
* `Verif.Props.Registry.C110_plugins`: q p
* `Verif.Props.Registry.C110_preset_package`: c q p
* `Verif.Props.Registry.C110_preset_plugin`: c q p
* `Verif.Props.Registry.C110_loaded`: c q p
* `Verif.Props.Registry.C110_package_fails`: c q p
* `Verif.Props.Registry.C110_own_fails`: c q p
* `Verif.Props.Registry.C110_processor_fails`: c q p

## C111

* `Verif.Props.Abort.C111_refused`: q p
* `Verif.Props.Abort.C111_outcome`: c q p
* `Verif.Props.Abort.C111_exact`: c q p
* `Verif.Props.Abort.C111_reached_clean`: c q p
* `Verif.Props.Abort.C111_reached_total`: c q p
* `Verif.Props.Abort.C111_consistent_partial`: c q p
* `Verif.Props.Abort.C111_never_repaired`: c q p
* `Verif.Props.Abort.C111_retry`: c q p
* `Verif.Props.Abort.C111_first`: c q p
* `Verif.Props.Abort.C111_fails`: c q p

## C112

* `Verif.Props.Logging.C112_once_partial`: q p
* `Verif.Props.Logging.C112_first`: p
* `Verif.Props.Logging.C112_sequential`: p
* `Verif.Props.Logging.C112_handlers`: c q p
* `Verif.Props.Logging.C112_mutex`: c q p
* `Verif.Props.Logging.C112_progress`: c q p
* `Verif.Props.Logging.C112_ends`: q p
* `Verif.Props.Logging.C112_released`: c q p
* `Verif.Props.Logging.C112_printed`: q p
* `Verif.Props.Logging.C112_notset`: p
* `Verif.Props.Logging.C112_notset_fails`: p
* `Verif.Props.Logging.C112_fails`: q p
* `Verif.Props.Logging.C112_level_fails`: p

## C113

* `Verif.Props.Embedding.C113_parse`: q p
* `Verif.Props.Embedding.C113_read`: c q p
* `Verif.Props.Embedding.C113_blank`: p
* `Verif.Props.Embedding.C113_newlines`: q p
* `Verif.Props.Embedding.C113_round`: c q p
* `Verif.Props.Embedding.C113_words`: c q p
* `Verif.Props.Embedding.C113_created`: c q p
* `Verif.Props.Embedding.C113_refused`: p
* `Verif.Props.Embedding.C113_blank_word`: c q p

## C114

* `Verif.Props.Require.C114_warned`: c q p
* `Verif.Props.Require.C114_runs`: c q p
* `Verif.Props.Require.C114_history_partial`: c q p
* `Verif.Props.Require.C114_stays`: c q p
* `Verif.Props.Require.C114_stuck`: c q p
* `Verif.Props.Require.C114_fails`: p
* `Verif.Props.Require.C114_predict`: c q p

## C115

* `Verif.Props.F1Text.C115_table`: c q p
* `Verif.Props.F1Text.C115_width`: q p
* `Verif.Props.F1Text.C115_raises`: c q p
* `Verif.Props.F1Text.C115_accuracy_fails`: c q p
* `Verif.Props.F1Text.C115_names_fails`: c q p
* `Verif.Props.F1Text.C115_columns_fails`: c q p

## C116

* `Verif.Props.Memory.C116_size`: c q p
* `Verif.Props.Memory.C116_raises`: c q p
* `Verif.Props.Memory.C116_history`: c q p
* `Verif.Props.Memory.C116_batches`: c q p
* `Verif.Props.Memory.C116_history_raises`: c q p
* `Verif.Props.Memory.C116_double`: c q p
* `Verif.Props.Memory.C116_report`: c q p

## C117

* `Verif.Props.Metadata.C117_metadata`: c q p
* `Verif.Props.Metadata.C117_both`: c q p
* `Verif.Props.Metadata.C117_plain`: q p
* `Verif.Props.Metadata.C117_cells_partial`: c q p
* `Verif.Props.Metadata.C117_format_fails`: c q p
* `Verif.Props.Metadata.C117_early_fails`: c q p

## C118

* `Verif.Props.Origin.C118_type`: q p
* `Verif.Props.Origin.C118_encoding`: p
* `Verif.Props.Origin.C118_one_type`: p
* `Verif.Props.Origin.C118_one_encoding`: c q p
* `Verif.Props.Origin.C118_merged`: c q p
* `Verif.Props.Origin.C118_last_fails`: none
* `Verif.Props.Origin.C118_apart_fails`: none
* `Verif.Props.Origin.C118_empty_fails`: c q p

## C119

* `Verif.Props.Mergeable.C119_add`: c q p
* `Verif.Props.Mergeable.C119_symmetric`: c q p
* `Verif.Props.Mergeable.C119_sum`: c q p
* `Verif.Props.Mergeable.C119_diff`: q p
* `Verif.Props.Mergeable.C119_nan_fails`: c q p
* `Verif.Props.Mergeable.C119_class_fails`: q p

## C120

* `Verif.Props.WholeText.C120_digits_partial`: c q p
* `Verif.Props.WholeText.C120_small`: c q p
* `Verif.Props.WholeText.C120_huge`: c q p
* `Verif.Props.WholeText.C120_digits_fails`: c q p
* `Verif.Props.WholeText.C120_float`: c q p
* `Verif.Props.WholeText.C120_other`: c q p
* `Verif.Props.WholeText.C120_text`: c q p
* `Verif.Props.WholeText.C120_zeros_fails`: c q p
