{"id": "C01", "title": "Streaming sums, counts, zeros and negatives are batch independent", "statement": "Feeding a numeric column to a column profile batch by batch yields the same reported sum, match count, num_zeros, num_negatives (and hence mean) as feeding all values at once, and these equal the true sum / count / number of zeros / number of negatives of the values seen.", "quantifier": "every sequence of batches of every length, every list of values in every batch (values in exact arithmetic)", "why_tests_cant": "The number of ways to cut a column into batches is unbounded; a test fixes one cut.", "anchors": ["dataprofiler/profilers/numerical_column_stats.py:_get_sum", "dataprofiler/profilers/numerical_column_stats.py:_get_num_zeros", "dataprofiler/profilers/numerical_column_stats.py:_get_num_negatives", "dataprofiler/profilers/base_column_profilers.py:_update_column_base_properties"]}
{"id": "C02", "title": "Streaming and merged variance equals the variance of all the data", "statement": "Whatever the batching, and whatever tree of '+' merges is used, the reported variance of a numeric column equals the (bias-corrected) sample variance of the concatenation of all the values; with fewer than two values it is reported as NaN.", "quantifier": "every list of batches, every binary merge of two profiles, every list of values (exact arithmetic)", "why_tests_cant": "Parallel-variance formulas are right on equal-sized or zero-mean halves and wrong elsewhere; only an algebraic identity covers all splits.", "anchors": ["dataprofiler/profilers/numerical_column_stats.py:_get_variance", "dataprofiler/profilers/numerical_column_stats.py:_merge_biased_variance", "dataprofiler/profilers/numerical_column_stats.py:_correct_bias_variance"]}
{"id": "C03", "title": "Streaming and merged skewness equals the skewness of all the data", "statement": "Whatever the batching or merging, the stored third-moment statistic equals the biased skewness of the concatenated values (0 when the variance is 0) and the reported skewness is its standard bias correction; fewer than three values give NaN.", "quantifier": "every list of batches / merges, every list of values (exact real arithmetic)", "why_tests_cant": "Same as C02, with a cubic identity that has several cross terms a sampled test can miss.", "anchors": ["dataprofiler/profilers/numerical_column_stats.py:_get_skewness", "dataprofiler/profilers/numerical_column_stats.py:_merge_biased_skewness", "dataprofiler/profilers/numerical_column_stats.py:_correct_bias_skewness", "dataprofiler/profilers/profiler_utils.py:biased_skew"]}
{"id": "C04", "title": "Streaming and merged kurtosis equals the kurtosis of all the data", "statement": "Whatever the batching or merging, the stored fourth-moment statistic equals the biased excess kurtosis of the concatenated values, and the reported kurtosis is its bias correction.", "quantifier": "every list of batches / merges, every list of values (exact real arithmetic)", "why_tests_cant": "Quartic identity over all splits; the code uses different conventions for zero variance on the two paths, which only shows on constant columns.", "anchors": ["dataprofiler/profilers/numerical_column_stats.py:_get_kurtosis", "dataprofiler/profilers/numerical_column_stats.py:_merge_biased_kurtosis", "dataprofiler/profilers/numerical_column_stats.py:_correct_bias_kurtosis", "dataprofiler/profilers/profiler_utils.py:biased_kurt"]}
{"id": "C05", "title": "Streaming minimum and maximum", "statement": "After any sequence of updates the reported min (max) of a numeric column is the least (greatest) value seen.", "quantifier": "every sequence of batches, every list of values", "why_tests_cant": "The falsy-zero bug in the code only shows when the running extremum is exactly 0 and a later batch misses 0; a test must guess that.", "anchors": ["dataprofiler/profilers/numerical_column_stats.py:_get_min", "dataprofiler/profilers/numerical_column_stats.py:_get_max"]}
{"id": "C06", "title": "Merging two numeric profiles equals profiling the concatenated data", "statement": "p(A)+p(B) reports the same min, max, sum, mean, variance, num_zeros, num_negatives, match count and sample size as one profile of A followed by B; the operation is commutative and associative on these statistics and the empty profile is neutral.", "quantifier": "every pair (triple) of value lists, including empty ones and different enabled options", "why_tests_cant": "All pairs of profiles with all histories; the neutral / one-sided cases take separate branches.", "anchors": ["dataprofiler/profilers/numerical_column_stats.py:_add_helper", "dataprofiler/profilers/int_column_profile.py:__add__", "dataprofiler/profilers/base_column_profilers.py:_merge_calculations"]}
{"id": "C07", "title": "Re-binning a histogram conserves its mass", "statement": "When stored bins are assimilated into a new set of bins, the total count is preserved and no bin becomes negative, and every index written is inside the destination array.", "quantifier": "every source histogram with non-negative counts, every ordered destination edge list covering it", "why_tests_cant": "Splitting a source bin over destination bins has boundary cases (equal edges, last bin closed, straddling bins) that depend on arbitrary real edges.", "anchors": ["dataprofiler/profilers/numerical_column_stats.py:_assimilate_histogram", "dataprofiler/profilers/numerical_column_stats.py:_regenerate_histogram"]}
{"id": "C08", "title": "Merging histograms conserves the number of values", "statement": "After merging two profiles that both hold histograms, the merged histogram's total equals the sum of the two totals and its range covers both ranges.", "quantifier": "every pair of histograms with non-negative counts", "why_tests_cant": "Depends on arbitrary edges of two histograms against a third.", "anchors": ["dataprofiler/profilers/numerical_column_stats.py:_add_helper_merge_profile_histograms", "dataprofiler/profilers/numerical_column_stats.py:_assimilate_histogram"]}
{"id": "C09", "title": "Percentiles are monotone and inside the histogram range", "statement": "For any histogram with positive total, requested percentiles come back in the order asked, non-decreasing for non-decreasing requests, never below the first nor above the last bin edge.", "quantifier": "every histogram, every increasing list of percentiles in [0,100]", "why_tests_cant": "Monotonicity relates every pair of requests on every histogram.", "anchors": ["dataprofiler/profilers/numerical_column_stats.py:_get_percentile", "dataprofiler/profilers/numerical_column_stats.py:_get_quantiles"]}
{"id": "C10", "title": "Estimated mode is a list of at most top_k bin midpoints inside the range", "statement": "The reported mode contains between one and top_k_modes values, each lies in the histogram range, and each is the midpoint of a bin with maximal count.", "quantifier": "every histogram with at least one bin, every top_k >= 1", "why_tests_cant": "Tie handling across arbitrary many bins.", "anchors": ["dataprofiler/profilers/numerical_column_stats.py:_estimate_mode_from_histogram"]}
{"id": "C11", "title": "Median absolute deviation is well defined and non-negative", "statement": "Whenever a column has a histogram, the reported median_abs_deviation is a number between 0 and the width of the histogram range.", "quantifier": "every histogram, every median inside its range", "why_tests_cant": "The folding of bins around the median has several interleavings of edges.", "anchors": ["dataprofiler/profilers/numerical_column_stats.py:median_abs_deviation", "dataprofiler/profilers/numerical_column_stats.py:_fold_histogram"]}
{"id": "C12", "title": "Category counts are exact frequencies whatever the batching", "statement": "While tracking is not stopped and sketches are off, the category counts after any sequence of updates are exactly the number of occurrences of each value over everything seen, their sum is the sample size, and no zero entries appear.", "quantifier": "every sequence of batches of every list of values", "why_tests_cant": "Quantifies over every batching and every multiset of strings.", "anchors": ["dataprofiler/profilers/categorical_column_profile.py:_update_categories", "dataprofiler/profilers/categorical_column_profile.py:_update_helper"]}
{"id": "C13", "title": "The categorical stop condition is permanent and never fires when unset", "statement": "With no stop options the category tracking never stops; once it stops, no later update changes the categories, unique count or the stop snapshot of the profile; and it fires only if the sample was large enough and the unique ratio was at least the configured ratio.", "quantifier": "every history of updates and every option value", "why_tests_cant": "A temporal claim over unbounded histories.", "anchors": ["dataprofiler/profilers/categorical_column_profile.py:_check_stop_condition_is_met", "dataprofiler/profilers/categorical_column_profile.py:_update_stop_condition", "dataprofiler/profilers/categorical_column_profile.py:_update_categories"]}
{"id": "C14", "title": "Merging categorical profiles equals counting the concatenated data", "statement": "When neither profile has stopped and neither uses a sketch, the categories of p(A)+p(B) are the frequencies of A followed by B; merging is commutative and associative on counts; if either operand has stopped the result is stopped and claims no categories.", "quantifier": "every pair/triple of profiles", "why_tests_cant": "All pairs of histories.", "anchors": ["dataprofiler/profilers/categorical_column_profile.py:__add__", "dataprofiler/profilers/profiler_utils.py:add_nested_dictionaries"]}
{"id": "C15", "title": "Uniqueness, gini impurity and unalikeability are in range", "statement": "unique_ratio and gini_impurity always lie in [0,1], gini_impurity is 0 exactly when at most one distinct value was seen, and unalikeability equals the proportion of ordered pairs of distinct positions holding different values (so lies in [0,1]) and is 0 on a single value.", "quantifier": "every multiset of values", "why_tests_cant": "Real-valued bounds over all multisets.", "anchors": ["dataprofiler/profilers/categorical_column_profile.py:gini_impurity", "dataprofiler/profilers/categorical_column_profile.py:unalikeability", "dataprofiler/profilers/categorical_column_profile.py:unique_ratio"]}
{"id": "C16", "title": "A reported order is the order of the data", "statement": "If a column's order report is 'ascending' ('descending', 'constant value') after any updates and merges then the values, in the order seen, are non-decreasing (non-increasing, all equal); 'random' never turns back into an order.", "quantifier": "every sequence of batches and merges", "why_tests_cant": "A claim about every history, and about the piecewise merging of intervals.", "anchors": ["dataprofiler/profilers/order_column_profile.py:_merge_order", "dataprofiler/profilers/order_column_profile.py:_get_data_order", "dataprofiler/profilers/order_column_profile.py:_update_order", "dataprofiler/profilers/order_column_profile.py:__add__"]}
{"id": "C17", "title": "Null and non-null values partition the sample", "statement": "For every column batch with distinct index labels, the number of nulls plus the number of non-nulls equals the sample size, the recorded null positions are exactly the sampled positions whose text is null, every non-null value is passed on unchanged and in order, and null counts accumulate over batches.", "quantifier": "every column of values, every null predicate, every sample of positions, every sequence of batches", "why_tests_cant": "Quantifies over every column and every null configuration.", "anchors": ["dataprofiler/profilers/profile_builder.py:StructuredColProfiler.clean_data_and_get_base_stats", "dataprofiler/profilers/profile_builder.py:StructuredColProfiler._update_base_stats"]}
{"id": "C18", "title": "Row duplicate, unique and null statistics are exact", "statement": "With full hashing, row_count minus the number of distinct rows is the duplicate count, unique_row_ratio is the proportion of distinct rows and lies in [0,1], rows with any/all nulls are counted exactly, across any batching and any merge (assuming the row hash is collision free).", "quantifier": "every table, every batching, every merge of two profiles", "why_tests_cant": "Every table and every cut of it into batches.", "anchors": ["dataprofiler/profilers/profile_builder.py:StructuredProfiler._update_row_statistics", "dataprofiler/profilers/profile_builder.py:StructuredProfiler._get_unique_row_ratio", "dataprofiler/profilers/profile_builder.py:StructuredProfiler._get_duplicate_row_count", "dataprofiler/profilers/profile_builder.py:StructuredProfiler.__add__"]}
{"id": "C19", "title": "Schema matching is a name-preserving bijection", "statement": "When two schemas can be matched, the mapping sends each column index of the first to a column index of the second with the same name, is injective and onto; it fails exactly when the schemas are not the same multiset of names, or names are duplicated in different positions.", "quantifier": "every pair of schemas with any repeated names", "why_tests_cant": "All permutations and duplications of column names.", "anchors": ["dataprofiler/profilers/profile_builder.py:StructuredProfiler._get_and_validate_schema_mapping"]}
{"id": "C20", "title": "Merging structured profiles pairs columns by name", "statement": "p1 + p2 merges each column of p1 with the column of p2 of the same name, keeps p1's column order, and adds up rows and total samples; if schemas, profiler types or option sets are incompatible it raises and changes nothing.", "quantifier": "every pair of profilers", "why_tests_cant": "All pairs of schemas and profile sets.", "anchors": ["dataprofiler/profilers/profile_builder.py:StructuredProfiler.__add__", "dataprofiler/profilers/profile_builder.py:StructuredProfiler._add_error_checks", "dataprofiler/profilers/column_profile_compilers.py:BaseCompiler.__add__"]}
{"id": "C21", "title": "Multiprocess profiling gives the serial result under every schedule", "statement": "Whatever subset of columns fails in the worker pool, and in whatever order workers finish, the resulting profile is the same as the serial run, with each column updated exactly once.", "quantifier": "every pool outcome (which tasks fail, order of completion), every column count", "why_tests_cant": "Failure subsets and completion orders cannot be enumerated by tests.", "anchors": ["dataprofiler/profilers/profile_builder.py:StructuredProfiler._update_profile_from_chunk", "dataprofiler/profilers/column_profile_compilers.py:BaseCompiler.update_profile", "dataprofiler/profilers/profiler_utils.py:suggest_pool_size"]}
{"id": "C22", "title": "Correlation of merged or streamed data equals the correlation of all the data", "statement": "Merging two correlation matrices with their means, standard deviations and counts yields the Pearson correlation of the concatenated rows; the matrix is symmetric with unit diagonal where defined.", "quantifier": "every pair of batches with non-zero merged variance (exact arithmetic)", "why_tests_cant": "An algebraic identity over all data.", "anchors": ["dataprofiler/profilers/profile_builder.py:StructuredProfiler._merge_correlation_helper", "dataprofiler/profilers/profile_builder.py:StructuredProfiler._merge_correlation"]}
{"id": "C23", "title": "The chi-squared matrix is symmetric and its statistic non-negative", "statement": "The homogeneity statistic between two categorical columns is independent of the argument order, is never negative, is 0 for proportional counts, and the reported matrix is symmetric.", "quantifier": "every pair of category count tables", "why_tests_cant": "All contingency tables.", "anchors": ["dataprofiler/profilers/profiler_utils.py:perform_chi_squared_test_for_homogeneity", "dataprofiler/profilers/profile_builder.py:StructuredProfiler._update_chi2"]}
{"id": "C24", "title": "Nested time/count dictionaries add pointwise", "statement": "Adding two (nested) dictionaries of numbers gives at every path the sum of the values there, keeps every key of both, is commutative and associative as a map; a dictionary meeting a number at the same path is an error.", "quantifier": "every pair of nested dictionaries", "why_tests_cant": "Unbounded nesting and key sets.", "anchors": ["dataprofiler/profilers/profiler_utils.py:add_nested_dictionaries"]}
{"id": "C25", "title": "Chunking loses nothing", "statement": "Cutting a list or range into chunks (partition, chunk, text blocks, batch generator) yields pieces whose concatenation is the input, each of at most the requested size and none empty.", "quantifier": "every list and every positive size", "why_tests_cant": "All lengths, including non-multiples.", "anchors": ["dataprofiler/profilers/profiler_utils.py:partition", "dataprofiler/profilers/profiler_utils.py:chunk", "dataprofiler/data_readers/text_data.py:_get_data_as_text", "dataprofiler/data_readers/base_data.py:get_batch_generator"]}
{"id": "C26", "title": "Chunked shuffle visits every index exactly once", "statement": "Concatenating the chunks produced by the in-chunk shuffle is a permutation of 0..n-1, whatever the random generator returns, and every chunk but the last has the requested size.", "quantifier": "every data length, chunk size and stream of random draws", "why_tests_cant": "All random streams.", "anchors": ["dataprofiler/profilers/profiler_utils.py:shuffle_in_chunks"]}
{"id": "C27", "title": "Merging a list of profiles equals folding '+'", "statement": "Merging a list of profiles pairwise (as the parallel merge does) equals adding them from left to right for any associative '+', keeps every profile exactly once, and terminates.", "quantifier": "every non-empty list of profiles and every pool availability", "why_tests_cant": "All list lengths.", "anchors": ["dataprofiler/profilers/profiler_utils.py:merge_profile_list", "dataprofiler/profilers/profiler_utils.py:merge", "dataprofiler/profilers/profiler_utils.py:chunk"]}
{"id": "C28", "title": "diff reports 'unchanged' exactly for equal values and is antisymmetric", "statement": "Number, date and string differences report 'unchanged' iff the two values are equal, report the pair with None when exactly one is missing, and swapping the arguments negates the difference; list/set differences report exactly the elements only on each side and the shared ones.", "quantifier": "every pair of values", "why_tests_cant": "All pairs of values, multisets and dictionaries.", "anchors": ["dataprofiler/profilers/profiler_utils.py:find_diff_of_numbers", "dataprofiler/profilers/profiler_utils.py:find_diff_of_strings_and_bools", "dataprofiler/profilers/profiler_utils.py:find_diff_of_lists_and_sets", "dataprofiler/profilers/profiler_utils.py:find_diff_of_dates", "dataprofiler/profilers/profiler_utils.py:find_diff_of_dicts", "dataprofiler/profilers/profiler_utils.py:find_diff_of_dicts_with_diff_keys"]}
{"id": "C29", "title": "Sample size is bounded by the data", "statement": "The number of rows sampled from a batch never exceeds the batch size, is at least min(batch size, minimum samples), and is the whole batch for small batches.", "quantifier": "every batch length, ratio in (0,1], minimum sample setting", "why_tests_cant": "All sizes and ratios.", "anchors": ["dataprofiler/profilers/profile_builder.py:StructuredColProfiler._get_sample_size", "dataprofiler/profilers/profile_builder.py:BaseProfiler._get_sample_size"]}
{"id": "C30", "title": "Column data type selection follows the fixed priority", "statement": "The reported data type of a column is the first of datetime, int, float, text whose match ratio is 1; text is reported whenever any values were seen and nothing more specific matches all; an unseen column reports no type; merging two compatible profiles keeps ratios equal to those of the combined counts.", "quantifier": "every vector of match counts and sample sizes", "why_tests_cant": "All combinations of ratios.", "anchors": ["dataprofiler/profilers/column_profile_compilers.py:ColumnPrimitiveTypeProfileCompiler.report", "dataprofiler/profilers/column_profile_compilers.py:ColumnPrimitiveTypeProfileCompiler.selected_data_type"]}
{"id": "C31", "title": "Reported quantile groups are in range and ordered", "statement": "Reducing stored quantiles to g groups picks g-1 existing indices in strictly increasing order; if the request cannot be satisfied it falls back to quartiles.", "quantifier": "every number of groups and every stored quantile list", "why_tests_cant": "All (g, n) pairs.", "anchors": ["dataprofiler/profilers/helpers/report_helpers.py:calculate_quantiles"]}
{"id": "C32", "title": "Flattening a report keeps every leaf", "statement": "Flattening a nested report preserves every leaf value under its joined path, and two leaves are merged only if their joined paths coincide.", "quantifier": "every nested dictionary", "why_tests_cant": "Unbounded nesting.", "anchors": ["dataprofiler/profilers/helpers/report_helpers.py:flat_dict"]}
{"id": "C33", "title": "Options validation enforces the statistic dependencies", "statement": "A numeric options object passes validation iff each enabled statistic has its prerequisites enabled (variance needs sum, skewness needs variance and sum, kurtosis needs skewness, variance and sum, median/mode/MAD need the histogram); an invalid nested option is always reported by the top-level validation.", "quantifier": "every assignment of flags and values to the options tree", "why_tests_cant": "2^n flag combinations times every nesting path.", "anchors": ["dataprofiler/profilers/profiler_options.py:NumericalOptions._validate_helper", "dataprofiler/profilers/profiler_options.py:RowStatisticsOptions._validate_helper", "dataprofiler/profilers/profiler_options.py:StructuredOptions._validate_helper"]}
{"id": "C34", "title": "Setting an option changes exactly the addressed option", "statement": "options.set({path: v}) changes precisely the properties matched by the path (with '*' matching every sub-option) and leaves all others untouched; unknown option names raise instead of being ignored.", "quantifier": "every options tree, every path, every value", "why_tests_cant": "All trees and all paths.", "anchors": ["dataprofiler/profilers/profiler_options.py:BaseOption._set_helper", "dataprofiler/profilers/profiler_options.py:ProfilerOptions.set"]}
{"id": "C35", "title": "Vocabulary is the set of characters seen", "statement": "The text column's vocab after any updates or merges is exactly the set of characters of all values seen, without duplicates.", "quantifier": "every list of strings, batching and merge", "why_tests_cant": "All strings and batchings.", "anchors": ["dataprofiler/profilers/text_column_profile.py:_update_vocab", "dataprofiler/profilers/base_column_profilers.py:_combine_unique_sets"]}
{"id": "C36", "title": "Float precision statistics are batch independent and bounded", "statement": "min/max/mean/variance of significant-figure counts equal those of all sampled values for any batching.", "quantifier": "every list of batches", "why_tests_cant": "All cuts; the code mixes up a running count in one of the two paths.", "anchors": ["dataprofiler/profilers/float_column_profile.py:_update_precision", "dataprofiler/profilers/float_column_profile.py:__add__"]}
{"id": "C37", "title": "Date matching is batch independent, and min/max are sound", "statement": "Every value counted as a date matches one of the supported formats, each value is counted at most once, the reported min/max are values seen, and counting does not depend on batching.", "quantifier": "every list of strings, formats and batching", "why_tests_cant": "All strings and batchings.", "anchors": ["dataprofiler/profilers/datetime_column_profile.py:_get_datetime_profile", "dataprofiler/profilers/datetime_column_profile.py:_update_datetime", "dataprofiler/profilers/datetime_column_profile.py:__add__"]}
{"id": "C38", "title": "Label votes are conserved", "statement": "The label representation of a column is the normalised sum of votes over all batches, its entries lie in [0,1] and sum to 1 when any vote was cast; merging profiles adds votes and ranks.", "quantifier": "every sequence of prediction batches and every merge", "why_tests_cant": "All prediction histories.", "anchors": ["dataprofiler/profilers/data_labeler_column_profile.py:_update_predictions", "dataprofiler/profilers/data_labeler_column_profile.py:label_representation", "dataprofiler/profilers/data_labeler_column_profile.py:__add__"]}
{"id": "C39", "title": "Unstructured label character counts are conserved", "statement": "Postprocessed character counts over all labels (including background) add up to the number of characters in the text, for any sorted non-overlapping list of entities; true-character counts add up likewise; percentages sum to 1; counts accumulate over updates and merges.", "quantifier": "every text, every list of sorted non-overlapping entities, every history", "why_tests_cant": "All texts and entity layouts.", "anchors": ["dataprofiler/profilers/unstructured_labeler_profile.py:_update_postprocess_char_label_counts", "dataprofiler/profilers/unstructured_labeler_profile.py:_update_true_char_label_counts", "dataprofiler/profilers/unstructured_labeler_profile.py:_update_word_label_counts", "dataprofiler/profilers/unstructured_labeler_profile.py:_get_percentages", "dataprofiler/profilers/unstructured_labeler_profile.py:__add__"]}
{"id": "C40", "title": "Word counts exclude stop words and survive merging", "statement": "The word count table after any updates and merges counts exactly the occurrences of each non-stop word (case-folded if requested), and merging never resurrects words stopped by either profile.", "quantifier": "every list of texts, stop-word sets, case modes, merges", "why_tests_cant": "All histories and stop-word sets.", "anchors": ["dataprofiler/profilers/unstructured_text_profile.py:_update_words", "dataprofiler/profilers/unstructured_text_profile.py:_merge_words"]}
{"id": "C41", "title": "Graph statistics match the graph", "statement": "average node degree is twice the edge count over the node count, the largest component statistic is the size of the largest component, and every attribute is classified as exactly one of categorical or continuous.", "quantifier": "every finite graph", "why_tests_cant": "All graphs.", "anchors": ["dataprofiler/profilers/graph_profiler.py:_get_avg_node_degree", "dataprofiler/profilers/graph_profiler.py:_get_global_max_component_size", "dataprofiler/profilers/graph_profiler.py:_get_categorical_and_continuous_attributes"]}
{"id": "C42", "title": "Saving and loading preserves the profile; a crash while saving leaves the profiler usable", "statement": "load(save(p)) reports the same as p for both save methods, and if writing fails at any point the in-memory profiler is unchanged.", "quantifier": "every profiler state and every failure point", "why_tests_cant": "Every crash point and every state.", "anchors": ["dataprofiler/profilers/profile_builder.py:BaseProfiler._pkl_save_helper", "dataprofiler/profilers/profile_builder.py:StructuredProfiler.save", "dataprofiler/profilers/profile_builder.py:BaseProfiler.load", "dataprofiler/profilers/profile_builder.py:BaseProfiler._remove_data_labelers", "dataprofiler/profilers/profile_builder.py:BaseProfiler._restore_data_labelers"]}
{"id": "C43", "title": "Reservoir sampling returns distinct input rows", "statement": "Sampling n rows of a file of m rows returns exactly min(n,m) rows, taken from distinct positions of the file, whatever the random draws; all rows when m <= n.", "quantifier": "every file, n >= 1, every stream of random draws", "why_tests_cant": "All random streams.", "anchors": ["dataprofiler/data_readers/data_utils.py:reservoir", "dataprofiler/data_readers/data_utils.py:rsample"]}
{"id": "C44", "title": "Sniffing reads a prefix of the file", "statement": "The text used for sniffing a file is a prefix of the file, stops at the requested number of lines, and is the whole file when the file is short.", "quantifier": "every file content, every chunk and line limit", "why_tests_cant": "All contents, chunk boundaries and newline runs.", "anchors": ["dataprofiler/data_readers/data_utils.py:load_as_str_from_file", "dataprofiler/data_readers/data_utils.py:find_nth_loc"]}
{"id": "C45", "title": "Flattening JSON keeps every value", "statement": "Flattening nested JSON yields exactly the scalar leaves (and mixed lists) with their key paths, and coalescing distributes them over rows without losing, duplicating or overwriting any.", "quantifier": "every JSON value", "why_tests_cant": "Unbounded nesting.", "anchors": ["dataprofiler/data_readers/json_data.py:_find_data", "dataprofiler/data_readers/json_data.py:_coalesce_dicts"]}
{"id": "C46", "title": "Validation reports exactly the rows satisfying the configured check", "statement": "After validate(data, config), get() contains for each configured column and check exactly the indices of the rows in the range / in the list, and nothing from other configurations; before any successful run it raises.", "quantifier": "every column, config, and history of validate calls", "why_tests_cant": "All histories of calls, including failing ones.", "anchors": ["dataprofiler/validators/base_validators.py:Validator.validate", "dataprofiler/validators/base_validators.py:Validator.get", "dataprofiler/validators/base_validators.py:is_in_range"]}
{"id": "C47", "title": "Pool size suggestion is safe", "statement": "The suggested number of workers is None or between 1 and the number of CPUs minus one, never more than the number of columns, and fits the memory bound.", "quantifier": "every data size, column count, CPU count and memory", "why_tests_cant": "All machine configurations.", "anchors": ["dataprofiler/profilers/profiler_utils.py:suggest_pool_size", "dataprofiler/profilers/profiler_utils.py:generate_pool"]}
{"id": "C48", "title": "Null replication statistics are the class-conditional means and covariances", "statement": "With null replication enabled, the streamed and merged class sums, counts and scatter equal those computed from all rows split by null/non-null; class priors sum to 1.", "quantifier": "every table, batching and merge", "why_tests_cant": "All null layouts.", "anchors": ["dataprofiler/profilers/profile_builder.py:StructuredProfiler._update_null_replication_metrics", "dataprofiler/profilers/profile_builder.py:StructuredProfiler._merge_null_replication_metrics"]}
{"id": "C49", "title": "Merged option calculations are the intersection", "statement": "A merged profile computes exactly the statistics enabled in both operands, never one that only one had.", "quantifier": "every pair of enabled sets", "why_tests_cant": "All subsets.", "anchors": ["dataprofiler/profilers/base_column_profilers.py:_merge_calculations", "dataprofiler/profilers/base_column_profilers.py:_filter_properties_w_options"]}
{"id": "C50", "title": "Recursive dictionary update overrides exactly the given leaves", "statement": "Updating nested dict d with u sets each leaf of u at its path, keeps each leaf of d whose path is not touched by u.", "quantifier": "every pair of nested dictionaries", "why_tests_cant": "Unbounded nesting.", "anchors": ["dataprofiler/profilers/profiler_utils.py:recursive_dict_update"]}
{"id": "C51", "title": "Heavy hitters are never missed or undercounted in sketch mode", "statement": "With the count-min sketch enabled, after any updates and merges every value making up at least 1/m of the data is reported (m = maximal number of heavy hitters), no reported count is below the true count, and with a collision-free sketch the report is exactly the values of share >= 1/m with their true counts; merged profiles can be updated and merged again.", "quantifier": "every history of updates and merges, every sketch that never underestimates", "why_tests_cant": "All streams, batch cuts and hash collisions.", "anchors": ["dataprofiler/profilers/categorical_column_profile.py:CategoricalColumn._get_categories_cms", "dataprofiler/profilers/categorical_column_profile.py:CategoricalColumn._merge_categories_cms", "dataprofiler/profilers/categorical_column_profile.py:CategoricalColumn.__add__"]}
{"id": "C52", "title": "The population stability index of a diff is a divergence", "statement": "The psi entry of a categorical diff is the sum of (q-p)ln(q/p) over the shared categories, independent of enumeration order, symmetric, never negative and zero only when the relative frequencies agree; diffing never raises.", "quantifier": "every pair of categorical profiles", "why_tests_cant": "All real-valued distributions and set orders.", "anchors": ["dataprofiler/profilers/categorical_column_profile.py:CategoricalColumn.diff", "dataprofiler/profilers/categorical_column_profile.py:CategoricalColumn._preprocess_for_categorical_psi_calculation"]}
{"id": "C53", "title": "The categorical report lists the most frequent categories", "statement": "categorical_count holds the top_k categories by true count, in descending order, no omitted category being more frequent than a listed one, also after merging; a column is categorical iff it never stopped and has at most 10 distinct values or a distinct ratio of at most 0.2.", "quantifier": "every history and every top_k", "why_tests_cant": "All histories and ties.", "anchors": ["dataprofiler/profilers/categorical_column_profile.py:CategoricalColumn.profile", "dataprofiler/profilers/categorical_column_profile.py:CategoricalColumn.is_match"]}
{"id": "C54", "title": "Omitting report keys removes exactly what the patterns name", "statement": "report(report_options={'omit_keys': [...]}) returns exactly the positions of the report that no pattern covers (segments separated by dots, '*' matching any key or column), in order and with omitted columns leaving a gap; the options passed by the caller are not changed; the compact format omits exactly five statistics of every column; the schema has every column with its positions under a key that JSON has.", "quantifier": "every nested report, every list of patterns", "why_tests_cant": "All report shapes and all combinations of patterns.", "anchors": ["dataprofiler/profilers/helpers/report_helpers.py:_prepare_report"]}
{"id": "C55", "title": "Predictions come back to the characters they were made for", "statement": "Labelling texts cuts them into samples of at most max_length characters, joins short ones with the separator, batches and predicts them, and puts the predictions back: every text gets exactly one prediction per character, the one made for that character; splitting always ends, no sample is empty or too long, all batches but the last are full.", "quantifier": "every list of texts, maximal length, separator shorter than it, flatten ratio, set of break characters, batch size and network", "why_tests_cant": "All lengths and positions of breaks, all ways texts straddle samples and batches.", "anchors": ["dataprofiler/labelers/data_processing.py:CharPreprocessor._process_batch_helper", "dataprofiler/labelers/data_processing.py:CharPostprocessor.match_sentence_lengths", "dataprofiler/labelers/character_level_cnn_model.py:CharacterLevelCnnModel.predict"]}
{"id": "C56", "title": "Training labels stay with their characters", "statement": "Training rows pair every character with its label: that of the last entity covering it, or the default label; separators get the default label, rows are padded with the pad label to max_length, and the cut of the text is the same as without labels. For structured data every character of a cell has the cell's label.", "quantifier": "every list of texts with entities, every label mapping, all parameters", "why_tests_cant": "All overlaps of entities, all ways texts straddle samples.", "anchors": ["dataprofiler/labelers/data_processing.py:CharPreprocessor._process_batch_helper", "dataprofiler/labelers/data_processing.py:StructCharPreprocessor.convert_to_unstructured_format", "dataprofiler/labelers/data_processing.py:StructCharPreprocessor.process"]}
{"id": "C57", "title": "Reported entities are exactly the labelled runs", "statement": "With NER output, the entities of a text are its maximal runs of characters with one label other than the default and the padding, as (start, end, name) from left to right: no labelled character is missing, none is covered twice, no run is split or joined over another label.", "quantifier": "every list of predictions and every label mapping", "why_tests_cant": "All sequences of labels of any length.", "anchors": ["dataprofiler/labelers/data_processing.py:CharPostprocessor.convert_to_NER_format"]}
{"id": "C58", "title": "Word-level labelling gives each word one label", "statement": "With use_word_level_argmax every word between separators gets one label: the most frequent among those with at least word_level_min_percent of its characters, the background otherwise; separators keep their label or get the background beside a background word, and the number of labels does not change.", "quantifier": "every text, prediction, set of separators and required share", "why_tests_cant": "All word lengths, ties and positions of separators.", "anchors": ["dataprofiler/labelers/data_processing.py:CharPostprocessor._word_level_argmax"]}
{"id": "C59", "title": "A cell gets the most frequent label of its characters", "statement": "The label of a structured cell is a most frequent label of its characters other than padding, the default label only if it is strictly the most frequent, none if there is none; its confidences are the shares of the labels and add up to one; labels come back as the names of the mapping.", "quantifier": "every column of predictions, label mapping and random choice among ties", "why_tests_cant": "All distributions of labels, all ties and choices.", "anchors": ["dataprofiler/labelers/data_processing.py:StructCharPostprocessor.convert_to_structured_analysis", "dataprofiler/labelers/data_processing.py:StructCharPostprocessor.process"]}
{"id": "C60", "title": "Regex labelling votes for exactly the labels whose patterns match", "statement": "RegexModel gives every character of every text a vote for exactly the labels with a pattern matching it, and for the default label where none does; splitting shares a vote equally, priority order takes the first label voted for, random order some label voted for; a cell gets the first label with the largest average share and averages that add up to one.", "quantifier": "every list of texts, every set of patterns and label mapping, every matcher", "why_tests_cant": "All overlaps of matches, all numbers of texts, all orders of labels.", "anchors": ["dataprofiler/labelers/regex_model.py:RegexModel.predict", "dataprofiler/labelers/data_processing.py:RegexPostProcessor.process", "dataprofiler/labelers/data_processing.py:StructRegexPostProcessor.process"]}
{"id": "C61", "title": "Labels keep their numbers and names", "statement": "Setting labels from a list numbers distinct labels in order and the label list gives them back; the label list has one name per number in use by rising numbers, and every label if no two share a number; the number of labels is one more than the largest number. Adding a label gives it the next number and appends it to the list without changing anything else; adding it as the same as an existing one shares that number; adding a known label changes nothing; naming an unknown existing label raises and changes nothing. The character network always has its padding label at zero and its default label. Average predictions of a column stand beside the labels they belong to.", "quantifier": "for all label lists, mappings, labels added and prediction sums", "why_tests_cant": "Every label set is a different mapping; a test fixes one contiguous mapping and cannot see shifts or aliases in others.", "anchors": ["dataprofiler/labelers/base_model.py:88", "dataprofiler/labelers/base_model.py:197", "dataprofiler/labelers/character_level_cnn_model.py:346", "dataprofiler/profilers/data_labeler_column_profile.py:196"]}
{"id": "C62", "title": "Scores of predictions are what they say", "statement": "Evaluating predictions against true labels counts, for any number of batches, exactly the positions with every pair of true and predicted label, and raises if there are not as many predictions as labels or a label is out of range. The report gives every label that is not omitted the share of its predictions that are right, the share of its occurrences found, their harmonic mean and its occurrences; the macro average (the score returned) is the mean over the labels that occur, the accuracy is the share of right positions, the micro average the shares among the labels not omitted, and the weighted average weighs labels by occurrences. Zeros padded to shorter texts count for no other label.", "quantifier": "for all true labels, predictions, label names and omitted labels", "why_tests_cant": "The matrix, the scores and the corrected averages interact over all label sets; a test checks one small matrix.", "anchors": ["dataprofiler/labelers/labeler_utils.py:80", "dataprofiler/labelers/classification_report_utils.py:11", "dataprofiler/labelers/classification_report_utils.py:228"]}
{"id": "C63", "title": "Training uses every sample once", "statement": "Fitting a data labeler with a validation split and at least two samples to train with divides the pairs of sample and label into training and validation; samples keep their labels, all epochs use the same division, and no validation pair is ever trained with; without a split every epoch trains with all pairs. Empty data, lengths that differ or a split out of range raise. Training from a table uses every cell with the name of its column.", "quantifier": "for all samples, labels, split positions, permutations and numbers of epochs", "why_tests_cant": "Shuffles are random; tests look at one seed and cannot rule out leaks or losses.", "anchors": ["dataprofiler/labelers/base_data_labeler.py:761", "dataprofiler/labelers/data_labelers.py:17"]}
{"id": "C64", "title": "Column names get the label of the best match", "statement": "Labelling column names drops the names at least as similar as the threshold to a false positive; of the others, in order, those more similar than the threshold to some entry get the label of the first most similar entry, with its similarity as confidence. If every name is labelled, labels stand beside their names.", "quantifier": "for all names, entries, thresholds and similarity functions", "why_tests_cant": "Ties, thresholds and filtering interact; tests use a few names.", "anchors": ["dataprofiler/labelers/column_name_model.py:150", "dataprofiler/labelers/column_name_model.py:214"]}
{"id": "C65", "title": "Parameters of a labeler are set as given and checked to agree", "statement": "Checking a pipeline is silent exactly if parameters of the same name agree among model, preprocessor and postprocessor; otherwise it raises or warns, as asked, about exactly those that differ. A component takes all parameters given or none; setting parameters of a data labeler that succeeds updates exactly the components and parameters named; parameters for unknown or missing components are refused and change nothing.", "quantifier": "for all components, parameters and values", "why_tests_cant": "The combinations of components, parameters and failures are unbounded; tests cover a few.", "anchors": ["dataprofiler/labelers/base_data_labeler.py:192", "dataprofiler/labelers/base_data_labeler.py:382", "dataprofiler/labelers/base_model.py:189"]}
{"id": "C66", "title": "The delimiter found fits the lines and has the most columns", "statement": "A line is cut at exactly the delimiters that have quote characters in pairs behind them, so in a line with paired quotes at the delimiters outside of quotes, and the cells put together with the delimiter are the line. For a text of at most 25 lines the delimiter found gives lines that never lose columns further down, splits at least one line, has no line against it, and has the most columns of all proposed characters, commas and tabulators counting five times and winning ties; if no delimiter is found, no proposed character is usable. For longer texts this holds for the first 24 lines.", "quantifier": "for all texts, delimiters, quote characters and cell type functions", "why_tests_cant": "The texts are unbounded, and the lines sampled are random.", "anchors": ["dataprofiler/data_readers/csv_data.py:184", "dataprofiler/data_readers/data_utils.py:712"]}
{"id": "C67", "title": "The header row found is the last row before the types change that looks like one", "statement": "For a table with other values than text the header found is exactly the last row that is more than nine tenths text or empty, less than half empty, differs in less than a tenth of its cells from the row above, has at least as many values as all rows above, and has no change of types above it, provided that types change somewhere. For a table of text it is the row where more than half of the columns begin and after which none begins, provided that the number of words in some column varies by two or more. The header is a line of the text; a first row of text over differing types is the header; rows behind the first change of types do not matter.", "quantifier": "for all texts, delimiters, quote characters and cell type functions", "why_tests_cant": "The tables are unbounded.", "anchors": ["dataprofiler/data_readers/csv_data.py:347"]}
{"id": "C68", "title": "A file is recognised as delimited exactly if its lines are consistent", "statement": "A text is recognised exactly if it is no other format, at least four of the lines counted have content, and the most common number of separators per line, at least one unless there is no delimiter, is shared by all of them but 1, 2, 4, 8 for 1, 2, 3, 4 digits of the number of lines; the delimiter, quote character and header are those given or guessed. A text whose lines with content all have the same positive number of separators is recognised. Lines are counted up to the first one with content from the thousandth on.", "quantifier": "for all texts and options", "why_tests_cant": "The texts are unbounded.", "anchors": ["dataprofiler/data_readers/csv_data.py:624"]}
{"id": "C69", "title": "A table of edges is read as its graph", "statement": "Reading a delimited file as a graph takes the first column that mentions a source keyword and the first that mentions a target keyword for the two nodes of each row. The nodes of the graph are the values in these columns, two nodes are joined exactly if some row joins them, no pair is joined twice, and an edge carries under each column name the number of the last row that joins its nodes. A delimited file is taken for a graph exactly if its header mentions a source, a target and a node.", "quantifier": "all headers, keyword lists and tables of any size, all conversions of text to numbers", "why_tests_cant": "tests read three small files with integer nodes; they cannot settle what happens for every arrangement of columns, repeated pairs and texts that are not numbers", "anchors": ["dataprofiler/data_readers/graph_data.py:84-110", "dataprofiler/data_readers/graph_data.py:113-191", "dataprofiler/data_readers/graph_data.py:193-308"]}
{"id": "C70", "title": "A dataset is opened by the first reader that accepts it", "statement": "Data(path) returns the reader of the first format, in the order JSON, graph, CSV, Parquet, Avro, text, among those of the type asked for, whose recogniser accepts the file when given the caller's own options; the reader gets the options as its own recogniser completed them and no other. Data in memory are read by the reader of the type named. Calls with neither or both of file and data, or with data but no type, or with an unknown type are refused; without a type no file is refused for want of a reader. The caller's options stay as they are. The CSV reader refuses exactly illegal options.", "quantifier": "for all files, data, types, options and recognisers", "why_tests_cant": "the recognisers may interact through shared options in any order; tests open a few files", "anchors": ["dataprofiler/data_readers/data.py:17-87", "dataprofiler/data_readers/csv_data.py:130-184", "dataprofiler/data_readers/csv_data.py:623-660", "dataprofiler/data_readers/text_data.py:108-125"]}
{"id": "C71", "title": "Reloading a reader is opening a new one", "statement": "After a successful reload(path, data, options) a reader is in the state of a newly constructed reader of that path (the old one if none is given), data and options, whatever happened to it before. A file of another format is refused and leaves the reader as it was.", "quantifier": "for all readers in any state, paths, data and options", "why_tests_cant": "the state before the reload is the result of an arbitrary history", "anchors": ["dataprofiler/data_readers/base_data.py:169-193", "dataprofiler/data_readers/text_data.py:127-148", "dataprofiler/data_readers/json_data.py:424-446", "dataprofiler/data_readers/csv_data.py:744-770", "dataprofiler/data_readers/parquet_data.py:162-184"]}
{"id": "C72", "title": "Data are read once and come in the format selected", "statement": "The first access to data reads the file with the settings of the reader; later accesses give the same data without reading. Data come in the selected format if the reader offers it and are refused otherwise; selecting a format changes only the format and only to one that is offered.", "quantifier": "for all readers, files and formats", "why_tests_cant": "the file may change between accesses; formats are arbitrary texts", "anchors": ["dataprofiler/data_readers/base_data.py:67-98"]}
{"id": "C73", "title": "Records of a JSON dataset are the documents that were read", "statement": "In the format records each row becomes a nested record in which every cell stands under the components of its key, unless the row has cells below it; cells above others must be blank. If no key is above another every cell is kept, so a document made flat comes back up to the order of keys. No key of a record has a dot; the only error is a type error, which a value at the top with others below it always raises unless it is blank.", "quantifier": "for all rows and documents of any depth and width, all notions of blank", "why_tests_cant": "nesting is unbounded and depends on the order of the keys; tests use three rows", "anchors": ["dataprofiler/data_readers/json_data.py:283-298", "dataprofiler/data_readers/json_data.py:332-365"]}
{"id": "C74", "title": "JSON files are recognised by their lines and read completely", "statement": "A file is recognised as JSON exactly if it is one document, or if, counting the end of a file of less than a thousand lines as a line, at least half of its first thousand lines have a colon or bracket and are documents; undecodable lines among these exclude it; sixty of a hundred are always enough. What is recognised can be read. A file that is one document is read as such, any other as the documents of its lines in order, lines that are no document being left out; no document at all is an error. A text in memory is read like a file, and as the data of a Parquet file it gives one row for each document. Items of different types are refused; the same documents give the same table whether in a list or on lines.", "quantifier": "for all files and texts of any length and all parsers", "why_tests_cant": "files are unbounded; tests read some files without blank lines or rare separators", "anchors": ["dataprofiler/data_readers/json_data.py:240-281", "dataprofiler/data_readers/json_data.py:368-422", "dataprofiler/data_readers/data_utils.py:94-163", "dataprofiler/data_readers/data_utils.py:166-277", "dataprofiler/data_readers/parquet_data.py:97-104"]}
{"id": "C75", "title": "The histogram of a numeric column describes its data through updates, reports and merges", "statement": "After any batches, for any options, the reported histogram counts every finite value once between the smallest and the greatest; it has one bin when all values are equal, else the number of bins asked for, else what one of the methods offered estimates, at most 100000. There are as many quantiles as asked for, at equal steps of percentiles, and the median is defined. A report changes no later report. A merge reports the counts of both operands between the merged extremes, can be updated further, and leaves its operands alone.", "quantifier": "all batches of any sizes, options, estimates of the number of bins, and interleavings of updates, reports and merges", "why_tests_cant": "the dictionaries of a column are shared between its stored and its reported histogram and between columns; what a report says depends on the whole history", "anchors": ["dataprofiler/profilers/numerical_column_stats.py:66-117", "dataprofiler/profilers/numerical_column_stats.py:145-264", "dataprofiler/profilers/numerical_column_stats.py:345-354", "dataprofiler/profilers/numerical_column_stats.py:1267-1366", "dataprofiler/profilers/numerical_column_stats.py:1486-1551"]}
{"id": "C76", "title": "The numbers of bins suggested for a batch and after a merge", "statement": "For a batch of values, and after a merge, the number of bins suggested for each method is the one numpy gives for the same data: for Sturges, Rice and square root it depends on the number of values alone, with Doane on their skewness too; the automatic rule takes the larger of Freedman-Diaconis and Sturges; no rule depends on the unit or the origin of the values; every rule suggests at least one bin for finite values that are not all equal; an unknown method is refused.", "quantifier": "for all numbers of values, all statistics, all methods and all changes of unit", "why_tests_cant": "The rules are real functions of unbounded data; the tests compare a few literal widths.", "anchors": ["dataprofiler/profilers/histogram_utils.py:21-236", "dataprofiler/profilers/histogram_utils.py:239-350", "dataprofiler/profilers/numerical_column_stats.py:258-262"]}
{"id": "C77", "title": "The t-test of a difference is a t-test", "statement": "In the difference of two numeric columns the t-test is made exactly if both have at least two values, means and variances are known and not both variances are zero. Swapping the columns negates the statistic and keeps degrees of freedom and p-values. Welch's degrees of freedom lie between the conservative ones and n1 + n2 - 2; p-values are between 0 and 1, are 1 for equal means, do not grow with the distance of the means, and the conservative one is never below Welch's. Units and origin of the values do not matter.", "quantifier": "for all means, variances, numbers of values and all distribution functions with the stated properties", "why_tests_cant": "The tests compare a handful of literal results; inequalities over all samples cannot be sampled.", "anchors": ["dataprofiler/profilers/numerical_column_stats.py:604-665", "dataprofiler/profilers/numerical_column_stats.py:519-526"]}
{"id": "C78", "title": "The stability index of numeric columns compares the same bins", "statement": "The population stability index in the difference of two numeric columns is computed from the shares of the same ten bins over the common range of both columns; it is not negative, zero exactly if the shares agree, the same in both directions, and zero for a column compared with itself; without a histogram there is none.", "quantifier": "for all histograms, float or integer, and all numbers of values", "why_tests_cant": "The tests cover four literal histograms with ten bins or with different edges; a column compared with itself is not among them.", "anchors": ["dataprofiler/profilers/numerical_column_stats.py:667-816", "dataprofiler/profilers/text_column_profile.py:101-117"]}
{"id": "C79", "title": "The difference of two structured profiles compares like with like", "statement": "The difference of two structured profiles compares the i-th columns of both exactly if the columns have the same names in the same order, and otherwise no columns but the positions by name; the global part compares file type, encoding, size of the largest column, numbers of columns and rows, ratios, duplicates and matrices entry by entry. For each pair of columns it gives the difference of the data types, of the counts and rows of nulls, of the shares of each type, of categories and labels, and, exactly for equal types, of the statistics of that type; every entry is the first minus the second, or what each has that the other lacks, and unchanged if there is no difference. No comparison of two profiles of the same columns raises.", "quantifier": "for all profiles with any number of columns, any options (missing compilers, types, categories, labels), all statistics including missing ones and NaN", "why_tests_cant": "What is compared depends on which sub-profiles both columns have and on nested dictionaries being merged key by key; tests compare a few pairs with all options enabled.", "anchors": ["dataprofiler/profilers/profile_builder.py:256-337", "dataprofiler/profilers/profile_builder.py:1858-1951", "dataprofiler/profilers/column_profile_compilers.py:319-366", "dataprofiler/profilers/column_profile_compilers.py:394-467", "dataprofiler/profilers/categorical_column_profile.py:245-332", "dataprofiler/profilers/data_labeler_column_profile.py:359-392", "dataprofiler/profilers/numerical_column_stats.py:480-542"]}
{"id": "C80", "title": "Counts of a profile of unstructured text describe its lines", "statement": "After any history of updates and merges, samples_used of a profile of unstructured text is the number of lines looked at, empty_line_count the number of these that have no character but whitespace, memory_size the sum over all batches; vocabulary counts are those of the lines that are not blank, word counts those of the lines, for every word no profile stops. Of each batch a choice of lines is looked at, each once, and either all or as many as asked for; if every batch is sampled in full, the numbers are those of all lines, however the text was batched and in whatever form it was given. Updates fail only for other kinds of data and for data frames without exactly one column; merges fail only for profiles without lines, different names or options. File type and encoding are those given last, of a merge the common ones.", "quantifier": "for all texts, lists, series and data frames with distinct labels, all batch sizes, sample sizes, minimum numbers of lines, random draws, options, orders of updates and merges", "why_tests_cant": "The outcome depends on random draws, labels and the order of batches and merges; tests fix the seed and use a few lines.", "anchors": ["dataprofiler/profilers/profile_builder.py:1235-1590", "dataprofiler/profilers/profile_builder.py:766-858", "dataprofiler/profilers/profile_builder.py:940-1000", "dataprofiler/profilers/column_profile_compilers.py:39-190"]}
{"id": "C81", "title": "The difference of two profiles of unstructured text compares like with like", "statement": "The difference of two profiles of unstructured text reports file type, encoding, samples used, empty lines and memory entry by entry; of the characters and words those of the first text only, of both, and of the second only, each once, or unchanged; of their counts the entries of either side only and the first minus the second for the others; and the counts and shares of entities label by label. Two profiles that were given lines can always be compared. If only one profile is case sensitive, the comparison ignores case. The reverse difference says the same with the sides exchanged.", "quantifier": "for all histories of two profiles, all texts, options (case, stop words, limits of the tables, disabled parts)", "why_tests_cant": "Which words are compared depends on the options of both profiles and on ties in the tables; tests compare two short texts.", "anchors": ["dataprofiler/profilers/profile_builder.py:1318-1357", "dataprofiler/profilers/column_profile_compilers.py:495-520", "dataprofiler/profilers/unstructured_text_profile.py:581-632", "dataprofiler/profilers/unstructured_labeler_profile.py:115-150", "dataprofiler/profilers/profiler_utils.py:614-665"]}
{"id": "C82", "title": "The report of a structured profile shows exactly what was calculated for each column", "statement": "The report of a table has one entry per column, in the order of the columns, and gives for every name the positions of the columns with that name. The statistics of a column are exactly those of the data type that its values match, of its categories, of its labels and its counts of samples and nulls, each with the value of the profile. The shares of data types, the samples, the name, the order, the label and whether it is categorical are those of the column. With `remove_disabled_flag` exactly the statistics that were not calculated are left out.", "quantifier": "for all tables, columns, options, values of statistics and both values of the flag", "why_tests_cant": "Which statistics are left out depends on the data type and the enabled calculations; tests compare the keys of one or two profiles with few options.", "anchors": ["dataprofiler/profilers/profile_builder.py:2054-2109", "dataprofiler/profilers/profile_builder.py:339-391", "dataprofiler/profilers/column_profile_compilers.py:266-437", "dataprofiler/profilers/numerical_column_stats.py:395-426", "dataprofiler/profilers/float_column_profile.py:147-161", "dataprofiler/profilers/text_column_profile.py:71-85"]}
{"id": "C83", "title": "A saved data labeler is loaded as the labeler that was saved", "statement": "A data labeler saved to a directory and loaded from it has the same model class, parameters, labels and weights and the same processors with the same parameters and states of random generators, whatever the directory held before. Saving succeeds exactly if the directory exists, every parameter can be written as JSON and the default label of a network is one of its labels; it changes nothing else of the labeler and no other file. Loading with instances of other classes than those saved is refused. The loaded labeler equals the saved one.", "quantifier": "for all labelers whose components were constructed and had parameters and labels set any number of times, all contents of the directory, all load options", "why_tests_cant": "The components check parameters differently when they are constructed and when they are changed, and JSON changes types of values; tests mock the file system and use default parameters.", "anchors": ["dataprofiler/labelers/base_data_labeler.py:450-757", "dataprofiler/labelers/data_processing.py:119-161", "dataprofiler/labelers/data_processing.py:1554-1571", "dataprofiler/labelers/data_processing.py:1842-1968", "dataprofiler/labelers/data_processing.py:2060-2164", "dataprofiler/labelers/regex_model.py:266-313", "dataprofiler/labelers/column_name_model.py:53-141", "dataprofiler/labelers/column_name_model.py:278-313", "dataprofiler/labelers/character_level_cnn_model.py:346-457"]}
{"id": "C84", "title": "Equal data labelers are interchangeable", "statement": "Two data labelers compare equal exactly if their models and processors are of the same classes with equal parameters and the same labels; a structured postprocessor's generator does not count. The comparison is reflexive, symmetric and transitive. Profiles of labels may be merged exactly if their settings, possible labels and labelers are equal, and anything else raises ValueError. Labelers that compare equal make the same predictions.", "quantifier": "for all labelers whose components were constructed and had parameters and labels set any number of times, nested values of parameters of any depth", "why_tests_cant": "Every class compares in its own way, some attribute by attribute and some without looking at the class; tests compare a few labelers with a changed parameter.", "anchors": ["dataprofiler/labelers/base_data_labeler.py:56-78", "dataprofiler/labelers/base_model.py:67-87", "dataprofiler/labelers/data_processing.py:61-79", "dataprofiler/labelers/data_processing.py:1577-1598", "dataprofiler/labelers/character_level_cnn_model.py:245-264", "dataprofiler/profilers/data_labeler_column_profile.py:77-131"]}
{"id": "C85", "title": "Column profiles survive being saved as JSON", "statement": "A column profile of any type that is saved with the JSON encoder and loaded is a profile of the same class with the same attributes, and each attribute stands for what it was: numbers are the same numbers, dictionaries have the same keys in the same order, methods are methods again, histograms are arrays again, dates are the same moments, and the labeler is the one at the same place in the library. The same holds for the compilers of a column, for options within options, and for whole columns with their missing values; and for doing so any number of times. A profile that is saved and loaded between its updates, reports and changes of options ends as the profile that never was, having seen the same number of values. An object can be saved exactly if no sketch and no labeler without a place in the library is in it. A class that is not known is refused with ValueError.", "quantifier": "for all profiles with attributes of the right kinds, in particular new ones and all histories of updates and reloads starting there, any nesting of options, any number of rounds, any behaviour of floats, dates and the library of labelers", "why_tests_cant": "Each class restores types of its own, attribute by attribute, and an attribute that is forgotten shows up later in another function; tests compare a few profiles of small data.", "anchors": ["dataprofiler/profilers/json_encoder.py:21-74", "dataprofiler/profilers/json_decoder.py:23-276", "dataprofiler/profilers/base_column_profilers.py:252-287", "dataprofiler/profilers/numerical_column_stats.py:428-478", "dataprofiler/profilers/float_column_profile.py:162-194", "dataprofiler/profilers/datetime_column_profile.py:134-157", "dataprofiler/profilers/order_column_profile.py:318-342", "dataprofiler/profilers/categorical_column_profile.py:347-363", "dataprofiler/profilers/data_labeler_column_profile.py:310-345", "dataprofiler/profilers/column_profile_compilers.py:224-252", "dataprofiler/profilers/profiler_options.py:140-172", "dataprofiler/profilers/profiler_options.py:1306-1330", "dataprofiler/profilers/profile_builder.py:396-423"]}
{"id": "C86", "title": "The F-score shown during training is the F-score of the samples", "statement": "However the samples of an epoch are split into batches, and in whatever order they come, the F-score metric used to train the character labeler returns the weighted harmonic mean of precision and recall of all samples seen: per class, averaged over classes, averaged by the size of the classes, or over all classes together. A sample of whole weight k counts as k samples. Every number is between 0 and 1; perfect predictions score 1 (0 for classes that do not occur); with one label and one prediction for each sample the micro score is the accuracy whatever beta. The constructor accepts exactly the four averages, a positive float beta and a threshold in (0,1], and a metric is made again from its configuration. Without a threshold exactly one class is predicted.", "quantifier": "for all numbers of classes, batches, weights, predictions, labels, averages, betas and thresholds", "why_tests_cant": "tests feed a few small tensors; independence of the batches is a statement about all splits", "anchors": ["dataprofiler/labelers/labeler_utils.py:271-497"]}
{"id": "C87", "title": "Networks of the character models follow their labels", "statement": "A character model predicts only with a network that was made for the labels it has now: after any sequence of setting labels, adding labels, changing parameters, training, resetting weights, saving and predicting, predict either raises and changes nothing, or returns for every text, in the order given and however the texts were split into batches, one number per character, the number of the label with the largest confidence (the first of equal ones), and no number lies above those of the labels. Two texts look the same to the network exactly if their first max_length characters do, characters beyond the largest code being one. Training makes the network fit the labels: it starts from the trained network if that was made for the labels, replaces only the layers of the labels otherwise, and starts afresh with reset_weights or without a network; the evaluation does not depend on how the validation data are split into batches. It does not hold that labels can always be changed (three or more dense layers), that the length can be changed, that exchanging names of labels is noticed, or that every predicted number has a label.", "quantifier": "all histories of calls, label mappings, parameters, texts, batches, weights and calculations of the network", "why_tests_cant": "tests run short scripted sequences on mocked or tiny networks; the state that decides whether predictions are allowed is spread over five attributes changed by seven methods, and any interleaving is allowed", "anchors": ["dataprofiler/labelers/character_level_cnn_model.py:27-902", "dataprofiler/labelers/char_load_tf_model.py:25-560"]}
{"id": "C88", "title": "Files and buffers are left as they were, and their encoding is one that reads them", "statement": "Whatever is read from a file or an in-memory buffer, and whether reading raises or not, afterwards no file is left open and a buffer is open, unchanged and at its start; a file is read exactly like a buffer of its bytes. The encoding found for a file is the first of the candidates (the guess from its first chunks, taken for UTF-8 if it is none or ASCII, then two second opinions) by which its first mebi-characters can be read, so it reads them exactly if some candidate does. The lines read are the text of the file, with line ends translated, cut after each line end. A text is taken for an address to download from exactly if it is a scheme, :// and something other than a path, a query or a fragment. An object of S3 is asked for by the bucket and key of its address, credentials given win over those of the environment, and a download is everything that was sent, refused exactly beyond a gibibyte if chunks come in the size asked for. It does not hold that a buffer is read from the same position twice, that a text buffer has the same lines as a file with the same text, that the encoding reads the whole file, or that keys with ? or # reach S3.", "quantifier": "all programs of reading, files, buffers, positions, codecs, guesses of the libraries, servers and addresses", "why_tests_cant": "tests open a few small files with fixed encodings; exceptions in the middle of a block, positions of buffers and files longer than what is sampled are not reached", "anchors": ["dataprofiler/data_readers/filepath_or_buffer.py:22-104", "dataprofiler/data_readers/data_utils.py:570-673", "dataprofiler/data_readers/data_utils.py:863-1051"]}
{"id": "C89", "title": "A table is read with all its cells", "statement": "Reading a Parquet file gives all its rows in order, each cell of the columns asked for as its text, in the order they were asked for, however the file is divided into row groups; rows get distinct labels, so profiling reports as nulls exactly the null cells. A sample has the number of rows asked for, or all, the same rows in every column, in the order of the file. A delimited file is parsed as a whole with the delimiter, quote character, header row and columns that were given, or that were guessed from its first part; a text of the same characters is read alike.", "quantifier": "for all files, columns, divisions into row groups, samples, settings, guesses and parsers", "why_tests_cant": "Row groups of test files are single ones and columns have one type; which divisions, nulls and lines change the outcome cannot be enumerated.", "anchors": ["dataprofiler/data_readers/data_utils.py:370-567", "dataprofiler/data_readers/csv_data.py:543-613", "dataprofiler/data_readers/parquet_data.py:97-115"]}
{"id": "C90", "title": "Plots show what the profile holds", "statement": "A plot of histograms shows, for the columns asked for (all of them by default, or those named up to case, or those at the indices given), exactly the ones holding numbers, one panel each titled with the name of the column, with a bar for each bin as high as its count; panels fill a nearly square grid in order and the other axes are off; unknown names and arguments of other kinds are refused. A plot of missing values marks exactly the rows holding each null value, column by column, with one colour per null value and a legend naming each once.", "quantifier": "For every profile, list of names or indices, histogram, palette and set of rows of each null value.", "why_tests_cant": "Tests look for one or two figures with neighbouring nulls; whether the right rows are marked depends on how rows of a null value are spaced, and the number of such patterns is unbounded.", "anchors": ["dataprofiler/reports/graphs.py:31-148", "dataprofiler/reports/graphs.py:152-190", "dataprofiler/reports/graphs.py:214-357"]}
{"id": "C91", "title": "Making a profiler or a labeler", "statement": "Profiler(data) makes the profiler that fits the data (graph, table or text), exactly as if that type had been named; data that fits none and unknown type names are refused with ValueError and leave everything as it was. A profiler made from data equals the profiler made without data and then updated with it. Options given are the options used: only their labeler is filled in, nothing else in them changes, and a second profiler from the same options changes them no more; a labeler that is refused with ValueError is not switched off, making the profiler raises the error and leaves the options given as they were; without options a profiler has options shared with no other. Over any history of making profilers and changing options, options that are neither given nor changed stay as they are. Options of the wrong kind, invalid options, a non-integer min_true_samples, text files for structured profilers and values of foreign types are refused. DataLabeler(type) reads the same files as load_from_library(type), is trainable exactly if asked for, and a labeler from components has exactly these components.", "quantifier": "for all data, options, states of all option objects, histories of any length, validity and loading functions", "why_tests_cant": "Tests make single profilers; that no history of making profilers disturbs unrelated options, and that data at construction equals a later update, are statements over all histories and all inputs.", "anchors": ["dataprofiler/profilers/profile_builder.py:3078-3144", "dataprofiler/profilers/profile_builder.py:686-758", "dataprofiler/profilers/profile_builder.py:939-997", "dataprofiler/profilers/profile_builder.py:1242-1281", "dataprofiler/profilers/profile_builder.py:1632-1687", "dataprofiler/profilers/graph_profiler.py:195-224", "dataprofiler/labelers/data_labelers.py:97-202"]}
{"id": "C92", "title": "Every prediction of a labeler belongs to the text or cell it stands for", "statement": "predict of a data labeler with a character model takes a table given as a frame, a reader or a list of equally long rows cell by cell, row by row, and refuses data that is neither list, series, frame nor array. With a model that judges each character by itself, every text is given exactly the labels of its own characters, or the entities that are the maximal runs of these, whatever the batch size and whatever other texts are given with it; every cell is given the most frequent label of its own characters and their shares as confidences. With any model every text gets one label per character and entities that lie inside it, from left to right.", "quantifier": "all data, labelers whose two separators have the same length below the maximal length, batch sizes, models, mappings of labels and choices among equal labels", "why_tests_cant": "Predictions pass through flattening, joining, cutting, batching, padding and matching before they come back; tests compare a few tables with recorded outputs of a trained model and never the place of every prediction in general.", "anchors": ["dataprofiler/labelers/base_data_labeler.py:155-190", "dataprofiler/labelers/base_data_labeler.py:276-330", "dataprofiler/labelers/data_processing.py:671-748", "dataprofiler/labelers/data_processing.py:1272-1309", "dataprofiler/labelers/data_processing.py:1405-1520", "dataprofiler/labelers/data_processing.py:1740-1850"]}
{"id": "C93", "title": "Options decide what is calculated, and valid options never leave a calculation without what it needs", "statement": "A column calculates exactly the statistics that its options switch on (all of them without options), and a table column gets exactly the profiles that its options enable. Setting `is_numeric_stats_enabled` switches all numeric statistics and nothing else. Options that validation accepts, and merges of columns with such options, contain whatever their statistics need, so that no update fails; without it the first update raises KeyError. Switching statistics off leaves the values of the others as they are and those switched off untouched. Presets calculate what their names say.", "quantifier": "for all options, kinds of columns, batches and for every arithmetic of floats without overflow (and for every arithmetic as long as a statistic does not become infinite or undefined before one that needs it)", "why_tests_cant": "the sets of statistics that can be switched are exponentially many and the claims compare executions with different options over unbounded batches; tests fix a few options and one batch", "anchors": ["dataprofiler/profilers/profiler_options.py:339", "dataprofiler/profilers/numerical_column_stats.py:117", "dataprofiler/profilers/numerical_column_stats.py:1734", "dataprofiler/profilers/column_profile_compilers.py:71", "dataprofiler/profilers/base_column_profilers.py:82"]}
{"id": "C94", "title": "Encoded characters are the codes of the texts", "statement": "The character preprocessor that encodes texts as numbers splits texts as the plain one does and turns every sample into a row of exactly the length asked for: at each position the code the map gives to the character there, zero for characters the map does not know and behind the end of the text. Labels given for training stay with the rows of their characters. If the map knows every character and no two share a code, texts can be told apart by their rows.", "quantifier": "all texts, encoding maps, separators, lengths, sizes of batches, labels", "why_tests_cant": "tests encode a few short texts without labels; rows of arbitrary texts over arbitrary maps, flattened or not, and what labels of any shape do, cannot be enumerated", "anchors": ["dataprofiler/labelers/data_processing.py:749-883", "dataprofiler/labelers/data_processing.py:671-747"]}
{"id": "C95", "title": "The AVRO schema derived from records fits them", "statement": "The schema the AVRO reader derives from a list of dictionaries has a field for every key path that some dictionary has, and for no other; no record type has two fields of one name; the top-level fields are in the order in which the dictionaries first have them; whether a field is a record or a text is decided by the first dictionary that has it. If the dictionaries agree on which paths hold objects (and have no lists), a schema is derived and every dictionary fits it; a schema can only be refused with a TypeError, and only if something that is not an object in one dictionary is an object in the same or a later one. A null before an object is refused although a schema for both exists; a scalar after an object and lists get a schema they do not fit; one key for objects at two places gives two record types of one name.", "quantifier": "for all lists of dictionaries of any depth and size, all names, and all types of scalars", "why_tests_cant": "The existing tests derive two fixed schemas; nesting, order of records and clashes of scalars with objects are unbounded.", "anchors": ["dataprofiler/data_readers/avro_data.py:105-204"]}
{"id": "C96", "title": "A seed makes sampling reproducible", "statement": "A seed set with set_seed, or else a non-negative integer in DATAPROFILER_SEED, is the one every new generator starts from; set_seed refuses negative integers and other values, and any other text in the variable is ignored with a warning. With the same seed in force any sequence of updates and merges of structured profiles gives the same counts, nulls and positions of nulls (or the same error) whatever the state of the system and of the process-wide generators, an update also the same displayed values, and a CSV sample the same lines; the sampled rows are different rows in order, as many as asked for, and a smaller sample is part of a larger one. Displayed values are values of the column, five or all. Not covered by the seed: displayed values after a merge, displayed lines of unstructured text, sampled Parquet rows. A seed makes every batch of the same size be sampled at the same positions.", "quantifier": "for all seeds, environments, generators, null patterns, tables, sample sizes and sequences of updates and merges", "why_tests_cant": "Tests fix one seed and one table; independence of the rest of the process and the uses that bypass the seed are about all histories.", "anchors": ["dataprofiler/__init__.py:26-30", "dataprofiler/rng_utils.py:10-20", "dataprofiler/profilers/profiler_utils.py:94-140", "dataprofiler/profilers/profile_builder.py:608-676", "dataprofiler/profilers/profile_builder.py:2842-2854", "dataprofiler/data_readers/data_utils.py:279-367"]}
{"id": "C97", "title": "All parts of a column profile describe the same cells", "statement": "Whatever sequence of updates and merges produced the profile of a column, its null statistics, its numeric statistics, its category counts and its data type are about one and the same list of cells: the null count plus the number of values behind any other statistic is the sample size, sum, mean, variance, minimum and maximum are those of the non-null cells that are numbers (of lengths, for texts), category counts are those of the non-null cells and add up with the nulls to the sample size, the vocabulary has exactly the characters of the non-null cells, the earliest and latest date are dates in the non-null cells, an order reported for numbers is that of the non-null cells, histograms count exactly the non-null cells that are numbers, the precision is that of decimals in the non-null cells, label shares and the label are those of non-null cells, and a column shown as whole numbers has only whole numbers in its non-null cells. If nothing was left out by sampling these are all the cells given, and two profiles of the same cells agree, whatever the order of the rows, the batches, the merges and the random draws.", "quantifier": "all columns of texts with distinct, non-negative index labels, all null patterns, all ways to read numbers, all option settings accepted by validation, all sequences of updates and merges, all sampled positions", "why_tests_cant": "It relates eight separately tested parts over all sequences of calls; a test looks at one of them on one column.", "anchors": ["dataprofiler/profilers/profile_builder.py:123-254", "dataprofiler/profilers/profile_builder.py:430-517", "dataprofiler/profilers/column_profile_compilers.py:74-145", "dataprofiler/profilers/column_profile_compilers.py:163-222", "dataprofiler/profilers/numerical_column_stats.py:237-343", "dataprofiler/profilers/float_column_profile.py:58-108", "dataprofiler/profilers/data_labeler_column_profile.py:130-194", "dataprofiler/profilers/data_labeler_column_profile.py:452-480"]}
{"id": "C98", "title": "A table profile reports the statistics of its columns", "statement": "Profiling a table in batches and merging profiles of tables succeeds exactly when the columns can be matched, are spelled alike, and merged profiles have data and the same row options (with labels also: no column has only nulls in one profile and other values in the other); in particular it succeeds when all batches have the same columns, in any order if no name is repeated. In the result every column carries its name and exactly the profiles asked for, and the sample size, null count, sums, means, variances, zeros, negatives, category counts, order, vocabulary, dates, precision, labels and data type reported for it are those of the cells of that column in the sampled rows. Without sampling these are all rows given, and neither the order of the rows or columns, nor the batches, the worker processes or the merges change any of the numbers.", "quantifier": "all tables of texts with distinct, non-negative row labels, all null patterns, all ways to read numbers, all accepted options, all sequences of updates and merges, all worker schedules and all random draws", "why_tests_cant": "It joins column matching, sampling, cleaning, pools, merging and statistics over all sequences of calls; tests look at each on one small table.", "anchors": ["dataprofiler/profilers/profile_builder.py:145-254", "dataprofiler/profilers/profile_builder.py:1689-1856", "dataprofiler/profilers/profile_builder.py:2789-3039", "dataprofiler/profilers/column_profile_compilers.py:74-222", "dataprofiler/profilers/column_profile_compilers.py:304-317"]}
{"id": "C99", "title": "Which cells are null", "statement": "A cell counts as null exactly if one of the null values matches it as a whole. By default these are the empty cell, nan, none and null in any case, and cells made of spaces, of dashes or of underscores only; None and nan of pandas are among them. A null value may be a regular expression and its flag says whether case matters. Null values given for a column add to the general ones, apply to that column and to no other, also if later data have the columns in another order. A null value that is not a regular expression makes profiling raise.", "quantifier": "all cells, all null values made of literal characters, points and the signs * + ?, all tables of null values, all positions of columns and all histories of the profile", "why_tests_cant": "Whether a text is null depends on how all null values are joined into one expression, and on where a column stands in each batch; tests try a few cells.", "anchors": ["dataprofiler/profilers/profile_builder.py:105-122", "dataprofiler/profilers/profile_builder.py:584-585", "dataprofiler/profilers/profile_builder.py:621-633", "dataprofiler/profilers/profile_builder.py:2915-2921", "dataprofiler/profilers/profiler_options.py:1433-1434", "dataprofiler/profilers/profiler_options.py:1553-1585"]}
{"id": "C100", "title": "Records of delimited data are its rows", "statement": "A dataset of delimited data that is asked for records returns texts that, split into lines, are the header and the rows of the table: read as delimited text with the delimiter and quote character of the dataset, each line has one field per column, and the field is the text of the cell, whatever delimiters and quote characters it holds. With one line per record, the default, each record is one row; with more, records are groups of that many lines in order. Two tables with the same records are the same table. Delimiters and quote characters are accepted if and only if they are at most one character.", "quantifier": "for all tables, texts of cells without line breaks, delimiters, quote characters and numbers of lines per record; and, for the text as a whole, cells with line feeds", "why_tests_cant": "Tests compare the number of records of a few files; that quoting and splitting into lines give back every cell is a statement about all texts.", "anchors": ["dataprofiler/data_readers/csv_data.py:615-621", "dataprofiler/data_readers/csv_data.py:174-179", "dataprofiler/data_readers/structured_mixins.py:72-83"]}
{"id": "C101", "title": "A dataset has the attributes of its data", "statement": "Asking a dataset for an attribute gives what Python finds in its class and instance, without reading the file; for any other name it gives the attribute of the data in the selected format, which are read if they have not been; if neither has it, an AttributeError names both classes. hasattr is true exactly for these attributes, and raises the error of reading if the file cannot be read. Whatever is asked for, a file that can be read is read at most once. An attribute that is set on the dataset is found again and leaves the data as they are.", "quantifier": "all readers and classes of data, all attributes, properties and instances, all sequences of accesses, all contents of the file over time and all formats", "why_tests_cant": "It quantifies over names, classes and histories of accesses, and the failing cases only show with files that cannot be opened; tests ask one list for one method.", "anchors": ["dataprofiler/data_readers/base_data.py:66-82", "dataprofiler/data_readers/base_data.py:212-245"]}
{"id": "C102", "title": "Every model has its own settings", "statement": "A model of a data labeler (regular expressions, column names, the two networks) has the settings it was made with, the defaults of its class for those not given, and only the padding label and the path of a network whatever was given. Setting accepted values changes exactly these settings, refused values change nothing. Nothing done to other models, and no model made or refused later, changes its settings or labels. Asking for settings gives those asked for, with the label mapping by name, or ValueError for a name that is neither. A network from a file that is saved and loaded has the same labels and settings, with the new directory as its path.", "quantifier": "all programs that make, refuse and change any number of models in any order, all dictionaries of settings, all labels, shared or not", "why_tests_cant": "The interference only shows with two models and a dictionary used twice, in some order of calls; the tests make one model at a time with a fresh dictionary.", "anchors": ["dataprofiler/labelers/base_model.py:41-60", "dataprofiler/labelers/base_model.py:161-252", "dataprofiler/labelers/regex_model.py:23-68", "dataprofiler/labelers/column_name_model.py:24-51", "dataprofiler/labelers/character_level_cnn_model.py:210-260", "dataprofiler/labelers/char_load_tf_model.py:31-225"]}
{"id": "C103", "title": "Processors keep legal settings", "statement": "A pre- or postprocessor of a labeler can be made exactly if every argument is a setting of its class with a value allowed: lengths at least 1, labels and separators texts, shares from 0 to 1, switches truth values, formats and aggregations among the named ones in any case, a generator, a seed or the state of a generator. An encoding map must be given where characters are encoded, and an order of labels for the aggregation by priority. The settings made are those given and the defaults for the rest. Changing settings succeeds exactly for such values, changes exactly those given, and otherwise raises ValueError and changes nothing, so that every setting is legal whatever was set. Reading gives exactly the settings named, or ValueError for an unknown name.", "quantifier": "all classes of processors, all dictionaries of arguments, all values, all sequences of changes", "why_tests_cant": "Which combinations of names, types and values are refused is a statement about all dictionaries; tests try a few wrong values per class.", "anchors": ["dataprofiler/labelers/data_processing.py:98-127", "dataprofiler/labelers/data_processing.py:258-345", "dataprofiler/labelers/data_processing.py:752-837", "dataprofiler/labelers/data_processing.py:887-994", "dataprofiler/labelers/data_processing.py:1315-1403", "dataprofiler/labelers/data_processing.py:1526-1637", "dataprofiler/labelers/data_processing.py:1871-1970", "dataprofiler/labelers/data_processing.py:2081-2164"]}
{"id": "C104", "title": "Sums, means and variances in floating point", "statement": "With every operation rounded to floating point, the sum, mean and variance of a numeric column are those of its numbers up to a bound on the relative error that depends only on the precision and on the numbers of values and of operations, whatever the batches, the merges and the order in which the numbers of a batch are added. So two profiles of the same numbers nearly agree. The variance is never negative, so that the standard deviation is a number. Sums of integers whose absolute values add up to less than 2^53 are exact.", "quantifier": "all roundings with a bound on the relative error, doubles in particular; all numbers, all batches, all orders and groupings of additions, all histories of updates and merges", "why_tests_cant": "Rounding errors add up over millions of values and hundreds of merges; tests compare a few small columns with a tolerance.", "anchors": ["dataprofiler/profilers/numerical_column_stats.py:290-315", "dataprofiler/profilers/numerical_column_stats.py:538-576", "dataprofiler/profilers/numerical_column_stats.py:842-897", "dataprofiler/profilers/numerical_column_stats.py:1788-1838"]}
{"id": "C105", "title": "A stream is opened and read like a file with the same content", "statement": "Data(stream) for an io.BytesIO or io.StringIO chooses the format a file with the same content would get, whatever the position of the stream (if the test for JSON says the same from there), leaves the content alone and the stream at its start; reading a stream that is at its start gives what is in a file with that content, and a dataset that was opened and read can be opened again. What depends on the position (a text whose rest decides whether it is JSON, data_type='avro', text, AVRO and graph readers of a stream that was moved) is stated exactly.", "quantifier": "all contents of bytes or characters, positions, options, types and parsers", "why_tests_cant": "Tests open streams at their start and read them once; a stream that was just written, was read before or has two readers is at another position, and each of six recognisers and readers treats the position in its own way.", "anchors": ["dataprofiler/data_readers/data.py:76-87", "dataprofiler/data_readers/filepath_or_buffer.py:61-104", "dataprofiler/data_readers/json_data.py:260-281", "dataprofiler/data_readers/json_data.py:368-422", "dataprofiler/data_readers/csv_data.py:567-654", "dataprofiler/data_readers/graph_data.py:144-290", "dataprofiler/data_readers/avro_data.py:63-106", "dataprofiler/data_readers/parquet_data.py:106-160", "dataprofiler/data_readers/text_data.py:75-125"]}
{"id": "C106", "title": "The binning method selected has the least loss", "statement": "Of the methods for binning a numeric column the one selected has the least total loss; ties go to the method with more bins, then to the first. Losses compare a method with the average of all (so without slow methods they sum to zero and the method selected is not worse than average), a method that is better in every respect has no larger loss, and totals are the sums over all batches. The variance estimated from a histogram has a root within half a bin of the standard deviation of the data, and the variance inside the bins is exactly that of the values of each bin, zero only if they are the same.", "quantifier": "all measures, methods, numbers of batches, data, bins and binnings", "why_tests_cant": "Tests try a few fixed losses; ties, sums over batches and the error of an estimate against the data are statements about all of them.", "anchors": ["dataprofiler/profilers/numerical_column_stats.py:1116-1143", "dataprofiler/profilers/numerical_column_stats.py:1175-1240"]}
{"id": "C107", "title": "Option objects are compared by class and value, and copies share only the data labeler", "statement": "Two option objects are equal exactly when they have the same class and the same attributes with equal values, in whichever order they are compared and whatever the order of the attributes; this is an equivalence whenever equality of plain values and of data labelers is. A deep copy of options equals the original, shares with it exactly the data labelers held by the options of data labelers, and otherwise changing any object of the one leaves the other as it is. The properties of an option object have every attribute with an equal value, plus is_numeric_stats_enabled for options of numbers and of text, which tells whether any of the statistics concerned is enabled; changing an object found in them leaves the options as they are.", "quantifier": "all option objects of all classes, at any nesting, all values and addresses, all choices of fresh addresses, all changes", "why_tests_cant": "Tests compare default options and a few changed ones; they do not cover all pairs of classes, nested options, or aliasing between a copy and its original.", "anchors": ["dataprofiler/profilers/profiler_options.py:25-33", "dataprofiler/profilers/profiler_options.py:172-181", "dataprofiler/profilers/profiler_options.py:473-482", "dataprofiler/profilers/profiler_options.py:1231-1264"]}
{"id": "C108", "title": "A report is a snapshot of the profile", "statement": "A report shares no dictionary, list, array or set with the profile: changing the report leaves the profile as it is, and what later updates do to the profile in place does not appear in a report made before. This holds for pretty and compact reports. In every format the dictionaries of the profile (such as its times) and its sets (such as the rows of each kind of null) are copied, so that updates in place do not reach earlier reports. Without a format exactly the lists and arrays, and with serializable exactly the lists that hold something else than dictionaries, are the objects of the profile.", "quantifier": "all reports at any nesting, all formats but flat, all addresses, all changes in place", "why_tests_cant": "Tests look at the values of a report once; whether an object is shared shows only when one side is changed later, at any of the entries and nestings.", "anchors": ["dataprofiler/profilers/helpers/report_helpers.py:67-86", "dataprofiler/profilers/helpers/report_helpers.py:89-279", "dataprofiler/profilers/profile_builder.py:339-375", "dataprofiler/profilers/profile_builder.py:476", "dataprofiler/profilers/profile_builder.py:2053-2112"]}
{"id": "C109", "title": "Profiles stay apart after they are merged", "statement": "After any history of making, updating and merging profiles, each profile reports on the rows it was given (directly or through the operands it was merged from) and on no others: the number of different rows, the number of rows and the collections filled by updates are functions of its own rows. Updating a sum does not change its operands, updating an operand does not change the sum, and the ratio of unique rows is at most one. Setting options of one profile does not change those of another.", "quantifier": "all histories of any length over any number of profiles, all rows, all hash functions, all sketches that obey the merge law", "why_tests_cant": "Tests merge two profiles once and look at the sum; whether operands and sum go on independently depends on every later operation on any of them.", "anchors": ["dataprofiler/profilers/profile_builder.py:1666-1686", "dataprofiler/profilers/profile_builder.py:1771-1857", "dataprofiler/profilers/profile_builder.py:2145-2160", "dataprofiler/profilers/profile_builder.py:2222-2250", "dataprofiler/profilers/profile_builder.py:768-807"]}
{"id": "C110", "title": "What is registered is what is found", "statement": "A saved labeler is loaded with the classes it was saved with, found by name: the models and processors of the package in every process, and those the user defined. A plugin registered for a type and a name is the one that is used for it, the last one registered if there are several; a type without plugins gives nothing, and looking changes nothing. A preset of the package means the same whatever plugins there are; another name means the plugin of that name, and without one a ValueError.", "quantifier": "all processes of any length that define classes, import modules, look up classes and register plugins in any order; all class names", "why_tests_cant": "Tests look up one class after one import in a process in which other tests have imported everything; what is found depends on all that was defined and imported before.", "anchors": ["dataprofiler/labelers/base_model.py:15-29", "dataprofiler/labelers/base_model.py:89-93", "dataprofiler/labelers/base_model.py:151-159", "dataprofiler/labelers/data_processing.py:25-59", "dataprofiler/labelers/base_data_labeler.py:515-600", "dataprofiler/plugins/decorators.py:8-27", "dataprofiler/plugins/__init__.py:7-38", "dataprofiler/profilers/profiler_options.py:1700-1716"]}
{"id": "C111", "title": "What an update that raises leaves behind", "statement": "An update that raises leaves the profile as it was, so that it can be corrected and tried again. This holds for updates that are refused (wrong type, wrong min_true_samples, other columns) or that only warn because there are no data. If a step in the middle of an update raises, each part of the profile holds the batch exactly if the work reached it: first the counts of all columns, then the profiles of each column, the correlation, the number of rows, the row statistics and the null replication; the file type is set only at the end. Later updates add the same to all parts, so what is missing stays missing. Without updates that raise in the middle, all parts of a profile describe the same accepted batches.", "quantifier": "all profiles, all batches with different column names, all sets of steps that raise, all histories of calls of any length", "why_tests_cant": "Tests update with data that work, or look only at the exception; what is left behind depends on which step raises, and it shows in reports after later updates.", "anchors": ["dataprofiler/profilers/profile_builder.py:939-997", "dataprofiler/profilers/profile_builder.py:1972-2043", "dataprofiler/profilers/profile_builder.py:2789-3039"]}
{"id": "C112", "title": "Messages are printed once and according to the level that was set", "statement": "The package prints a message of any of its modules exactly once if its level is at least the one set last with set_verbosity (INFO at first), and not at all otherwise. Any number of threads may ask for the logger and set its level at the same time: none of them waits forever, no two change the logger at the same time, and a level that was set stays until another one is set.", "quantifier": "all numbers of threads, all lists of calls per thread, all interleavings of their steps, all levels", "why_tests_cant": "Tests use one thread after the import of the package; the outcome depends on where one thread interrupts another.", "anchors": ["dataprofiler/dp_logging.py:11-38", "dataprofiler/dp_logging.py:41-52", "dataprofiler/dp_logging.py:55-63"]}
{"id": "C113", "title": "Files of embeddings give every word its own vector", "statement": "Reading a file of embeddings gives every word that begins a line the numbers of the last line that begins with it, and no other word; a line without words raises an IndexError, and the ends of lines of other systems make no difference. The file that is made from a source by reducing its vectors holds exactly the words of the source, each with the vector calculated for it, and is read back as such; if the source is empty or cannot be read, or if the reduction raises, no file is made.", "quantifier": "all texts of files, all words and numbers of any length, all reductions", "why_tests_cant": "Tests read one file; whether words and vectors stay together depends on the white space, repeated words and ends of lines of the file.", "anchors": ["dataprofiler/labelers/character_level_cnn_model.py:27-40", "dataprofiler/labelers/character_level_cnn_model.py:43-74"]}
{"id": "C114", "title": "Functions that need optional modules run or say what is missing", "statement": "A function that needs modules that are not installed with the package (matplotlib and seaborn for graphs, rapidfuzz for the labels of column names) runs exactly if all of them can be imported at the time of the call; otherwise it does not run, returns None and warns of the first that is missing. Modules that are installed after the package was imported are found without starting anew, and a function that has run once always runs.", "quantifier": "all lists of modules, all histories of installing modules, imports by others and calls", "why_tests_cant": "Tests hide a module once and call a function once; the outcome depends on the order of installations, imports by other code and calls.", "anchors": ["dataprofiler/reports/utils.py:28-55", "dataprofiler/labelers/utils.py:25-52", "dataprofiler/reports/graphs.py:14-22", "dataprofiler/labelers/column_name_model.py:12-18", "dataprofiler/labelers/column_name_model.py:150-168", "dataprofiler/labelers/column_name_model.py:184-248"]}
{"id": "C115", "title": "The printed table of scores shows every score of a report in its column", "statement": "The text made of a report of scores has a heading, an empty line, one line per class in the order of the report, an empty line, and one line per average in the order of the report. All lines that are not empty are equally long, names and the four scores end at the same columns in all of them, and the accuracy stands in the column of the f1-score. Every report of a labeler with labels can be printed.", "quantifier": "all reports, labels and formats of numbers", "why_tests_cant": "Tests compare the text of one report with one expected text; whether columns line up depends on the lengths of all names and numbers and on what classes are called.", "anchors": ["dataprofiler/labelers/labeler_utils.py:22-77"]}
{"id": "C116", "title": "The memory size of a profile of text is the number of bytes of all its lines", "statement": "The memory size reported for a profile of text is the number of bytes of all lines it was given, in UTF-8 and in units of 2^20 bytes, exactly and in floating point: it does not depend on the order of lines, on batches, merges, sampling or options, as long as there are less than 2^53 bytes. Sizes in other units are as exact; other units than B, K, M and G raise a ValueError. An update raises exactly if a line is not a sequence of characters (has a lone surrogate).", "quantifier": "all texts, units and histories of updates and merges", "why_tests_cant": "Tests measure a few short texts in one batch; that sums of rounded quotients never differ between batchings needs an argument about floats.", "anchors": ["dataprofiler/profilers/profiler_utils.py:668-688", "dataprofiler/profilers/profile_builder.py:1292-1316", "dataprofiler/profilers/profile_builder.py:1359-1372", "dataprofiler/profilers/profile_builder.py:1449-1487"]}
{"id": "C117", "title": "Metadata of a JSON document are what is outside its payload, and joined with the data nothing is lost", "statement": "For a JSON document with a payload, `metadata` of the reader is nothing, with a warning, until the data were read in the flattened format, and from then on the cells outside the payload, whatever is read or switched afterwards; there is a warning then exactly if no cell is outside. In the flattened format `data_and_metadata` has the metadata and the data side by side by row index, as many rows as the longer one, and if payloads are objects every leaf of the document is in it exactly once. For a document without a payload there are never metadata and `data_and_metadata` is `data`. Metadata asked for before the data are missing, and metadata of an earlier reading stay when the format is changed: `data_and_metadata` then raises a TypeError for records and JSON and joins them to the plain data frame.", "quantifier": "all documents, all orders of reading data, metadata, both and changing the format", "why_tests_cant": "The result depends on what was read before; tests read once, in one format.", "anchors": ["dataprofiler/data_readers/json_data.py:85", "dataprofiler/data_readers/json_data.py:94-108", "dataprofiler/data_readers/json_data.py:234-238", "dataprofiler/data_readers/base_data.py:66-98"]}
{"id": "C118", "title": "The file type and the encoding reported are those of the data", "statement": "After any history of updates and merges, the file type and the encoding of a report are those of data that were given, or the text 'multiple files'; there is no file type exactly if no data were given. If all data have one type (encoding) and only profilers with data are merged, it is reported. Of data that are put together by merging profilers of one batch each, in whatever order, 'multiple files' is reported exactly if they differ. Not so for updates: a profiler that is updated with files of different types reports the last one only, also after a merge of different files; its encoding and file type may be those of different data; and merging with a profiler without data reports multiple files where there is one.", "quantifier": "all histories of updates and merges of any length, all types, encodings and batches", "why_tests_cant": "The outcome depends on the order of all updates and merges; tests look at one merge of two profilers.", "anchors": ["dataprofiler/profilers/profile_builder.py:729-730", "dataprofiler/profilers/profile_builder.py:792-799", "dataprofiler/profilers/profile_builder.py:961-997", "dataprofiler/profilers/profile_builder.py:1418-1419", "dataprofiler/profilers/profile_builder.py:2080-2081"]}
{"id": "C119", "title": "Profiles are merged and compared exactly if they go together", "statement": "Two profiles of columns or texts can be merged exactly if they are of one kind, are of the same column (name and index), and, if they are of labels, have equal labelers, sample sizes and settings; otherwise merging raises TypeError for another kind, AttributeError for another labeler and ValueError for the rest. Which comes first makes no difference. Any number of profiles can be merged, in whatever order, exactly if any two of them go together. Two profiles of the package can be compared in both directions or in none. False at two points: profiles of a column whose name is NaN cannot be merged, not even with themselves, and the sum of profiles of a class derived by the user is not of that class, so that it cannot be compared with them in one direction.", "quantifier": "all profiles, names, indexes, labelers, derived classes, all numbers of profiles and orders of merging", "why_tests_cant": "Tests merge two profiles at a time; that acceptance does not depend on the order of merging any number of them is a statement over all trees of merges.", "anchors": ["dataprofiler/profilers/base_column_profilers.py:150-195", "dataprofiler/profilers/int_column_profile.py:41-63", "dataprofiler/profilers/data_labeler_column_profile.py:81-165", "dataprofiler/profilers/unstructured_labeler_profile.py:64-104", "dataprofiler/profilers/unstructured_text_profile.py:517-538"]}
{"id": "C120", "title": "Values written as whole numbers", "statement": "`convert_int_to_string` writes a whole number with its digits, of a float or a text that is a number the digits of the whole part, and everything else (missing values, infinities, other texts) as `str` does; so that different whole numbers are written differently.", "quantifier": "all integers, floats, texts and other values; every way of reading texts and writing floats", "why_tests_cant": "whole numbers from 2^53 on pass through a float, whose rounding the tests, which use small numbers, do not meet", "anchors": ["dataprofiler/data_readers/data_utils.py:74-92"]}
