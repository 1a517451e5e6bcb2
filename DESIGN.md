# Formal model of DataProfiler in Lean 4

## 1. Layout

* `lean/Verif/Model/*.lean` – the model: total functions mirroring the Python functions
  branch by branch. Each definition cites the file and lines of `/repo` it models and says what is simplified.
* `lean/Verif/Spec/*.lean` – small specifications written without the model's helpers
  (list counts, sums over lists, `List.Pairwise`, permutations, ...).
* `lean/Verif/Lemmas/*.lean` – helper lemmas.
* `lean/Verif/Props/*.lean` – the property theorems, each with an `example` meeting its hypotheses and,
  where the code violates the English property, a theorem whose name contains `_fails` giving a
  concrete counterexample, next to the `_partial` theorem.
* `properties.jsonl` – the properties; `MANIFEST.json` – which theorems prove which of them; `AXIOMS.md` – the axioms
  of every theorem named there; `seeded/LOG.jsonl` – wrong programs tried against the theorems.

## 2. Conventions

* Python exceptions are values (`Except Err α`, or a pair of the state left behind and the exception), not totalised away.
  Where an exception leaves a half-changed object, the model returns that object.
* Floats are exact rationals `ℚ` (or reals `ℝ` where square roots and logarithms occur). Rounding and overflow are
  outside the model, except in C31, where the doubles are modelled because the outcome depends on them, in
  C104, where every operation of sums, means and variances is rounded, and in C09, where the code itself rounds. NaN is modelled where a branch produces or tests it.
* A `dict` is an association list without duplicate keys, in insertion order. A `set` is a list whose order is an
  arbitrary function, so that nothing can depend on it.
* Randomness is an argument (draws, permutations, choices); theorems quantify over all of them. Probabilities are not
  modelled.
* Library functions (pandas, numpy, scipy, networkx, datasketches, rapidfuzz, `re`, TensorFlow, pickle, json) are either
  parameters, with the assumption used stated as a hypothesis, or modelled by their documented result on lists.
* Objects mutated by the code are values threaded through the model; aliasing is modelled only where a property is
  about it (C20: operands of a merge; C42: the labelers shared by a profiler and its pickle; C54: the caller's list).
* Concurrency appears where the code uses it: a process pool (C21, C27). Worker schedules are arbitrary.
* A history is a list (or tree) of constructor, update and merge calls; theorems about profiles quantify over all histories.

## 3. Properties

| id | property | model | what is modelled | how it is proved | status |
|----|----|----|----|----|----|
| C01 | Streaming sums, counts, zeros and negatives are batch independent | NumericStats | sums, zero and negative counts, match and sample counts over histories | induction over histories; spec sum / countP of all data | proved |
| C02 | Streaming and merged variance equals the variance of all the data | NumericStats | variance, its merge and bias correction | closed form with sums of squares, field identities | proved |
| C03 | Streaming and merged skewness equals the skewness of all the data | NumericStats | skewness and its merge | central moments over ℝ | proved |
| C04 | Streaming and merged kurtosis equals the kurtosis of all the data | NumericStats | kurtosis and its merge | as C03; negation for constant data | partial |
| C05 | Streaming minimum and maximum | NumericStats | running minimum and maximum with Python truthiness | invariant without zero; negation | partial |
| C06 | Merging two numeric profiles equals profiling the concatenated data | NumericStats | `_add_helper` | corollary of C01, C02, C05 | proved |
| C07 | Re-binning a histogram conserves its mass | Histogram | assimilation of a histogram into new bins | invariant of the loop; conservation of counts | proved |
| C08 | Merging histograms conserves the number of values | Histogram | merging of histograms | two applications of C07 | partial |
| C09 | Percentiles are monotone and inside the histogram range | Histogram | percentiles on cumulative counts | monotonicity of the interpolation | partial |
| C10 | Estimated mode is a list of at most top_k bin midpoints inside the range | Histogram | mode from a histogram | characterisation of maximal bins | proved |
| C11 | Median absolute deviation is well defined and non-negative | Histogram | folded histogram, median absolute deviation | bounds from folding | partial |
| C12 | Category counts are exact frequencies whatever the batching | Categorical | update of counts | refinement to `List.count` | proved |
| C13 | The categorical stop condition is permanent and never fires when unset | Categorical | stop conditions | invariant over histories | proved |
| C14 | Merging categorical profiles equals counting the concatenated data | Categorical | merge | refinement to sums of counts | partial |
| C15 | Uniqueness, gini impurity and unalikeability are in range | Categorical | gini, unalikeability, unique ratio | algebra over ℚ | proved |
| C16 | A reported order is the order of the data | Order | order state machine | exact on one batch; absorbing states; negations | partial |
| C17 | Null and non-null values partition the sample | Nulls | null cleaning and positions | filter and partition lemmas | partial |
| C18 | Row duplicate, unique and null statistics are exact | Table | row statistics with a hash | cardinalities; negations | partial |
| C19 | Schema matching is a name-preserving bijection | Schema | schema mapping | induction over columns | proved |
| C20 | Merging structured profiles pairs columns by name | Table | structured merge | pairing by C19 | partial |
| C21 | Multiprocess profiling gives the serial result under every schedule | Table, Pool | pool loop with any failing tasks | induction over tasks | proved |
| C22 | Correlation of merged or streamed data equals the correlation of all the data | Correlation | correlation of a batch and its merge | covariance identities over ℝ | partial |
| C23 | The chi-squared matrix is symmetric and its statistic non-negative | ChiSquared | the statistic | sums of squares | proved |
| C24 | Nested time/count dictionaries add pointwise | Nested | adding nested dictionaries | structural induction | proved |
| C25 | Chunking loses nothing | Chunks | partitions and chunks of readers | well-founded recursion | partial |
| C26 | Chunked shuffle visits every index exactly once | Shuffle | chunked shuffle | permutation invariant; bijection of draws | proved |
| C27 | Merging a list of profiles equals folding '+' | MergeList | pairwise merging in a pool | induction on rounds | proved |
| C28 | diff reports 'unchanged' exactly for equal values and is antisymmetric | Diff | diff functions | case analysis | partial |
| C29 | Sample size is bounded by the data | SampleSize | sample sizes | integer and rational arithmetic | proved |
| C30 | Column data type selection follows the fixed priority | ColumnTypes | data type selection | list search over histories | partial |
| C31 | Reported quantile groups are in range and ordered | Quantiles, Double | quantile indices under rounding | error bounds of doubles | partial |
| C32 | Flattening a report keeps every leaf | Flat | flattening of a report | mutual induction on trees | partial |
| C33 | Options validation enforces the statistic dependencies | Options | validation of options | decision logic per class | partial |
| C34 | Setting an option changes exactly the addressed option | Options | setting options by paths | induction on trees | partial |
| C35 | Vocabulary is the set of characters seen | Vocab | vocabulary | set refinement | proved |
| C36 | Float precision statistics are batch independent and bounded | Precision | significant figures and precision | exact for merges; negation for updates | partial |
| C37 | Date matching is batch independent, and min/max are sound | DateTime | date formats | loop invariant; negations | partial |
| C38 | Label votes are conserved | Labels | votes and averages of labels | conservation over histories | partial |
| C39 | Unstructured label character counts are conserved | Entities | entity counts | conservation; exact word counts | partial |
| C40 | Word counts exclude stop words and survive merging | Words | word counts, stop words | refinement to counts; negation | partial |
| C41 | Graph statistics match the graph | Graph | graph statistics and updates | handshake lemma; counterexamples | partial |
| C42 | Saving and loading preserves the profile; a crash while saving leaves the profiler usable | Persist | save, load, crash points | field-wise case analysis | partial |
| C43 | Reservoir sampling returns distinct input rows | Reservoir | reservoir sampling with any draws | injectivity of indices | proved |
| C44 | Sniffing reads a prefix of the file | Sniff | reading of a file's beginning | prefix invariant over chunks | partial |
| C45 | Flattening JSON keeps every value | Json | flattening of documents | mutual induction; coalescing invariant | partial |
| C46 | Validation reports exactly the rows satisfying the configured check | Validator | validator and its report | histories of calls | partial |
| C47 | Pool size suggestion is safe | Pool | pool size | integer arithmetic | partial |
| C48 | Null replication statistics are the class-conditional means and covariances | NullRep | null replication | induction over batches | partial |
| C49 | Merged option calculations are the intersection | Calculations | merged calculations | filter lemmas | proved |
| C50 | Recursive dictionary update overrides exactly the given leaves | Nested | recursive dictionary update | structural induction | proved |
| C51 | Heavy hitters are never missed or undercounted in sketch mode | Categorical | count-min sketch mode | one-sided error assumption | partial |
| C52 | The population stability index of a diff is a divergence | Psi | population stability index | sign of summands over ℝ | partial |
| C53 | The categorical report lists the most frequent categories | Categorical | categorical report | histories | partial |
| C54 | Omitting report keys removes exactly what the patterns name | Prepare | omitted keys | position semantics of patterns | partial |
| C55 | Predictions come back to the characters they were made for | CharProcess | splitting texts, predicting, matching | ghost positions over the loop | proved |
| C56 | Training labels stay with their characters | CharLabels, CharProcess | labels of training samples | labels carried along with characters | partial |
| C57 | Reported entities are exactly the labelled runs | Postprocess | entities from predictions | maximal runs | proved |
| C58 | Word-level labelling gives each word one label | Postprocess | word level labels | characterisation by words | partial |
| C59 | A cell gets the most frequent label of its characters | Postprocess | cell labels | modes of counts | partial |
| C60 | Regex labelling votes for exactly the labels whose patterns match | RegexLabel | regular expression labelling | votes per character | partial |
| C61 | Labels keep their numbers and names | LabelMap | label mappings and averages | sorted association lists | partial |
| C62 | Scores of predictions are what they say | ClassReport | evaluation | counts of pairs; rational identities | partial |
| C63 | Training uses every sample once | Training | training samples | permutations | partial |
| C64 | Column names get the label of the best match | ColumnName | column name labels | first maximum | partial |
| C65 | Parameters of a labeler are set as given and checked to agree | Pipeline | labeler parameters | state left behind by every outcome | proved |
| C66 | The delimiter found fits the lines and has the most columns | Csv | delimiter and quotes | regular expression as parity, loop over lines from the bottom, first maximum | partial |
| C67 | The header row found is the last row before the types change that looks like one | Csv | header row | invariants of the loop over rows, order of first words | partial |
| C68 | A file is recognised as delimited exactly if its lines are consistent | Csv | recognition | prefix of lines counted, first most common number | partial |
| C69 | A table of edges is read as its graph | GraphRead | reading of edge lists | invariant of the loop over rows: the graph so far is the graph of the rows so far | partial |
| C70 | A dataset is opened by the first reader that accepts it | Reader | factory and constructors of the readers; recognisers are parameters | induction over the list of classes; uniqueness of the first acceptance | partial |
| C71 | Reloading a reader is opening a new one | Reader | reload as base class reload followed by the constructor on the same object | the constructor overwrites every attribute | partial |
| C72 | Data are read once and come in the format selected | Reader | `data` property and setter of the format | case analysis | partial |
| C73 | Records of a JSON dataset are the documents that were read | JsonNest | conversion of flat rows to nested records, twice per row as in the code | a key is absorbed into the leaves so far; induction on dots and on the keys left | partial |
| C74 | JSON files are recognised by their lines and read completely | JsonRead | recognition and loading of JSON files and texts; json.loads is a parameter | induction over the lines with the counters generalised; arithmetic by omega | partial |
| C75 | The histogram of a numeric column describes its data through updates, reports and merges | HistColumn | creation, update, report and merge of histograms with their dictionaries on a heap; estimates of bins are parameters, filled in by BatchBins | invariant of a column that was only updated; specification of the loops over the methods; aliasing followed through the heap | partial |
| C76 | The numbers of bins suggested for a batch and after a merge | BinWidth, BatchBins | `_calculate_bins_from_profile` and the seven rules for widths, over reals with infinities and NaN; `_get_bin_edges` with numpy's selectors over reals | closed forms of the rules, monotonicity of the ceiling, scaling; Scott by bounds on pi | partial |
| C77 | The t-test of a difference is a t-test | NumDiff | `_perform_t_test`; the distribution function is a parameter | algebra over the reals (Cauchy-Schwarz for the degrees of freedom) | proved |
| C78 | The stability index of numeric columns compares the same bins | NumDiff | `_preprocess_for_calculate_psi`, `_calculate_psi` on top of the re-binning of C07 | C07 for the common bins; sum of non-negative terms; evaluation for the failing cases | partial |
| C79 | The difference of two structured profiles compares like with like | ProfileDiff | `StructuredProfiler.diff`, `StructuredColProfiler.diff` and the `diff` methods of compilers and column profiles; tests are parameters | specification of every entry from closed forms of the dictionaries and of `recursive_dict_update`; induction over the columns | partial |
| C80 | Counts of a profile of unstructured text describe its lines | Unstructured | `UnstructuredProfiler` with `update_profile`, `_clean_data_and_get_base_stats`, `_merge`, `report`; series with index labels; the text profile of C38 is used | fold of updates equals the one-pass description by induction over batches; counts of samples and empty lines by induction over the lines; evaluation for the failing cases | partial |
| C81 | The difference of two profiles of unstructured text compares like with like | UnstructuredDiff | `UnstructuredProfiler.diff`, the diffs of its compiler, of `TextProfiler` and of `UnstructuredLabelerProfile` | specification of set and count differences from the list functions; ordering facts about `most_common`; evaluation for the failing cases | partial |
| C82 | The report of a structured profile shows exactly what was calculated for each column | Report | `StructuredProfiler.report`, `StructuredColProfiler.report`, the reports of compilers and column profiles with `remove_disabled_flag`; values of statistics are parameters | closed forms of every dictionary (C54 formats the result); lookup of every key; evaluation for the failing cases | partial |
| C83 | A saved data labeler is loaded as the labeler that was saved | LabelerDisk | `save_to_disk` and `load_from_disk` of `BaseDataLabeler`, of nine processors and three models, with constructors, `set_params`, parameter checks, label changes and `__eq__`; JSON, generators and networks as values | invariant of everything that can be constructed and set; every check is preserved by JSON; the loaded components in closed form; evaluation for the failing cases | partial |
| C84 | Equal data labelers are interchangeable | LabelerEq | `__eq__` of labelers, models and processors (in `LabelerDisk`), `DataLabelerColumn.assert_equal_conditions` | the Boolean comparison of nested values is equivalent to an inductive relation; that relation is an equivalence; invariant of C83 for the keys; evaluation for the failing cases | partial |
| C85 | Column profiles survive being saved as JSON | ColumnJson, ColumnSteps | `ProfileEncoder`, the functions of `json_decoder.py`, `load_from_dict` of seven column profiles, three compilers, all options and `StructuredColProfiler`; the stores that updates, reports and options make to attributes; floats, dates, the library of labelers and the values stored are parameters | round trip of each kind of attribute, put together along the loops that set attributes; induction on the nesting of options; transitivity for any number of rounds; an invariant kept by every step and a relation between a saved and an unsaved profile, by induction on histories; evaluation for the failing cases | partial |
| C86 | The F-score shown during training is the F-score of the samples | FScore | `FBetaScore` and `F1Score` of `labeler_utils.py`: constructor, `update_state`, `result`, `get_config`; tensors as functions on `Fin n`, exact rationals | the counts of any list of batches in closed form; the score as a quotient of weights; sums exchanged for the accuracy; evaluation for the failing cases | partial |
| C87 | Networks of the character models follow their labels | Network | networks as lists of named layers, making them, making them anew for other labels, training, predicting, and all histories of calls | invariant of the layers by induction over histories; predictions reduced to one list of texts; training by induction over batches | partial |
| C88 | Files and buffers are left as they were, and their encoding is one that reads them | Source | a world of files, open handles and buffers; programs of reading; detection of encodings; lines; download and S3 addresses | induction over reading programs for handles; detection reduced to a function of the bytes; uniqueness of lines; induction over chunks | partial |
| C89 | A table is read with all its cells | TableRead | Parquet columns divided into row groups, their conversion by pandas, selection and samples; settings of the delimited reader, dropping of a delimiter at line ends; parser as a parameter; composed with null detection (C17) and sampling (C43) | conversion of concatenated pieces equals conversion of the whole; null detection with repeated labels by an invariant of its loop; counting of lines by induction | partial |
| C90 | Plots show what the profile holds | Plot | `plot_histograms`, `plot_col_histogram`, `plot_col_missing_values` down to the panels, bars, rectangles, ticks and legend they put on a figure | induction on the edges for the bars, on the sorted rows for the rectangles (an equivalence with the absence of lone rows), invariant of colours and legend over columns and null values; evaluation for the failing cases | partial |
| C91 | Making a profiler or a labeler | Model/Factory | making of profilers (type inference, options on a heap, labeler, first update) and of labelers | frame lemma for every step, induction over histories; case analysis on data, options and types | partial |
| C92 | Every prediction of a labeler belongs to the text or cell it stands for | Predict | formats of data given to a labeler, predict of unstructured and structured labelers from data to entities, words, cells, names and confidences | composition of C55, C57, C58 and C59; row-major places by induction on rows; one text alone by mapM | partial |
| C93 | Options decide what is calculated, and valid options never leave a calculation without what it needs | Enabled | which calculations and columns options leave, updates of a numeric column with these calculations for arbitrary floats | simulation of the run with all statistics by the run with fewer; chain of what each calculation reads; presets by evaluation | partial |
| C94 | Encoded characters are the codes of the texts | EncodedChars | CharEncodedPreprocessor: check of the map, rows of codes, labels as list or array | composition of C55 and C56; position-wise comparison of rows; induction on texts | partial |
| C95 | The AVRO schema derived from records fits them | Avro | merging the keys of records and the schema made of them; dictionaries changed in place are values; what the AVRO library does with a schema is not modelled | mutual induction over values and dictionaries on what is known of each path; distinct keys at every level as an invariant | partial |
| C96 | A seed makes sampling reproducible | Seed | set_seed, the choice of generators, the positions sampled, values kept for display, CSV, Parquet and text samples; generators are parameters; the cleaning of columns is that of C17; worker processes are left out | relational induction over programs of updates and merges; the permutation of C26 | partial |
| C97 | All parts of a column profile describe the same cells | Column, ColumnHist, ColumnLabel | cleaning, base statistics, numeric profiles, categories, dates, order, vocabulary and data type run together over updates and merges; the parts are the models of C01-C06, C12-C14, C16, C17, C30, C35, C37; histograms and precision (C08, C36, C75) inside a column are in ColumnHist, labels (C38) in ColumnLabel | a history of the column is split into histories of its parts; permutations of the values seen | partial |
| C98 | A table profile reports the statistics of its columns | TableStats, TableMore | the table model of C19-C21 filled with the numeric, text, category, order and date profiles of C97; matching of columns, sampling, pools, merging, the selected data type; with the precision of decimals and labels in TableMore; histograms are left out | a law that every column profile obeys, invariants of table histories, an exact condition for success by induction | partial |
| C99 | Which cells are null | NullMatch | the null values of options and columns, their joining into one expression, its matching, the default ones; expressions with other signs are a parameter; the cleaning is that of C17 | a relation between expressions and texts in the specification, the matcher proved equal to it by induction; column matching of C19 for the order | partial |
| C100 | Records of delimited data are its rows | CsvRecords | `_get_data_as_records` of `CSVData` and of the mixin, the writer of `csv`, `splitlines`; the grouping is that of C25 | a grammar of lines in the specification; the written row is in the grammar, and a reader shows that a line is read in one way only; splitting undoes joining by induction | partial |
| C101 | A dataset has the attributes of its data | Attribute | BaseData.__getattribute__ on top of object.__getattribute__, the property data with its loading and formats, hasattr, setting attributes | lookup rules stated over classes and instances, unfolding, induction over nested accesses and over sequences of accesses | partial |
| C102 | Every model has its own settings | ModelObjects | the constructors of the four classes of models with the dictionary kept as an object, set_params, get_parameters, set_label_mapping, add_label, __eq__, the two JSON files of CharLoadTFModel | dictionaries as a heap; invariants of all programs (references valid, distinct for programs that do not share; settings of a network accepted), by induction over the steps | partial |
| C103 | Processors keep legal settings | LabelerDisk, ProcParams | constructors, set_params and get_parameters of all processors | checks of values against an independent table of legal values; exact conditions by cases on the class | partial |
| C104 | Sums, means and variances in floating point | FloatStats | sum, mean, biased and corrected variance of updates and merges with every operation rounded | an algebra of relative errors (add, multiply, divide, round) applied along arbitrary trees of additions and histories; integers by exactness of doubles below 2^53 | proved |
| C105 | A stream is opened and read like a file with the same content | Streams, Reader | positions of streams in the recognisers, the factory loop and the readers of all six formats | case analysis on the recognisers; the loop by induction; what a file says is an independent specification that knows no positions | partial |
| C106 | The binning method selected has the least loss | MethodChoice | _histogram_loss, _select_method_for_histogram, _estimate_stats_from_histogram, _total_histogram_bin_variance | induction along the loop for the best method; sums over bins rewritten as sums over values; Cauchy-Schwarz for the standard deviation | partial |
| C107 | Option objects are compared by class and value, and copies share only the data labeler | OptionObjects | comparison, deep copies and `properties` of option objects with addresses | induction on option trees; class relation by cases | proved |
| C108 | A report is a snapshot of the profile | Snapshot | the objects `_prepare_report` makes and those it hands on | induction on trees of objects with addresses | partial |
| C109 | Profiles stay apart after they are merged | Apart | the objects that StructuredProfiler makes, changes in place and hands on when profiles are updated and merged | invariants over all histories of a heap of objects, compared with lists of rows per profile | partial |
| C110 | What is registered is what is found | Registry | registration and lookup of classes and plugins, choice of presets, load_plugins | invariant: each dictionary entry is the last of a log of what came into being; induction over processes | partial |
| C111 | What an update that raises leaves behind | Abort | the order in which an update of a StructuredProfiler checks its input and changes the parts of the profile, with any steps raising | closed form of the steps done before the first that raises; induction over histories | partial |
| C112 | Messages are printed once and according to the level that was set | Logging | get_logger and set_verbosity called by threads, step by step; effective levels and handlers | invariants over all interleavings; a measure for termination; a constructed interleaving for the failure | partial |
| C113 | Files of embeddings give every word its own vector | Embedding | build_embd_dictionary and create_glove_char on texts of files | lines and words specified by relations that hold of one result only; induction on texts and tables | proved |
| C114 | Functions that need optional modules run or say what is missing | Require | require_module, the guarded imports of graphs.py and column_name_model.py, histories of installing, importing and calling | exact conditions per call by induction on the loop; invariants over histories | partial |
| C115 | The printed table of scores shows every score of a report in its column | F1Text | f1_report_dict_to_str | lines specified by cells at fixed columns; induction on the report | partial |
| C116 | The memory size of a profile of text is the number of bytes of all its lines | Memory | get_memory_size, memory_size of UnstructuredProfiler, with roundings | induction on texts and histories; quotients of integers below 2^53 by powers of two are doubles | proved |
| C117 | Metadata of a JSON document are what is outside its payload, and joined with the data nothing is lost | Metadata | metadata, data_and_metadata, data and data_format of JSON readers, histories of them | frames side by side specified by rows; invariants over histories; cells from C45 | partial |
| C118 | The file type and the encoding reported are those of the data | Origin | encoding and file_type of profilers, histories of updates and merges | induction on histories; sums specified by the batches given | partial |
| C119 | Profiles are merged and compared exactly if they go together | Mergeable | checks of __add__, _add_helper and diff of all profiles | exact conditions; compatibility is an equivalence; induction on trees of merges | partial |
| C120 | Values written as whole numbers | WholeText | convert_int_to_string with the rounding of float(i) | rounding of doubles bounded; whole parts specified by absolute values | partial |

Statements with hypotheses that exclude some inputs are marked partial, even if the excluded inputs raise. What is missing is
said in the notes of `MANIFEST.json`. No property was found to be inexpressible.

## 4. Trusted base

* Lean 4.33.0's kernel and Mathlib's definitions used in the specifications (lists, permutations, rationals, reals,
  square root, logarithm).
* Axioms: at most `propext`, `Classical.choice` and `Quot.sound`; the list for every theorem is in `AXIOMS.md`. There are no
  axioms of our own, no `sorry`, no `native_decide` and no `bv_decide`.
* The reading of the Python source. Nothing was run; the correspondence between a model function and the cited lines is by
  inspection. The comments of the definitions name the simplifications.
* The documented behaviour of CPython (dictionaries, slices, integer arithmetic, exceptions) and of the libraries where they
  are modelled rather than parameters.

## 5. What is modelled and what is not

| source (below `dataprofiler/`) | modelled | not modelled |
|----|----|----|
| profilers/numerical_column_stats.py | statistics and their merges (C01-C06), in floating point for sum, mean and variance (C104), histograms (C07-C11, C75), bins of a batch (C76), choice of the method (C106), tests and stability index (C77, C78), switched off statistics (C93) | rounding in skewness, kurtosis, histograms and quantiles; timing; the wrapper `_update_variance` |
| profilers/int_, float_, text_column_profile.py | conversion, match counts, precision (C36), vocabulary (C35), `load_from_dict` (C85), merges inside columns and tables (C97, C98) | `IntColumn.__add__` as such (its parts are merged by C06), printing of numbers |
| profilers/base_column_profilers.py | calculations (C49), property calculations, primitive counts, JSON (C85), checks of merging and comparing (C119) | timing, metadata |
| profilers/categorical_column_profile.py | counts, stop conditions, merge, gini, unalikeability, sketch (C12-C15, C51), psi (C52), report (C53), JSON (C85) | hashing inside the sketch (parameter) |
| profilers/order_column_profile.py | the state machine (C16), report (C82), JSON (C85) | |
| profilers/datetime_column_profile.py | matching of formats, minimum, maximum, merge (C37), JSON (C85) | `strptime` and the regular expression for day suffixes (parameters) |
| profilers/data_labeler_column_profile.py | votes, averages, reported label, merge (C38), comparison (C84), JSON (C85) | the labeler inside a profile (parameter; see labelers) |
| profilers/unstructured_labeler_profile.py | counts and percentages (C39), differences (C81) | the labeler itself, `profile` |
| profilers/unstructured_text_profile.py | words, vocabulary, stop words, merge (C40), differences (C81) | the list of English stop words |
| profilers/column_profile_compilers.py | data type selection (C30), compilers of a column, differences (C79), the compiler of text (C80, C81), JSON (C85) | |
| profilers/profile_builder.py | null handling (C17, C99), sampling (C29, C96), updates serial and parallel, row statistics, merging, schema (C18-C21, C97, C98), correlation, chi-squared, null replication (C22, C23, C48), save and load (C42, C85), report (C54, C82, C108), objects shared after merges (C109), updates that raise (C111), differences (C79), unstructured text (C80, C81), making of profilers (C91), file types and encodings (C118) | logging, times |
| profilers/graph_profiler.py | all statistics, update, report (C41) | moments of fitted distributions, directed graphs and multigraphs |
| profilers/profiler_utils.py | chunking, shuffling, nested dictionaries, pool size, diff functions, chi-squared, `merge_profile_list`, generators, `warn_on_profile` (C93), `get_memory_size` (C116) | `biased_skew` and `biased_kurt` for non-finite data; timing |
| profilers/profiler_options.py | the options tree, `set`, validation, presets (C33, C34, C110), comparison, copies and properties (C107), JSON (C85) | messages beyond the option they name |
| profilers/json_encoder.py, json_decoder.py | encoding, dispatch on class names, decoding (C85) | the text format of JSON (writing and reading is one function) |
| profilers/helpers/report_helpers.py | quantiles (C31), flattening (C32), omitted keys and schemas (C54), shared objects (C108) | rounding and abbreviation of values (parameters) |
| profilers/histogram_utils.py | bins from a profile and from a batch (C76) | rounding; numpy's rule `stone` |
| data_readers/data_utils.py | reservoir sampling and samples of files (C43, C89, C96), beginning of a file (C44), encodings, downloads and S3 addresses as reading programs (C88), JSON frames (C45, C74), `convert_int_to_string` (C120) | `chardet`, codecs, the client of S3 and pandas (parameters), `generator_on_file` |
| data_readers/filepath_or_buffer.py | handles and positions of files and streams (C88, C105) | errors of the operating system in detail |
| data_readers/base_data.py, structured_mixins.py, text_data.py | formats, batches (C25), attributes (C101), records (C100) | pandas, `_get_data_as_df` |
| data_readers/json_data.py | flattening, records (C45), nesting (C73), recognition and loading (C74, C105), metadata (C117) | `json.loads` (parameter) |
| data_readers/csv_data.py | delimiter, quotes, header, recognition (C66-C68), option checks, constructor, `reload` (C70, C71), loading (C89), records (C100) | the parser of pandas, `csv.Sniffer` (parameters) |
| data_readers/graph_data.py | column search, recognition, building of the graph (C69) | pandas, `csv.reader`, attributes of the networkx class beyond nodes and edges |
| data_readers/data.py | the factory (C70, C105) | |
| data_readers/avro_data.py, parquet_data.py | constructors, `reload` (C70-C72), schema of AVRO (C95), Parquet columns and texts (C74, C89) | fastavro, pyarrow |
| validators/base_validators.py | all (C46) | dask's scheduling |
| labelers/data_processing.py | character pre- and postprocessing, entities, words, cells, regex postprocessing (C55-C60, C94), settings (C103), saving and loading (C83) | help texts, TensorFlow batching |
| labelers/base_model.py, regex_model.py, column_name_model.py | label mappings (C61), labelling (C60, C64), parameters as objects (C102), saving and loading (C83), registration of classes (C110) | help texts |
| labelers/character_level_cnn_model.py, char_load_tf_model.py | making, rebuilding, training and asking networks, the two layers of the project (C87), parameters (C102), saving and loading (C83; the two JSON files of the loaded model in C102), files of embeddings (C113) | what the layers of Keras calculate and how training changes weights (parameters), printing, `get_config` of the layers |
| labelers/base_data_labeler.py, data_labelers.py | prediction pipeline (C65, C92), training samples (C63), making of labelers (C91), saving and loading (C83), comparison (C84) | packaged resources, help texts |
| labelers/labeler_utils.py, classification_report_utils.py | confusion matrix, scores, report (C62), `FBetaScore` (C86), `f1_report_dict_to_str` (C115) | other printing, filters of the logger, registration with Keras |
| reports/graphs.py | down to panels, bars, rectangles, ticks and legends (C90) | fonts, layout, axes given by the caller |
| rng_utils.py, settings.py | seeds and choice of generators (C96) | the generators (parameters) |
| plugins | all (C110) | what plugins do |
| dp_logging.py | all (C112) | formats of messages |
| reports/utils.py, labelers/utils.py | checks of modules (C114) | texts of warnings |
| _version.py, _typing.py | nothing | all: version strings, types |

## 6. Departures of the code from the properties

Each is a theorem with `_fails` (or an equally explicit name) in its name.

* C04: kurtosis of constant data depends on batches. C05: a running minimum or maximum of exactly 0 is forgotten by the next
  update. C03: deviations below 1e-14 are treated as zero.
* C08: updates after a merge are ignored by the histogram. C09: requests just above 50 percent are not monotone. C11: the
  median absolute deviation is 0 when the median falls into the first bin.
* C14: merging stopped categorical profiles keeps the larger sample only. C51: merged sketches cannot be used, and sketches of different sizes cannot be merged (the intended message is lost: TypeError). C53: the limit
  of the report is lost by merging. C52: empty columns make `diff` raise.
* C16: directions reported for several batches hold only inside each. C36: precision of a profile updated twice.
  C37: date formats depend on batches.
* C17, C18, C48: duplicated, negative or stale row labels miscount. C20: failing merges change operands. C22: correlations
  are lost by constant batches, and by merges with columns that are not numeric. C30: string/text is not recomputed.
* C25: the JSON text view drops an incomplete last block. C28: lists differing in multiplicities are unchanged. C47: the pool
  size may be 0.
* C31: `num_quantiles` of 2 or 3 makes the default report raise. C32: flattened keys collide. C54: columns whose names have the same text are
  merged in the schema of a formatted report; the pattern `*.*` raises;
  the compact format changes the caller's list.
* C33: errors nested in row statistics are dropped, NaN ratios are accepted. C34: a star stops at the topmost match, unknown
  dotted names are ignored, setting is not atomic.
* C38: merging with a profile without data raises. C39: the last word of a text is not counted. C40: stop words survive
  a merge.
* C41: the component "size" counts edges of the component with most nodes; ragged attributes raise after counts were
  overwritten; likelihoods above 1000 raise.
* C42: a failed save leaves placeholder labelers; pickling loses correlation, sampling ratio, minimal sample size and null
  replication; failing to load a labeler disables labelling; JSON turns names that look like integers into integers.
* C43: rows are physical lines. C44: the last character may be lost, runs of line ends at chunk borders count twice. C45: keys
  may collide, rows are not records. C46: stale entries and partial reports.
* C55: separators of different lengths misalign. C56: an empty separator loses labels. C58: last words keep character
  predictions. C59: empty columns raise; missing labels are None or 'None'. C60: no texts give one empty prediction;
  compiled patterns raise; incomplete priority orders give unvoted labels. C61: averages shifted by one label for models without
  padding. C62: padding counts for label 0. C63: a split leaving one training sample loses the rest. C64: predictions are
  not aligned with names. C65: parameters are not set atomically.
* C66: an open quote moves the cuts; lines behind the 25th are never looked at and random repetitions of the first 25 may
  reject the delimiter. C67: column names over text are missed or data taken for them. C68: empty lines raise the tolerance;
  ten lines instead of a thousand are read; a given quote character is replaced.
* C69: names of nodes must be numbers and become attributes; without keywords the last column joins with itself; tables without
  a header raise; signed integers stay texts.
* C70: S3 credentials vanish from the caller's options. C71: a CSV reader keeps its old header, delimiter and quote character and
  overwrites the caller's options with them; a graph reader ignores new data and options; a refused reload clears the selected
  keys of a JSON reader. C72: formats in options are checked late and case-sensitively.
* C73: a JSON dataset with a null where other rows have fields cannot be given as records (type error); below the top level, a blank
  behind its fields replaces them, so data are lost.
* C74: a line that is a list with half of a surrogate pair in a text is dropped, while the same text in a dictionary is kept; a file
  of such lines is recognised and cannot be read. A list of documents given as the text of a Parquet file makes one row;
* C74: JSON text in memory is read only up to its first empty line, and documents with U+2028 and the like in a value are dropped;
  documents on lines become `OrderedDict`, for which `json_to_dataframe` does not normalise nested fields as it does for a list; a
  file with one number is taken for JSON and cannot be used.
* C75: a report between two updates makes the entry of a method the stored histogram itself, so later reports have 1000 bins or more
  whatever the method suggests; a merged column ignores every further update; merging two columns with `bin_count_or_method` a
  number makes every report raise `KeyError`; merging with a column without finite values loses histogram, median and mode, and
  the result shares `histogram_methods` with the operand, which an update of the result empties.
* C76: Scott's rule uses the sample deviation (fewer bins than numpy); an infinite maximum makes the merge raise; collapsed extremes give
  zero bins; no cap on suggested bins.
* C78: the stability index of numeric columns raises IndexError for equal edges and fewer than ten bins, is positive for a column compared
  with itself, ignores the common range for histograms with ten bins, and is zero for columns without common bins.
* C79: comparing a categorical column with a column of nulls raises `ZeroDivisionError`; comparing columns of different types with
  categorical profiles and labeler disabled raises `KeyError`; the `psi` of numbers is overwritten by the `psi` of categories; the
  `null_types_index` of a difference lacks rows that are null in the second profile only; `null_ratio` is that of the last batch
  (or right operand), and merging a column without data raises `ZeroDivisionError`.
- C80: a series of lines with repeated index labels (a concatenation of two series) is profiled wrongly: `_clean_data_and_get_base_stats` removes lines by label, so full lines count as empty and the text of blank lines is profiled (`C80_labels_fails`).
- C80: a profile of text that was never fed can be neither reported nor merged (`C80_unfed_fails`). Lines given as a list and the same lines given as a named column cannot be merged (`C80_names_fails`).
- C81: one text profiled with and without regard to case is reported as different from itself: the second spelling of a word is surplus in the list of words, and only the count of the rarest spelling is compared (`C81_case_fails`).
- C81: the limits on the number of words come from the first profile, so swapping the profiles changes which words are compared (`C81_limits_fails`).
- C82: with `remove_disabled_flag` columns of decimals lose every statistic but the precision and columns of text every one but the vocabulary, although all are enabled (`C82_removed_fails`); columns of integers keep disabled ones (`C82_kept_fails`); the numeric report itself never keeps mean, median and median deviation (`C82_mixin_fails`). The times of order and categories are in no report (`C82_lost_times_fails`). A column that was never fed raises `KeyError` (`C82_reported`).
- C83: a `RegexPostProcessor` set to priorities without an order, and a `RegexModel` whose labels were replaced, are saved but cannot be loaded (`C83_order_fails`, `C83_relabel_fails`); `flatten_split` of `StructCharPreprocessor` is taken unchecked and lost, and so is a changed `pad_label` of the network (`C83_split_fails`, `C83_pad_fails`).
- C83: a loaded labeler does not equal the saved one if it has the default separators (tuple and list) or a regex postprocessor (generators are compared as objects) (`C83_tuple_fails`, `C83_generator_fails`).
- C83: a save that fails destroys the labeler that was in the directory, or leaves a directory from which a mixture of both is loaded (`C83_failed`, `C83_mixed_fails`). `CharEncodedPreprocessor` cannot be made with its defaults, and the parameters of a `ColumnNameModel` cannot be set without the true positives (`C83_encoded_fails`, `C83_column_fails`).
- C84: the weights of a network are not compared, so differently trained labelers are equal and profiles made with them merge (`C84_weights_fails`, `C84_merge_fails`); regex postprocessors made from one seed are unequal (`C84_generator_fails`).
- C85: categories with a count-min sketch and labelers of the user make saving as JSON raise (`C85_sketch_fails`, `C85_labeler_fails`); a date outside the range of pandas timestamps is saved but makes loading raise (`C85_date_fails`); the losses in the histogram of merged columns become arrays of no dimension, on which the formats of reports raise (`C85_merged_fails`); the missing value `class` makes saved options unloadable (`C85_class_fails`); `column_null_values` is loaded with strings as keys and has no effect any more (`C85_keys_fails`).
- C86: without a threshold the F-score metric counts every class with the largest value as predicted, although its documentation speaks of the argmax; its documented formula squares the precision instead of multiplying by the recall (the code does not).
- C87: a character model with three or more dense layers cannot be adapted to other labels: the new layer is named `dense_2`, which there
  is already, and `fit` raises ValueError; changing `max_length` after the network exists makes `predict` raise ValueError about shapes;
  exchanging the numbers of two labels goes unnoticed; labels given as a dictionary with gaps can be predicted as numbers without a label;
  `fit` with no batches raises after having changed the network.
- C88: a buffer is set to position 0 after every use, not to where it was, so the first reader starts at the position and later ones at the
  start; a `StringIO` keeps `\r\n` while files and `BytesIO` translate it; the encoding is checked on the first 1024*1024 characters only;
  the download counts 8192 bytes for every chunk however small, so files in small chunks are refused below the limit; keys of S3 objects
  lose what follows `?` or `#`; a negative offset leaves the file open.
- C89: row groups of a Parquet file are concatenated without renumbering the rows. Labels repeat, and null detection works with sets of
  labels: a column without any null in a file of two equal row groups is reported to be half null. A null in a column of integers turns
  all its integers to doubles (`9007199254740993` is read as `9007199254740992.0`), but not in a sample that misses the null. A file
  without row groups loses its columns.
- C89: a delimited file with a line that has one delimiter and otherwise blanks, for instance a row of two empty cells in a tab-separated
  file, raises `IndexError`. The quote character is used to recognise the file but not to read it. A delimiter that ends every line is
  dropped and becomes part of the cells; the same text passed as data is read otherwise.
- C90: in the plot of missing values, a missing row which stands alone between other missing rows of the same null value is drawn with
  the end of an earlier stretch (`y_end` is not renewed with `y_start`). With rows 0, 5 and 10 missing, the rectangle of row 5 goes down
  over rows 1 to 4, and row 5 is not marked (`C90_missing_fails`). `C90_missing_partial` is an equivalence: such a row always spoils
  the plot, and without one the plot is right.
- C90: `plot_histograms` calls `sorted` and drops the result, refuses columns named by integers although the documentation allows them, and
  a style of a single colour makes the plot of missing values fail with an index error.
- C91: `GraphProfiler` ignores `options`, `samples_per_update` and `min_true_samples` altogether, so anything is accepted there
  (`C91_graph_fails`). Making a profiler stores the loaded labeler in the caller's options: a later change of
  `data_labeler_dirpath` has no effect (`C91_directory_fails`), a failed load sets `is_enabled = False` for every later profiler
  (`C91_lost_fails`), and the change stays if the data is then refused (`C91_trace_fails`).
- C92: a structured labeler drops zero characters at the end of a cell (`data.astype(str)`, data_processing.py:1427) before it predicts,
  but counts them when predictions are matched (data_processing.py:1697): later cells get the labels of other characters or none.
- C92: `_word_level_argmax` takes `len` of the values as given (data_processing.py:1070), so that numbers, which are labelled otherwise,
  raise a TypeError.
- C92: a list of rows of different lengths is labelled row by row as printed lists, without a warning.
- C92: a structured labeler raises a ValueError on data without cells (`np.vectorize`, data_processing.py:1845).
- C93: a running sum that overflows (three batches with the value 2^1023 each) makes the third update raise KeyError: the sum is
  no longer calculated, but the variance, still 0, is. `num_quantiles=None` and `top_k_modes=None` pass validation; the first
  silently gives no quantiles, the second raises TypeError for bins of equal counts. A column of text is of type "string" only
  if its maximum is calculated.
- C94: training data for the encoding preprocessor cannot be given as an array: `if labels:` raises ValueError for two texts or more, and
  takes samples and labels for two texts if the only text has no entities. Its encoding map is accepted if keys are texts *or* values
  are integers, and its default, no map, is refused.
- C95: a null in an early record where a later one has an object makes the derivation of an AVRO schema fail with a TypeError; one key for objects at two places gives two record types of one name (C95_null_first_fails, C95_names_fails).
- C96: with a seed set, displayed values after a merge, displayed lines of unstructured text and sampled Parquet rows still differ between runs, because they come from the module `random`; every batch of the same size is sampled at the same positions, so that the same part of each batch is never seen (C96_merge_fails, C96_shared_fails, C96_repeats_fails).
- C97: rows that share an index label make the counts of a column disagree: two values, none of them null, give a null count of 1.
- C97: a column profile that is updated after a merge counts the new numbers everywhere but in its histogram.
- C98: with labels, tables cannot be merged when a column has only nulls in one of them and values in the other.
- C97: with labels, a column that had only nulls so far cannot be merged with the same column with values: TypeError.
- C99: flags of null values have no effect, a line end after a null value is overlooked, NaT and <NA> are not null, and null values given for column 0 are applied to whichever column comes first in later data (C99_flags_fails, C99_line_end_fails, C99_missing_fails, C99_order_fails).
- C22: after a merge, updating with a batch in which a numeric column has only nulls raises IndexError (merged columns have no batch history).
- C48: with null replication enabled, a batch of integers without nulls raises once the sums are floats; merging tables with a
  column of dates raises; with correlations enabled as well, a column that is not a number makes the update raise.
- C100: a line break in a cell makes two records of a row, other separators cannot be told from the ends of rows, and `record_samples_per_line` 0 is accepted but raises ZeroDivisionError when data are asked for (C100_break_fails, C100_separator_fails, C100_zero_fails).
- C101: `data` of a text or graph reader without a file, or with a path object, is a RecursionError after as many attempts to read it.
- C101: the columns of a data frame are attributes of `data` but not of the dataset.
- C102: the constructors of models keep the dictionary `parameters` they are given. A second `CharLoadTFModel` made with the same dictionary
  changes `model_path` of the first; `set_params` of either changes both; the defaults appear in the caller's dictionary, even if the
  constructor raises. `set_params(default_label=…)` accepts a label that does not exist, and the model saved then cannot be loaded.
- C103: `RegexPostProcessor(aggregation_func="Priority")` is accepted without an order of labels, although `process` lowers the name and then needs
  the order; `StructCharPreprocessor.set_params(flatten_split=...)` takes any value; seeds are refused by `set_params`; `get_parameters(["random_state"])`
  of a `StructRegexPostProcessor` raises.
- C104: in doubles a column that holds 0.1 three times has a variance above zero and a mean above its maximum.
- C105: an indented JSON document in an `io.StringIO` that was just written (and is at its end) is opened as text; a stream that is at a
  position from which the rest is JSON is opened as JSON; `Data(stream, data_type="avro")` refuses an AVRO stream that is at its end
  although `Data(stream)` opens it; two graph readers of one stream: the second one reads nothing.
- C106: `_total_histogram_bin_variance` of a series is not a number if a bin holds a single value.
- C108: the lists and arrays of a report without a format (and the lists of a serializable one) are those of the profile; changing
  them changes the profile.
- C109: with HyperLogLog hashing of rows the left operand of a merge and the sum keep one sketch: the operand reports different rows it was
  never given, its ratio of unique rows can exceed one, and it changes with every update of the sum. The sum also keeps the option
  object of the left operand, so setting options of one sets those of the other.
- C110: nothing in the package imports the module of `CharLoadTFModel`, so a labeler saved with it raises a ValueError when it is loaded in
  a fresh process; looking up a model imports the modules of the package and so replaces a class of the user with the same name;
  without tensorflow every lookup of a model raises, also of the regex model that does not need it.
- C111: an update that raises in the middle (a data labeler, an interrupt) leaves the columns counted and the rows of the table not; tried
  again, every column counts the batch twice. A first update that raises fixes the columns, so that data with other columns are refused.
- C112: `get_logger` does not look again at `_dp_logger` inside the lock: threads that ask for the logger at the same time for the first time
  each add a handler, and messages are printed several times; a level set in between is lost. Importing the package makes the first call,
  so this needs a reload of the module. `set_verbosity(NOTSET)` hides INFO messages instead of showing all.
- C114: `ColumnNameModel.predict` without rapidfuzz raises a NameError instead of the intended warning, because the guarded function is called
  with `rapidfuzz.fuzz.token_sort_ratio` as an argument; installing rapidfuzz later does not help. The functions for graphs raise a
  NameError for good if seaborn is installed after the package was imported and imported by other code before the first call.
- C115: `f1_report_dict_to_str` raises a TypeError for a class called `accuracy`, and prints a class called `macro avg`, `weighted avg` or
  `micro avg` among the averages.
- C117: `JSONData.metadata` is `None` with the warning "No metadata was detected" until `data` was read in the flattened format, although the document has metadata (`C117_early_fails`). After a change of the format they stay: `data_and_metadata` raises a TypeError in the formats records and json and joins them to the plain data frame, which has those values already (`C117_format_fails`).
- C118: a profiler that is updated with files of different types or encodings reports the last ones only, although merging the same data reports "multiple files"; the encoding and the file type of a report can be those of different data (`C118_last_fails`, `C118_apart_fails`). Merging with a profiler without data reports "multiple files" where there is one (`C118_empty_fails`).
- C119: profiles of a column that is named NaN cannot be merged, not even with themselves (`C119_nan_fails`). The sum of profiles of a derived class is of the class of the package and cannot be compared with the operands in one direction (`C119_class_fails`).
- C120: `convert_int_to_string` changes whole numbers from 2^53 + 1 on (`C120_digits_fails`) and drops leading zeros of texts (`C120_zeros_fails`).

## 7. Testing the theorems

Wrong versions of the model definitions were built in a scratch copy; `seeded/LOG.jsonl` lists each with the theorems that
failed. Where all theorems survived although the claim was broken, theorems were added and the line says which. Edits that do
not change the behaviour described by the claim (equivalent programs) are marked so in the line.
