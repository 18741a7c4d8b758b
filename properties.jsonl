{"id": "C01", "title": "pandas round trip", "statement": "Converting a pandas DataFrame to Modin and back (`modin.pandas.DataFrame(pdf)._to_pandas()`) returns a frame with exactly the same rows, columns, row labels and column labels, in the same order, whatever the partitioning configuration is.", "quantifier": "every pandas frame (any number of rows and columns, including zero of either), every NPartitions >= 1 and every MinRowPartitionSize/MinColumnPartitionSize >= 1", "why_tests_cant": "The number of shapes and configurations is unbounded and the interesting ones are the boundaries of integer division; tests only ever run a few sizes under the default configuration.", "anchors": ["modin/core/dataframe/pandas/partitioning/partition_manager.py:from_pandas", "modin/core/dataframe/pandas/partitioning/partition_manager.py:split_pandas_df_into_partitions", "modin/core/dataframe/pandas/partitioning/partition_manager.py:to_pandas", "modin/core/dataframe/pandas/utils.py:create_pandas_df_from_partitions", "modin/core/storage_formats/pandas/utils.py:compute_chunksize"]}
{"id": "C02", "title": "block sizes recorded for a new frame are true", "statement": "After building a Modin frame from a pandas frame, the recorded row lengths and column widths (what `len(df)`, `df.shape` and every positional operation trust) are the real sizes of the blocks, add up to the frame's shape, no block is larger than the chunk size, only the last may be smaller, and there are never more than NPartitions blocks along an axis.", "quantifier": "every shape, every NPartitions >= 1, every minimum block size >= 1", "why_tests_cant": "Arithmetic over all natural numbers; an off-by-one shows only at particular remainders.", "anchors": ["modin/core/dataframe/pandas/partitioning/partition_manager.py:from_pandas", "modin/core/storage_formats/pandas/utils.py:compute_chunksize", "modin/core/storage_formats/pandas/utils.py:get_length_list"]}
{"id": "C03", "title": "splitting a full-axis result keeps every row and column", "statement": "When the result of a whole-axis function is cut back into partitions, gluing the pieces together gives exactly that result: no row or column is lost, repeated or reordered, for every requested number of pieces and every minimum block size, and also when explicit piece lengths are given that add up to the result's size.", "quantifier": "every result size, number of splits >= 1, minimum block size >= 1, and every explicit list of lengths", "why_tests_cant": "The relation between result size, chunk size and split count is unbounded integer arithmetic.", "anchors": ["modin/core/storage_formats/pandas/utils.py:split_result_of_axis_func_pandas", "modin/core/storage_formats/pandas/utils.py:generate_result_of_axis_func_pandas", "modin/core/storage_formats/pandas/utils.py:get_length_list", "modin/core/storage_formats/pandas/utils.py:compute_chunksize"]}
{"id": "C04", "title": "elementwise operations do not see partition boundaries", "statement": "An elementwise operation (`abs`, `isna`, `df.map(f)`, `astype`, arithmetic with a scalar, ...) on a Modin frame gives the pandas result, whichever of the block-wise, row/column-axis-wise or joined-column execution plans the engine chooses.", "quantifier": "every frame, every partition grid, every cell function, every value of CpuCount/NPartitions that drives the choice of plan", "why_tests_cant": "The plan is chosen at run time from the grid shape and CPU count; tests run on one machine and one grid.", "anchors": ["modin/core/dataframe/pandas/partitioning/partition_manager.py:map_partitions", "modin/core/dataframe/pandas/partitioning/partition_manager.py:base_map_partitions", "modin/core/dataframe/pandas/partitioning/partition_manager.py:lazy_map_partitions", "modin/core/dataframe/pandas/partitioning/partition_manager.py:map_axis_partitions", "modin/core/dataframe/pandas/partitioning/partition_manager.py:map_partitions_joined_by_column"]}
{"id": "C05", "title": "axis-wise functions are applied to whole rows/columns", "statement": "A function applied along an axis (`apply`, `cumsum`, `rank`, `fillna(method=...)`, `diff`, ...) sees whole columns (axis=0) or whole rows (axis=1): the result equals applying it to the undivided frame whenever the function treats columns (rows) independently.", "quantifier": "every frame, every partition grid, every column-local (row-local) function, including functions that change the axis length, and every partitioning of the result", "why_tests_cant": "Quantifies over all functions and all grids.", "anchors": ["modin/core/dataframe/pandas/partitioning/partition_manager.py:map_axis_partitions", "modin/core/dataframe/pandas/partitioning/partition_manager.py:broadcast_axis_partitions", "modin/core/dataframe/pandas/partitioning/axis_partition.py:deploy_axis_func", "modin/core/dataframe/pandas/dataframe/dataframe.py:apply_full_axis", "modin/core/dataframe/pandas/dataframe/dataframe.py:fold"]}
{"id": "C06", "title": "deferred execution is transparent", "statement": "Queued operations on a partition are executed in the order they were requested and each exactly once, so reading the data at any moment (after any interleaving of adding operations, draining, reading and copying) gives the same value as executing every operation eagerly.", "quantifier": "every sequence of queue/drain/read events, every list of functions", "why_tests_cant": "The property is over all histories of calls; a dropped, doubled or reordered call shows only in particular histories.", "anchors": ["modin/core/dataframe/pandas/partitioning/partition.py:add_to_apply_calls", "modin/core/dataframe/pandas/partitioning/partition.py:drain_call_queue", "modin/core/execution/python/implementations/pandas_on_python/partitioning/partition.py:apply", "modin/core/execution/python/implementations/pandas_on_python/partitioning/partition.py:drain_call_queue", "modin/core/dataframe/pandas/partitioning/axis_partition.py:drain_call_queue"]}
{"id": "C07", "title": "a failing deferred operation stays failing", "statement": "If an operation queued on a frame raises, every later attempt to read that frame raises too; the frame never silently shows the data as it was before the failing operation.", "quantifier": "every queue of operations and every position of the failing one, every number of later reads", "why_tests_cant": "Needs all crash points of all call sequences.", "anchors": ["modin/core/execution/python/implementations/pandas_on_python/partitioning/partition.py:apply", "modin/core/execution/python/implementations/pandas_on_python/partitioning/partition.py:drain_call_queue", "modin/core/dataframe/pandas/partitioning/axis_partition.py:drain_call_queue"]}
{"id": "C08", "title": "positional selection equals pandas take", "statement": "`df.iloc[rows, cols]` returns exactly the rows and columns asked for, in the order asked for (repeats included), with their labels.", "quantifier": "every frame, every partition grid, every list of in-range row and column positions (sorted or not, with or without repeats)", "why_tests_cant": "The route through the partitions depends on how positions fall into blocks, on sortedness and on counts relative to block sizes; no finite set of cases covers it.", "anchors": ["modin/core/dataframe/pandas/dataframe/dataframe.py:_take_2d_positional", "modin/core/dataframe/pandas/dataframe/dataframe.py:_get_dict_of_block_index", "modin/core/dataframe/pandas/dataframe/dataframe.py:_maybe_reorder_labels", "modin/core/dataframe/pandas/dataframe/dataframe.py:_reorder_labels", "modin/core/dataframe/pandas/partitioning/partition.py:mask"]}
{"id": "C09", "title": "every position is found in the right block", "statement": "Locating global positions in the partition grid sends each position to the block that holds that row (column) at the right offset inside it, covers each requested position exactly once, and keeps the requested order inside each block.", "quantifier": "every list of block lengths (zeros included), every list of in-range positions, contiguous ranges and full-axis slices included", "why_tests_cant": "All block layouts times all position lists.", "anchors": ["modin/core/dataframe/pandas/dataframe/dataframe.py:_get_dict_of_block_index"]}
{"id": "C10", "title": "positional assignment writes exactly the addressed cells", "statement": "`df.iloc[rows, cols] = item` changes exactly the addressed cells, gives each the value from the corresponding place of the item, and leaves all other cells and all labels untouched.", "quantifier": "every frame, grid, list of positions and item of matching shape", "why_tests_cant": "The item is cut up and distributed over blocks by running counters; errors depend on how positions fall into blocks.", "anchors": ["modin/core/dataframe/pandas/partitioning/partition_manager.py:apply_func_to_indices_both_axis", "modin/core/dataframe/pandas/dataframe/dataframe.py:apply_select_indices", "modin/core/storage_formats/pandas/query_compiler.py:write_items"]}
{"id": "C11", "title": "row concatenation keeps all rows in order", "statement": "`pd.concat([a, b, ...])` over frames with the same columns contains all rows of `a`, then of `b`, and so on, with their labels.", "quantifier": "every number of frames with every row partitioning, empty frames included", "why_tests_cant": "Depends on every combination of row partitionings and on the rebalancing threshold.", "anchors": ["modin/core/dataframe/pandas/dataframe/dataframe.py:concat", "modin/core/dataframe/pandas/partitioning/partition_manager.py:concat"]}
{"id": "C12", "title": "rebalancing row partitions preserves content", "statement": "Merging many small row partitions into fewer larger ones (done after concatenation) never loses, repeats or reorders rows, and the row lengths it reports are the true ones, also for splits taken from the middle of a partition.", "quantifier": "every list of row-partition lengths, every NPartitions >= 1, known or unknown lengths", "why_tests_cant": "A greedy loop with a data-dependent split; correctness is over all length lists.", "anchors": ["modin/core/dataframe/pandas/partitioning/partition_manager.py:rebalance_partitions"]}
{"id": "C13", "title": "binary operations do not depend on the operands' partitioning", "statement": "An elementwise operation between two frames (`a + b`, `a.where(c, b)`, comparisons) equals the pandas result on aligned rows and columns, however differently the two operands are partitioned.", "quantifier": "every pair of frames with arbitrary partition grids and labels", "why_tests_cant": "All pairs of grids.", "anchors": ["modin/core/dataframe/pandas/dataframe/dataframe.py:_copartition", "modin/core/dataframe/pandas/dataframe/dataframe.py:n_ary_op", "modin/core/dataframe/pandas/partitioning/partition_manager.py:n_ary_operation", "modin/core/dataframe/pandas/dataframe/dataframe.py:_join_index_objects"]}
{"id": "C14", "title": "tree reductions equal the whole-frame reduction", "statement": "`sum`, `prod`, `count`, `min`, `max`, `any`, `all` with and without `skipna` (and `min_count` 0 or 1 for sum/prod) give the pandas value although computed per block and combined.", "quantifier": "every column of values with any pattern of missing values, every division into blocks (empty blocks included)", "why_tests_cant": "The combining step must be right for every split of every column, including all-missing and empty blocks.", "anchors": ["modin/core/dataframe/pandas/dataframe/dataframe.py:tree_reduce", "modin/core/storage_formats/pandas/query_compiler.py:sum", "modin/core/storage_formats/pandas/query_compiler.py:count", "modin/core/dataframe/algebra/tree_reduce.py:TreeReduce"]}
{"id": "C15", "title": "mean is exact over blocks", "statement": "`df.mean()` computed from per-block sums and counts equals the sum of all (non-missing) values divided by their number, with `skipna=False` a single missing value makes the result missing, and an all-missing column gives missing.", "quantifier": "every column of exact numbers with missing values, every division into blocks", "why_tests_cant": "All splits of all columns.", "anchors": ["modin/core/storage_formats/pandas/query_compiler.py:mean"]}
{"id": "C16", "title": "map-reduce groupby equals pandas groupby", "statement": "`groupby(...).sum/count/size/min/max/any/all/prod/mean` computed per block and then re-aggregated gives for every group the value of aggregating all its rows at once, with exactly one output row per group present, in key order when sort=True.", "quantifier": "every table of (key, value) rows with missing values, every division into row blocks, every number of groups", "why_tests_cant": "Groups spread over blocks in unboundedly many ways.", "anchors": ["modin/core/dataframe/algebra/groupby.py:GroupByReduce", "modin/core/storage_formats/pandas/groupby.py:GroupbyReduceImpl", "modin/core/dataframe/pandas/partitioning/partition_manager.py:groupby_reduce"]}
{"id": "C17", "title": "min_count is honoured by grouped reductions", "statement": "`groupby(...).sum(min_count=k)` (prod/min/max likewise) is missing for a group exactly when the group has fewer than k non-missing values in total.", "quantifier": "every k, every table, every division into row blocks", "why_tests_cant": "Depends on how a group's values are spread over blocks.", "anchors": ["modin/core/dataframe/algebra/groupby.py:GroupByReduce.map", "modin/core/dataframe/algebra/groupby.py:GroupByReduce.reduce", "modin/pandas/groupby.py:sum"]}
{"id": "C18", "title": "distributed sort is a sort", "statement": "`df.sort_values(by)` returns all rows exactly once, ordered by the key (ascending or descending, missing keys last or first as requested), equal keys in their original order, regardless of which rows the random sampling picked.", "quantifier": "every table, every division into row blocks, every outcome of the random sampling (every list of pivots), both directions, both na_position values", "why_tests_cant": "The sampled pivots are random: tests see one draw.", "anchors": ["modin/core/dataframe/pandas/dataframe/utils.py:ShuffleSortFunctions.split_partitions_using_pivots_for_sort", "modin/core/dataframe/pandas/dataframe/utils.py:ShuffleSortFunctions.pick_pivots_from_samples_for_sort", "modin/core/dataframe/pandas/partitioning/partition_manager.py:shuffle_partitions", "modin/core/dataframe/pandas/dataframe/dataframe.py:sort_by", "modin/core/dataframe/pandas/dataframe/dataframe.py:_apply_func_to_range_partitioning"]}
{"id": "C19", "title": "range partitioning never splits a key", "statement": "After range partitioning, rows with equal keys are in the same partition and keep their relative order, every row is in exactly one partition, and partitions hold disjoint, ordered key ranges; so grouping, `nunique`, `drop_duplicates` computed per partition equal the whole-frame results.", "quantifier": "every table, every pivots list, every row division", "why_tests_cant": "Quantifies over all outcomes of the sampling and all tables.", "anchors": ["modin/core/dataframe/pandas/dataframe/utils.py:ShuffleSortFunctions.split_partitions_using_pivots_for_sort", "modin/core/dataframe/pandas/dataframe/dataframe.py:groupby", "modin/core/storage_formats/pandas/query_compiler.py:nunique", "modin/core/storage_formats/pandas/query_compiler.py:unique"]}
{"id": "C20", "title": "merge by broadcasting equals the whole merge", "statement": "`left.merge(right, how='left'|'inner'|'right')` on columns returns exactly the pandas result: rows, their order, columns and row numbers, however both frames are divided; with `sort=True` the rows come sorted by the keys.", "quantifier": "every pair of tables, every choice of key columns and suffixes, every division of both tables, every sampling outcome for sort=True", "why_tests_cant": "All tables and divisions.", "anchors": ["modin/core/storage_formats/pandas/merge.py:MergeImpl.row_axis_merge"]}
{"id": "C21", "title": "range-partitioned merge pairs exactly the matching rows", "statement": "An inner merge computed bin by bin after range partitioning both frames with the same pivots yields exactly the pairs of rows with equal keys (each exactly once).", "quantifier": "every pair of tables, every row division of each, every pivots list", "why_tests_cant": "All sampling outcomes.", "anchors": ["modin/core/storage_formats/pandas/merge.py:MergeImpl.range_partitioning_merge", "modin/core/dataframe/pandas/dataframe/dataframe.py:_apply_func_to_range_partitioning_broadcast"]}
{"id": "C22", "title": "labels shown are the labels in force", "statement": "After any sequence of lazy label changes (`df.index = ...`, `df.columns = ...`, rename) and operations, the labels a function sees inside a partition, and the labels of the materialised frame, are the most recently assigned ones.", "quantifier": "every history of label assignments, operations requiring labels on none/one/both axes, transpositions and materialisations", "why_tests_cant": "Deferred-synchronisation flags make this a history property.", "anchors": ["modin/core/dataframe/pandas/dataframe/utils.py:lazy_metadata_decorator", "modin/core/dataframe/pandas/dataframe/dataframe.py:synchronize_labels", "modin/core/dataframe/pandas/dataframe/dataframe.py:_propagate_index_objs", "modin/core/dataframe/pandas/dataframe/dataframe.py:_set_index", "modin/core/dataframe/pandas/dataframe/dataframe.py:_set_columns", "modin/core/dataframe/pandas/dataframe/dataframe.py:transpose"]}
{"id": "C23", "title": "text files are cut only between records", "statement": "Splitting a delimited text file into byte ranges for parallel reading never cuts inside a record (a quoted field may contain newlines): ranges start at record starts, are consecutive, cover the file from the starting offset to the end exactly once; so the records read are those of the file, in order, for any number of partitions.", "quantifier": "every byte string, every quote character, every newline placement, every number of partitions, every chunk size", "why_tests_cant": "The byte offsets at which a chunk ends depend on file size and partition count in unboundedly many ways.", "anchors": ["modin/core/io/text/text_file_dispatcher.py:offset", "modin/core/io/text/text_file_dispatcher.py:partitioned_file", "modin/core/io/text/text_file_dispatcher.py:_read_rows"]}
{"id": "C24", "title": "nrows limits what read_csv returns", "statement": "`read_csv(..., nrows=n)` returns exactly the first n data rows (fewer when the file is shorter) no matter how the file is partitioned.", "quantifier": "every file, every n >= 0, every number of partitions, with and without skiprows", "why_tests_cant": "All files and partition counts.", "anchors": ["modin/core/io/text/text_file_dispatcher.py:partitioned_file", "modin/core/io/text/text_file_dispatcher.py:_read_rows", "modin/core/io/text/text_file_dispatcher.py:_read"]}
{"id": "C25", "title": "skiprows drops exactly the requested lines", "statement": "`read_csv(..., skiprows=[...])` drops exactly the lines with the given 0-based line numbers (header included in the numbering) and keeps all others.", "quantifier": "every set of line numbers, every header size, every file", "why_tests_cant": "The rewriting of the list into pre-read/post-filter parts has many cases that tests sample.", "anchors": ["modin/core/io/text/text_file_dispatcher.py:_manage_skiprows_parameter", "modin/core/io/text/text_file_dispatcher.py:_read"]}
{"id": "C26", "title": "configuration values behave like variables", "statement": "After `Param.put(v)` the parameter reads back `v` (normalised) until the next put; subscribers are told of each change with the new value, one-shot subscribers exactly once; a rejected value leaves the parameter unchanged.", "quantifier": "every history of put/get/subscribe/once calls on any parameter", "why_tests_cant": "History property over all call sequences.", "anchors": ["modin/config/pubsub.py:Parameter", "modin/config/envvars.py:EnvWithSibilings", "modin/config/envvars.py:NPartitions"]}
{"id": "C27", "title": "config.context restores every parameter", "statement": "Leaving `modin.config.context(A=..., B=...)` normally or by an exception in the body restores every listed parameter to the value it had on entry; nested contexts restore in order.", "quantifier": "every set of parameters, every body (any puts, any exception, nesting)", "why_tests_cant": "All programs inside the with-block.", "anchors": ["modin/config/pubsub.py:context"]}
{"id": "C28", "title": "deferred remote graphs compute what the eager program computes", "statement": "On Ray, sending a graph of deferred operations as one flat task gives, for every node, the value of evaluating that node directly; a node shared by several consumers is executed once and all consumers see its single result.", "quantifier": "every graph of deferred calls (chains, nested arguments, shared nodes, any depth), any functions", "why_tests_cant": "The graph is flattened to a tagged list and rebuilt by a hand-written decoder; correctness is over all graphs.", "anchors": ["modin/core/execution/ray/common/deferred_execution.py:DeferredExecution._deconstruct_chain", "modin/core/execution/ray/common/deferred_execution.py:DeferredExecution._deconstruct_list", "modin/core/execution/ray/common/deferred_execution.py:_RemoteExecutor.construct_chain"]}
{"id": "C29", "title": "automatic backend choice is the cheapest one", "statement": "When an operation mixes frames of several backends, the backend chosen is one of the candidates, has the smallest total (stay + move) cost among those within the allowed maximum whenever there is one, and the choice does not depend on anything but the operands in their order.", "quantifier": "every list of operands, every cost table", "why_tests_cant": "All cost tables and operand lists.", "anchors": ["modin/core/storage_formats/base/query_compiler_calculator.py:BackendCostCalculator.calculate"]}
{"id": "C30", "title": "partially known dtypes are never wrong", "statement": "The dtypes reported after column selection, reordering, renaming, insertion and horizontal concatenation, without looking at the data, agree with the dtypes the data really has; unknown ones are computed when asked for.", "quantifier": "every partially-known dtype description and every sequence of metadata operations on it", "why_tests_cant": "History property over all partial states.", "anchors": ["modin/core/dataframe/pandas/metadata/dtypes.py:DtypesDescriptor"]}
{"id": "C31", "title": "transpose is exact and involutive", "statement": "`df.T` has element (i, j) equal to `df`'s element (j, i) with row and column labels exchanged, for any partition grid; `df.T.T` equals `df`.", "quantifier": "every frame and grid", "why_tests_cant": "All shapes and grids.", "anchors": ["modin/core/dataframe/pandas/dataframe/dataframe.py:transpose", "modin/core/dataframe/pandas/partitioning/partition_manager.py:lazy_map_partitions"]}
{"id": "C32", "title": "reset_index / set_index keep rows attached to their labels", "statement": "`reset_index` turns the row labels into the first column and numbers rows 0..n-1; with lazily known row labels each partition numbers its own rows so that the whole index is 0..n-1; `set_index(col)` afterwards gives back the original frame.", "quantifier": "every frame and every row division, empty partitions included", "why_tests_cant": "All partitionings.", "anchors": ["modin/core/storage_formats/pandas/query_compiler.py:reset_index", "modin/core/dataframe/pandas/dataframe/dataframe.py:from_labels", "modin/core/dataframe/pandas/dataframe/dataframe.py:to_labels"]}
{"id": "C33", "title": "dropna over columns equals pandas", "statement": "`df.dropna(axis=1, how='any'|'all', subset=...)` drops exactly the columns pandas drops although masks are computed per row partition and combined.", "quantifier": "every frame, division into row partitions, subset of row labels", "why_tests_cant": "Row partitions without any row of the subset, empty partitions: all divisions.", "anchors": ["modin/core/storage_formats/pandas/query_compiler.py:dropna"]}
{"id": "C34", "title": "drop removes exactly the named rows/columns", "statement": "`df.drop(index=labels)` / `drop(columns=labels)` keeps exactly the rows/columns whose label is not listed, in the original order, repeated labels included.", "quantifier": "every label sequence (with repeats) and every set of labels to drop", "why_tests_cant": "All label multisets.", "anchors": ["modin/core/storage_formats/pandas/query_compiler.py:drop"]}
{"id": "C35", "title": "correlation and covariance are exact over blocks", "statement": "`df.corr()`/`df.cov()` combined from per-block sums, sums of squares and sums of products equals the whole-frame formula.", "quantifier": "every pair of columns of exact numbers, every division into blocks", "why_tests_cant": "Algebraic identity over all data and splits.", "anchors": ["modin/core/storage_formats/pandas/aggregations.py:_CorrCovKernels"]}
{"id": "C36", "title": "grouped skew is exact over blocks", "statement": "`groupby(...).skew()` computed from per-block counts and power sums equals the direct definition for every group.", "quantifier": "every list of exact numbers, every division into blocks", "why_tests_cant": "Algebraic identity over all data and splits.", "anchors": ["modin/core/storage_formats/pandas/groupby.py:GroupbyReduceImpl._build_skew_impl"]}
{"id": "C37", "title": "backend registry stays consistent", "statement": "Every registered backend name corresponds to exactly one execution (storage format + engine) and vice versa after any sequence of registrations; re-registering an existing pair with a different partner is rejected and changes nothing.", "quantifier": "every sequence of register_backend calls", "why_tests_cant": "History property.", "anchors": ["modin/config/envvars.py:Backend.register_backend"]}
{"id": "C38", "title": "aliased configuration variables stay in step", "statement": "Deprecated and replacement spellings of one configuration switch always read the same effective value after any sequence of puts to either.", "quantifier": "every history of puts and gets to the two parameters", "why_tests_cant": "History property.", "anchors": ["modin/config/envvars.py:EnvWithSibilings"]}
{"id": "C39", "title": "parallel file-format readers assign every row group once", "statement": "`read_parquet` and `read_feather` read every row (of every row group of every file) exactly once and in order, for the columns and the filter asked for, whatever the number of partitions; the frame, its labels and its recorded sizes are those of the frame pandas reads.", "quantifier": "every list of files with any row-group counts, every number of partitions", "why_tests_cant": "All file sets and partition counts.", "anchors": ["modin/core/io/column_stores/parquet_dispatcher.py:ParquetDispatcher._determine_partitioning"]}
{"id": "C40", "title": "read_sql partitions cover the query once", "statement": "`read_sql` split into LIMIT/OFFSET queries returns every row of the query exactly once, in order.", "quantifier": "every row count and number of partitions", "why_tests_cant": "All row counts.", "anchors": ["modin/core/io/sql/sql_dispatcher.py:SQLDispatcher._read"]}
{"id": "C41", "title": "duplicated is per whole row", "statement": "`df.duplicated(keep=...)` marks the rows pandas marks even when the columns live in several partitions and rows are compared through a digest.", "quantifier": "every frame and column division, every keep, every digest that distinguishes different rows", "why_tests_cant": "All frames.", "anchors": ["modin/core/storage_formats/pandas/query_compiler.py:duplicated"]}
{"id": "C42", "title": "inserting a column shifts nothing", "statement": "`df.insert(loc, name, value)` yields the frame with the new column at position loc and all other columns in order, whichever column block the location falls into.", "quantifier": "every column division and location 0..ncols", "why_tests_cant": "Boundary locations between blocks.", "anchors": ["modin/core/storage_formats/pandas/query_compiler.py:insert", "modin/core/storage_formats/pandas/query_compiler.py:insert_item", "modin/core/dataframe/pandas/dataframe/dataframe.py:apply_full_axis_select_indices"]}
{"id": "C43", "title": "column concatenation aligns rows by label", "statement": "`pd.concat([a, b, ...], axis=1)` has the columns of `a`, then of `b`, and so on, over the joined row labels; every row of every frame is found under its label, missing where the frame has no such row.", "quantifier": "every list of frames with arbitrary partition grids and row labels without repeats (or equal, or two frames with repeats)", "why_tests_cant": "Every combination of row partitionings has to be brought to one.", "anchors": ["modin/core/dataframe/pandas/dataframe/dataframe.py:concat", "modin/core/dataframe/pandas/dataframe/dataframe.py:_copartition", "modin/core/dataframe/pandas/partitioning/partition_manager.py:concat"]}
{"id": "C44", "title": "full-axis reductions see whole columns", "statement": "A reduction that cannot be combined from partial results (`median`, `var`, `nunique`, `idxmax`, `sum` with a large `min_count`, ...) gives for each column (row) exactly pandas' reduction of that whole column (row), in one row (column) carrying the frame's own labels.", "quantifier": "every reduction function, every frame with at least one column (row), every division into blocks", "why_tests_cant": "All functions and all divisions.", "anchors": ["modin/core/dataframe/pandas/dataframe/dataframe.py:reduce", "modin/core/dataframe/pandas/dataframe/dataframe.py:_compute_tree_reduce_metadata", "modin/core/dataframe/algebra/reduce.py:Reduce"]}
{"id": "C45", "title": "grouping by another frame's column pairs rows by label", "statement": "`df.groupby(series)` puts each row of `df` into the group given by the series' value at that row's label (rows without a value are left out or form the missing group), whatever blocks the frame and the series are stored in.", "quantifier": "every frame, every series, every division of each into row blocks, every order of the series' labels", "why_tests_cant": "The two divisions and the label order vary independently.", "anchors": ["modin/core/dataframe/algebra/groupby.py:GroupByReduce.map", "modin/core/dataframe/pandas/dataframe/dataframe.py:groupby_reduce", "modin/core/dataframe/pandas/partitioning/partition_manager.py:groupby_reduce"]}
{"id": "C46", "title": "labels predicted for a merge are the labels of its result", "statement": "The column labels that `merge` announces before computing anything are the labels, in number and order, that the computed blocks have.", "quantifier": "every pair of column lists, every choice of key columns and suffixes", "why_tests_cant": "All combinations of overlapping names.", "anchors": ["modin/core/dataframe/base/dataframe/utils.py:join_columns", "modin/core/storage_formats/pandas/merge.py:MergeImpl._compute_result_metadata"]}
{"id": "C47", "title": "backend, engine and storage format describe one execution", "statement": "After any history of setting and reading `Backend`, `Engine` and `StorageFormat` and of registering and activating backends, the three parameters, whenever they can be read, describe one and the same registered execution; a successful put of one of them sets it, and sets the others to match.", "quantifier": "every environment, every history of puts, gets, registrations and activations", "why_tests_cant": "History property over all call sequences and environments.", "anchors": ["modin/config/envvars.py:Backend", "modin/config/envvars.py:Engine", "modin/config/envvars.py:StorageFormat", "modin/__init__.py:set_execution"]}
{"id": "C48", "title": "what to_parquet writes is what read_parquet reads", "statement": "A frame written with `df.to_parquet(path)` and read with `pd.read_parquet(path)` comes back with the same rows, columns and labels, however it was partitioned, in whatever order the workers finished writing and however the reader partitions.", "quantifier": "every frame, division into partitions, completion order of the writers, and reader configuration", "why_tests_cant": "All partitionings and write orders.", "anchors": ["modin/core/io/column_stores/parquet_dispatcher.py:ParquetDispatcher.write", "modin/core/io/column_stores/parquet_dispatcher.py:ParquetDispatcher._read"]}
{"id": "C49", "title": "to_sql writes every row once", "statement": "`df.to_sql(name, con, if_exists=...)` leaves in the table what `if_exists` keeps plus every row of the frame exactly once, whatever order the workers append in; with `if_exists='fail'` an existing table is not changed.", "quantifier": "every table, division into partitions and completion order", "why_tests_cant": "All completion orders.", "anchors": ["modin/core/io/sql/sql_dispatcher.py:SQLDispatcher.write"]}
{"id": "C50", "title": "operations on objects of several backends behave like operations on one", "statement": "A method or function called on frames and series that are on different backends (some of them pinned) gives the result, and leaves every caller's object with the data, of the same call on one backend; pinned objects stay pinned where they are, the result is pinned exactly if an operand is; operands pinned to different backends raise; with automatic switching off objects of one backend never move.", "quantifier": "every argument structure (nested lists and tuples), every state of the objects, cost table, pinning and configuration", "why_tests_cant": "All argument nestings, pin patterns, aliasing of operands and cost tables.", "anchors": ["modin/core/storage_formats/pandas/query_compiler_caster.py:wrap_function_in_argument_caster", "modin/core/storage_formats/pandas/query_compiler_caster.py:visit_nested_args", "modin/core/storage_formats/pandas/query_compiler_caster.py:_get_backend_for_auto_switch", "modin/pandas/base.py:BasePandasDataset.set_backend"]}
{"id": "C51", "title": "Boolean masks select exactly the marked rows", "statement": "df[mask] returns the rows of df for which the mask is true, in df's order and with df's labels, matching the mask to the rows by label when its labels differ from df's, for any division of df and of the mask; it raises exactly when some row has no value in the mask. An array of booleans selects by position.", "quantifier": "every frame, every mask or array, every way either is divided into blocks, recorded or unrecorded labels and lengths", "why_tests_cant": "the mask is re-divided and re-ordered to match df's row blocks; a test fixes one pair of divisions and usually a mask computed from df itself, so equal labels", "anchors": ["modin/core/storage_formats/pandas/query_compiler.py:getitem_array", "modin/core/storage_formats/pandas/query_compiler.py:__getitem_bool", "modin/core/dataframe/algebra/binary.py:Binary.register", "modin/core/dataframe/pandas/dataframe/dataframe.py:broadcast_apply", "modin/core/dataframe/pandas/dataframe/dataframe.py:_copartition"]}
{"id": "C52", "title": "drop_duplicates keeps the right representative of equal rows", "statement": "df.drop_duplicates(subset, keep, ignore_index) returns exactly the rows that have no earlier (keep='first'), later (keep='last') or other (keep=False) row with the same cells in the listed columns, in df's order, with df's labels or 0, 1, ..., wherever the block boundaries of df lie; it raises exactly when a listed column does not exist. Series.unique() gives each value once, in order of first appearance.", "quantifier": "every frame, subset of columns, keep, ignore_index, and every way the frame is divided into blocks", "why_tests_cant": "equal rows may lie in different row partitions and their cells in different column partitions; the marks come from one plan, the selection from another, and labels may repeat", "anchors": ["modin/pandas/base.py:drop_duplicates", "modin/core/storage_formats/base/query_compiler.py:unique", "modin/core/storage_formats/pandas/query_compiler.py:duplicated", "modin/core/storage_formats/pandas/query_compiler.py:getitem_array", "modin/core/storage_formats/pandas/query_compiler.py:getitem_column_array"]}
{"id": "C53", "title": "to_csv writes the same file whatever order the workers come in", "statement": "`df.to_csv(path)` leaves in the file exactly what pandas would write (header once, every row once, in frame order, behind the old content in mode 'a'), whichever order the parallel workers are started, scheduled and finish in; the write never blocks; and if a worker dies at any point the file is untouched or holds a beginning of that text, with no hole and no row out of order.", "quantifier": "every frame, every division into blocks, every header/mode, every old content, every schedule of the workers, every number of task slots, every crash point (also in the middle of a write)", "why_tests_cant": "the interleavings of workers, signals and writes and the crash points are unbounded; a test sees one schedule", "anchors": ["modin/core/execution/ray/implementations/pandas_on_ray/io/io.py: PandasOnRayIO._to_csv_check_support, to_csv", "modin/core/execution/unidist/implementations/pandas_on_unidist/io/io.py: to_csv", "modin/core/execution/ray/common/engine_wrapper.py: SignalActor"]}
{"id": "C54", "title": "An operation of a frame with a Series pairs cells by label", "statement": "`df.op(s, axis=0)` and `df.op(s)` / `df + s` (axis=1) give the outer join of the labels along that axis, the frame's own labels along the other, and in every cell the operation of the frame's cell with the Series' value for that row (column) label, a missing value standing for a label one of them lacks \u2014 however the frame and the Series are divided into blocks and whether or not their labels and sizes are recorded.", "quantifier": "every frame, Series, operation, pair of divisions into blocks, pair of label lists (equal or different; repeated along rows)", "why_tests_cant": "the aligned blocks depend on two independent divisions and on the labels; tests fix one partitioning and a few label lists", "anchors": ["modin/core/dataframe/algebra/binary.py: Binary.register", "modin/core/dataframe/pandas/dataframe/dataframe.py: broadcast_apply, _copartition, _join_index_objects", "modin/core/dataframe/pandas/partitioning/partition_manager.py: base_broadcast_apply, broadcast_apply", "modin/pandas/base.py: _binary_op, __and__"]}
{"id": "C55", "title": "Assignment through loc and iloc changes exactly the addressed cells", "statement": "`df.iloc[r, c] = item` and `df.loc[r, c] = item` (existing labels) write the item's values into the cells of the addressed rows and columns and leave every other cell and all labels as they are, whether the selection is a whole column, a whole row, a rectangle or scattered, and however the frame is divided into blocks.", "quantifier": "every frame with rows and columns, every division into blocks and state of labels and lengths, every key (integer, list with negative entries, boolean list, slice; label, list of labels, boolean list, `:`), every scalar or array of the selection's shape", "why_tests_cant": "three different code paths are taken depending on the size of the selection, each with its own way through the blocks; tests fix one frame and a few keys", "anchors": ["modin/pandas/indexing.py: _iLocIndexer.__setitem__, _compute_lookup, _determine_setitem_axis, _setitem_positional, _LocIndexer._set_item_existing_loc", "modin/pandas/dataframe.py: __setitem__", "modin/core/storage_formats/base/query_compiler.py: get_positions_from_labels", "modin/core/storage_formats/pandas/query_compiler.py: _setitem, write_items", "modin/core/dataframe/pandas/partitioning/partition_manager.py: apply_func_to_select_indices, apply_func_to_select_indices_along_full_axis"]}
{"id": "C56", "title": "reindex and enlarging by loc place every cell under its label", "statement": "`df.reindex(index=J, columns=K, fill_value=v)` returns, for every label asked for, the row (column) that carries it, and cells `v` for labels that do not exist, and raises exactly when pandas raises. `df.loc[x, :] = item` with a new label adds one row holding the item; `df.loc[r, ys] = item` with new columns adds them at the end and assigns the item; nothing else changes. All of it however the frame is divided into blocks.", "quantifier": "every frame, every division into blocks and state of labels and lengths, all lists of labels asked for (in any order, repeated, missing), every fill value, every scalar or array of the selection's shape", "why_tests_cant": "reindexing runs separately in every column (row) partition and the results are put together under labels computed elsewhere; the number of blocks depends on old and new sizes; tests fix one frame and a few labels", "anchors": ["modin/pandas/base.py: reindex", "modin/core/storage_formats/pandas/query_compiler.py: reindex", "modin/core/dataframe/pandas/dataframe/dataframe.py: apply_full_axis, broadcast_apply_full_axis", "modin/pandas/indexing.py: _LocIndexer.__setitem__, _check_missing_loc, _compute_enlarge_labels, _setitem_with_new_columns"]}
{"id": "C57", "title": "sort_index sorts the whole frame by its labels", "statement": "`df.sort_index(axis=..., ascending=..., ignore_index=..., ...)` returns the rows (columns) of the frame in the order pandas gives to its labels, each row keeping its own label (or labels 0, 1, ... with `ignore_index=True`); with a stable sort, rows with equal labels keep their order; `ascending=None` raises. However the frame is divided into blocks.", "quantifier": "every frame, every division into blocks and state of labels and lengths, every order of labels (kind, key, na_position, ascending), both axes, with and without ignore_index", "why_tests_cant": "the labels of the result are sorted apart from the blocks, which are sorted in every column partition; the two must agree for every frame, including repeated labels", "anchors": ["modin/pandas/base.py: sort_index", "modin/core/storage_formats/pandas/query_compiler.py: sort_index", "modin/core/dataframe/pandas/dataframe/dataframe.py: apply_full_axis, broadcast_apply_full_axis"]}
{"id": "C58", "title": "nlargest, nsmallest, first_valid_index and last_valid_index look at the whole frame", "statement": "`df.nlargest(n, columns, keep)` and `nsmallest` return whole rows, those pandas picks and in its order, and raise exactly when a key column does not exist. `df.first_valid_index()` (`last_valid_index`) returns the label of the first (last) row that has a cell which is not missing. However the frame is divided into blocks.", "quantifier": "every frame, every division into blocks and state of labels and lengths, all key columns, every `n` and `keep`, every pattern of missing cells", "why_tests_cant": "the code works on every column partition separately; whether the key columns are in the partition, and whether some column is empty, depends on the shape of the frame and the configuration", "anchors": ["modin/pandas/dataframe.py: nlargest, nsmallest", "modin/pandas/base.py: first_valid_index, last_valid_index", "modin/core/storage_formats/pandas/query_compiler.py: _nsort, first_valid_index, last_valid_index"]}
{"id": "C59", "title": "functions that run along an axis see the whole axis", "statement": "`df.cumsum()`, `cumprod`, `cummax`, `cummin`, `diff(periods)`, `ffill(limit)`, `bfill(limit)`, `rolling(n).agg(f)` and `expanding(k).agg(f)` give for every column (row, with `axis=1`) what pandas gives for the whole column (row), under unchanged labels; a limit below 1 raises; `rolling(n, on=key)` raises exactly when there is no column `key`. However the frame is divided into blocks.", "quantifier": "every frame, every division into blocks and state of labels and lengths, both axes, every operation and window function, limit, number of periods and pattern of missing cells", "why_tests_cant": "a total, a gap or a window may reach over any number of block boundaries; tests try a few shapes", "anchors": ["modin/pandas/base.py: cumsum, cumprod, cummax, cummin, diff, ffill, bfill, fillna, rolling, expanding", "modin/pandas/window.py: Rolling, Expanding", "modin/core/dataframe/algebra/fold.py: Fold.register", "modin/core/storage_formats/pandas/query_compiler.py: cumsum, _diff, fillna, rolling_sum, expanding_sum", "modin/core/dataframe/pandas/dataframe/dataframe.py: fold"]}
{"id": "C60", "title": "fillna with a value fills every missing cell with the value for its place", "statement": "`df.fillna(v)`, with or without `limit` and `axis`, replaces missing cells by `v`; with a dictionary or a Series every column by its own value; with a frame every missing cell by the cell under the same labels. With a limit, the first missing cells of every whole column (row) and no others. Lists, no value, a limit below 1 and a dictionary with `axis=1` raise. All other cells and all labels stay.", "quantifier": "every frame, every division into blocks, every plan of the engine, every value, dictionary or frame of values and every limit", "why_tests_cant": "the missing cells a limit counts and the columns a dictionary names lie in any number of blocks; a frame of values must be aligned and divided like the frame it fills", "anchors": ["modin/pandas/base.py: fillna", "modin/core/storage_formats/pandas/query_compiler.py: fillna", "modin/core/dataframe/pandas/dataframe/dataframe.py: map, fold, broadcast_apply, _copartition"]}
{"id": "C61", "title": "where, isin and clip decide every cell by the condition, values or bounds under its labels", "statement": "`df.where(cond, other)` keeps the cells whose condition under the same row and column labels is true and replaces every other cell by `other`, which is a value or the cell of a frame under the same labels; labels and their order stay. `df.isin(values)` says of every cell whether it is in the list, in the list for its column, or equal to the value under its labels. `df.clip(lower, upper, axis)` brings every cell between its bounds; lists give a bound for each row or column.", "quantifier": "every frame, condition and frame of values, every division of each of them into blocks, every list, dictionary, Series, scalar or list bound and axis", "why_tests_cant": "the condition and the values are divided into blocks in other places than the frame, and a list of bounds spans all blocks of a line", "anchors": ["modin/pandas/dataframe.py: where", "modin/pandas/base.py: isin, clip, _validate_other", "modin/core/storage_formats/pandas/query_compiler.py: where, isin, clip", "modin/core/dataframe/pandas/dataframe/dataframe.py: n_ary_op, fold, map", "modin/core/dataframe/pandas/partitioning/partition_manager.py: broadcast_axis_partitions"]}
{"id": "C62", "title": "mode, quantile with a list and rank see whole columns (rows)", "statement": "`df.mode()` has the most frequent values of every whole column from the top, filled up with missing values to the longest; `df.quantile([q, ...], axis)` has a row for each q with the quantile of every whole column (row) and raises for q outside of 0 to 1; `df.rank(axis, method, ascending, pct)` gives every cell its rank among the cells of its whole column (row). Labels are pandas'.", "quantifier": "every frame of numbers, every division into blocks, every list of quantiles, every method of ranking, either axis", "why_tests_cant": "modes, quantiles and ranks depend on all cells of a line, which lie in any number of blocks; the number of modes is known only afterwards and differs from block to block", "anchors": ["modin/pandas/base.py: mode, quantile, rank", "modin/core/storage_formats/pandas/query_compiler.py: mode, quantile_for_list_of_values, rank, dropna", "modin/core/dataframe/pandas/dataframe/dataframe.py: apply_full_axis, broadcast_apply_full_axis"]}
{"id": "C63", "title": "Assigning a scalar through a boolean Series writes the rows it flags", "statement": "`df.loc[mask, cols] = v` with a boolean Series writes `v` into the columns `cols` of exactly the rows whose label the mask flags, whatever the order of the mask's labels, and leaves every other cell and all labels as they were. It raises if some row has no flag or some column is not there, as pandas does.", "quantifier": "every frame, every mask, every division of either into blocks, every list of columns, every scalar", "why_tests_cant": "frame and mask are divided independently; each row partition must find its own rows among all the labels of the mask", "anchors": ["modin/pandas/indexing.py: _LocIndexer._set_item_existing_loc", "modin/core/storage_formats/pandas/query_compiler.py: setitem_bool", "modin/core/dataframe/pandas/dataframe/dataframe.py: broadcast_apply_full_axis", "modin/core/dataframe/pandas/partitioning/partition_manager.py: broadcast_axis_partitions"]}
{"id": "C64", "title": "query keeps the rows where the expression holds; explode makes pandas' rows", "statement": "`df.query(expr)` keeps exactly the rows where the expression is true on the whole frame, in order, with their labels, and raises for undefined names. `df.explode(columns, ignore_index)` replaces every row by one row for each item of its list-like cells, under the same label, and raises where pandas does.", "quantifier": "every frame, every division into blocks, every expression built of names, constants, variables, operators, comparisons and calls; every list of columns and every number of items", "why_tests_cant": "the expression is evaluated in each row partition on its own; whether that is the same as evaluating it once depends on the expression, and the number of rows of each partition changes with the data", "anchors": ["modin/pandas/dataframe.py: query", "modin/pandas/base.py: explode", "modin/core/storage_formats/pandas/query_compiler.py: rowwise_query, explode", "modin/core/dataframe/pandas/dataframe/dataframe.py: filter, explode, _compute_axis_labels_and_lengths"]}
{"id": "C65", "title": "partitions handed out make up the frame, and building a frame from them gives it back", "statement": "`unwrap_partitions(df, axis)` hands out row partitions that, one below the other, are `df` (column partitions that are `df` side by side; blocks that are `df` cut into bands), with the labels in force. `from_partitions` on partitions that make up a frame gives that frame, under the labels passed if any; taking apart and building again is the identity.", "quantifier": "every frame, every division into blocks including empty ones, labels assigned but not yet written into the blocks, every axis, every choice of labels and sizes passed", "why_tests_cant": "the labels kept in the blocks may be out of date when partitions are handed out, and which labels must be written when a frame is built depends on what the caller passes", "anchors": ["modin/distributed/dataframe/pandas/partitions.py: unwrap_partitions, from_partitions", "modin/core/dataframe/pandas/dataframe/dataframe.py: _propagate_index_objs, synchronize_labels"]}
{"id": "C66", "title": "distributed XGBoost training sees every row with its label once; predictions stand in the rows they belong to", "statement": "The actors of a distributed training together hold every row of the data with its label exactly once, every actor at least one row partition and as many as any other up to one, wherever the partitions lie; the same for every evaluation set. `Booster.predict` gives a frame with the row labels of the data and in every row the prediction for that row.", "quantifier": "every frame and division into blocks, every placement of the row partitions on nodes, every cluster and number of actors, every list of evaluation sets, every row-wise predictor", "why_tests_cant": "partitions are shared out by node in two rounds with counters; a slip loses or duplicates rows only for particular placements and remainders", "anchors": ["modin/experimental/xgboost/xgboost_ray.py: _assign_row_partitions_to_actors, _split_data_across_actors, _get_dmatrix, create_actors, _train, _predict", "modin/experimental/xgboost/xgboost.py: DMatrix"]}
{"id": "C67", "title": "group-by with arbitrary functions equals pandas, on any division of the columns", "statement": "`df.groupby(by).agg(f)` for any function of a group's cells, a list of functions or a dictionary of them, with `as_index` True or False, and `df.groupby(by).transform(t)`: the same groups in the same order, the same columns in the same order and the same cells as pandas on the whole frame; the key columns appear exactly once.", "quantifier": "every frame and division into blocks, every state of cached or pending labels, every non-empty list of distinct key columns wherever they lie, every function of a group's cells, every `sort` and `dropna`", "why_tests_cant": "each block column is grouped by itself with the key columns it lacks put behind it; whether a key column is duplicated, lost or aggregated depends on which partition it happens to lie in", "anchors": ["modin/core/storage_formats/pandas/query_compiler.py: PandasQueryCompiler.groupby_agg", "modin/core/dataframe/algebra/default2pandas/groupby.py: GroupBy.handle_as_index_for_dataframe, GroupBy.handle_as_index", "modin/core/dataframe/algebra/groupby.py: GroupByReduce.get_callable", "modin/core/dataframe/pandas/dataframe/dataframe.py: PandasDataframe.broadcast_apply_full_axis"]}
{"id": "C68", "title": "case_when picks the first true condition of every row", "statement": "`s.case_when(caselist)` has in every row the replacement of the first case whose condition is true there, and the Series' own cell if there is none, whatever the conditions and replacements are: Series with other labels in any order, lists, scalars or functions; missing labels count as True in a condition and are missing in a replacement, as in pandas.", "quantifier": "every Series and division into row blocks, every list of cases, every Modin operand with its own labels and its own division", "why_tests_cant": "every kind of operand reaches the row blocks by another route (aligned and divided anew, sliced by position, reindexed, or whole), and which route is taken depends on all cases together", "anchors": ["modin/pandas/series.py: Series.case_when", "modin/core/storage_formats/pandas/query_compiler.py: PandasQueryCompiler.case_when", "modin/core/dataframe/pandas/dataframe/dataframe.py: PandasDataframe.case_when, PandasDataframe._copartition", "modin/core/dataframe/base/dataframe/utils.py: is_trivial_index"]}
{"id": "C69", "title": "a frame read back through the interchange protocol is the frame", "statement": "Converting a Modin DataFrame through the dataframe interchange protocol (`__dataframe__`, `get_chunks`, column buffers, `from_dataframe`) gives the frame back: the same cells, column labels and row labels, missing values included. `get_chunks(n)` gives n consecutive, non-empty pieces that together are the frame.", "quantifier": "every frame and division into blocks, every mix of numeric, string and categorical columns and every content of the strings, every admissible number of chunks", "why_tests_cant": "string offsets and bytes depend on every string before, chunk boundaries on the division into blocks; tests see a few short columns with one division", "anchors": ["modin/core/dataframe/pandas/interchange/dataframe_protocol/dataframe.py: PandasProtocolDataframe.get_chunks, get_column_by_name", "modin/core/dataframe/pandas/interchange/dataframe_protocol/column.py: PandasProtocolColumn._get_data_buffer, _get_validity_buffer, _get_offsets_buffer, describe_null", "modin/core/dataframe/pandas/interchange/dataframe_protocol/from_dataframe.py: from_dataframe_to_pandas, protocol_df_chunk_to_pandas, unpack_protocol_column, string_column_to_ndarray, categorical_column_to_series", "modin/core/dataframe/pandas/dataframe/dataframe.py: PandasDataframe.to_numpy"]}
{"id": "C70", "title": "a column another library hands over is read as what it holds", "statement": "Reading a column of another dataframe library through the interchange protocol gives exactly the cells the column describes: `size` elements from `offset` on, with the elements marked as missing (by a bit mask, a byte mask or a special value) missing and no others. Strings are those between consecutive offsets. The other library's memory is left as it was.", "quantifier": "every size, offset and buffer content, every way of marking missing values, bit-packed booleans, every table of string offsets; arbitrary memory beyond the buffers", "why_tests_cant": "the bit position depends on offset and size modulo eight and on the padding of the producer's buffers; tests use producers with unsliced, unpadded columns", "anchors": ["modin/core/dataframe/pandas/interchange/dataframe_protocol/from_dataframe.py: buffer_to_ndarray, bitmask_to_bool_ndarray, set_nulls, _inverse_null_buf, primitive_column_to_ndarray, string_column_to_ndarray"]}
{"id": "C71", "title": "a batch pipeline computes what its queries say", "statement": "The outputs of a batch pipeline are, in order and under their ids, what the queries before them make of the row partitions of the frame one after the other: each partition by itself, or one partition copied and reduced when the query is fanned out, or divided anew; the partitions are consecutive pieces of the frame, and an output that is postprocessed is handed on unprocessed. For functions of one row at a time the outputs are the functions applied to the whole frame, however it is divided. `add_query` accepts a call exactly when ids are used consistently, and loses no query.", "quantifier": "every frame and division of it, every number of partitions, every list of outputs and queries with arbitrary functions, every history of add_query calls", "why_tests_cant": "the calls are queued and see variables as they are when the queue is drained; the result depends on the division of the frame, the number of partitions and where the outputs are", "anchors": ["modin/experimental/batch/pipeline.py: PandasQueryPipeline.add_query, _complete_nodes, compute_batch", "modin/core/dataframe/pandas/partitioning/axis_partition.py: add_to_apply_calls, drain_call_queue"]}
{"id": "C72", "title": "melt unpivots every row and column once", "statement": "`melt` returns the columns pandas returns, the row numbers from 0, and exactly the rows pandas returns: for every row and every value column one row with the cells of the id columns of the same row, the name of the value column and its cell. Only the order of the rows may differ: the rows of one column stay in the order of the frame, those of one row in the order of its columns; with one row partition the result is that of pandas.", "quantifier": "every frame with different column names and every division of it into blocks, every choice of different id columns and value columns or none", "why_tests_cant": "id columns are selected into a second frame whose partitions are paired with those of the first, value columns are looked up block by block, and the pieces are stacked with labels written later", "anchors": ["modin/core/storage_formats/pandas/query_compiler.py: melt", "modin/core/dataframe/pandas/dataframe/dataframe.py: broadcast_apply_select_indices", "modin/core/dataframe/pandas/partitioning/partition_manager.py: broadcast_apply_select_indices, apply_func_to_select_indices"]}
{"id": "C73", "title": "loc, iloc and df[key] return what pandas returns, in kind as well as in content", "statement": "`df.iloc[r, c]`, `df.loc[r, c]` and `df[key]` return the cells and labels the keys address, as a value, a Series (named by the row or column that was taken) or a frame exactly when pandas does; a label that is there several times keeps its axis. A label that is not there raises.", "quantifier": "every frame and division of it into blocks, every pair of keys per axis: integer, label, list, list of booleans, slice of positions or labels, range", "why_tests_cant": "the key is turned into positions, the positions into a selection per block, and the selected frame is reduced to a Series or a value by its shape and by which keys were scalars; repeated labels make these disagree", "anchors": ["modin/pandas/indexing.py: _iLocIndexer.__getitem__, _compute_lookup, _LocIndexer._helper_for__getitem__, _get_pandas_object_from_qc_view", "modin/core/storage_formats/base/query_compiler.py: get_positions_from_labels, columnarize", "modin/pandas/dataframe.py: squeeze, _getitem, _getitem_column", "modin/pandas/base.py: __getitem__, _getitem_slice"]}
{"id": "C74", "title": "Frames made from one another can be combined whatever has been asked of them in between", "statement": "In any program that reads files, derives frames from frames, sets row labels, asks for `len(df)` and `df.index` and combines frames (`x + y`), an operation of two frames with the same row labels pairs every row with the row of that label; `len` and `index` always answer with the rows that are there.", "quantifier": "every program over any number of frames: every order of reads, derivations, label changes, questions and binary operations, every division of every frame into blocks", "why_tests_cant": "whether two frames may be paired block by block is decided by identifiers handed on from frame to frame and by lengths that may have been computed before or after; the answer depends on the whole history of both frames", "anchors": ["modin/core/dataframe/pandas/metadata/index.py: ModinIndex (copy, get, equals, compare_partition_lengths_if_possible, maybe_specify_new_frame_ref)", "modin/core/dataframe/pandas/dataframe/dataframe.py: _check_if_axes_identical, _copartition, _filter_empties, _get_index, row_lengths, n_ary_op, map", "modin/core/io/text/text_file_dispatcher.py: _define_index, _get_new_qc", "modin/core/dataframe/pandas/partitioning/partition_manager.py: n_ary_operation"]}
{"id": "C75", "title": "An operation of two modin.numpy arrays is NumPy's, with broadcasting", "statement": "An arithmetic operation or comparison of two `modin.numpy` arrays (or an array and a scalar) that gives an array gives NumPy's: the shape that broadcasting gives, and at every position the operation of the two elements that broadcasting puts there, in the order of the operands. Shapes that NumPy refuses are refused. The operands are left as they are.", "quantifier": "every operator and its reflected form, arrays of one and two dimensions of every shape, every element type and value", "why_tests_cant": "shapes, orders of operands and element types multiply; a test fixes a few shapes, and the project's own test of one-row operands is marked as an expected failure", "anchors": ["modin/numpy/arr.py: array._preprocess_binary_op, __add__, subtract, __rsub__, divide, __rtruediv__, multiply, floor_divide, power, remainder, _greater, _less, _equal, fix_dtypes_and_determine_return, _to_numpy", "modin/core/dataframe/algebra/binary.py: Binary.register"]}
{"id": "C76", "title": "A reduction of a modin.numpy array is NumPy's", "statement": "`sum`, `prod`, `max`, `min`, `all` and `any` of a `modin.numpy` array give what NumPy gives: of all elements or of every line along the axis, only of the elements that `where` selects, starting from `initial`, and with the number of dimensions that `keepdims` asks for. An axis that the array does not have is refused.", "quantifier": "arrays of one and two dimensions of every shape, every axis (also negative), `keepdims`, `initial`, masks of every accepted shape, every element", "why_tests_cant": "the arguments multiply, each combination has its own branch in the code, and the answer must be right for every shape and mask", "anchors": ["modin/numpy/arr.py: array.sum, prod, max, min, all, any, where, _validate_axis, __len__"]}
{"id": "C77", "title": "Matrix products do not depend on the division into blocks", "statement": "`df.dot(other)` and `s.dot(other)` give the product pandas gives, with other a frame, a Series or an array: every cell is the inner product of a row and a column, matched by label for frames and Series and by position for arrays; the result has the labels and the name pandas gives it, and operands whose labels or sizes do not match raise.", "quantifier": "frames of every size, every division of both operands into blocks, every order of the labels, every right operand, every inner product", "why_tests_cant": "the product is computed block by block with labels written by hand, and whether it is right depends on the division, on the order of labels and on sizes that are 1", "anchors": ["modin/pandas/dataframe.py: DataFrame.dot, _reduce_dimension", "modin/pandas/series.py: Series.dot, _reduce_dimension, _get_name", "modin/core/storage_formats/pandas/query_compiler.py: PandasQueryCompiler.dot", "modin/core/storage_formats/base/query_compiler.py: columnarize"]}
{"id": "C78", "title": "A change in place is seen through exactly the objects that share the data", "statement": "After any program that makes frames and Series from one another and changes them in place, every object shows what the program means: `df.copy(deep=False)` and `DataFrame(df)` look at the same data as the object they were made of, also through several such steps and in both directions; a column taken out of a frame has data of its own, and a change of it in place is also made in the frame it was taken from and in everything that shares data with it; a deep copy or the result of an operation never changes together with the object it was made of.", "quantifier": "programs of every length over new objects, operations, shallow copies, frames made of frames, columns taken out of frames, changes in place and new labels, in every order", "why_tests_cant": "which objects change together depends on the whole history of copies: lists of siblings grow with every copy and are kept by hand in each object, while labels are written into the shared query compiler directly", "anchors": ["modin/pandas/base.py: _add_sibling, _update_inplace, copy, reindex, set_axis, _set_index", "modin/pandas/dataframe.py: DataFrame.__init__, _getitem_column, squeeze, _set_columns", "modin/pandas/series.py: Series._update_inplace, _set_name"]}
{"id": "C79", "title": "get_dummies makes pandas' indicator columns in pandas' order", "statement": "`pd.get_dummies(df, columns=cols)` shows the columns not listed, then for each listed column one indicator column per level, named and ordered as in pandas, with the row labels of `df`; without `columns`, the columns of text and categories are encoded. A label that is not a column is refused.", "quantifier": "frames of every size and division into blocks, every list of columns, every way of encoding a column (levels, names, cells), every assignment of dtypes", "why_tests_cant": "each block column is encoded on its own, the number of new columns depends on the data of each block and their labels are read back from the blocks; tests use small frames in one block", "anchors": ["modin/pandas/general.py: get_dummies", "modin/core/storage_formats/pandas/query_compiler.py: PandasQueryCompiler.get_dummies, drop", "modin/core/dataframe/pandas/dataframe/dataframe.py: apply_full_axis, take_2d_labels_or_positional, concat"]}
{"id": "C80", "title": "describe and select_dtypes give pandas' tables whatever the blocks", "statement": "`df.select_dtypes(...)` shows the columns whose dtype is wanted, in their order. `df.describe(include=...)` shows, for the columns pandas would describe, the statistics of each, in pandas' order of rows, with missing values where a column lacks a statistic; it raises when pandas does.", "quantifier": "frames of every size and division into blocks, every dtype per column, every choice of columns, every set of statistics per dtype", "why_tests_cant": "the table is assembled from descriptions of single block columns, which have different rows when dtypes differ between blocks; tests use few columns, which lie in one block", "anchors": ["modin/pandas/base.py: BasePandasDataset.describe", "modin/pandas/dataframe.py: DataFrame.select_dtypes", "modin/core/storage_formats/pandas/query_compiler.py: PandasQueryCompiler.describe", "modin/core/dataframe/pandas/dataframe/dataframe.py: apply_full_axis_select_indices", "modin/core/dataframe/pandas/partitioning/partition_manager.py: apply_func_to_select_indices_along_full_axis"]}
{"id": "C81", "title": "apply with a list or a dictionary of functions", "statement": "`df.apply([f, g])` (and `agg`) with functions that make one value shows a row for each function (`axis=1`: a column for each function); `df.apply({label: f, ...})` with functions that make a column shows the named columns in the order of the dictionary. What pandas refuses is refused.", "quantifier": "frames of every size and division into blocks, every list and dictionary of functions", "why_tests_cant": "whether the whole dictionary can be applied depends on which block columns hold the keys; tests use frames of a few columns in one block", "anchors": ["modin/pandas/base.py: BasePandasDataset.apply, aggregate", "modin/core/storage_formats/pandas/query_compiler.py: PandasQueryCompiler.apply, _dict_func, _list_like_func", "modin/core/dataframe/pandas/dataframe/dataframe.py: apply_full_axis, apply_full_axis_select_indices"]}
{"id": "C82", "title": "stack, unstack and pivot give pandas' frames whatever the blocks", "statement": "`df.stack()` shows the cells row by row, each labelled by its row and column, without the missing ones if asked. `df.unstack()` shows the cells column by column, or, for two levels of row labels, spreads one level over the columns with both axes sorted. `df.pivot(index, columns, values)` shows the values with the one column as row labels and the other as column labels. What pandas refuses (repeated row labels, repeated pairs) is refused.", "quantifier": "frames of every size and division into blocks, every labels, every choice of level, every choice of columns", "why_tests_cant": "each block is reshaped for itself, so the order of the cells and the detection of repeated labels depend on the division; tests use frames in one block row", "anchors": ["modin/pandas/dataframe.py: DataFrame.stack, DataFrame.unstack, DataFrame.pivot", "modin/core/storage_formats/pandas/query_compiler.py: PandasQueryCompiler.stack, unstack, pivot", "modin/core/dataframe/pandas/dataframe/dataframe.py: apply_full_axis"]}
{"id": "C83", "title": "resample puts every row in its bin whatever the blocks, with and without range partitioning", "statement": "`df.resample(rule).agg(...)` has a row for every bin from that of the first time to that of the last, in order, and each cell is the aggregation of the cells of the column whose time is in the bin, in order of time. The same with the times taken from a column (`on`), for `size`, and when rows are first split into ranges of bins (`RangePartitioning`).", "quantifier": "frames of every size and division into blocks, times in any order and with repetitions, every fixed step, origin, closed and labelled side, every aggregation of the cells of a bin, every number of ranges", "why_tests_cant": "where the rows are cut and where the ranges begin decide which blocks see which bins; tests use evenly spaced times in which no range is empty and no time is on a cut", "anchors": ["modin/pandas/resample.py: Resampler", "modin/core/storage_formats/pandas/query_compiler.py: PandasQueryCompiler._resample_func, resample_size", "modin/core/dataframe/pandas/dataframe/utils.py: ShuffleResample", "modin/core/dataframe/pandas/dataframe/dataframe.py: PandasDataframe._apply_func_to_range_partitioning"]}
{"id": "C84", "title": "head, tail, take, truncate, filter and sample return exactly the rows or columns asked for", "statement": "`df.head(n)`, `df.tail(n)` (negative `n` included), `df.take(positions)`, `df.truncate(before, after)`, `df.filter(items | like | regex)` and `df.sample(n | frac)` return the rows or columns pandas returns, with their labels and in pandas' order, and raise when pandas does.", "quantifier": "frames of every size, empty ones included, and every division into blocks, labels recorded or not and repeated or not, every `n`, list of positions, pair of bounds, test of a label and sequence of random draws", "why_tests_cant": "a part of a frame is cut from blocks by positions whose place depends on where the blocks end; what is lost when no block is left, or when a label repeats, shows only on frames tests do not build", "anchors": ["modin/pandas/base.py: BasePandasDataset.head, tail, take, truncate, filter, sample, __getitem__", "modin/pandas/indexing.py: _iLocIndexer.__getitem__", "modin/core/storage_formats/pandas/query_compiler.py: PandasQueryCompiler.getitem_array, getitem_column_array, getitem_row_array"]}
{"id": "C85", "title": "equals, iterrows, items, itertuples and asof answer as pandas does however the frames are divided", "statement": "`a.equals(b)` is true exactly when the two frames have the same labels and the same cells. `df.iterrows()`, `df.items()` and `df.itertuples()` yield every row or column once, in order, with its label. `df.asof(where, subset)` returns for every entry of `where` the last row at or before it without missing values in `subset`, or a row of missing values.", "quantifier": "frames of every size and every division into blocks (two frames divided differently for `equals`), every notion of equal cells and of missing cells, every list `where` and every `subset`", "why_tests_cant": "`equals` compares block by block after bringing one frame to the other's division and then reduces the verdicts twice: a block left out, or an empty list of verdicts, shows only for particular divisions; `asof` goes through labels, so its answer depends on how labels repeat and are ordered", "anchors": ["modin/pandas/dataframe.py: DataFrame.equals, iterrows, items, itertuples", "modin/pandas/iterator.py: PartitionIterator", "modin/pandas/base.py: BasePandasDataset.asof, all", "modin/core/storage_formats/pandas/query_compiler.py: PandasQueryCompiler.equals, all"]}
{"id": "C86", "title": "read_excel and read_json(lines=True) return the frame pandas reads however the file is cut for the workers", "statement": "`read_excel(file)` returns the frame pandas reads from the worksheet: a row for every row of the sheet after the header, in order, with the same cells and column names. `read_json(file, lines=True)` returns a row for every line, in order, with the cells of its record. Neither depends on the number of partitions.", "quantifier": "worksheets and files of every content and size, every number of partitions, header in the first row or none", "why_tests_cant": "where the file is cut depends on its bytes and on the number of workers: a row lost or read twice at a cut, or a row number not adjusted, shows only for particular sizes; files used in tests are cut at a few places only", "anchors": ["modin/core/io/text/excel_dispatcher.py: ExcelDispatcher._read", "modin/core/storage_formats/pandas/parsers.py: PandasExcelParser.parse, get_sheet_data, PandasJSONParser.parse", "modin/core/io/text/json_dispatcher.py: JSONDispatcher._read", "modin/core/io/text/text_file_dispatcher.py: TextFileDispatcher._define_metadata, partitioned_file"]}
{"id": "C87", "title": "groupby(...).apply(f) returns pandas' frame whatever the partitioning, also when the results of the groups have different columns", "statement": "With range partitioning `df.groupby(by).apply(f)`, `f` returning a frame for each group, is the frame pandas returns: `f` is called with all rows of each group in their order, the results are put under each other with the key before their labels, and the result has a column for every column of some result, in the order in which they first occur; cells of columns a group has not are missing.", "quantifier": "frames of every size and partitioning, every function returning frames, every choice of pivots, with and without dropping missing keys, on a Ray cluster or not", "why_tests_cant": "the groups are applied in ranges that depend on sampled pivots and the columns of the ranges are joined afterwards; a column lost, doubled or misplaced shows only if results differ between ranges, or if a range is empty", "anchors": ["modin/core/dataframe/pandas/dataframe/dataframe.py: PandasDataframe.groupby, compute_aligned_columns, join_cols, apply_func", "modin/core/storage_formats/pandas/query_compiler.py: PandasQueryCompiler._groupby_shuffle"]}
{"id": "C88", "title": "pivot_table returns pandas' table whatever the partitioning", "statement": "`df.pivot_table(index=i, columns=c, values=..., aggfunc=...)` is the table pandas returns: a row for each value of column `i` and columns for each aggregated column and value of column `c`, both sorted, and in each cell the aggregation of exactly the cells of the rows with that pair of keys, missing if there are none; `dropna` and `fill_value` act as in pandas.", "quantifier": "frames of every size and partitioning, every two key columns in either order, one, several or all other columns as values, every aggregation with a map and a reduce phase, with and without dropna and fill_value", "why_tests_cant": "the aggregation is done in parts and reduced, then unstacked in full columns; a wrong order of the keys, a group split over blocks or a misplaced cell shows only for particular data and cuts", "anchors": ["modin/core/storage_formats/pandas/query_compiler.py: PandasQueryCompiler.pivot_table", "modin/core/storage_formats/pandas/groupby.py: PivotTableImpl.map_reduce_impl, PivotTableImpl._separate_data_from_grouper, PivotTableImpl._pivot_table_from_groupby"]}
{"id": "C89", "title": "value_counts and groupby size count every row once", "statement": "`df.value_counts(...)`, `s.value_counts(...)` and `df.groupby(by).size()` list each combination of values that occurs (without missing ones unless `dropna=False`) exactly once, with the number of rows that have it; `value_counts` sorts by the count if asked, and with `normalize` divides by the sum of all counts.", "quantifier": "frames and series of every size and partitioning, every subset of the columns, every by-data with the same rows, sort, ascending, dropna and normalize either way, every choice of pivots in the distributed sort", "why_tests_cant": "the counts are made per block on the block column of the first column only, then summed and sorted by ranges; a row counted twice or in the wrong group shows only for particular cuts and data", "anchors": ["modin/pandas/base.py: BasePandasDataset.value_counts", "modin/pandas/series.py: Series.value_counts", "modin/core/storage_formats/pandas/query_compiler.py: PandasQueryCompiler.groupby_size, PandasQueryCompiler._groupby_dict_reduce", "modin/core/dataframe/algebra/groupby.py: GroupByReduce"]}
{"id": "C90", "title": "update, combine_first and compare match cells by their labels", "statement": "`df.update(other, overwrite, filter_func, errors)` changes `df` exactly where pandas does, with the values of `other` under the same labels, and fails exactly when pandas does; `a.combine_first(b)` has the joined labels, the values of `a`, and where `a` has none those of `b`; `a.compare(b, align_axis, keep_shape, keep_equal)` lists exactly the cells in which two frames with the same labels differ.", "quantifier": "pairs of frames of every size with every pair of partitionings, unsorted row labels and for update repeated row labels of the frame updated, all values of the arguments", "why_tests_cant": "the frames are joined, relabelled and cut alike before the blocks are combined; a value found under the wrong label, or lost in one block, shows only for particular label orders and cuts", "anchors": ["modin/pandas/dataframe.py: DataFrame.update, DataFrame.compare", "modin/pandas/series.py: Series.update, Series.compare", "modin/pandas/base.py: BasePandasDataset.combine_first", "modin/core/storage_formats/pandas/query_compiler.py: PandasQueryCompiler.df_update, PandasQueryCompiler.series_update, PandasQueryCompiler.combine_first, PandasQueryCompiler.compare"]}
{"id": "C91", "title": "Going through the groups of a frame gives pandas' groups with pandas' frames", "statement": "`for k, g in df.groupby(by)` gives each key that occurs (and is not missing, with dropna) once, in pandas' order, with exactly the rows of that key in their order, under their labels; `groups` and `len` name the same keys, with the labels of their rows.", "quantifier": "frames of every size with every partitioning, one column or series with every partitioning of its own, or any several columns of the frame, missing keys, both values of sort and dropna", "why_tests_cant": "the rows of a group are spread over blocks and are found by their positions over all of them; a group that misses the rows of one block, or has those of another key, shows only for particular cuts and key layouts", "anchors": ["modin/pandas/groupby.py: DataFrameGroupBy._iter, DataFrameGroupBy._compute_index_grouped, DataFrameGroupBy.groups, DataFrameGroupBy.indices, DataFrameGroupBy.__len__, DataFrameGroupBy.__getitem__, SeriesGroupBy._iter", "modin/pandas/dataframe.py: DataFrame.groupby", "modin/core/storage_formats/pandas/query_compiler.py: PandasQueryCompiler.getitem_row_array"]}
{"id": "C92", "title": "Aggregating groups with a dictionary or named arguments gives pandas' table", "statement": "`df.groupby(labels).agg({column: function or list of functions})` and `df.groupby(labels).agg(x=(column, function), ...)` with functions known by name give a row per group and a column per function, each cell the function of the column's cells in the group's rows, columns in the order asked for and labelled as asked.", "quantifier": "frames of every size with every partitioning, every set of key columns, every dictionary or list of arguments over the frame's columns, every mix of functions that can be combined from parts, missing keys and values, both values of dropna", "why_tests_cant": "an entry is computed in those blocks that have its column and combined over the blocks of rows; a block that loses an entry, takes another's function, or columns put together in the wrong order show only for particular cuts and dictionaries", "anchors": ["modin/core/storage_formats/pandas/query_compiler.py: PandasQueryCompiler._groupby_dict_reduce", "modin/core/dataframe/algebra/groupby.py: GroupByReduce.map, GroupByReduce.reduce, GroupByReduce.get_callable, GroupByReduce._build_callable_for_dict", "modin/core/storage_formats/pandas/groupby.py: GroupbyReduceImpl", "modin/pandas/groupby.py: DataFrameGroupBy.aggregate", "modin/core/dataframe/pandas/partitioning/partition_manager.py: PandasDataframePartitionManager.groupby_reduce"]}
{"id": "C93", "title": "Sorting the columns by the values of rows gives pandas' frame", "statement": "`df.sort_values(by, axis=1)` returns the columns of `df`, each once with all its cells and its label, ordered by the cells of the rows named: the first row decides, ties go to the next one, in the direction asked for and with missing values where asked.", "quantifier": "frames of every size with every partitioning, every choice of rows, every `ascending`, `na_position` and `key`, and every sorting algorithm pandas may use (stable or not)", "why_tests_cant": "the rows are fetched one by one from the blocks, ordered in one place, and the whole frame is then rearranged by label; labels that are not positions, labels that repeat and renumbered labels go wrong only for particular indexes", "anchors": ["modin/core/storage_formats/pandas/query_compiler.py: PandasQueryCompiler.sort_columns_by_row_values, PandasQueryCompiler.getitem_row_array, PandasQueryCompiler.reindex", "modin/pandas/base.py: BasePandasDataset.sort_values"]}
{"id": "C94", "title": "A function of single values gives pandas' answer and raises when pandas raises; so do to_numeric, to_timedelta and to_datetime", "statement": "Applying a function of single values that may raise to a frame returns pandas' frame, or raises exactly when some value makes the function raise. `pd.to_numeric(s, errors=...)`, `pd.to_timedelta(s, errors=...)` and `pd.to_datetime(s, format=..., errors=...)` of a Series return pandas' Series or raise exactly when pandas raises.", "quantifier": "every frame and Series with every division into blocks, every function of single values, every plan of execution (block by block, joined blocks, whole rows or columns), every `errors`", "why_tests_cant": "each block is converted by itself, and what a worker gets depends on the sizes and the number of CPUs; pandas decides some questions (the date format, whether to leave the input alone) by looking at the whole column", "anchors": ["modin/core/storage_formats/pandas/query_compiler.py: PandasQueryCompiler.to_numeric, PandasQueryCompiler.to_timedelta, PandasQueryCompiler.to_datetime", "modin/core/dataframe/algebra/map.py: Map.register", "modin/core/dataframe/pandas/partitioning/partition_manager.py: PandasDataframePartitionManager.map_partitions", "modin/pandas/general.py: to_numeric, to_datetime, to_timedelta"]}
{"id": "C95", "title": "astype casts the columns asked for and raises when pandas raises", "statement": "`df.astype(dtype)` and `df.astype({name: dtype})` return pandas' frame with pandas' dtypes: every column with a dtype asked for is cast (categories are made from the whole column), all others are unchanged. It raises exactly when a name is not a column or a column cannot be cast.", "quantifier": "every frame with every division into blocks, every way of casting (value by value, or for categories from the whole column), every dtype or dictionary, columns with equal names included", "why_tests_cant": "whether the blocks are cast one by one, as whole columns or not at all depends on the dtypes recorded and asked for; each block sees only the part of the dictionary that concerns it", "anchors": ["modin/core/dataframe/pandas/dataframe/dataframe.py: PandasDataframe.astype", "modin/pandas/base.py: BasePandasDataset.astype"]}
{"id": "C96", "title": "replace, round, Series.map and Series.apply change every value as pandas does", "statement": "`df.replace(...)` puts the values given for all or for named columns in the places of the old ones, `df.round(...)` rounds every value by the decimals for its column, `s.map(function, dictionary or Series)` and `s.apply(function)` return pandas' Series with its name, and raise exactly when pandas raises.", "quantifier": "every frame and Series with every division into blocks, every plan of execution, all arguments", "why_tests_cant": "each block is treated by itself, with the column names it happens to carry; what pandas does with whole columns and whole dictionaries has to follow from that for every division", "anchors": ["modin/core/storage_formats/pandas/query_compiler.py: PandasQueryCompiler.replace, PandasQueryCompiler.round, PandasQueryCompiler.map", "modin/pandas/dataframe.py: DataFrame.replace", "modin/pandas/base.py: BasePandasDataset.round", "modin/pandas/series.py: Series.map, Series.apply, Series.replace"]}
{"id": "C97", "title": "Cutting into pieces loses nothing and repeats nothing", "statement": "`train_test_split(df, train_size=...)` returns two frames whose rows, one after the other, are the rows of `df` with their labels; a `ModinDataLoader` gives exactly the rows its sampler names, in that order, in batches of `batch_size` rows of which only the last may be smaller, and `len(loader)` is the number of batches; `split` of a `modin.numpy` array gives the pieces `numpy.split` gives.", "quantifier": "every frame with every division into blocks, every fraction, batch size and order of a sampler, every array, axis, list of indices and number of parts", "why_tests_cant": "boundaries (an empty piece, a last piece that is full, an index of 0, below 0 or beyond the end) are met by a few combinations of length and argument only", "anchors": ["modin/experimental/sklearn/model_selection/train_test_split.py: train_test_split", "modin/experimental/torch/datasets.py: ModinDataLoader", "modin/numpy/arr.py: array.split"]}
{"id": "C98", "title": "merge_asof joins to every row the row pandas joins", "statement": "`pd.merge_asof(left, right, ...)` returns the frame pandas returns: one row for every row of `left`, in its order, with the cells of the row of `right` with the nearest key (in the given direction, within the tolerance, with the same value of `by`) or with missing values, pandas' columns and pandas' row labels; it raises when pandas raises.", "quantifier": "all frames with all row labels and columns, every direction, tolerance and choice of on, left_on, right_on, left_index, right_index, by, left_by, right_by", "why_tests_cant": "the partner of a row is found by pandas from the key columns alone and put back by labels: whether that is the same depends on every combination of labels, names and arguments", "anchors": ["modin/core/storage_formats/base/query_compiler.py: BaseQueryCompiler.merge_asof", "modin/pandas/general.py: merge_asof"]}
{"id": "C99", "title": "The rows of a modin.polars frame are known by their positions alone", "statement": "`filter`, `is_duplicated`, `is_unique`, `n_unique`, `max_horizontal`, `min_horizontal`, `max(axis=1)`, `min(axis=1)`, `with_row_index`, `equals`, `head`, `tail`, `slice`, `gather_every` and `reverse` of a `modin.polars` frame give what Polars gives for the frame with the same columns and rows, whatever operations the frame is the result of.", "quantifier": "all frames, all row labels the frame carries unseen, all divisions into blocks", "why_tests_cant": "the frame is kept with row labels that Polars does not have: whether they come to light depends on the history of the frame, and the answer on every division into blocks", "anchors": ["modin/polars/dataframe.py: DataFrame.n_unique, min, max, min_horizontal, max_horizontal, with_row_index, reverse", "modin/polars/base.py: BasePolarsDataset.filter, is_duplicated, is_unique, equals, head, tail, slice, gather_every", "modin/core/storage_formats/pandas/query_compiler.py: PandasQueryCompiler.getitem_row_array, equals"]}
{"id": "C100", "title": "Indexing a modin.numpy array gives what NumPy gives", "statement": "`a[r]` and `a[r, c]` of a `modin.numpy` array give the same cells, in the same order and with the same number of dimensions as NumPy, a value where NumPy gives a value, and raise where NumPy raises.", "quantifier": "all arrays with one or two dimensions, all keys that are integers, lists of integers, lists of booleans or slices without a step", "why_tests_cant": "negative positions, positions outside, repeated positions and the dimensions that go away meet in every combination of two keys, for every shape", "anchors": ["modin/numpy/indexing.py: ArrayIndexer.__getitem__, _compute_lookup, _compute_ndim, _get_numpy_object_from_qc_view, boolean_mask_to_numeric", "modin/numpy/arr.py: array.__getitem__, array.__init__"]}
{"id": "C101", "title": "Assignment to a modin.numpy array changes what NumPy changes", "statement": "`a[r] = value` and `a[r, c] = value` of a `modin.numpy` array leave the cells that NumPy leaves, put the values where NumPy puts them, and touch nothing else: neither other cells nor the labels of a frame the array was made of.", "quantifier": "all arrays with one or two dimensions, all divisions into blocks, all keys that are integers, lists of integers, lists of booleans or slices without a step, scalars and arrays as values, all histories of copies", "why_tests_cant": "the value is sorted, given another shape and cut up for the blocks; positions in any order, repeats and every division into blocks meet, and an array may share its data with a frame", "anchors": ["modin/numpy/indexing.py: ArrayIndexer.__setitem__, _setitem_positional, _determine_setitem_axis, _compute_lookup", "modin/numpy/arr.py: array.__init__, array._add_sibling, array._update_inplace", "modin/pandas/utils.py: broadcast_item", "modin/core/storage_formats/pandas/query_compiler.py: PandasQueryCompiler.write_items"]}
{"id": "C102", "title": "New labels reach exactly the rows and columns named", "statement": "`rename` (with a dictionary or a function, by `mapper` and `axis` or by `index` and `columns`), `add_prefix`, `add_suffix` and `set_axis` give every row and column the label pandas gives it, leave the cells and the frame they are called on unchanged, and raise exactly when pandas raises.", "quantifier": "all frames, all divisions into blocks, all dictionaries and functions, all combinations of arguments", "why_tests_cant": "labels are kept apart from the blocks and written later; the arguments combine freely, and a copy may or may not share its labels with the frame", "anchors": ["modin/pandas/dataframe.py: DataFrame.rename, add_prefix, add_suffix", "modin/pandas/series.py: Series.rename", "modin/pandas/base.py: BasePandasDataset.set_axis", "modin/core/storage_formats/pandas/query_compiler.py: PandasQueryCompiler.add_prefix, add_suffix", "modin/core/dataframe/pandas/dataframe/dataframe.py: PandasDataframe.rename"]}
{"id": "C103", "title": "A cross-section, a column asked for and a column taken out", "statement": "`xs(key, axis=..., drop_level=...)`, `get(key)` and `pop(key)` give the rows or columns with that label, as a Series when there is one and as a frame when there are several, `pop` leaves exactly the other columns in the frame, and a label that is not there is a `KeyError` (the default for `get`). What was popped has no connection with the frame any more.", "quantifier": "all frames, all divisions into blocks, all labels, once, several times (next to each other or not) or not at all, both axes", "why_tests_cant": "the positions of a label come as a number, a slice or a mask depending on the labels, each read in its own way from the blocks; what a popped column still refers to shows only after a later change", "anchors": ["modin/pandas/base.py: BasePandasDataset.xs, get, pop", "modin/pandas/dataframe.py: DataFrame.__delitem__, _getitem_column", "modin/pandas/series.py: Series._update_inplace"]}
{"id": "C104", "title": "squeeze takes away exactly the axes of length one", "statement": "`df.squeeze(axis)` returns the only cell, the only row, the only column or the frame, as its shape and `axis` say; `s.squeeze(axis)` the only value or the Series; an axis that is not there raises.", "quantifier": "all frames and Series of all shapes, empty ones included, all divisions into blocks, all axes", "why_tests_cant": "which kind of object comes back depends on both lengths and the argument, and a row is made a Series by transposing blocks", "anchors": ["modin/pandas/dataframe.py: DataFrame.squeeze", "modin/pandas/series.py: Series.squeeze, _reduce_dimension", "modin/core/storage_formats/base/query_compiler.py: BaseQueryCompiler.columnarize"]}
{"id": "C105", "title": "Reading a Series by label, by position or by mask", "statement": "`s[key]` with a label, a list of labels or a list of booleans returns the values with these labels, a single value for a label that is there once and otherwise a Series with the labels and the name of `s`; an integer is a position only if no label is an integer; a key that is not there raises. `s.item()` returns the only value and raises if there is not exactly one.", "quantifier": "all Series, all divisions into blocks, all labels (integers, strings, both, repeated), all keys", "why_tests_cant": "whether an integer means a label or a position depends on all the labels; the positions are then looked up in the blocks", "anchors": ["modin/pandas/series.py: Series._getitem, _reduce_dimension, item", "modin/pandas/base.py: BasePandasDataset.__getitem__", "modin/core/storage_formats/pandas/query_compiler.py: PandasQueryCompiler.getitem_row_array"]}
{"id": "C106", "title": "The name of a Series and the label of its column", "statement": "`s.name` is what was last assigned to it; `s.to_frame(name)` and `DataFrame(s)` make the frame of one column with the values and labels of `s`, labelled by the argument, by the name of `s`, or 0; `s.repeat(n)` keeps the name and repeats values and labels together.", "quantifier": "all Series, all divisions into blocks, all names (None included), all numbers and lists of numbers of repetitions", "why_tests_cant": "a Series without a name is a frame whose column has a reserved label, which must never be shown, for any sequence of conversions", "anchors": ["modin/pandas/series.py: Series._get_name, _set_name, to_frame, repeat", "modin/pandas/dataframe.py: DataFrame.__init__"]}
{"id": "C107", "title": "Writing a Series by key", "statement": "`s[x] = v` replaces every value labelled `x` by `v`, or takes `x` as a position when pandas does, or appends the label and the value if there is no such label; `s[mask] = v` replaces exactly the values where the mask is true. All other values, all labels and the name stay.", "quantifier": "all Series with values, all divisions into blocks, all scalar keys, all masks, all scalar values", "why_tests_cant": "the label may be in any block, in several, or in none, and a block of one column takes another path than a frame; no finite set of divisions shows that no other value is touched", "anchors": ["modin/pandas/series.py: Series.__setitem__", "modin/pandas/indexing.py: _LocIndexer.__setitem__, _set_item_existing_loc, _determine_setitem_axis"]}
