# Formal model of modin in Lean 4

This directory holds a machine-checked model of the semantic core of
`modin-project/modin` (source in `/repo`, pinned commit) and proofs of the
properties listed in `properties.jsonl`.

## 1. Trusted base

* Lean 4.33.0's kernel.
* The axioms each theorem depends on. Only Lean's three standard axioms occur
  (`propext`, `Classical.choice`, `Quot.sound`); section 6 explains how to print them.
  There is no `sorry`, no `admit`, no `axiom`, no `native_decide`, no `bv_decide`.
* The correspondence between the Python code and the definitions under
  `lean/Verif/Model/`. Every definition cites the file and lines it models and says
  what it simplifies. Nothing checks this correspondence mechanically.
* The specifications under `lean/Verif/Pandas/`: what "the pandas result" means. They are
  short and do not mention partitions.

## 2. Layout

* `lean/Verif/Pandas/*.lean`   specifications (pandas semantics on undivided data)
* `lean/Verif/Model/*.lean`  model of the modin code, function by function
* `lean/Verif/Lemmas/*.lean` helper lemmas
* `lean/Verif/Props/*.lean`  the property theorems, each next to non-vacuity examples
* `properties.jsonl`, `MANIFEST.json`, `seeded/LOG.jsonl`

## 3. Representation choices (apply everywhere)

* A pandas frame is `Frame ι κ α`: list of row labels, list of column labels, list of rows
  (`List (List α)`), with a well-formedness predicate. Cell values are an arbitrary type;
  where arithmetic matters it is `Int` or `Rat` (exact) with missing values as `Option`.
  Floating-point rounding is not modelled.
* A partition grid is a list of rows of blocks, a block being a pandas frame.
* Remote execution: a future is identified with its value. What is modelled is *which*
  function is applied to *which* data in *which* order, not the transport (pickling,
  object store, networking, process crashes).
* User functions are arbitrary Lean functions; functions that may raise return
  `Except`. Random sampling is a universally quantified list of pivots/samples.
* Python exceptions are values (`Except`/`Option`), never totalised away.

## 4. Properties, models and proof methods

| id | modelled | proof | 
|----|----------|-------|
| C01 | `compute_chunksize`, `from_pandas`, `split_pandas_df_into_partitions`, `create_pandas_df_from_partitions` on frames with labels | induction over chunk lists; round-trip theorem for every shape and configuration |
| C02 | `row_lengths`/`col_widths` comprehension of `from_pandas`, `compute_chunksize` | arithmetic invariants by induction |
| C03 | `get_length_list`, `split_result_of_axis_func_pandas`, `generate_result_of_axis_func_pandas` | cumulative-slice concatenation lemma |
| C04 | `base_map_partitions`, `lazy_map_partitions`, `map_axis_partitions`, `map_partitions_joined_by_column`, `map_partitions` (plan choice) | refinement to map on the undivided data for all three plans |
| C05 | `deploy_axis_func`, `apply_full_axis` on column and row partitions | refinement; user function quantified over all column-local/row-local functions |
| C06 | call queue of block and axis partitions as a state machine | invariant over all histories of events |
| C07 | the same with raising functions | state machine; the Python engine violates it: negation with witness + partial theorem |
| C08 | `_take_2d_positional`, `mask`, `_reorder_labels` | refinement to take; duplicates violate it: negation + partial |
| C09 | `_get_dict_of_block_index` | induction over blocks |
| C10 | `apply_func_to_indices_both_axis`, `write_items` | refinement to pointwise update |
| C11 | `concat` (axis 0) incl. rebalancing | refinement to list append |
| C12 | `rebalance_partitions` | loop invariant of the greedy loop |
| C13 | `_copartition`, `_join_index_objects`, `n_ary_operation` | refinement to reindex + zip |
| C14 | `tree_reduce` kernels with `skipna`/`min_count` | monoid-homomorphism induction over block lists |
| C15 | `mean` map/reduce kernels | same, over `Rat` |
| C16 | GroupByReduce map/reduce for each registered aggregation | per-key fold homomorphism |
| C17 | the same with `min_count` | false for k >= 2: negation + partial for k <= 1 |
| C18 | pivots, `split_partitions_using_pivots_for_sort`, `shuffle_partitions`, `sort_by` | for all pivots: uniqueness of stable sort |
| C19 | as C18 with arbitrary per-partition functions | partition-of-keys theorem |
| C20 | `row_axis_merge` | distributivity of join over append |
| C21 | `range_partitioning_merge` | permutation theorem for all pivots |
| C22 | deferred-label flags and decorator | invariant over all histories |
| C23 | `offset`, `_read_rows`, `partitioned_file` on byte lists | quote-state automaton invariant |
| C24 | nrows handling of `partitioned_file` | same; the violating corner cases as negations |
| C25 | `_manage_skiprows_parameter` + later filtering | decision logic; negation for the violating case |
| C26 | `Parameter` get/put/subscribe/once | state-machine invariant |
| C27 | `context` | program-logic style theorem over arbitrary bodies |
| C28 | `_deconstruct_*`, `construct_*` | encoder/decoder correctness by induction over the graph |
| C29 | `BackendCostCalculator.calculate` | argmin theorem by induction |
| C30 | `DtypesDescriptor` operations | soundness invariant preserved by each operation |
| C31 | `transpose` | matrix transposition lemmas |
| C32 (done) | `reset_index` (frontend check, lazy and eager), `from_labels`, `set_index`, `to_labels` | prefix-sum lemma for the lazily numbered bands; the frame equals pandas'; round trip |
| C33 (done) | `dropna`, `filter`, `broadcast_apply` (both plans), the mapper and the reducer | any/all are homomorphisms over row partitions; kept columns per block column put side by side |
| C34 (done) | `drop` of the frontend and of the query compiler | positions kept are those of unlisted labels; the frame equals pandas' |
| C35, C36 (done) | corr/cov and skew kernels over `Rat` | every summary of a row partition is a sum over pairs of present values, sums over partitions add up, and the closing formulas are the multiplied-out sums of deviations |
| C37 | `register_backend` | invariant over all histories |
| C38 | `EnvWithSibilings` | invariant over all histories |
| C39 | `_determine_partitioning` | loop invariant |
| C40 | `SQLDispatcher._read` | arithmetic |
| C41 (done) | `duplicated`, `apply_full_axis(axis=0)` | the marks depend only on which rows are equal; a digest that is equal exactly on equal rows gives the same marks |
| C42 (done) | `insert`, `insert_item`, `df[key] = value`, `apply_select_indices`, `apply_full_axis_select_indices` | block widths `pre ++ (w+1) :: post`; the frame equals list insertion; labelled values through the proved `concat` |
| C45 | `groupby_reduce` with by-data of another frame | false unless equally labelled and divided: negations + partial |
| C46 | `join_columns` and `_compute_result_metadata` | equality with pandas' naming rule; negations for swapped keys and `None` suffixes |
| C47 | `Engine`, `StorageFormat`, `Backend` and `set_execution` over the registry | invariant over histories; negation for deactivated backends |
| C28 (done) | `DeferredExecution.__init__`, `exec`, `_deconstruct*`, `construct*`, and the partition calls that use them | symbolic description of the flat list with places filled in later; accounting of subscribers; invariant over histories |
| C39 (done) | `ParquetDispatcher` (partitioning, deploy, index, normalisation of blocks), `ColumnStoreDispatcher`, feather | row groups consumed = a prefix of the flattened files, induction on the search; then `Shows` as in C22 |
| C40 (done) | `SQLDispatcher._read` | windows tile the rows; labels by offset |
| C48 | `ParquetDispatcher.write`, part file names, listing by name | names are ordered like partition numbers up to 10000 (arithmetic on digits); sorting a permutation of the writes restores the order; then C39 |
| C49 | `to_sql` on Ray and Dask | multiset equality under permutation of appends |
| C29 (done), C50 | `BackendCostCalculator`, `_get_backend_for_auto_switch`, `visit_nested_args`, `wrap_function_in_argument_caster`, `set_backend`, `_copy_into` | totals as sums by induction on the operands, argmin by induction; a copies relation between originals and casts that the visit establishes and the copy back closes |
| C51 | `getitem_array`, `Binary.register` (broadcast), `broadcast_apply(axis=0)`, `_copartition(axis=0)` of two frames with different kinds of cells | both grids are cuts of the aligned frames at the same rows; picking rows block by block is picking rows of the whole |
| C52 | `drop_duplicates`, `Series.unique`, `unique` (both query compilers), `getitem_column_array(ignore_order=True)`, `invert` | composition of C41, C51 and C32 through `Shows`; one column: the kernel on the whole column (`uniqueKernel_shows`), marks against recursion (`keepWhere_marks_first`) |
| C53 | workers of `to_csv` as a transition system (phases, events, file with open/write semantics per mode), started in any order under a limit of places, dying anywhere | invariant `CsvInv` by induction over the run; rank argument for termination; progress by cases on the worker whose turn it is |
| C54 | `broadcast_apply` along both axes: alignment of two frames along one axis (`copartitionRows`, `copartitionCols`), blockwise operation with the other frame's block row/column, the Series transposed for axis 1 | alignment shown to give the reindexed frames with one division, then block-by-block = whole (slicing commutes with the operation) |
| C55 | `iloc`/`loc` assignment from the key: `_compute_lookup`, `get_positions_from_labels`, `_determine_setitem_axis`, the three branches of `_setitem_positional` (whole column through `df[key] = item`, whole row through `_setitem(axis=1)`, both axes through `write_items`) | each branch shown to be the same positional `Frame.assign`; keys shown to find the specified positions |
| C56 | `reindex` at the API and in the query compiler, `apply_full_axis` along both axes (`keep_partitioning`, the lengths it may keep), `loc.__setitem__` with `_check_missing_loc` and `_setitem_with_new_columns` | pandas' `reindex` of a column partition is the slice of `reindex` of the frame; then the deployment theorems of C03; enlarging reduces to C55 on the enlarged frame |
| C57 | `sort_index` at the API and in the query compiler, both axes, `ignore_index` | a partition sorted by its labels is the slice of the sorted frame, then C56's theorems on `apply_full_axis`; a stable order of labels sorts the pairs (label, row) |
| C58 | `_nsort` with and without key columns; `first_valid_index`/`last_valid_index` as a reduction of columns, a tree reduction of rows and a lookup | one block column: rows taken by position; several: some partition lacks the key, so the map fails; the least first position over the columns is the first row with a valid cell |
| C59 | `fold` and `Fold.register`; `cumsum` and its relatives, `diff`, `fillna(method)`, `rolling`, `expanding` from the API down | functions of whole columns are column-local, so C05's theorems give every block; the shape is kept, so the recorded lengths stay true; the running functions are characterised cell by cell by induction over the cells already seen |
| C60 | `fillna` from the API down: `map`, `fold` and `broadcast_apply` with `labels=keep` | functions of a cell and its two labels commute with taking blocks, so every plan of `map_partitions` divides pandas' result like the frame; functions of a column and its name are column-local; a frame of values is first shown equal to its reindexed copy, then cut alongside |
| C61 | `where`, `isin`, `clip` from the API down to `n_ary_op`, `map` and `fold` | `where`: C13's aligned operands, each cell of an operand found by its labels; `isin`: functions of a cell and its labels under every plan of `map_partitions`; `clip`: lines clipped by position are column- or row-local, scalar bounds are functions of cells |
| C62 | `mode`, `quantile` with a list, `rank` from the API down to `apply_full_axis` with and without `sync_labels` | functions of whole columns (rows) are column-local (row-local); the modes of a block, filled up to the length of the frame, are a function of columns, and dropping the rows without values cuts back to the longest |
| C63 | `df.loc[mask, cols] = v`: `setitem_bool`, `broadcast_apply_full_axis` with a broadcast frame and `keep_partitioning=False` | with distinct labels the flag of a row is a function of its label, so what is done to a row partition is that part of what is done to the frame |
| C64 | `query`: the walk over the expression in `rowwise_query`, `filter`; `explode` with the labels and lengths it computes | the walk accepts exactly the expressions without calls; by induction on the expression its value on a slice of rows is the slice of its value; the rows made of a slice of rows are a slice of the groups of rows made |
| C65 | `unwrap_partitions` with the labels written first, `from_partitions` with the labels and sizes it reads off or is given | partitions that make up a frame are a cut of it; labels written into the blocks by `propagate`; the flags of the new frame say exactly which labels the blocks may lack |
| C66 | `DMatrix`, the two rounds of `_assign_row_partitions_to_actors`, `_split_data_across_actors`, `_get_dmatrix`, `create_actors`, `_train` up to the workers, `_predict` | an invariant of both rounds: what is given plus what is left is a permutation of the partitions, and the actors above the lower size plus the counter is constant; the second round uses up what is left exactly |
| C67 | `groupby_agg` on whole block columns: key columns by label, blocks with an applied column, the missing key columns put behind, `get_callable`, `handle_as_index_for_dataframe`, dropping of misaggregated columns | frames as lists of labelled columns: a block with the missing key columns has the frame's keys and computes the new columns of its own columns only; blocks left out would compute none; key columns are put in front by the first applied block alone |
| C68 | `case_when` from `Series` down to the blocks: the trivial-index short cut, reindexing of pandas Series, `_copartition(how="left", sort=False)` of Modin operands, the constructor's dropping of empty blocks, `map_data` and both ways of applying | what a block gets of an operand has the cells of its rows (by kind of operand); a block's result is then the slice of the whole result |
| C69 | `get_chunks` (per row block, or the frame divided anew), `get_column_by_name`, `to_numpy`, the three buffers of a string column, codes of categories, and the reading side: `from_dataframe_to_pandas` down to the loop over the strings | the offset of a string is the number of bytes before it, so its slice of the bytes is its encoding; chunks are `iloc` slices by C08's lemmas and their rows concatenate |
| C70 | `buffer_to_ndarray`, `bitmask_to_bool_ndarray`, `set_nulls` and `_inverse_null_buf`, `primitive_column_to_ndarray`, `string_column_to_ndarray` over buffers that are functions from positions to elements with a length; memory beyond is arbitrary | the three loops over the bits are one range split at byte boundaries; masks become `zipWith` over one range; slices of a longer buffer are refuted for all columns by the length of the array |
| C71 | `add_query`, `_complete_nodes`, `compute_batch` with the call queues of row partitions; the variables `reducer` sees are part of the state | draining a queue is composition; one query at a time an equation between what the partitions hold and the meaning of the query, also for failure; induction over queries and outputs; a grid of drained partitions is a division of their rows |
| C72 | `melt`, `broadcast_apply_select_indices` and `apply_func_to_select_indices` along rows | a block with the id columns added is a selection of the columns of its row partition; selecting columns keeps the row partitions (a new invariant of `take_2d`, the constructor and the writing of labels); rows of the result are tagged with column and row, and the tags of one column or one row are computed exactly, which gives the permutation |
| C73 | `iloc`/`loc.__getitem__`, `df[key]`, `squeeze`, `columnarize` | a pick per axis (one position or a list) is the specification; a lookup is shown to stand for the pick, `take_2d` gives the selected frame (C08), and a case analysis over scalar flags and shapes gives the kind; pandas' `slice_indexer` is a parameter, with an executable version for integer labels |
| C74 | `ModinIndex` with its identifiers, `_check_if_axes_identical`, `_filter_empties`, `_copartition`, `n_ary_operation` | a program is a list of steps over a growing list of frames; invariant over steps: what a frame knows is true, and frames with the same identifier agree on what it stands for; refinement to the same program in pandas |
| C75 | binary operations of `modin.numpy.array`: `_preprocess_binary_op` with its conversions in place and exchange of operands, the operators, the query compiler's `Binary` with `broadcast` and outer join | the specification is a relation `Broadcasts` (shape per dimension, elements at the repeated positions); case analysis over the shapes, element functions abstract with laws |
| C76 | reductions of `modin.numpy.array`: `sum`, `prod`, `max`, `min`, `all`, `any` with `axis`, `keepdims`, `initial`, `where` | every branch is shown to be one of three shapes of a general reduction; the specification folds over the selected elements in NumPy's order; fills with the neutral element (or `initial`) are absorbed, and for `max` the order by columns is a permutation |
| C77 | `DataFrame.dot` and `Series.dot` with frames, Series, matrices and vectors, on partitioned frames, including the check of the labels, `reindex` of the right operand (C56), the kernel, and the labels written by hand | the kernel treats rows independently, so blocks of rows give rows of the result; aligning twice is aligning once, for any order in which pandas lists a union |
| C78 | objects as (query compiler, list of siblings, parent) on a heap; `_add_sibling` with the list it lengthens while walking it, `_update_inplace` of frames and of Series, label setters, constructors; programs of any length | refinement to a machine of shared cells: siblings are exactly the objects with the same cell; and an invariant that query compilers and siblings never cross kinship |
| C79 | `get_dummies`: `map_fn` on whole block columns, selection and dropping of columns by label, joining side by side, the default list of columns | a function of whole columns that makes any number of columns of each, applied per block column, is the function of the frame; composed with the results on taking, dropping and joining columns |
| C80 | `select_dtypes` (flags set by label, dropping by label), `describe` (choice of columns, `describe_builder` per block column with the rows of all columns), `apply_full_axis_select_indices` | the selected block columns put side by side are the table of the selected columns; the statistics a block lacks are those its columns lack |
| C81 | `apply` with a list (`_list_like_func`) or a dictionary (`_dict_func`) | a table of reductions treats columns independently; a dictionary whose keys lie in one block column selects that block only, any other selects a block without some key |
| C82 | `stack`, `unstack` (per row partition then reindex to the product of labels; per column partition for a level), `pivot` (choice of columns, `set_index` per row partition, `unstack`, `droplevel`) | stacking distributes over row partitions; the partitions' unstacked cells are a permutation with distinct keys of the whole's, which the reindex sorts; spreading a level treats columns independently |
| C83 | `resample` (per column partition), with `on`, `size`; with range partitioning: `ShuffleResample`'s edges, splitting, bounds and filler rows, the kernel of a range | the bins depend on the row labels only, so columns are independent; sorting commutes with selecting; a time's range is its bin's range; the times of a range with its bounds reach from its first to its last bin; origins that differ by whole steps renumber the bins; the ranges' bins one after the other are the bins in order |
| C84 | `head`, `tail`, `take`, `truncate`, `filter`, `sample` from the API down to `take_2d_labels_or_positional`, with the handing over of empty frames to pandas | each is `iloc` with a slice or a list (C08, C73), a mask (C51) or distinct labels at their own positions; on ascending labels the bounds that `slice_locs` finds are counts of smaller labels, so that being in the slice is being within the bounds; slices that leave nothing are computed through |
| C85 | `equals` with the n-ary operation, its verdict blocks and the two `all` reductions; `iterrows`, `items`, `itertuples`; `asof` with `dropna`, `Index.asof`, `reindex` | with equal labels the joined division is the first frame's, so block (i, j) of both covers the same cells and the frames agree iff all pairs of blocks do; the verdict blocks have no usable labels or sizes cached, so `all` is computed over the grid of blocks; the iterators are `iloc` (C73); `asof` combines C33, C56 and the last label below a bound of an ascending list |
| C86 | `read_excel`: cutting the worksheet at `</row>`, renumbering rows in each piece, the parser of a piece, `_define_metadata`, assembling; `read_json(lines=True)` on `partitioned_file` | each piece ends at the last `</row>` of what was read, so pieces are runs of complete rows (induction over the loop), and with the count of rows before a piece its rows are numbered from the one after the header; the blocks stack to pandas' table; JSON: the ranges of C27 are runs of complete lines, so records are cut in groups |
| C87 | `groupby(...).apply` by range partitioning: `apply_func` with the flag on empty results, `compute_aligned_columns`, `join_cols`, the reindexing of the blocks | widening a frame to more columns composes, and the concat of the widened concats of ranges is the concat of all results with the columns in order of first occurrence; the ranges hold whole groups (C19), in the order of the keys for one column; a range with rows has a group since rows with a missing key lie in the last range, with the rows not before the last pivot |
| C88 | `pivot_table` by map and reduce: splitting the key columns off, `groupby_reduce` with the finalizer on full columns, unstacking, dropping and filling | the reduced groups are pandas' groups (C16) with the pair of keys as label; unstacking them puts the aggregate of the rows of each pair in its place; the levels depend on the set of keys only, so the order of the key columns in the frame and of the groups does not matter; a total order has one sorted list of a set |
| C89 | `value_counts`, `groupby_size`: the dictionary aggregation `{columns[0]: size}` on the blocks of the first column, summed, then sorted by ranges and divided by the sum | the one block column selected is a cut of the first column; the length of a group is the sum of its lengths in the blocks (C16's argument); sorting is C18; the specification's keys and counts are characterised in `C89_meaning` |
| C90 | `df_update`, `series_update`, `combine_first` as n-ary operations on aligned blocks that may fail; `compare` block column by block column with all of the other frame | the left join of pandas is defined and proved to give indexers (`leftJoin_good`); the blocks after alignment are cuts of the relabelled frames (C13); a table fails iff one of its blocks does (`allSome_cut`); two block columns cannot both have all columns |
| C91 | `_compute_index_grouped` for one column and for several own columns, `_iter`, `groups`, `__len__`, `__getitem__` with a list | the key columns are gathered by `takeLabels`; the rows at the positions of a key are the cells beside it (`picked_cellsAt`); taking rows by position is C08; the sorted keys stay as they are under the second sort |
| C92 | `_groupby_dict_reduce`, `GroupByReduce.map`/`reduce` with dictionaries, `get_callable`, `groupby_reduce` with `apply_indices`, `aggregate` with named arguments (`reconstruct_func`, `do_relabel`), `_groupby_reduce_impls` | a block column's results, stacked, are a frame of columns (`dictStack`); looking results up by their distinct labels gives the entries back (`lookup_fns`); `cellsAt_partials` and the law of each function give the whole column's values; taking columns by label undoes the order of the blocks |
| C93 | `sort_values(axis=1)`, `sort_columns_by_row_values`, `getitem_row_array` | each fetched row is the row pandas looks up (`rowAtLabel_spec`, `rowNamed_of_count`), stacked they give pandas' keys; reindexing by permuted distinct labels takes the columns in that order (`reindexColumns_takeCols`) |
| C94 | `Map.register` for functions that may raise, `to_numeric`, `to_timedelta`, `to_datetime` | a worker's frame has exactly the values of its blocks, so functions that agree on frames of the values at hand give the same grid under every plan (`mapPartitions_congr_cells`), and one bad value makes every plan fail (`mapPartitions_fails`) |
| C95 | `astype` with its three ways (nothing to do, block by block, whole columns for categories) and the recorded dtypes | value-by-value casts commute with cutting rows; the part of the dictionary a block gets has the same effect on its columns; skipping is sound because columns of the right dtype are left alone |
| C96 | `replace`, `round`, `Series.map`, `Series.apply` | functions of a value and the name of its column commute with taking blocks (`mapCellsL_shows`, C60); functions that may raise as in C94; looking a label up with `get` agrees with pandas' reindexing where labels are unique and no integer is taken for a position |
| C97 | `train_test_split`, `ModinDataLoader`, `array.split` | the two slices meet at the same row (`ilocPart_rows`); the loop of the loader by induction over the rest of the sampler with the length of the buffer as invariant; the loop of `split` by induction over the indices, comparing each piece with Python's slice |
| C98 | `merge_asof` | the positions pandas finds are a parameter; reindexing by the labels at those positions gives the rows at those positions when labels are unique, and merging by equal unique labels puts rows side by side; induction over rows and columns |
| C99 | `modin.polars` frames | the methods are run on the models of the query compiler's selection, duplicates, reductions and `reset_index`; marks with `keep=False` say how often a row occurs (induction over the rows); what is seen leaves out the row labels |
| C100 | `a[key]` of `modin.numpy` arrays | the lookup of one axis equals the positions NumPy's key stands for (cases over the kind of key, induction over lists); the object made from the view equals NumPy's for each pair of scalar / not scalar keys |
| C101 | `a[key] = value` of `modin.numpy` arrays | the lookups are those of `iloc`; writing to the blocks is C10; the value for each cell is shown to be the one NumPy's broadcasting gives; sharing uses the heap of C78 |
| C102 | `rename`, `add_prefix`, `add_suffix`, `set_axis` | the calls of pandas on frames without rows or without columns are run on the specification; cases over which arguments are given; setting labels is C22, objects that share labels are on the heap of C78 |
| C103 | `xs`, `get`, `pop` | pandas' `Index.get_loc` is a parameter with what it promises as hypothesis (met by the `plainGetLoc` shown there); each of its three answers is reduced to a read by position (C73); `pop` is the read of C73 and the drop of C34, and on the heap of C78 a column with its parent |
| C104 | `squeeze` | a pick per axis, as pandas does it (`iloc` with 0 or `:`); the lemma on the kind of the result in C73 with the picks of the whole frame |
| C105 | `Series.__getitem__`, `item` | the positions a key stands for are compared with pandas' rule for integers, by cases over which keys are labels; taking rows by position is C08 |
| C106 | `Series.name`, `to_frame`, `DataFrame(s)`, `repeat` | a name is an optional label, stored as the reserved label when there is none; cases over name and argument; setting column labels is C22 |
| C107 | `Series.__setitem__` with a scalar | the key to positions as in C55, a missing label by the reindex of C56, then the block-wise write of C10 on a frame of one column; the spec zips labels (or mask) with values |
| C30 (done) | `DtypesDescriptor`, `ModinDtypes`, and the frame operations that carry dtypes | an invariant between a descriptor and the true dtypes (known ones right, unknown ones are columns, the rest has the remaining dtype), preserved by every operation, by induction over histories |

## 5. Not modelled

Floating-point rounding, dtype conversion rules of pandas, memory, wall-clock time,
process failures of Ray/Dask, MPI transport, logging, progress bars, plotting,
XGBoost/spreadsheet/fuzzydata integrations, string formatting, the pandas-API argument
checking layer other than what is named above.

## 6. Checking

`cd lean && lake build`, then `#print axioms <theorem>` for any theorem of `MANIFEST.json`.

## 7. Where the code does not meet a property

Each entry is a theorem with a concrete witness; the theorem that holds on the rest carries the suffix `_partial`.

| property | witness theorem | what happens |
|---|---|---|
| C07 | `C07_python_forgets_failure` | in-process engine: a failing deferred call empties the queue, so asking again succeeds with the un-applied data |
| C08 | `C08_repeats_wrong` | repeated integer positions that fall in one block are re-ordered |
| C08 | `C08_inverted_range_wrong` | a slice whose stop precedes its start selects rows |
| C10 | `C10_range_with_uneven_blocks_wrong`, `C10_one_dimensional_wrong`, `C10_one_dimensional_row_order_wrong` | assignment by position into ranges of unevenly divided frames; one-dimensional items |
| C13 | `C13_empty_band_wrong` | operands whose empty row bands are dropped for one operand only get paired with the wrong band |
| C14 | `C14_min_empty_band_wrong`, `C14_sum_empty_band_wrong` | `min`/`max` with `skipna=False` and `sum`/`prod` with `skipna=False, min_count=1` are missing when a row band is empty |
| C17 | `C17_min_count_wrong`, `C17_max_count_wrong` | `groupby(...).sum(min_count=2)` applies `min_count` inside every block |
| C18 | `C18_no_pivots_wrong` | with `NPartitions=1` and a frame in several row blocks no pivots are picked and every block is sorted by itself |
| C18 | `C18_key_fills_wrong` | `sort_values(key=...)`: missing rows are set aside before `key` is applied, so a key that fills missing values misplaces them |
| C19 | `C19_single_row_crash` | range partitioning by two columns: a row block with exactly one row without missing keys makes `key != groupby_codes[0]` ambiguous |
| C19 | `C19_two_keys_unsorted` | range-partitioned `groupby` by two columns with `sort=True` does not return the groups in order |
| C20 | `C20_sort_unnamed_wrong` | `merge(sort=True)` on the common columns without naming them is not sorted |
| C20 | `C20_sort_renamed_key_crash` | `merge(left_on, right_on, sort=True)` sorts by the old name of a key that got a suffix and raises |
| C20, C46 | `C20_swapped_keys_wrong` | a name in `left_on` and `right_on` at different places: the predicted columns miss two columns |
| C20, C46 | `C20_none_suffix_wrong` | `suffixes=(None, "_y")`: the predicted label is `vNone` |
| C22 | `C22_map_stale_wrong` | after `df.columns = ...`, `fillna`/`replace`/`round`/`isin` with a dictionary see the old column names |
| C22 | `C22_late_error` | `df.index = labels` of a wrong length is accepted while the index is not materialised |
| C23 | `C23_stray_quote_wrong` | `read_csv`: a quote character inside an unquoted field makes Modin cut inside a later quoted field |
| C23 | `C23_quoted_header_wrong` | `read_csv`: a header with a quoted newline is truncated to its first physical line in every part |
| C23 | `C23_leading_blank_wrong` | `read_csv`: a blank line before the header loses the first row of every part but the first |
| C24 | `C24_nrows_zero_wrong` | `read_csv(nrows=0)` reads the whole file |
| C24 | `C24_blank_lines_wrong` | `read_csv(nrows=n)` counts blank lines as rows |
| C24, C25 | `C24_skipped_run_wrong` | `read_csv(nrows=1, skiprows=[3, 4])` returns the rows before the run even beyond `nrows` |
| C25 | `C25_first_data_line_wrong` | `read_csv(skiprows=[1, 3])` with a header drops lines 2 and 4 |
| C25 | `C25_out_of_range_wrong` | `read_csv(skiprows=[2, 100])` raises IndexError on a shorter file |
| C25 | `C25_blank_lines_wrong` | `read_csv(skiprows=[3, 5])`: blank lines have no number |
| C26 | `C26_npartitions_wrong` | `NPartitions.put(0)` raises but stores 0; from then on every get and put raises |
| C26 | `C26_bool_string_wrong` | a bool parameter set to the string "false" reads true |
| C27 | `C27_no_default_wrong` | `context(GpuCount=2)` raises on leaving and leaves 2 behind |
| C27 | `C27_entry_wrong` | a value rejected on entry leaves the parameters before it changed |
| C37 | `C37_rejected_active_wrong` | a rejected `register_backend` leaves the name among the active backends |
| C37 | `C37_activate_twice_wrong` | `activate` of an active backend lists it twice |
| C38 | `C38_both_wrong` | both spellings in the environment: the first get raises, later ones read different values |
| C47 | `C47_deactivated_wrong` | deactivating the backend of the environment for a while lets a failed put change the engine alone |
| C39 | `C39_no_row_groups_wrong` | `read_parquet` of a dataset without row groups raises `ZeroDivisionError` |
| C39 | `C39_empty_columns_wrong` | `read_parquet(columns=[])` reads every column |
| C39 | `C39_filtered_range_wrong` | a filter that keeps every row changes the labels of `RangeIndex(0, 5, 2)` |
| C39 | `C39_filtered_index_only_wrong` | a filter is not applied when only the index column is read |
| C48 | `C48_range_labels_wrong` | a range index other than 0, 1, 2, ... is lost when there are several row partitions |
| C48 | `C48_overwrite_wrong` | writing over a directory of more files leaves stale rows |
| C48 | `C48_file_order_wrong` | with more than 10000 row partitions the files sort in the wrong order |
| C49 | `C49_row_order_wrong`, `C49_failure_leaves_part_wrong` | row order depends on the workers; a failing worker leaves a partial table |
| C50 | `C50_nested_tuple_wrong` | with `BackendMergeCastInPlace` off, objects in a nested tuple (`pd.concat((df1, df2))`) are not cast |
| C50 | `C50_caller_list_changed` | with `BackendMergeCastInPlace` off, the caller's list ends up holding the cast copies |
| C50 | `C50_first_backend_needed` | a function implemented for the pinned backend but not the first operand's raises |
| C29 | `C29_stay_cost_zero_division` | the cost of staying divides by zero when the maximal number of rows is 0 |
| C30 | `C30_reorder_raises` | reordering columns raises `ValueError` when some dtypes are unknown and the others are described by one dtype |
| C30 | `C30_stack_forgets_remaining` | `pd.concat` of integer frames reports floats when the columns of the first were not named in its dtypes |
| C30 | `C30_stack_inner` | `pd.concat(join="inner")` reports the dtypes of columns that are not in the result |
| C30 | `C30_insert_raises` | `insert` raises after `df.columns = Index(...)` on a frame with unknown columns |
| C30 | `C30_same_raises` | copying the dtypes of a frame described by one dtype that has no columns raises |
| C30 | `C30_setitem_raises` | `df[c] = value` on a frame without cached dtypes raises `TypeError` |
| C30 | `C30_misordered_rename`, `C30_misordered_take` | dtypes cached in another order than the columns are used by position: wrong dtypes |
| C30 | `C30_dtypes_set_extra` | the set of dtypes contains one that no column has |
| C32 | `C32_taken_name_accepted` | `reset_index` of an index named like a column: pandas raises `ValueError`, Modin returns two columns of that name |
| C32 | `C32_named_index_rejected` | `reset_index` of a named index raises `ValueError` if there are columns `level_0` and `index`; pandas does not use these names |
| C32 | `C32_no_columns_raises` | `pd.DataFrame(index=[7, 5]).reset_index()` raises `IndexError` |
| C32 | `C32_set_index_multiplies` | `set_index("a")` on columns a, b, b returns four columns b |
| C34 | `C34_absent_accepted` | `drop` of an absent label is silently accepted while the row labels are not known |
| C42 | `C42_duplicate_scalar_raises` | `insert` of a scalar with `allow_duplicates=True` raises `ValueError` if the block at that place has a column of that name |
| C42 | `C42_value_renamed` | `df.insert(0, "c", s)` renames the caller's series `s` |
| C42 | `C42_only_first_set` | `df["b"] = s` on two columns `b` sets only the first |
| C42 | `C42_repeated_labels_accepted` | `insert` of a series with repeated labels is accepted if the frame lacks these labels; pandas raises |
| C42 | `C42_repeated_rows_wrong` | `df['a'] = s` on the first column of a frame with repeated row labels and an empty row band, `s` with other labels: fails for the same reason |
| C33 | `C33_repeated_labels` | `dropna(axis=1)` on two columns of the same label keeps a column that should go, or multiplies them |
| C33 | `C33_dynamic_wrong_row` | with `DynamicPartitioning`, `dropna(axis=1)` records stale row lengths: `.iloc` afterwards shows another row's cells |
| C41 | `DupDemo.C41_negative_zero_missed` | with the columns in several partitions, `duplicated` does not mark a row that equals another but prints differently (`-0.0`) |
| C41 | `DupDemo.C41_cast_makes_equal` | `duplicated` compares rows after a cast to a common dtype: different large integers beside a float column are marked |
| C41 | `DupDemo.C41_no_rows_fails` | `duplicated` on a frame without rows in several column partitions yields a frame that cannot be read |
| C35 | `CorrDemo.C35_unsorted_columns_wrong` | `corr` adds the sums of row partitions without missing values to the wrong columns when other partitions have missing values and the columns are not in the order of their labels |
| C35 | `CorrDemo.C35_cov_loses_labels` | `cov` with `min_periods` above the number of rows gives a table labelled 0, 1, ... |
| C35 | `CorrDemo.C35_cov_ddof_differs` | `cov` uses `ddof` also when values are missing, pandas does not |
| C51 | `MaskDemo.C51_reordered_mask_sorts` | `df[mask]` with the mask's labels in another order returns the rows sorted by label instead of in `df`'s order |
| C51 | `MaskDemo.C51_longer_mask_fails` | a mask with labels `df` does not have, besides all of `df`'s, is refused |
| C51 | `MaskDemo.C51_dynamic_wrong_column` | with `DynamicPartitioning` the columns of `df[mask]` are divided anew while the old widths stay recorded: selecting a column returns another one |
| C52 | `DropDupDemo.C52_no_rows_fails` | `drop_duplicates` raises for a frame without rows held in several block columns |
| C52 | `DropDupDemo.C52_last_is_first` | `drop_duplicates(keep="last", ignore_index=True)` on one column keeps the first of equal values |
| C53 | `ToCsvDemo.C53_exclusive_mode_fails` | `to_csv(mode="x")` with two row partitions: the second worker also opens with `x` and fails; the first partition's rows stay in the file |
| C53 | `ToCsvDemo.C53_no_rows_no_file` | `to_csv` of a frame without rows makes no file and leaves an old one as it was; pandas writes the header |
| C53 | `ToCsvDemo.C53_dates_wrong` | times are written as dates in the partitions where all are at midnight, with the time of day in the others |
| C53 | `ToCsvDemo.C53_compressed_not_recognised` | names ending with `.zst`, `.tar` or, in capitals, `.ZIP` are written in parallel although pandas compresses them |
| C53 | `ToCsvDemo.C53_held_places_block` | if a waiting task kept its place in the engine, the workers could block each other for ever |
| C54 | `SeriesOpDemo.C54_dynamic_wrong_column` | with `DynamicPartitioning`, `df.add(s, axis=0)` is divided anew while the old column widths are recorded: `.iloc[:, [1]]` takes another column |
| C54 | `SeriesOpDemo.C54_repeated_columns_raise` | `df + s` raises when a column label repeats and the Series has other labels; pandas pairs them |
| C54 | `SeriesOpDemo.C54_logical_takes_series_for_frame` | `df & s` joins the Series' labels with the rows and adds its name as a column; pandas pairs its labels with the columns |
| C55 | `LocAssignDemo.C55_row_order_ignored` | `df.iloc[[2,1,0], 0] = np.array([70,80,90])` writes 70 to row 0: all rows in another order count as the whole column |
| C55 | `LocAssignDemo.C55_column_order_ignored` | `df.iloc[0, [2,1,0]] = np.array(...)`: the same along a row |
| C55 | `LocAssignDemo.C55_repeated_row_sets_column` | `df.iloc[[0,0,0], 0] = 5` on three rows writes the whole column |
| C55 | `LocAssignDemo.C55_out_of_bounds_sets_column` | `df.iloc[[7,8,9], 0] = 5` on three rows writes the whole column instead of raising |
| C55 | `LocAssignDemo.C55_part_of_row_wrong` | `df.iloc[0, [0,1]] = np.array([70,80])` writes 70 twice |
| C55 | `LocAssignDemo.C55_backward_slice_writes` | `df.iloc[2:1, 0] = 5` addresses nothing and writes two rows |
| C55 | `LocAssignDemo.C55_long_array_truncated` | `df.iloc[:, 0] = array` drops surplus values instead of raising |
| C55 | `LocAssignDemo.C55_mask_length_unchecked` | a boolean list that is too short is accepted |
| C55 | `LocAssignDemo.C55_mask_array_raises` | `df.loc[[True,False,True], x] = np.array([70,80])` raises `IndexError` |
| C55 | `LocAssignDemo.C55_repeated_label_sets_all` | `df.iloc[0] = 5` writes all rows sharing the label of row 0; so with columns |
| C55 | `LocAssignDemo.C55_nothing_writes_cell` | on a frame of one cell `df.iloc[0, []] = 5` writes the cell |
| C56 | `ReindexDemo.C56_mixed_arguments_raise` | `df.reindex(index=pd.Index([5]), columns=[1])` raises `AttributeError`: base.py:2542 looks at `index` to decide whether `columns` has a method `equals` |
| C56 | `ReindexDemo.C56_new_row_filled_with_zero` | `df.loc[new, [1]] = 5` puts 0, not the missing value, into the other columns |
| C56 | `ReindexDemo.C56_new_cell_raises` | `df.loc[new, 1] = 5` and `df.loc[5, new] = 5` raise `KeyError` |
| C56 | `ReindexDemo.C56_row_label_hides_new_column` | `df.loc[5, [new]] = 5` raises `KeyError`: columns are not looked at when the row is a single label |
| C56 | `ReindexDemo.C56_new_row_beside_repeated_labels` | `df.loc[new, :] = 5` raises when row labels repeat |
| C56 | `ReindexDemo.C56_no_rows_raise` | `df.loc[[], 1] = 5` raises `KeyError` |
| C58 | `C58_nsort_wide_raises`, `SortIndexDemo.C58_wide_frame_raises` | `df.nlargest(n, 'a')` raises `KeyError` for every frame wide enough to have two column partitions: the partitions without the key column cannot choose rows |
| C58 | `C58_first_valid_raises`, `SortIndexDemo.C58_empty_column_raises` | `first_valid_index` raises `IndexError` if any column is entirely missing: the positions become floats, and an `Index` is not indexed with a float (or NaN) |
| C59 | `C59_rolling_on_raises` | `df.rolling(n, on='a').sum()` raises for every frame wide enough to have two column partitions: the partitions without the column `a` have no windows |
| C60 | `C60_fillna_frame_misplaces` | `df.fillna(other)` where the row labels differ and those of `df` are not sorted: the rows are sorted for aligning, the old labels kept over them |
| C60 | `C60_fillna_dict_stale` | `df.columns = ['b']; df.fillna({'b': 0})` fills nothing: the blocks still carry the old names |
| C61 | `C61_where_reorders` | `df.where(cond, 0)` where the labels differ and those of `df` are not sorted: the rows come out sorted |
| C61 | `C61_where_repeated_rows_wrong` | `df.where(cond, other)` where row labels of `df` repeat, `cond` has the same labels in other blocks and `other` has other labels: the repeated labels are looked up one by one, the block gets too many rows |
| C61 | `C61_isin_stale` | `df.columns = ['b']; df.isin({'b': [1]})`: the blocks still carry the old names |
| C61 | `C61_clip_drops_bound` | `df.clip(lower=[3, nan], axis=1)` clips nothing |
| C61 | `C61_clip_no_axis` | `df.clip(lower=[3, 4])` (no axis, as by default) over several blocks: `fold(None, ...)` puts row partitions together and transposes the grid of the results |
| C62 | `C62_mode_loses_missing` | `pd.DataFrame({'a': [nan, nan, 1]}).mode(dropna=False)` is empty: the row with the missing mode is taken for filling |
| C63 | `C63_repeated_labels` | `df.loc[df.a > 0, 'b'] = 9` on a frame with repeated row labels in more than one row partition raises |
| C64 | `C64_query_in_column` | `df.query('b in a')` compares each cell of `b` only with the cells of `a` in the same row partition and silently drops rows |
| C64 | `C64_query_array` | `df.query('a < @array')` with an array as long as the frame raises as soon as there are two row partitions |
| C66 | `C66_unaligned` | data and labels with equally many row partitions divided at different places: rows are trained with other rows' labels, silently |
| C66 | `C66_more_nodes` | training raises on a cluster with more nodes than the data has row partitions |
| C66 | `C66_evals_order` | `evals=[(dtrain, ..), (dvalid, ..)]` is evaluated as `[dvalid, dtrain]`, so early stopping looks at the training data, and `dtrain` is removed from the caller's list |
| C67 | `C67_dict_order` | `df.groupby('k').agg({'b': f, 'a': f})` with `a` and `b` in different column partitions: columns come in the order of the frame, not of the dictionary |
| C68 | `C68_not_rowwise` | `s.case_when([(lambda s: s == s.max(), 0)])` replaces the largest cell of every row block |
| C68 | `C68_pending_labels` | `case_when` with a Series condition right after `s.index = [...]`: conditions looked up under the old labels, result fails to convert |
| C68 | `C68_empty_block` | an empty row block in `s` and a Modin condition: `IndexError` |
| C68 | `C68_long_list` | a list condition longer than `s`: pandas raises, Modin cuts it |
| C69 | `C69_missing_category` | a missing value in a categorical column comes back as the last category: `set_nulls` compares the values, not the codes, with -1 |
| C69 | `C69_minus_one` | the integer category -1 comes back as a missing value |
| C69 | `C69_mixed_objects` | a number in an `object` column comes back as a missing value |
| C69 | `C69_empty_band` | an empty row block: reading the frame raises |
| C69 | `C69_pending_labels` | a categorical column, pending row labels and a new number of chunks: internal error |
| C70 | `C70_sliced` | every column that is a part of a longer data buffer: the array is as long as the buffer, past its end when the offset is not 0 |
| C70 | `C70_padded_mask` | a bit mask with spare bytes: the bits after the last whole byte are taken from the last byte of the buffer |
| C70 | `C70_uint8_mask` | a `uint8` byte mask with 1 for missing values: zeros and ones are used as positions |
| C70 | `C70_missing_boolean` | missing booleans are read as `False` |
| C70 | `C70_empty_mask` | no elements and an empty bit mask: `IndexError` |
| C70 | `C70_memory_written` | missing floats and dates are written into the other library's memory |
| C71 | `C71_fan_out_then` | a fanned-out query followed by an ordinary one before the output: `reducer` takes the reduce function of the later query and calls `None` |
| C71 | `C71_pending_labels` | renamed columns not yet written to the blocks: queries and results have the old names |
| C71 | `C71_same_id` | two outputs with one id are accepted, the first is lost |
| C71 | `C71_after_last_output` | queries after the last output are never run |
| C72 | `C72_row_order` | with several row partitions the rows come in another order than from pandas (the code warns) |
| C72 | `C72_empty_partition` | a row partition recorded as empty is dropped from the id columns only: values become missing and rows are lost, silently |
| C72 | `C72_missing_name` | a value column that does not exist: the last column is unpivoted instead of an error |
| C72 | `C72_overlap`, `C72_named_twice` | value columns that are id columns or named twice: the result cannot be read |
| C72 | `C72_no_value_columns` | `value_vars=[]` with id columns unpivots all other columns instead of none |
| C72 | `C72_value_name` | a value name that is a column's raises only if the column is in a block that is used |
| C73 | `C73_slice_step` | `df.loc[0:4:2]` loses the last row: one step is taken off the end of a slice as if it were a range |
| C73 | `C73_range_step`, `C73_range_missing` | `df.loc[range(0, 5, 2)]` loses the last row; a range with labels that are not there does not raise |
| C73 | `C73_range_index` | `df.loc[RangeIndex(0, 2)]` takes positions instead of labels: other rows, silently |
| C73 | `C73_inverted_slice` | `df.loc[3:1]`: the result cannot be shown instead of being empty |
| C73 | `C73_index_key` | `df.loc[Index([7])]` raises when the label is there twice |
| C73 | `C73_mask_length` | `df.iloc[[True, False]]` on five rows returns a row instead of an error |
| C74 | `C74_empty_chunk` | `df = read_csv(f, index_col=0); len(df); df.abs() + df` gives missing values for the rows after a chunk without rows: the derived frame drops the empty block, but the callable it inherits for its labels still reports the lengths of the file |
| C74 | `C74_empty_chunk_raises` | `df + df.abs()` in the same program raises an `IndexError` |
| C75 | `C75_one_row` | `array([[1, 2]]) + array([[10, 20], [30, 40]])` has `nan` in the second row; NumPy repeats the row (the project knows of this: GH#5894) |
| C75 | `C75_floor_divide` | `array([[4, 6], [8, 10]]) // array([2, 2])` is `[[2, 0], [4, 0]]`: the repair of divisions by zero fills positions that the divisor's frame does not have |
| C75 | `C75_operand_changes` | after `x + y` with `x = array([2**53 + 1])` and a float array `y`, `x` is `[2**53]`: the operands are converted in place |
| C75 | `C75_column_left`, `C75_length_one`, `C75_column_and_row` | `(M, 1)` with `(M, N)`, `(1,)` with `(N,)` and `(M, 1)` with `(N,)` or `(1, N)` raise; NumPy combines them |
| C76 | `C76_max_nan`, `C76_any_nan` | `max`, `min` and `any` leave NaN out; NumPy's `max` of a line with NaN is NaN, and NaN counts as true for `any` |
| C76 | `C76_max_keepdims_initial` | `array([1, 7, 3]).max(keepdims=True, initial=0)` is `[0]`: the condition is a query compiler, which counts as true |
| C76 | `C76_all_keepdims` | `array([[True, False]]).all(keepdims=True)` is `[[True]]`: the array is made of the query compiler itself |
| C76 | `C76_max_empty` | `array([]).max(initial=5)` is NaN |
| C76 | `C76_axis_one_dim` | `array([1, 2, 3]).sum(axis=2)` is `6`; NumPy raises an `AxisError` |
| C77 | `C77_one_column_relabelled` | `df.dot(other)` with a frame of one column: the column of the result is called `__reduced__` |
| C77 | `C77_one_cell_relabelled` | a frame of one cell: the row of the result is called `__reduced__`, or 0 when the right operand is a Series |
| C77 | `C77_one_column_by_series` | a frame of one column times a Series: the result is named 0 instead of having no name |
| C77 | `C77_series_by_one_column` | `s.dot(frame of one column)` loses the name of `s` and the label of the column |
| C77 | `C77_series_by_one_column_matrix` | `s.dot(array of one column)` has no dimension |
| C78 | `C78_unchanged_result_shares_labels` | `r = df.reindex(index=df.index); r.columns = ...` renames the columns of `df`; so does the result of `squeeze(axis=1)` and of `pin_backend()` |
| C78 | `C78_renaming_lost` | `d2 = DataFrame(df); df.columns = ...; d2.iloc[0, 0] = 5` undoes the renaming of `df` |
| C78 | `C78_copy_of_column_not_written_back` | a change of a shallow copy of a column reaches the column but not the frame |
| C78 | `C78_column_objects_apart` | two objects for the same column do not see one another's changes; a deleted column comes back when the object taken out before is changed |
| C79 | `C79_all_columns_in_frame_order` | `pd.get_dummies(df, columns=["c", "b", "a"])` with all columns listed: new columns in the frame's order, not the listed one |
| C79 | `C79_missing_label_accepted` | as many labels as columns, one not there: no `KeyError` |
| C79 | `C79_missing_label_repeats_last` | `pd.get_dummies(df, columns=["z"])` without a column `z`: no `KeyError`, the last column appears twice |
| C79 | `C79_prefix_list_refused` | a list of prefixes is refused when the listed columns lie in several blocks |
| C79 | `C79_dates_encoded` | without `columns`, dates are encoded too |
| C79 | `C79_repeated_label_encoded` | without `columns`, number columns with a repeated label are encoded |
| C79 | `C79_asked_dtype_not_reported` | `pd.get_dummies(df, dtype=int).dtypes` says `bool` |
| C80 | `C80_no_rows_refused` | `describe` of a frame without rows: `ValueError`, pandas describes it |
| C80 | `C80_repeated_columns` | `describe` with a repeated column label: a result that cannot be read |
| C80 | `C80_repeated_label` | `select_dtypes` with a repeated label: the dtype of the last such column decides for all |
| C81 | `C81_dict_across_blocks`, `C81_dict_two_blocks` | `df.apply({"a": f, "b": g})` raises `KeyError` when `a` and `b` lie in different block columns (proved for all frames) |
| C81 | `C81_dict_of_reductions` | `df.apply({"a": "sum", "b": "sum"})`: a result that cannot be read |
| C81 | `C81_list_of_transformations` | `df.apply([np.sqrt, np.exp])`: a result that cannot be read |
| C82 | `C82_unstack_repeated_columns` | `unstack` with a repeated column label and two row partitions raises, pandas answers |
| C82 | `C82_unstack_one_column` | `unstack` of one column with a row label repeated in two row partitions answers, pandas raises |
| C82 | `C82_pivot_substring` | `pivot` without `values` loses a column whose name is a part of the `index` or `columns` name (`v not in index` on a text) |
| C82 | `C82_pivot_one_column`, `C82_pivot_list_of_one` | `pivot` with one column left or `values=["x"]`: column labels with one level, pandas' have two |
| C82 | `C82_pivot_empty_list` | `pivot(values=[])` spreads out all columns, pandas none |
| C83 | `C83_range_loses_bins` | with range partitioning the bins of a range without rows are missing (`map_func` returns the empty block) |
| C83 | `C83_range_closed_right` | with range partitioning and `closed="right"` the bin of a time on a cut appears twice (`closed_on_right` is not handed on) |
| C83 | `C83_range_origin` | with range partitioning and `origin="start_day"` a step that does not divide the day gives other bins |
| C83 | `C83_range_counts_fillers` | with range partitioning an aggregation that counts missing cells counts the filler rows |
| C83 | `C83_resample_on_blocks` | `resample(on=...)` of a frame with several column partitions always raises |
| C83 | `C83_resample_size_blocks` | `resample(...).size()` of a frame with several column partitions is not the counts |
| C84 | `C84_head_zero_lazy` | `head(0)` of a frame whose column labels are not recorded has no columns |
| C84 | `C84_truncate_descending` | `truncate` on descending labels takes the bounds the wrong way round |
| C84 | `C84_filter_order` | `filter(items=...)` keeps the frame's order instead of that of the items |
| C84 | `C84_filter_repeated` | `filter` on columns multiplies columns whose label repeats |
| C84 | `C84_filter_empty` | `filter(like=..., axis=0)` on a frame without rows loses the columns |
| C84 | `C84_sample_ignore_index` | `sample(..., ignore_index=True)` keeps the labels |
| C84 | `C84_sample_repeated_label` | `sample(axis=1)` returns all columns with the drawn label |
| C85 | `C85_equals_empty` | `equals` of two frames without rows is NaN instead of True |
| C85 | `C85_asof_repeated_label` | `asof` raises on repeated row labels |
| C85 | `C85_asof_descending` | `asof` answers on descending labels, where pandas raises |
| C85 | `C85_asof_one_column` | `asof` of one label on one column gives a scalar instead of a Series |
| C86 | `C86_json_blank_line` | `read_json(lines=True)` raises if a worker gets only blank lines |
| C86 | `C86_json_missing_key` | `read_json(lines=True)` raises if records differ in their keys |
| C86 | `C86_json_nrows` | `read_json(lines=True, nrows=n)` keeps `n` rows per worker |
| C86 | `C86_excel_empty_sheet` | `read_excel` of a sheet without rows never ends |
| C86 | `C86_excel_small_file` | `read_excel` of a small sheet with many partitions loses all rows |
| C86 | `C86_excel_gap` | `read_excel` adds blank rows again in each piece after a row left out |
| C86 | `C86_excel_blank_piece` | `read_excel` drops blank rows inside the data |
| C86 | `C86_excel_header_row` | `read_excel(header=1)` loses rows in every piece |
| C86 | `C86_excel_repeated_name` | `read_excel` keeps repeated column names |
| C87 | `C87_missing_key` | `groupby(["a", "b"]).apply(f)` has all columns of the frame added if the keys of a range are all missing |
| C87 | `C87_repeated_column` | `groupby("k").apply(f)` raises if a column label repeats and a range is empty |
| C88 | `C88_column_order` | `pivot_table` leaves the aggregated columns in the frame's order, pandas sorts them |
| C88 | `C88_unknown_value` | `pivot_table(values=[...])` passes over a label that does not exist, pandas raises |
| C88 | `C88_unknown_key` | `pivot_table(index=...)` with a label that does not exist returns the plain `groupby` of `columns`, pandas raises |
| C88 | `C88_empty_row` | with `dropna=True` rows without any value stay |
| C88 | `C88_fill` | with `fill_value` and several columns, `dropna` drops columns that pandas fills |
| C88 | `C88_missing_keys` | with `dropna=False` missing keys are dropped |
| C89 | `C89_order` | `Series.value_counts(sort=False)` returns the values sorted, pandas in order of appearance |
| C90 | `C90_compare_wide_raises` | `df.compare(other)` raises whenever `df` has two or more block columns |
| C90 | `C90_update_repeats` | `df.update(other)` with a repeated row label in `other` multiplies rows of `df`; pandas raises |
| C90 | `C90_series_update_names`, `C90_series_combine_first_names`, `C90_series_compare_names` | for two series with different names `update` does nothing, `combine_first` returns two columns, `compare` raises |
| C91 | `C91_unsorted` | `for k, g in df.groupby(c, sort=False)` gives the groups sorted, not in the order of appearance |
| C91 | `C91_one_row_raises` | `for k, g in df.groupby(c)`, `groups`, `len` raise for every frame of one row |
| C91 | `C91_by_position` | `df.groupby(series)` with the series' rows in another order pairs values and rows by position |
| C91 | `C91_selection_keeps_keys` | the groups of `df.groupby(k)[[c]]` contain the column `k` |
| C92 | `C92_order` | `df.groupby(k).agg({"b": ..., "a": ...})` with `a` and `b` in different column partitions: the columns stand in the frame's order, not the dictionary's |
| C92 | `C92_unsorted` | `df.groupby(k, sort=False).agg({...})` gives the groups sorted |
| C93 | `C93_label_taken_as_position` | `df.sort_values(by=0, axis=1)` with the index `[1, 0]` raises: the label is used as a position |
| C93 | `C93_repeated_columns` | with two columns of the same name `sort_values(axis=1)` sorts nothing |
| C93 | `C93_ignore_index` | `sort_values(by, axis=1, ignore_index=True)` loses all cells |
| C93 | `C93_row_twice_raises` | `sort_values(by=[0, 0], axis=1)` raises |
| C93 | `C93_no_row_raises` | `sort_values(by=[], axis=1)` raises |
| C94 | `C94_ignore_by_block` | `pd.to_numeric(s, errors="ignore")` converts the blocks it can, pandas leaves all of `s` alone |
| C94 | `C94_format_guessed_by_block` | `pd.to_datetime(["1/2/2020", "13/1/2020"])` raises in pandas; with two blocks Modin returns two dates read in different orders |
| C94 | `C94_format_changes_in_column` | `pd.to_datetime(["13/1/2020", "1/2/2020"])`: the second value is 1 February in pandas and 2 January in Modin |
| C95 | `C95_ignore_by_block` | `df.astype(int, errors="ignore")` converts the blocks of a column it can, pandas leaves the column alone |
| C95 | `C95_ignore_dtypes` | after `df.astype(int, errors="ignore")` Modin's `dtypes` say `int` for a column left alone |
| C96 | `C96_pad_by_block` | `s.replace([1], method="pad")`: a 1 at the beginning of a block stays |
| C96 | `C96_replace_stale` | `df.columns = ["b"]; df.replace({"b": {1: 2}})` and `df.round({"b": -1})` do nothing: the blocks still have the old names |
| C96 | `C96_map_missing` | `s.map(defaultdict(int))` gives missing values instead of zeros |
| C96 | `C96_map_position` | `pd.Series([0]).map(pd.Series(["x"], index=["a"]))` gives "x" instead of a missing value |
| C96 | `C96_map_repeated` | a mapping Series with a repeated label puts a Series into a cell where pandas raises |
| C96 | `C96_apply_name` | `s.apply(f)` loses the name of a Series named like its first row label (`df[0].apply(f)`) |
| C96 | `C96_apply_empty` | `s.apply(f)` raises for an empty Series |
| C97 | `C97_split_zero` | `np.split([7, 8, 9], [2, 0])`: the last piece is `[9]` instead of `[7, 8, 9]` |
| C97 | `C97_split_below` | `np.split([7, 8, 9], [-4])`: the second piece is `[9, 7, 8, 9]` instead of `[7, 8, 9]` |
| C97 | `C97_split_no_elements` | `np.split` of an array without elements into 2 parts raises instead of giving two empty ones |
| C97 | `C97_split_negative` | `np.split(x, -3)` gives no parts instead of raising |
| C98 | `C98_repeated_labels` | `merge_asof` of a left frame labelled `[1, 0, 1]` has five rows instead of three |
| C98 | `C98_missing_label` | a row of `right` with a missing label is joined to all rows without partner |
| C98 | `C98_two_names` | `left_on="a", right_on="t"`: column `t` is not in the result |
| C98 | `C98_right_index` | `left_on="a", right_index=True` raises `ValueError` unless `right` has a column `a` |
| C98 | `C98_right_index_place` | there the key column is put in another place than pandas' if it is not the first column |
| C99 | `C99_n_unique_wrong` | `n_unique` counts the rows that occur exactly once, not the different rows |
| C99 | `C99_min_axis1_is_max` | `min(axis=1)` is the largest value of every row |
| C99 | `C99_row_index_after_filter` | `df.filter(...).with_row_index()` shows the positions before the filter |
| C99 | `C99_row_index_offset_raises` | `with_row_index(offset=1)` raises `AttributeError` |
| C99 | `C99_row_index_taken_name` | a name that is taken gives a frame with two columns of that name |
| C99 | `C99_filter_foreign_labels` | a mask that was not made from the frame is matched by row labels |
| C99 | `C99_slices_raise` | `head`, `limit`, `tail`, `slice`, `gather_every` and `reverse` raise for every frame |
| C99 | `C99_equals_always_true` | `equals` says True for two different frames |
| C100 | `C100_two_lists_crossed` | `a[[0, 2], [1, 0]]` is a table of two rows and two columns, not two cells |
| C100 | `C100_mask_length` | a list of booleans of the wrong length is accepted |
| C100 | `C100_too_many_keys` | `v[1, 0]` of an array with one dimension gives a value |
| C100 | `C100_no_columns` | `a[:, 2:]` with no column left raises |
| C100 | `C100_mask_of_cells` | `a[mask]` with a NumPy mask of two dimensions gives a row for each wanted cell |
| C101 | `C101_row_gets_first_value` | `a[0] = [10, 20]` puts 10 in every cell of the row |
| C101 | `C101_two_lists_crossed` | `a[[0, 2], [1, 0]] = 9` changes four cells, not two |
| C101 | `C101_reshaped` | a value of shape (2, 3) is accepted for a target of shape (3, 2) |
| C101 | `C101_copy_false_loses_labels` | `a = array(df, copy=False); a[0, 0] = 5` takes the labels of `df` away |
| C102 | `C102_raise_with_both_axes` | `rename(index=..., columns=..., errors="raise")` raises `KeyError` although all labels are there |
| C102 | `C102_series_not_in_place` | `s.rename({...}, inplace=True)` leaves `s` as it is |
| C102 | `C102_series_no_error` | `s.rename({...}, errors="raise")` does not raise |
| C102 | `C102_set_axis_changes_original` | `df.set_axis(labels, copy=False)` changes `df` |
| C103 | `C103_popped_column_comes_back` | `s = df.pop("a"); s.iloc[0] = 5` puts the column `a` back into `df` |
| C105 | `C105_integer_taken_for_position` | `s[0]` on the labels 10, 20, 30 returns the first value instead of raising `KeyError` |
| C105 | `C105_internal_name_shown` | `s["a"]` with two labels `a` and no name returns a Series named `__reduced__` |
| C105 | `C105_item_of_several` | `s.item()` of several values returns one of them instead of raising |
| C106 | `C106_to_frame_none` | `s.to_frame(name=None)` keeps the name of `s` instead of labelling the column `None` |
| C106 | `C106_repeat_zero_loses_name` | `s.repeat(0)` has no name |
| C106 | `C106_reserved_name` | `s.name = "__reduced__"` makes the name `None` |
| C107 | `C107_position_enlarges` | `s[0] = v` with string labels adds a row labelled 0; pandas writes the first value |
| C107 | `C107_repeated_labels_raise` | `s["new"] = v` raises if labels repeat; pandas appends |
| C107 | `C107_short_mask_writes` | `s[mask] = v` with a mask that is too short writes; pandas raises |
| C45 | `C45_other_division_wrong`, `C45_other_order_wrong` | `df.groupby(series)`: blocks are paired by position; rows whose key lies in another block are dropped silently |

Reductions (C14, C15, C44) are stated for at least one column (axis 0) or row (axis 1) and for the default
`DynamicPartitioning=False`; numbers are exact integers, means are exact rationals.
