{
 "claims": [
  {
   "property": "C01",
   "status": "proved",
   "theorems": [
    "C01_pandas_round_trip"
   ],
   "note": "All shapes, all positive configurations."
  },
  {
   "property": "C02",
   "status": "proved",
   "theorems": [
    "C02_recorded_block_sizes"
   ],
   "note": "A frame without columns records no widths although the grid has one zero-width block column; stated explicitly."
  },
  {
   "property": "C03",
   "status": "proved",
   "theorems": [
    "C03_split_keeps_everything",
    "C03_split_with_lengths"
   ],
   "note": "Both axes, computed and explicit lengths."
  },
  {
   "property": "C04",
   "status": "proved",
   "theorems": [
    "C04_elementwise_every_plan"
   ],
   "note": "All three map plans (per block, joined columns, axis partitions) over arbitrary divisions."
  },
  {
   "property": "C05",
   "status": "proved",
   "theorems": [
    "C05_full_columns_result",
    "C05_full_rows_result",
    "C05_column_operations",
    "C05_row_operations"
   ],
   "note": "Axis-partition plan without apply_indices; any split of the result."
  },
  {
   "property": "C06",
   "status": "proved",
   "theorems": [
    "C06_deferred_transparent_python",
    "C06_deferred_transparent_futures"
   ],
   "note": "Python, Dask and unidist block partitions; Ray's graph is C28."
  },
  {
   "property": "C07",
   "status": "partial",
   "theorems": [
    "C07_failure_is_permanent_futures",
    "C07_python_forgets_failure",
    "C07_first_failure_reported_python_partial"
   ],
   "note": "Holds for engines with futures; false for the in-process engine (witness theorem), where everything up to and including the first exception is right."
  },
  {
   "property": "C08",
   "status": "partial",
   "theorems": [
    "C08_take_partial",
    "C08_iloc_partial",
    "C08_empty_range",
    "C08_out_of_bounds_raises",
    "C08_repeats_wrong",
    "C08_inverted_range_wrong"
   ],
   "note": "Holds for all keys without repeated integer positions and without inverted slices; both exclusions are real failures, shown by witness theorems. An empty slice is proved for rows."
  },
  {
   "property": "C09",
   "status": "proved",
   "theorems": [
    "C09_positions_located",
    "C09_slices_located"
   ],
   "note": "Arrays with repeats, and all branches of the slice fast path; zero-length blocks allowed."
  },
  {
   "property": "C10",
   "status": "partial",
   "theorems": [
    "C10_assign_partial",
    "C10_assign_cells",
    "C10_range_with_uneven_blocks_wrong",
    "C10_one_dimensional_wrong",
    "C10_one_dimensional_row_order_wrong"
   ],
   "note": "Scalars and two-dimensional items of the shape of the request, arrays of positions in any order with repeats. Ranges not starting in the first block of unevenly divided frames with cached lengths, and one-dimensional items, are real failures shown by witness theorems."
  },
  {
   "property": "C100",
   "status": "partial",
   "theorems": [
    "C100_getitem_partial",
    "NumpyIndexDemo.C100_two_lists_crossed",
    "NumpyIndexDemo.C100_mask_length",
    "NumpyIndexDemo.C100_too_many_keys",
    "NumpyIndexDemo.C100_no_columns",
    "NumpyIndexDemo.C100_mask_of_cells"
   ],
   "note": "all arrays, integers inside and outside, lists, masks and slices without a step, one key or two. Proved violated, hence excluded: two lists at once, a mask of another length, two keys for one dimension, no columns left, a NumPy mask of two dimensions. The frame is a grid; its division into blocks is C06. Not modelled: callables, Ellipsis, slices with a step, assignment."
  },
  {
   "property": "C101",
   "status": "partial",
   "theorems": [
    "C101_setitem_partial",
    "C101_copy_false_shares",
    "NumpySetitemDemo.C101_row_gets_first_value",
    "NumpySetitemDemo.C101_two_lists_crossed",
    "NumpySetitemDemo.C101_reshaped",
    "NumpySetitemDemo.C101_copy_false_loses_labels"
   ],
   "note": "all arrays and divisions into blocks; scalars, arrays of the shape of the selection, arrays with one dimension for part of one column. Proved violated, hence excluded: an array of one dimension for a row, two lists at once, values of another shape with the same number of cells, the labels of a frame shared with copy=False; slices that start later with array values (C10). Not proved: values that are broadcast, backward slices. Not modelled: dtypes, callables, Ellipsis, slices with a step."
  },
  {
   "property": "C102",
   "status": "partial",
   "theorems": [
    "C102_rename_partial",
    "C102_add_prefix",
    "C102_series_rename_partial",
    "C102_set_axis_partial",
    "RenameDemo.C102_raise_with_both_axes",
    "RenameDemo.C102_series_not_in_place",
    "RenameDemo.C102_series_no_error",
    "RenameDemo.C102_set_axis_changes_original"
   ],
   "note": "all frames, divisions into blocks, mappings and combinations of arguments, exceptions included. Proved violated, hence excluded: errors='raise' with index and columns together, Series.rename with inplace=True or errors='raise', set_axis(copy=False). Not modelled: level, rename with inplace=True of a frame (C78), a scalar as the new name of a Series."
  },
  {
   "property": "C103",
   "status": "partial",
   "theorems": [
    "C103_xs_partial",
    "C103_get",
    "C103_pop_partial",
    "CrossDemo.C103_popped_column_comes_back"
   ],
   "note": "all frames, divisions into blocks and labels, KeyError included. Proved violated: a column that is changed after it was popped comes back into the frame. Excluded: xs when the other axis is empty (as in C73). Not modelled: labels of several levels, level, xs/get/pop of a Series."
  },
  {
   "property": "C104",
   "status": "proved",
   "theorems": [
    "C104_squeeze",
    "C104_series_squeeze"
   ],
   "note": "all shapes, divisions into blocks and axes. Axes are given as numbers (the names 'index' and 'columns' are pandas' _get_axis_number). That the result of squeeze(axis=1) shares its labels with the frame is C78."
  },
  {
   "property": "C105",
   "status": "partial",
   "theorems": [
    "C105_getitem_partial",
    "C105_item_partial",
    "SeriesGetDemo.C105_integer_taken_for_position",
    "SeriesGetDemo.C105_internal_name_shown",
    "SeriesGetDemo.C105_item_of_several"
   ],
   "note": "all Series that are not empty, divisions into blocks and keys, exceptions included. Proved violated, hence excluded: an integer that is not a label although some label is an integer, a label in several places of a Series without a name, item() of several values. Excluded: lists with negative positions, repeated positions when block sizes are cached (C08). Not modelled: slices, tuples and callables as key, an empty Series (handed to pandas); a label in several places returns a pandas object instead of a Modin one."
  },
  {
   "property": "C106",
   "status": "partial",
   "theorems": [
    "C106_name_partial",
    "C106_to_frame_partial",
    "C106_repeat_partial",
    "SeriesNameDemo.C106_to_frame_none",
    "SeriesNameDemo.C106_repeat_zero_loses_name",
    "SeriesNameDemo.C106_reserved_name"
   ],
   "note": "all Series, divisions into blocks, names and repetitions. Proved violated, hence excluded: to_frame(name=None), repeat(0) of a named Series, the name '__reduced__'. Not modelled: names that are tuples, DataFrame(s) with index or columns given, dtypes; repeat is otherwise pandas' own method on the whole Series."
  },
  {
   "property": "C107",
   "status": "partial",
   "theorems": [
    "C107_set_partial",
    "C107_set_mask_partial",
    "SeriesSetDemo.C107_position_enlarges",
    "SeriesSetDemo.C107_repeated_labels_raise",
    "SeriesSetDemo.C107_short_mask_writes"
   ],
   "note": "all Series, divisions into blocks, scalar keys, masks and scalar values. Proved violated, hence excluded: an integer key when no label is an integer (a row is added), a new label when labels repeat (raises), a mask of another length (accepted). Not modelled: slices, lists of labels, tuples and callables as key, array values, a Modin Series as mask, the empty Series (handed to pandas), dtypes."
  },
  {
   "property": "C11",
   "status": "proved",
   "theorems": [
    "C11_concat_rows",
    "C11_concat_rows_same_columns",
    "C11_joined_columns",
    "C11_aligned_cells"
   ],
   "note": "Any number of frames, frames without blocks included; columns all equal (repeats allowed) or without repeats, as pandas itself requires."
  },
  {
   "property": "C12",
   "status": "proved",
   "theorems": [
    "C12_rebalance_preserves"
   ],
   "note": "Known and unknown lengths, zero-length bands, splits from the middle."
  },
  {
   "property": "C13",
   "status": "partial",
   "theorems": [
    "C13_nary_partial",
    "C13_empty_band_wrong"
   ],
   "note": "Any number of operands with any grids. Missing: operands whose empty row bands are dropped inconsistently (witness); three or more operands with repeated row labels kept from the first and divided differently (witness C61_where_repeated_rows_wrong)."
  },
  {
   "property": "C14",
   "status": "partial",
   "theorems": [
    "C14_sum_partial",
    "C14_prod_partial",
    "C14_sum_rows_partial",
    "C14_prod_rows_partial",
    "C14_min_partial",
    "C14_min_rows_partial",
    "C14_max_partial",
    "C14_max_rows_partial",
    "C14_count",
    "C14_count_rows",
    "C14_any",
    "C14_any_rows",
    "C14_all",
    "C14_all_rows",
    "C14_min_empty_band_wrong",
    "C14_sum_empty_band_wrong"
   ],
   "note": "All of it for skipna=True, and for skipna=False when min_count is not 1 (min and max behave as min_count=1) or no band is empty; the excluded case is a real failure shown by the witness theorems."
  },
  {
   "property": "C15",
   "status": "proved",
   "theorems": [
    "C15_mean",
    "C15_mean_rows"
   ],
   "note": "Exact rationals, both axes, both values of skipna, empty blocks included."
  },
  {
   "property": "C16",
   "status": "proved",
   "theorems": [
    "C16_groupby",
    "C16_groups",
    "C16_count",
    "C16_size",
    "C16_any",
    "C16_all",
    "C16_mean",
    "C17_sum_partial",
    "C17_prod_partial",
    "C17_min_partial",
    "C17_max_partial"
   ],
   "note": "Any number of key and value columns, any division, sort and dropna both ways; sum, prod, min and max with their default min_count are the C17 theorems at 0 and 1."
  },
  {
   "property": "C17",
   "status": "partial",
   "theorems": [
    "C17_sum_partial",
    "C17_prod_partial",
    "C17_min_partial",
    "C17_max_partial",
    "C17_min_count_wrong",
    "C17_max_count_wrong"
   ],
   "note": "min_count up to 1; from 2 on the code is wrong (witness theorems)."
  },
  {
   "property": "C18",
   "status": "partial",
   "theorems": [
    "C18_sort_values_partial",
    "C18_sorted_meaning",
    "C18_no_pivots_wrong",
    "C18_key_fills_wrong"
   ],
   "note": "All tables, divisions, pivots, directions, na_position, several columns with their own directions. Needs NPartitions >= 2 and a key function that keeps missing-ness; otherwise the code is wrong (witness theorems)."
  },
  {
   "property": "C19",
   "status": "partial",
   "theorems": [
    "C19_parts_partial",
    "C19_ordered_partial",
    "C19_drop_duplicates_partial",
    "C19_groupby_partial",
    "C19_groupby_sorted_partial",
    "C19_nunique_partial",
    "C19_single_row_crash",
    "C19_two_keys_unsorted"
   ],
   "note": "Needs NPartitions >= 2. With several key columns the call can raise and groups are not sorted (witness theorems)."
  },
  {
   "property": "C20",
   "status": "partial",
   "theorems": [
    "C20_merge_partial",
    "C20_merge_sorted_partial",
    "C20_sort_unnamed_wrong",
    "C20_sort_renamed_key_crash",
    "C20_swapped_keys_wrong",
    "C20_none_suffix_wrong"
   ],
   "note": "All tables and divisions, how = left, inner, right. Excluded cases are real failures shown by witness theorems: sort=True without naming the keys or with renamed keys, a name at different places of left_on and right_on, a suffix None. Keys that are index levels and indicator are not modelled."
  },
  {
   "property": "C21",
   "status": "partial",
   "theorems": [
    "C21_range_merge_partial"
   ],
   "note": "left and inner on one common column, all pivots; the suffixes must be strings (C20_none_suffix_wrong) and at least one pivot must be found."
  },
  {
   "property": "C22",
   "status": "partial",
   "theorems": [
    "C22_labels_in_force_partial",
    "C22_map_stale_wrong",
    "C22_late_error"
   ],
   "note": "All histories of label assignments, copies, cell functions, transpositions, selections by position, looks and operations needing both label axes. Label-dependent functions under the elementwise operator see old labels (witness). One-axis propagation (tree_reduce, from_labels) not in the history."
  },
  {
   "property": "C23",
   "status": "partial",
   "theorems": [
    "C23_ranges_cover",
    "C23_cut_between_records_partial",
    "C23_cut_between_records_unquoted",
    "C23_read_csv_partial",
    "C23_stray_quote_wrong",
    "C23_quoted_header_wrong",
    "C23_leading_blank_wrong"
   ],
   "note": "Coverage for every byte string; cutting between records when no quote stands inside an unquoted field (always with QUOTE_NONE); rows of read_csv when in addition the header lines are plain. The excluded cases are wrong (witnesses). One-byte quotes, encoding=None."
  },
  {
   "property": "C24",
   "status": "partial",
   "theorems": [
    "C24_nrows_partial",
    "C24_nrows_zero_wrong",
    "C24_blank_lines_wrong",
    "C24_skipped_run_wrong"
   ],
   "note": "n >= 1 in files without blank lines; with skiprows see C25. nrows=0, blank lines and a skipped run behind nrows are wrong (witnesses)."
  },
  {
   "property": "C25",
   "status": "partial",
   "theorems": [
    "C25_skiprows_partial",
    "C25_first_data_line_wrong",
    "C25_out_of_range_wrong",
    "C25_blank_lines_wrong"
   ],
   "note": "Numbers, lists and predicates, with or without nrows, every header size and number of partitions. Excluded cases are wrong (witnesses)."
  },
  {
   "property": "C26",
   "status": "partial",
   "theorems": [
    "C26_reads_last_value_partial",
    "C26_rejected_partial",
    "C26_subscriber_partial",
    "C26_once_partial",
    "C26_npartitions_wrong",
    "C26_bool_string_wrong"
   ],
   "note": "All histories, for parameters whose accepted values pass the check made by get. NPartitions and CpuCount are not such (witness); strings given to bool parameters are wrong (witness). Callbacks that raise or set parameters are not modelled."
  },
  {
   "property": "C27",
   "status": "partial",
   "theorems": [
    "C27_context_partial",
    "C27_context_enter",
    "C27_no_default_wrong",
    "C27_entry_wrong"
   ],
   "note": "All bodies, nested blocks and exceptions, when the values are accepted and the old values can be put back. Parameters without default and a rejected value on entry are wrong (witnesses)."
  },
  {
   "property": "C28",
   "status": "proved",
   "theorems": [
    "C28_no_call_fails",
    "C28_results_are_eager",
    "C28_drained_has_result",
    "C28_applied_has_result",
    "C28_deferring_calls_nothing"
   ],
   "note": "All graphs and all histories of defer, apply, copy, delete and drain on the partitions holding them. Calls with one result (every call in the repository); functions that raise are not modelled."
  },
  {
   "property": "C29",
   "status": "proved",
   "theorems": [
    "C29_cheapest",
    "C29_defined",
    "C29_candidates",
    "C29_auto_switch",
    "C29_delta",
    "C29_default_costs_in_range",
    "C29_stay_cost_zero_division"
   ],
   "note": "All operand lists, cost tables and candidate sets. The witness records that the default stay cost divides by zero for an empty frame when the maximal number of rows is 0."
  },
  {
   "property": "C30",
   "status": "partial",
   "theorems": [
    "C30_dtypes_right_partial",
    "C30_order_partial",
    "C30_dtypes_set_partial",
    "C30_reorder_raises",
    "C30_stack_forgets_remaining",
    "C30_stack_inner",
    "C30_insert_raises",
    "C30_same_raises",
    "C30_setitem_raises",
    "C30_misordered_rename",
    "C30_misordered_take",
    "C30_dtypes_set_extra"
   ],
   "note": "All histories of construction, copy, selection, reordering, renaming, insertion, replacement, side-by-side and stacked concatenation, for distinct one-level labels. Missing: positional operations on dtypes cached in another order than the columns, stacking of frames whose dtypes do not name their columns, inner joins; witnesses show these report wrong dtypes, and four operations that raise."
  },
  {
   "property": "C31",
   "status": "proved",
   "theorems": [
    "C31_transpose",
    "C31_cells"
   ],
   "note": "All frames and divisions, with pending labels."
  },
  {
   "property": "C32",
   "status": "partial",
   "theorems": [
    "C32_reset_index_partial",
    "C32_raises",
    "C32_set_index_partial",
    "C32_round_trip_partial",
    "C32_taken_name_accepted",
    "C32_named_index_rejected",
    "C32_no_columns_raises",
    "C32_set_index_multiplies"
   ],
   "note": "One-level labels, any division and any state of the cached labels. Missing: named indexes whose name is taken, named indexes with columns level_0 and index, frames without columns, set_index with other repeated columns (witnesses); level, names, append and repeated keys are not modelled."
  },
  {
   "property": "C33",
   "status": "partial",
   "theorems": [
    "C33_dropna_columns_partial",
    "C33_dropna_columns_dynamic_partial",
    "C33_dropna_rows",
    "C33_repeated_labels",
    "C33_dynamic_wrong_row"
   ],
   "note": "Rows: complete. Columns: any division, subset, rule and state of cached labels, for distinct column labels and without DynamicPartitioning (with it: frames whose row lengths are not recorded). Missing: repeated column labels, recorded row lengths under DynamicPartitioning (both false, witnesses)."
  },
  {
   "property": "C34",
   "status": "partial",
   "theorems": [
    "C34_drop_partial",
    "C34_kept",
    "C34_absent_accepted"
   ],
   "note": "Any labels with repeats, both axes, errors= raise and ignore. Missing: an absent label is not reported along an axis whose labels are unknown (witness); several levels are not modelled."
  },
  {
   "property": "C35",
   "status": "partial",
   "theorems": [
    "C35_corr_partial",
    "C35_cov_partial",
    "CorrDemo.C35_unsorted_columns_wrong",
    "CorrDemo.C35_cov_loses_labels",
    "CorrDemo.C35_cov_ddof_differs"
   ],
   "note": "Every frame of exact numbers and missing values, every division, min_periods and state of the labels. Missing: corr when the columns are not in the order of their labels and only some row partitions have missing values, cov with min_periods above the number of rows, cov with another ddof and missing values (all three false, witnesses); repeated labels; rounding; infinities."
  },
  {
   "property": "C36",
   "status": "proved",
   "theorems": [
    "C36_skew"
   ],
   "note": "Exact rationals; the closing formula with square roots is a parameter."
  },
  {
   "property": "C37",
   "status": "partial",
   "theorems": [
    "C37_registry",
    "C37_register_partial",
    "C37_registered_stays",
    "C37_rejected_active_wrong",
    "C37_activate_twice_wrong"
   ],
   "note": "One to one after all histories. A rejected registration keeps both maps but changes the set of active backends (witness)."
  },
  {
   "property": "C38",
   "status": "partial",
   "theorems": [
    "C38_spellings_partial",
    "C38_both_wrong"
   ],
   "note": "All histories when the environment does not give both spellings; otherwise wrong (witness). No parameter in the repository uses EnvWithSibilings at this commit."
  },
  {
   "property": "C39",
   "status": "partial",
   "theorems": [
    "C39_row_groups_once",
    "C39_read_parquet_partial",
    "C39_read_feather",
    "C39_no_row_groups_wrong",
    "C39_empty_columns_wrong",
    "C39_filtered_range_wrong",
    "C39_filtered_index_only_wrong"
   ],
   "note": "All files, partition counts, columns and filters. Missing: cases where the code differs from pandas (no row groups, columns=[], a filter with a range index not ending on a step, a filter with only the index read), multi-path lists, partitioned directories."
  },
  {
   "property": "C40",
   "status": "proved",
   "theorems": [
    "C40_read_sql",
    "C40_windows_cover"
   ],
   "note": "All query results and partition counts, with and without an index column. The database is assumed to answer the windows in one row order."
  },
  {
   "property": "C41",
   "status": "partial",
   "theorems": [
    "C41_duplicated_partial",
    "DupDemo.C41_negative_zero_missed",
    "DupDemo.C41_cast_makes_equal",
    "DupDemo.C41_no_rows_fails"
   ],
   "note": "Every frame with columns, every division, keep and state of the labels, for digests that agree exactly on equal rows. Missing: rows that print differently although equal (0.0 and -0.0), rows made equal by the cast to a common dtype, frames without rows in several column partitions (all three false, witnesses); frames without columns."
  },
  {
   "property": "C42",
   "status": "partial",
   "theorems": [
    "C42_insert_partial",
    "C42_raises",
    "C42_setitem_partial",
    "C42_duplicate_scalar_raises",
    "C42_value_renamed",
    "C42_only_first_set",
    "C42_repeated_labels_accepted",
    "C42_repeated_rows_wrong"
   ],
   "note": "Any division, location and state of the cached labels; scalars and labelled values, insertion and assignment to one column label. Missing: a scalar under a taken name with allow_duplicates=True, labelled values for a repeated column label, values with other labels put before the last column of a frame with repeated row labels, reporting repeated labels of the value, the value's own name (witnesses); frames without rows or columns and keys that are lists or masks are not modelled."
  },
  {
   "property": "C43",
   "status": "proved",
   "theorems": [
    "C43_concat_columns"
   ],
   "note": "Frames with at least one block each; row labels equal, without repeats, or two frames joined by pandas."
  },
  {
   "property": "C44",
   "status": "proved",
   "theorems": [
    "C44_full_axis_reduction",
    "C44_full_axis_reduction_rows"
   ],
   "note": "Any reduction function; at least one column (row)."
  },
  {
   "property": "C45",
   "status": "partial",
   "theorems": [
    "C45_external_by_partial",
    "C45_other_division_wrong",
    "C45_other_order_wrong"
   ],
   "note": "Same labels, order and row division; otherwise the code is wrong (witness theorems)."
  },
  {
   "property": "C46",
   "status": "partial",
   "theorems": [
    "C46_predicted_columns_partial",
    "C20_swapped_keys_wrong",
    "C20_none_suffix_wrong"
   ],
   "note": "Excluded cases are real failures shown by witness theorems; indicator=True is not modelled."
  },
  {
   "property": "C47",
   "status": "partial",
   "theorems": [
    "C47_one_execution_partial",
    "C47_put_partial",
    "C47_deactivated_wrong"
   ],
   "note": "All histories in which set_active_backends is not called; with it, wrong (witness). Subscribers are not modelled here."
  },
  {
   "property": "C48",
   "status": "partial",
   "theorems": [
    "C48_parquet_round_trip_partial",
    "C48_range_labels_wrong",
    "C48_overwrite_wrong",
    "C48_file_order_wrong"
   ],
   "note": "All frames with distinct columns, partitionings, write orders and reader configurations, into a new directory of at most 10000 files. False of the code: a range index other than 0,1,2,... over several partitions, a directory written before, more files."
  },
  {
   "property": "C49",
   "status": "proved",
   "theorems": [
    "C49_to_sql_every_row_once",
    "C49_row_order_wrong",
    "C49_failure_leaves_part_wrong"
   ],
   "note": "All tables, if_exists values and completion orders. The witnesses record that row order is the workers' order and that a failing worker leaves a partial table."
  },
  {
   "property": "C50",
   "status": "partial",
   "theorems": [
    "C50_operands_of_several_backends_partial",
    "C50_conflict",
    "C50_one_backend",
    "C50_copies_leave_originals_partial",
    "C50_in_place_keeps_arguments",
    "C50_nested_tuple_wrong",
    "C50_caller_list_changed",
    "C50_first_backend_needed"
   ],
   "note": "All argument nestings, object states, pins, aliasing, costs and configurations, for functions implemented on every backend. Missing: with BackendMergeCastInPlace off, objects inside nested tuples (not cast by the code). Witnesses record that and the mutation of the caller's list."
  },
  {
   "property": "C51",
   "status": "partial",
   "theorems": [
    "C51_mask_partial",
    "C51_bool_array",
    "MaskDemo.C51_reordered_mask_sorts",
    "MaskDemo.C51_longer_mask_fails",
    "MaskDemo.C51_dynamic_wrong_column"
   ],
   "note": "Every frame, mask and division when the labels are equal or the frame is sorted by label and the mask's labels do not repeat; arrays without restriction. Missing: masks labelled differently from an unsorted frame (Modin returns the rows sorted), masks with more labels than the frame (Modin raises), DynamicPartitioning with recorded column widths (all three false, witnesses); repeated mask labels that differ from the frame's."
  },
  {
   "property": "C52",
   "status": "partial",
   "theorems": [
    "C52_drop_duplicates_partial",
    "C52_unique",
    "DropDupDemo.C52_no_rows_fails",
    "DropDupDemo.C52_last_is_first"
   ],
   "note": "Every frame with rows and columns, division, keep, subset and ignore_index, provided digests of rows are equal exactly when the rows are (see C41). Missing: frames without rows in several block columns (false, witness) or without columns; repeated labels among the listed columns; DynamicPartitioning; one column with keep=last and ignore_index (false, witness). Series.unique: proved."
  },
  {
   "property": "C53",
   "status": "partial",
   "theorems": [
    "C53_to_csv_partial",
    "C53_failure_stops_later_workers",
    "C53_marked_encodings_left_to_pandas",
    "C53_uncompressed_partial",
    "ToCsvDemo.C53_exclusive_mode_fails",
    "ToCsvDemo.C53_no_rows_no_file",
    "ToCsvDemo.C53_dates_wrong",
    "ToCsvDemo.C53_held_places_block",
    "ToCsvDemo.C53_compressed_not_recognised"
   ],
   "note": "Transition system of the workers, the SignalActor and the file; invariant over every run, with crashes and torn writes; runs are finite (at most five steps per worker) and, without a crash, go on until all workers are done; the final file equals the text pandas writes. Missing: mode 'x' with several row partitions (the code fails, witness), texts not made row by row (dates, witness), frames without blocks (no file is made, witness), .zst/.tar/capital names (witness); byte order marks in binary mode, remote file systems and what Ray itself does are not modelled."
  },
  {
   "property": "C54",
   "status": "partial",
   "theorems": [
    "C54_op_series_rows_partial",
    "C54_op_series_rows_same_partial",
    "C54_op_series_cols_partial",
    "SeriesOpDemo.C54_dynamic_wrong_column",
    "SeriesOpDemo.C54_repeated_columns_raise",
    "SeriesOpDemo.C54_logical_takes_series_for_frame"
   ],
   "note": "Both axes, equal and different labels, all divisions; pandas' Index.join is a parameter with the indexers it promises. Missing: differing column labels with repeats (the code raises, witness), DynamicPartitioning (wrong column, witness), the logical operators (the Series is taken for a frame, witness)."
  },
  {
   "property": "C55",
   "status": "partial",
   "theorems": [
    "C55_iloc_set_partial",
    "C55_loc_set_partial",
    "LocAssignDemo.C55_row_order_ignored",
    "LocAssignDemo.C55_column_order_ignored",
    "LocAssignDemo.C55_repeated_row_sets_column",
    "LocAssignDemo.C55_out_of_bounds_sets_column",
    "LocAssignDemo.C55_part_of_row_wrong",
    "LocAssignDemo.C55_backward_slice_writes",
    "LocAssignDemo.C55_long_array_truncated",
    "LocAssignDemo.C55_mask_length_unchecked",
    "LocAssignDemo.C55_mask_array_raises",
    "LocAssignDemo.C55_repeated_label_sets_all",
    "LocAssignDemo.C55_nothing_writes_cell"
   ],
   "note": "From the user's key to the blocks, all three code paths. The excluded cases are each witnessed as violated: all rows (columns) in another order, repeated positions adding up to the length of the axis, a label shared by several rows (columns) assigned as a whole, an array for part of a row, slices running backwards, boolean row lists with an array. Missing: arrays through slices that do not start at 0 (C10), items that are frames or Series, enlarging, loc slices between labels."
  },
  {
   "property": "C56",
   "status": "partial",
   "theorems": [
    "C56_reindex_partial",
    "C56_loc_existing_partial",
    "C56_loc_new_row_partial",
    "C56_loc_new_columns_partial",
    "ReindexDemo.C56_mixed_arguments_raise",
    "ReindexDemo.C56_new_row_filled_with_zero",
    "ReindexDemo.C56_new_cell_raises",
    "ReindexDemo.C56_row_label_hides_new_column",
    "ReindexDemo.C56_new_row_beside_repeated_labels",
    "ReindexDemo.C56_no_rows_raise"
   ],
   "note": "reindex: complete for both axes except for the combination of argument types that is witnessed to raise. Enlarging: a whole new row, and new columns; the excluded cases are each witnessed as violated. Missing: `method`, `limit`, `tolerance`, MultiIndex, dtypes, items that are frames or Series."
  },
  {
   "property": "C57",
   "status": "proved",
   "theorems": [
    "C57_sort_index",
    "C57_sort_columns",
    "C57_ascending_none",
    "C57_sorted"
   ],
   "note": "Both axes, any order of labels pandas computes from the labels alone. `level` and MultiIndex (sent to pandas as a whole by the code) and dtypes are not modelled."
  },
  {
   "property": "C58",
   "status": "partial",
   "theorems": [
    "C58_nsort_partial",
    "C58_nsort_wide_raises",
    "C58_nsort_series",
    "C58_first_valid_index_partial",
    "C58_last_valid_index_partial",
    "C58_first_valid_raises",
    "SortIndexDemo.C58_wide_frame_raises",
    "SortIndexDemo.C58_empty_column_raises"
   ],
   "note": "nlargest/nsmallest: complete for frames held in one column of blocks; proved to raise for every frame held in more. first/last_valid_index: complete if every column has a valid cell; proved to raise otherwise."
  },
  {
   "property": "C59",
   "status": "partial",
   "theorems": [
    "C59_cumulative",
    "C59_cumulative_cells",
    "C59_diff",
    "C59_fill_method",
    "C59_ffill_cells",
    "C59_windows",
    "C59_rolling_on_partial",
    "C59_rolling_on_raises"
   ],
   "note": "Complete except for rolling(on=...), which holds for frames held in one column of blocks and is proved to raise for every wider frame. dtypes and the checks of dtypes are not modelled."
  },
  {
   "property": "C60",
   "status": "partial",
   "theorems": [
    "C60_fillna_scalar",
    "C60_limit_cells",
    "C60_fillna_dict_partial",
    "C60_fillna_frame_partial",
    "C60_fillna_rejects",
    "C60_fillna_frame_misplaces",
    "C60_fillna_dict_stale"
   ],
   "note": "Scalars: complete. Dictionaries: unless new column names are pending in the blocks (proved to fail then). Frames: when the row labels are the same, or those of df are sorted and those of the values distinct; otherwise Modin keeps the old labels over sorted rows (witness). DynamicPartitioning only for scalars and dictionaries. dtypes are not modelled."
  },
  {
   "property": "C61",
   "status": "partial",
   "theorems": [
    "C61_where_scalar_partial",
    "C61_where_frame_partial",
    "C61_isin_partial",
    "C61_clip_partial",
    "C61_where_reorders",
    "C61_where_repeated_rows_wrong",
    "C61_isin_stale",
    "C61_clip_drops_bound",
    "C61_clip_no_axis"
   ],
   "note": "where with a scalar: same labels, or sorted distinct ones (unsorted rows come out sorted: witness); with a frame: repeated row labels only if both others have them or are divided alike (witness); row bands without rows as in C13. isin: unless new labels are pending in the blocks (witness). clip: except lists with a missing value in them (the whole list is dropped: witness) and lists without an axis (the grid of blocks is transposed: witness). Series as other or as bounds and dtypes are not modelled."
  },
  {
   "property": "C62",
   "status": "partial",
   "theorems": [
    "C62_mode",
    "C62_mode_partial",
    "C62_quantiles_columns",
    "C62_quantiles_rows",
    "C62_rank",
    "C62_mode_loses_missing"
   ],
   "note": "Complete for numeric frames except mode(dropna=False), where rows of missing modes only are lost (witness), and mode(axis=1), na_option other than keep and frames with other dtypes, which are not modelled. The quantile of one column is a parameter."
  },
  {
   "property": "C63",
   "status": "partial",
   "theorems": [
    "C63_setitem_bool_partial",
    "setMask_cells",
    "C63_repeated_labels"
   ],
   "note": "Proved for masks without repeated labels, errors included. With repeated labels the claim is false: Modin raises where pandas writes (witness). setMask_cells says cell by cell what the specification writes."
  },
  {
   "property": "C64",
   "status": "partial",
   "theorems": [
    "C64_query_partial",
    "C64_query_calls",
    "C64_explode",
    "C64_query_in_column",
    "C64_query_array"
   ],
   "note": "explode is complete. query is proved for expressions whose value at a row depends on that row only, and that calls are never evaluated on parts. `a in b` with two columns silently loses rows (witness) and a comparison with an array raises (witness). The fallback for expressions with calls and names in backticks are not modelled."
  },
  {
   "property": "C65",
   "status": "proved",
   "theorems": [
    "C65_unwrap",
    "C65_from",
    "C65_roundtrip"
   ],
   "note": "Complete for frames that have blocks; node addresses are not modelled here. Wrong labels or sizes passed by the caller are outside the hypotheses."
  },
  {
   "property": "C66",
   "status": "partial",
   "theorems": [
    "C66_assign",
    "C66_dmatrix",
    "C66_train_partial",
    "C66_predict",
    "C66_unaligned",
    "C66_more_nodes",
    "C66_evals_order"
   ],
   "note": "Sharing out and prediction are complete. Training is proved for data and labels divided at the same places on clusters with at most as many nodes as row partitions: otherwise rows are silently paired with other rows' labels, or training raises (witnesses). Evaluation sets are reordered and the caller's list is modified (witness). What a worker does with its data is not modelled."
  },
  {
   "property": "C67",
   "status": "partial",
   "theorems": [
    "C67_function",
    "C67_function_flat",
    "C67_list",
    "C67_list_flat",
    "C67_dict_partial",
    "C67_dict_flat_partial",
    "C67_dict_columns",
    "C67_transform",
    "C67_dict_order"
   ],
   "note": "Functions, lists of functions and transformations are complete for non-empty frames grouped on their own columns. Dictionaries: pandas' order of columns only if the entries are listed in the frame's order (witness otherwise); in general the columns are pandas' in some order. Frames without rows go to pandas and are not covered; categorical keys, levels, external keys and Series group-by are not modelled."
  },
  {
   "property": "C68",
   "status": "partial",
   "theorems": [
    "C68_case_when_partial",
    "C68_not_rowwise",
    "C68_pending_labels",
    "C68_empty_block",
    "C68_long_list"
   ],
   "note": "Proved whenever pandas has a result, for functions that go row by row, labels already written to the blocks, and no empty row block beside a Modin operand; each exclusion has a witness. Modin operands with the Series' own repeated labels must be divided like it if another Modin operand has other labels. When pandas raises, Modin may not (witness)."
  },
  {
   "property": "C69",
   "status": "partial",
   "theorems": [
    "C69_interchange_partial",
    "C69_chunks_partial",
    "C69_refused",
    "C69_missing_category",
    "C69_minus_one",
    "C69_mixed_objects",
    "C69_empty_band",
    "C69_pending_labels"
   ],
   "note": "Proved for non-empty row blocks, distinct string column labels, columns of numbers, strings with missing values, and categories without missing values; a new number of chunks needs the labels to be written to the blocks. Each exclusion has a witness. The memory layout of numbers and dates, and the protocol's own get_chunks of a single column (which reads an attribute that does not exist), are not modelled."
  },
  {
   "property": "C70",
   "status": "partial",
   "theorems": [
    "C70_foreign_column_partial",
    "C70_foreign_strings",
    "C70_memory_partial",
    "C70_sliced",
    "C70_padded_mask",
    "C70_uint8_mask",
    "C70_missing_boolean",
    "C70_empty_mask",
    "C70_memory_written"
   ],
   "note": "Numbers, booleans and dates: proved when the arrays made from the buffers have the size of the column; C70_sliced proves that every column that is a slice of a longer buffer is read wrongly. Strings are proved for every offset. Categories, date formats and the tables of dtypes are not modelled."
  },
  {
   "property": "C71",
   "status": "partial",
   "theorems": [
    "C71_batch_partial",
    "C71_rowwise",
    "C71_add_query",
    "C71_results",
    "C71_fan_out_then",
    "C71_fan_out_then_meaning",
    "C71_pending_labels",
    "C71_same_id",
    "C71_after_last_output"
   ],
   "note": "Proved for arbitrary functions when only the last query before an output is fanned out and no labels are waiting to be written to the blocks; C71_fan_out_then proves that otherwise the computation always fails, C71_pending_labels shows old labels. If the partitions of an output have different columns nothing is said. Warnings and the check of the execution engine are not modelled."
  },
  {
   "property": "C72",
   "status": "partial",
   "theorems": [
    "C72_melt_partial",
    "C72_melt_order_partial",
    "C72_melt_one_partition",
    "C72_row_order",
    "C72_empty_partition",
    "C72_missing_name",
    "C72_overlap",
    "C72_named_twice",
    "C72_no_value_columns",
    "C72_value_name"
   ],
   "note": "Proved for different column names and arguments that name columns once; with id columns also that no row partition is recorded as empty. The remaining cases are shown to differ from pandas by witnesses, one of them silently wrong data (C72_empty_partition). `col_level` is not modelled; `ignore_index` is not looked at in the code."
  },
  {
   "property": "C73",
   "status": "partial",
   "theorems": [
    "C73_iloc_partial",
    "C73_loc_partial",
    "C73_missing_label",
    "C73_getitem_partial",
    "C73_getitem_missing",
    "C73_default_labels_partial",
    "C73_index_key_partial",
    "C73_slice_step",
    "C73_range_step",
    "C73_range_missing",
    "C73_range_index",
    "C73_inverted_slice",
    "C73_index_key",
    "C73_mask_length"
   ],
   "note": "Proved for all keys except slices with a step over numeric labels, ranges (proved on default labels with step 1), RangeIndex keys (proved on default labels), empty slices, Index keys over repeated labels, and repeated positions with cached block sizes (as C08); witnesses show that the code differs from pandas for these, some of them silently. Multi-level labels and negative steps are not modelled."
  },
  {
   "property": "C74",
   "status": "partial",
   "theorems": [
    "C74_programs_partial",
    "C74_index_and_len_partial",
    "C74_same_cuts_partial",
    "C74_empty_chunk",
    "C74_empty_chunk_raises",
    "C74_empty_chunk_labels_first"
   ],
   "note": "Proved as a refinement of the same program in pandas, for programs of any length, if no chunk of a file that was read is without rows. With such a chunk the code is wrong: C74_empty_chunk is a program of four steps after which rows are missing, C74_empty_chunk_raises the same with an IndexError. Operations between frames with different labels are the subject of C13 and C43."
  },
  {
   "property": "C75",
   "status": "partial",
   "theorems": [
    "C75_result_partial",
    "C75_supported_partial",
    "C75_refused",
    "C75_operands_partial",
    "C75_scalar",
    "C75_one_row",
    "C75_floor_divide",
    "C75_column_left",
    "C75_length_one",
    "C75_column_and_row",
    "C75_operand_changes"
   ],
   "note": "Proved for all shapes except two-dimensional operands with different numbers of rows, and except // of integer arrays of different shapes; there the code is wrong (C75_one_row, C75_floor_divide). Some shapes that NumPy combines raise (C75_column_left, C75_length_one, C75_column_and_row). Operands keep their values only if these survive the conversion to the common type (C75_operand_changes). out= and where= are not modelled."
  },
  {
   "property": "C76",
   "status": "partial",
   "theorems": [
    "C76_sum_partial",
    "C76_max_partial",
    "C76_truth_partial",
    "C76_refused_partial",
    "C76_max_refused_partial",
    "C76_truth_refused_partial",
    "C76_max_nan",
    "C76_max_keepdims_initial",
    "C76_max_empty",
    "C76_any_nan",
    "C76_all_keepdims",
    "C76_axis_one_dim"
   ],
   "note": "Proved for every shape, axis, keepdims, initial value and accepted mask, with the exclusions for which the code is wrong: NaN among the selected elements of max, min and any (C76_max_nan, C76_any_nan), max and min of an empty array (C76_max_empty), keepdims with initial for max and min of one-dimensional arrays (C76_max_keepdims_initial), axis=None with keepdims for all and any of two-dimensional arrays (C76_all_keepdims), an axis above 1 of one-dimensional arrays (C76_axis_one_dim). Sums are over a commutative monoid, so rounding is not modelled; masks with more dimensions than the array, out= and dtype= are not modelled."
  },
  {
   "property": "C77",
   "status": "partial",
   "theorems": [
    "C77_frame_by_frame_partial",
    "C77_frame_by_series_partial",
    "C77_frame_by_matrix_partial",
    "C77_frame_by_vector_partial",
    "C77_series_by_frame_partial",
    "C77_series_by_series_partial",
    "C77_series_by_matrix_partial",
    "C77_series_by_vector_partial",
    "DotDemo.C77_one_column_relabelled",
    "DotDemo.C77_one_cell_relabelled",
    "DotDemo.C77_one_column_by_series",
    "DotDemo.C77_series_by_one_column",
    "DotDemo.C77_series_by_one_column_matrix"
   ],
   "note": "Proved for all four kinds of right operand, every division into blocks and an arbitrary inner product, so that no law of arithmetic is assumed. The labels summed over do not repeat. A frame of one column lies in one block column. Excluded because the code is wrong: right operands with one column (C77_one_column_relabelled, C77_one_cell_relabelled, C77_series_by_one_column, C77_series_by_one_column_matrix) and frames of one column times one-dimensional operands (C77_one_column_by_series)."
  },
  {
   "property": "C78",
   "status": "partial",
   "theorems": [
    "C78_programs_partial",
    "C78_change_reaches_every_copy",
    "C78_column_written_back",
    "C78_others_untouched",
    "ShareDemo.C78_unchanged_result_shares_labels",
    "ShareDemo.C78_renaming_lost",
    "ShareDemo.C78_copy_of_column_not_written_back",
    "ShareDemo.C78_column_objects_apart"
   ],
   "note": "C78_change_reaches_every_copy, C78_column_written_back and C78_others_untouched hold for every program. C78_programs_partial covers programs that set no labels, and programs that set labels but use neither DataFrame(df) nor an operation that had nothing to do; for the rest the code is wrong (C78_unchanged_result_shares_labels, C78_renaming_lost). The specification takes two columns taken out of a frame, and a shallow copy of a column, as objects the frame does not know of (C78_column_objects_apart, C78_copy_of_column_not_written_back); pandas shares them. Labels belong to the shared data here; pandas keeps labels of shallow copies apart. Moving objects between backends is not modelled."
  },
  {
   "property": "C79",
   "status": "partial",
   "theorems": [
    "C79_get_dummies_partial",
    "C79_default_columns_partial",
    "DummyDemo.C79_all_columns_in_frame_order",
    "DummyDemo.C79_missing_label_accepted",
    "DummyDemo.C79_missing_label_repeats_last",
    "DummyDemo.C79_prefix_list_refused",
    "DummyDemo.C79_dates_encoded",
    "DummyDemo.C79_repeated_label_encoded",
    "DummyDemo.C79_asked_dtype_not_reported"
   ],
   "note": "Proved for distinct column labels, distinct listed labels that are there (in the frame's order if all are listed) and no list of prefixes; without `columns` also for frames without date-like columns. Elsewhere the code differs from pandas: see the witnesses. A list of no columns (pandas: the frame itself; modin: ValueError from a block without columns) is outside. Repeated column labels are not covered by the proof."
  },
  {
   "property": "C80",
   "status": "partial",
   "theorems": [
    "C80_select_dtypes_partial",
    "C80_describe_partial",
    "DescribeDemo.C80_no_rows_refused",
    "DescribeDemo.C80_repeated_columns",
    "DescribeDemo.C80_repeated_label"
   ],
   "note": "Proved for frames with distinct column labels and at least one row (select_dtypes: also for repeated labels of which all or none are wanted). Elsewhere the code differs from pandas: see the witnesses. Which dtypes are wanted, and the statistics of a column, are parameters."
  },
  {
   "property": "C81",
   "status": "partial",
   "theorems": [
    "C81_apply_list_partial",
    "C81_apply_list_refused",
    "C81_apply_list_rows",
    "C81_apply_dict_partial",
    "C81_dict_across_blocks",
    "DescribeDemo.C81_dict_two_blocks",
    "DescribeDemo.C81_dict_of_reductions",
    "DescribeDemo.C81_list_of_transformations"
   ],
   "note": "Lists: proved for functions that make one value, along both axes. Dictionaries: proved for functions that make a column when the keys lie in one block column; C81_dict_across_blocks proves that every other dictionary raises. Lists and dictionaries of the other sort give results that cannot be read: see the witnesses. Dictionaries with axis=1 and a frame without columns are not modelled; `agg` with a dictionary hands the whole frame to pandas."
  },
  {
   "property": "C82",
   "status": "partial",
   "theorems": [
    "C82_stack",
    "C82_unstack_partial",
    "C82_unstack_refused",
    "C82_unstack_level",
    "C82_pivot_partial",
    "UnstackDemo.C82_unstack_repeated_columns",
    "UnstackDemo.C82_unstack_one_column",
    "UnstackDemo.C82_pivot_substring",
    "UnstackDemo.C82_pivot_one_column",
    "UnstackDemo.C82_pivot_list_of_one",
    "UnstackDemo.C82_pivot_empty_list"
   ],
   "note": "stack and unstack of a level: proved for every frame, with refusals. unstack of plain labels: proved for distinct labels, and repeated row labels are refused if there are two columns. pivot: proved for distinct column labels and one column each as row and column labels. Elsewhere the code differs from pandas: see the witnesses. Not modelled: sort=False, more levels, level names, pivot with lists of several label columns."
  },
  {
   "property": "C83",
   "status": "partial",
   "theorems": [
    "C83_resample",
    "C83_bins",
    "C83_resample_range_partial",
    "C83_resample_range_gapless",
    "C83_resample_on_partial",
    "C83_resample_on_blocks",
    "C83_resample_size_partial",
    "ResampleDemo.C83_range_loses_bins",
    "ResampleDemo.C83_range_closed_right",
    "ResampleDemo.C83_range_origin",
    "ResampleDemo.C83_range_counts_fillers",
    "ResampleDemo.C83_resample_size_blocks"
   ],
   "note": "resample: proved for every frame, rule and aggregation. With range partitioning: proved that no bin with a time is lost, repeated or wrong, for origins that move by whole steps only, aggregations that ignore missing cells and times not on the edges of right-closed bins; equality with pandas if no bin is empty. on and size: proved for one column partition; on is proved to be refused for several. Elsewhere the code differs from pandas: see the witnesses. Not modelled: rules that are no fixed step, time zones, several levels of row labels, range partitioning with on."
  },
  {
   "property": "C84",
   "status": "partial",
   "theorems": [
    "C84_head_partial",
    "C84_tail_partial",
    "C84_take_partial",
    "C84_truncate_partial",
    "C84_truncate_raises",
    "C84_filter_rows",
    "C84_filter_columns_partial",
    "C84_filter_items_partial",
    "C84_sample_partial",
    "PortionDemo.C84_head_zero_lazy",
    "PortionDemo.C84_truncate_descending",
    "PortionDemo.C84_filter_order",
    "PortionDemo.C84_filter_repeated",
    "PortionDemo.C84_filter_empty",
    "PortionDemo.C84_sample_ignore_index",
    "PortionDemo.C84_sample_repeated_label"
   ],
   "note": "Proved for every partitioned frame: head and tail (column labels recorded if nothing is left), take (no repeated positions when block sizes are cached), truncate on ascending labels, filter by a test of row labels, of distinct column labels, by items in the order of distinct labels, and sample without ignore_index for every sequence of draws. Elsewhere the code differs from pandas: see the witnesses. Not modelled: weights of sample, take with positions outside the axis, multi-level labels, truncate leaving no column."
  },
  {
   "property": "C85",
   "status": "partial",
   "theorems": [
    "C85_equals_partial",
    "C85_iterrows_partial",
    "C85_items_partial",
    "C85_itertuples_partial",
    "C85_asof_partial",
    "C85_asof_one_partial",
    "EqualsDemo.C85_equals_empty",
    "EqualsDemo.C85_asof_repeated_label",
    "EqualsDemo.C85_asof_descending",
    "EqualsDemo.C85_asof_one_column"
   ],
   "note": "Proved: equals for all pairs of frames without empty blocks and every pair of divisions; the iterators for every frame with a column (a row for items); asof on distinct ascending labels, every where and subset of distinct columns, and for one label if there are two columns. Elsewhere the code differs from pandas: see the witnesses. Not modelled: dtypes, labels of equals waiting to be written to the blocks, field names of itertuples, Series.asof."
  },
  {
   "property": "C86",
   "status": "partial",
   "theorems": [
    "C86_read_json_partial",
    "C86_excel_pieces",
    "C86_read_excel_partial",
    "SheetDemo.C86_json_blank_line",
    "SheetDemo.C86_json_missing_key",
    "SheetDemo.C86_json_nrows",
    "SheetDemo.C86_excel_empty_sheet",
    "SheetDemo.C86_excel_small_file",
    "SheetDemo.C86_excel_gap",
    "SheetDemo.C86_excel_blank_piece",
    "SheetDemo.C86_excel_header_row",
    "SheetDemo.C86_excel_repeated_name"
   ],
   "note": "Proved for every number of partitions: JSON lines without blank lines whose records all have the keys of the first; worksheets whose rows are numbered consecutively, have one width and are not blank, with the names in the first row or nowhere, and at least four characters per partition. Elsewhere the code differs from pandas: see the witnesses. Not modelled: dtypes, index_col, usecols, nrows and skipfooter of read_excel, several header rows, finding the worksheet in the archive, compression."
  },
  {
   "property": "C87",
   "status": "partial",
   "theorems": [
    "C87_apply_partial",
    "C87_apply_any_partial",
    "GroupApplyDemo.C87_missing_key",
    "GroupApplyDemo.C87_repeated_column"
   ],
   "note": "One key column, sorted: exactly pandas' frame, for every partitioning, every increasing pivots none of which is after all keys, missing keys dropped or kept. Any key columns: pandas' concat of the results of all groups in some order, or the crash of C19, if no key is missing. The frame and the results have no repeated columns. Elsewhere the code differs from pandas: see the witnesses. Not modelled: external keys, index levels, missing categories, functions returning scalars or Series, results indexed like the group."
  },
  {
   "property": "C88",
   "status": "partial",
   "theorems": [
    "C88_pivot_cells_partial",
    "C88_pivot_table_partial",
    "C88_mean_partial",
    "PivotTableDemo.C88_column_order",
    "PivotTableDemo.C88_unknown_value",
    "PivotTableDemo.C88_unknown_key",
    "PivotTableDemo.C88_empty_row",
    "PivotTableDemo.C88_fill",
    "PivotTableDemo.C88_missing_keys"
   ],
   "note": "Two different key columns, distinct column labels, aggregations with a map and a reduce phase: exactly pandas' cells and labels, the aggregated columns in the frame's order; pandas' table if they stand in the order of their labels. Needed: labels that exist; with dropna no row of the table without any value, and no fill_value with several columns; without dropna no missing keys. Elsewhere the code differs from pandas: see the witnesses. Not modelled: several index or column labels, margins, dict aggfunc, range partitioning, index equal to columns, empty frames."
  },
  {
   "property": "C89",
   "status": "partial",
   "theorems": [
    "C89_meaning",
    "C89_size",
    "C89_frame_partial",
    "C89_series_partial",
    "C89_normalize",
    "ValueCountsDemo.C89_order"
   ],
   "note": "groupby(by).size() and normalize for all frames with rows; value_counts of frames with distinct column labels and different subset labels exactly pandas' counts with keys sorted within equal counts, when there are at least two partitions; value_counts of a series as a permutation of pandas' that is sorted by the counts. With sort=False a series' values stand sorted instead of in order of appearance (witness). Not modelled: bins, range partitioning, empty frames, labels given twice, categorical keys, the names of the levels."
  },
  {
   "property": "C90",
   "status": "partial",
   "theorems": [
    "C90_update_partial",
    "C90_update_meaning",
    "C90_combine_first_partial",
    "C90_combine_first_meaning",
    "C90_compare_partial",
    "C90_compare_wide_raises",
    "CombineDemo.C90_update_repeats",
    "CombineDemo.C90_series_update_names",
    "CombineDemo.C90_series_combine_first_names",
    "CombineDemo.C90_series_compare_names"
   ],
   "note": "update with distinct columns, any rows of the frame and distinct (or the same) rows of the other, all arguments, failure included; combine_first with distinct or equal labels; compare when the left frame has one block column. Proved violated: compare raises for every frame with two or more block columns; an `other` with repeated rows multiplies the rows of the updated frame; update, combine_first and compare of series with different names. One missing value. Not modelled: result_names, dtypes, a filter_func of more than one cell, row bands without rows as in C13."
  },
  {
   "property": "C91",
   "status": "partial",
   "theorems": [
    "C91_iter_own_partial",
    "C91_iter_one_partial",
    "C91_groups_own",
    "C91_groups_one_partial",
    "C91_meaning",
    "C91_one_row_raises",
    "GroupIterDemo.C91_unsorted",
    "GroupIterDemo.C91_by_position",
    "GroupIterDemo.C91_selection_keeps_keys"
   ],
   "note": "every frame and partitioning, several own columns or one column or series with the same row labels. Proved violated: with sort=False the groups stand sorted; a key column of one row raises; a series with its rows in another order is paired by position; after df.groupby(k)[[c]] the groups keep the key columns. Not modelled: axis=1, level, categorical keys, groupers, lists with data from other frames."
  },
  {
   "property": "C92",
   "status": "partial",
   "theorems": [
    "C92_dict_partial",
    "C92_columns",
    "C92_named_partial",
    "C92_names",
    "C92_meaning",
    "GroupDictDemo.C92_order",
    "GroupDictDemo.C92_unsorted"
   ],
   "note": "every non-empty frame with distinct column labels, every partitioning without empty row blocks in its known lengths, own key columns. Named arguments: pandas' table in full. Dictionaries: pandas' table if the entries stand in the frame's order or there is one block column, otherwise the same columns in another order (proved violated: C92_order). Proved violated: sort=False is ignored. Not modelled: as_index=False, keys from other frames, the temporary columns of mean and skew (kept as one column of pairs), range partitioning, repeated pairs of column and function."
  },
  {
   "property": "C93",
   "status": "partial",
   "theorems": [
    "C93_sort_columns_partial",
    "C93_meaning",
    "SortColumnsDemo.C93_label_taken_as_position",
    "SortColumnsDemo.C93_repeated_columns",
    "SortColumnsDemo.C93_ignore_index",
    "SortColumnsDemo.C93_row_twice_raises",
    "SortColumnsDemo.C93_no_row_raises"
   ],
   "note": "every frame and partitioning, every algorithm and order, for distinct column labels and rows whose label is their position. Proved violated: labels that are not positions, repeated column labels (nothing is sorted), ignore_index=True (all cells lost), a row named twice, no row named. Not modelled: negative integers as labels, MultiIndex."
  },
  {
   "property": "C94",
   "status": "partial",
   "theorems": [
    "C94_elementwise",
    "C94_meaning",
    "C94_convert_partial",
    "C94_dates_with_format_partial",
    "C94_dates_guessed_partial",
    "ConvertDemo.C94_ignore_by_block",
    "ConvertDemo.C94_format_guessed_by_block",
    "ConvertDemo.C94_format_changes_in_column"
   ],
   "note": "functions of single values: every frame, partitioning and plan, answers and exceptions. Conversions: errors=raise and coerce in full for to_numeric, to_timedelta and to_datetime with a format; without a format if every value suggests the same one; errors=ignore if all values can be converted or none. Proved violated: errors=ignore (decided block by block) and the guessed date format (guessed block by block, so wrong days without an error). Not modelled: the dtypes chosen by downcast and dtype_backend, to_datetime of a frame of years, months and days."
  },
  {
   "property": "C95",
   "status": "partial",
   "theorems": [
    "C95_meaning",
    "C95_astype_partial",
    "AstypeDemo.C95_ignore_by_block",
    "AstypeDemo.C95_ignore_dtypes"
   ],
   "note": "every frame, partitioning, dtype or dictionary, answers, exceptions and recorded dtypes, for errors=raise; for errors=ignore if every column can be cast. Proved violated: errors=ignore decides block by block and records the dtype asked for even if nothing was cast. Assumed: a column (and any part of it) that already has the dtype is left alone by casting to it. Not modelled: copy=False, blocks of one column stored with different dtypes."
  },
  {
   "property": "C96",
   "status": "partial",
   "theorems": [
    "C96_replace_meaning",
    "C96_replace_partial",
    "C96_round_partial",
    "C96_map_partial",
    "C96_apply_partial",
    "ReplaceDemo.C96_pad_by_block",
    "ReplaceDemo.C96_replace_stale",
    "ReplaceDemo.C96_map_missing",
    "ReplaceDemo.C96_map_position",
    "ReplaceDemo.C96_map_repeated",
    "ReplaceDemo.C96_apply_name",
    "ReplaceDemo.C96_apply_empty"
   ],
   "note": "every frame, partitioning and plan. Proved violated, hence excluded: replace with method=pad (block by block), values per column while new names are pending, map with a dictionary that has __missing__ or a Series with repeated labels or without integer labels, apply on an empty Series or one named like its first row. Not modelled: regular expressions, dtypes, functions that return Series."
  },
  {
   "property": "C97",
   "status": "partial",
   "theorems": [
    "C97_train_test_split_partial",
    "C97_loader_partial",
    "C97_split_at_partial",
    "C97_split_even_partial",
    "PiecesDemo.C97_split_zero",
    "PiecesDemo.C97_split_below",
    "PiecesDemo.C97_split_no_elements",
    "PiecesDemo.C97_split_negative"
   ],
   "note": "every frame, array, order and number of pieces. Proved violated, hence excluded: array.split at a 0 after another index or below -n, into parts along an axis of length 0, into a negative number of parts; where a part of train_test_split is empty the column labels must be recorded, and a sampler may repeat a row only if block sizes are not recorded (C84). Not modelled: features of the loader, dtypes."
  },
  {
   "property": "C98",
   "status": "partial",
   "theorems": [
    "C98_merge_asof_partial",
    "MergeAsofDemo.C98_repeated_labels",
    "MergeAsofDemo.C98_missing_label",
    "MergeAsofDemo.C98_two_names",
    "MergeAsofDemo.C98_right_index",
    "MergeAsofDemo.C98_right_index_place"
   ],
   "note": "all frames, whatever pandas' choice of the partners is. Proved violated, hence excluded: repeated row labels on the left, a missing row label on the right, key columns of different names, left_on with right_index unless the column is the first and its name is on both sides. Not proved: left_on with right_index and by; a column that is key and by. Not modelled: errors about suffixes; reindex, drop and merge of the query compiler are taken as pandas' (C56, C34, C20)."
  },
  {
   "property": "C99",
   "status": "partial",
   "theorems": [
    "C99_filter_partial",
    "C99_is_duplicated_partial",
    "C99_is_unique_partial",
    "C99_n_unique_counts_single_rows",
    "C99_n_unique_partial",
    "C99_max_horizontal_partial",
    "C99_min_horizontal_partial",
    "C99_with_row_index_partial",
    "C99_equals_partial",
    "PolarsDemo.C99_n_unique_wrong",
    "PolarsDemo.C99_min_axis1_is_max",
    "PolarsDemo.C99_row_index_after_filter",
    "PolarsDemo.C99_row_index_offset_raises",
    "PolarsDemo.C99_row_index_taken_name",
    "PolarsDemo.C99_filter_foreign_labels",
    "PolarsDemo.C99_slices_raise",
    "PolarsDemo.C99_equals_always_true"
   ],
   "note": "all frames and divisions into blocks. Proved violated, hence excluded: n_unique with repeated rows, min(axis=1), with_row_index of a filtered frame, with an offset or with a taken name, filter with a mask that carries other row labels, every method that uses a slice, equals of different frames. Not proved: frames without rows or columns; rows whose digests agree (C41). Not modelled: filter with several predicates; whether the result is a frame or a Series; the other methods."
  }
 ]
}