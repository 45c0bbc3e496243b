{
 "claims": [
  {
   "property": "C01",
   "status": "proved",
   "theorems": [
    "Oups.Indexer.C01_path_roundtrip",
    "Oups.Indexer.C01_path_roundtrip_exception",
    "Oups.Indexer.C01_empty_first_field_fails",
    "Oups.Indexer.C01_type_not_enforced_fails"
   ],
   "note": "Round trip proved; the exception (two-field last level starting with '') is proved exact. Declared types are a hypothesis: not enforced by the code (counterexample)."
  },
  {
   "property": "C02",
   "status": "proved",
   "theorems": [
    "Oups.Indexer.C02_str_roundtrip",
    "Oups.Indexer.C02_str_roundtrip_exception"
   ],
   "note": ""
  },
  {
   "property": "C03",
   "status": "proved",
   "theorems": [
    "Oups.Indexer.C03_distinct_keys_distinct_paths"
   ],
   "note": ""
  },
  {
   "property": "C04",
   "status": "proved",
   "theorems": [
    "Oups.Indexer.C04_path_contained",
    "Oups.Indexer.C04_empty_field_escapes_fails",
    "Oups.Indexer.C04_empty_key_is_basepath_fails"
   ],
   "note": "With non-empty fields. Counterexamples for empty fields: path escapes basepath or is basepath itself."
  },
  {
   "property": "C05",
   "status": "proved",
   "theorems": [
    "Oups.Indexer.C05_validation_exact"
   ],
   "note": ""
  },
  {
   "property": "C06",
   "status": "proved",
   "theorems": [
    "Oups.Indexer.C06_surplus_fields_fails",
    "Oups.Indexer.C06_leading_zero_fails",
    "Oups.Indexer.C06_read",
    "Oups.Indexer.C06_exact",
    "Oups.Indexer.C06_named",
    "Oups.Indexer.C06_written"
   ],
   "note": "Exact characterisation of names read, and of names designated by the key read; counterexamples to unrestricted agreement. Conversion to int is characterised by a grammar (IntText)."
  },
  {
   "property": "C07",
   "status": "proved",
   "theorems": [
    "Oups.Collection.C07_dictionary",
    "Oups.Collection.C07_errors",
    "Oups.Collection.C07_other_keys",
    "Oups.Collection.C07_store"
   ],
   "note": "For keys without empty string fields and stores whose dataset directories were written by oups; generic in key class and writer, and instantiated with the indexing schemas and the writer model."
  },
  {
   "property": "C08",
   "status": "proved",
   "theorems": [
    "Oups.Collection.C08_reopen",
    "Oups.Collection.C08_store"
   ],
   "note": ""
  },
  {
   "property": "C09",
   "status": "proved",
   "theorems": [
    "Oups.Collection.C09_del_known",
    "Oups.Collection.C09_survivors",
    "Oups.Collection.C09_unknown",
    "Oups.Collection.C09_trailing_slash_fails"
   ],
   "note": "Exact description of what disappears; the trailing slash case is C09_trailing_slash_fails."
  },
  {
   "property": "C10",
   "status": "proved",
   "theorems": [
    "Oups.Collection.C10_failed_set"
   ],
   "note": ""
  },
  {
   "property": "C11",
   "status": "proved",
   "theorems": [
    "Oups.Collection.C11_ascending",
    "Oups.Collection.C11_scan_order",
    "Oups.Collection.C11_store"
   ],
   "note": ""
  },
  {
   "property": "C12",
   "status": "proved",
   "theorems": [
    "Oups.Writer.C12_split",
    "Oups.Writer.C12_split_empty"
   ],
   "note": ""
  },
  {
   "property": "C13",
   "status": "proved",
   "theorems": [
    "Oups.Writer.C13_sharp_split"
   ],
   "note": ""
  },
  {
   "property": "C14",
   "status": "proved",
   "theorems": [
    "Oups.Writer.C14_succeeds_iff",
    "Oups.Writer.C14_append",
    "Oups.Writer.C14_append_succeeds",
    "Oups.Writer.C14_max_nirgs_alone_fails",
    "Oups.Writer.C14_coalesce_complete_fails"
   ],
   "note": "Rows are preserved by every history of successful writes; C14_succeeds_iff (Props/WriteWhen) says exactly which writes succeed, C14_append_succeeds gives success without max_nirgs; the two refused coalescing calls are C14_max_nirgs_alone_fails and C14_coalesce_complete_fails."
  },
  {
   "property": "C15",
   "status": "proved",
   "theorems": [
    "Oups.Writer.C15_ordered",
    "Oups.Writer.C15_ordered_step",
    "Oups.Writer.C15_gap_fails",
    "Oups.Writer.C15_before_all_fails",
    "Oups.Writer.C15_first_row_group_fails",
    "Oups.Writer.C15_ties_fails",
    "Oups.Writer.C15_ties_history_fails"
   ],
   "note": "Proved under the conditions of the statement; each excluded case has a counter-example theorem (_fails)."
  },
  {
   "property": "C16",
   "status": "proved",
   "theorems": [
    "Oups.Writer.C16_perm",
    "Oups.Writer.C16_perm_history",
    "Oups.Writer.C16_no_invention",
    "Oups.Writer.C16_merge_history",
    "Oups.Writer.C16_merge_step"
   ],
   "note": ""
  },
  {
   "property": "C17",
   "status": "proved",
   "theorems": [
    "Oups.FrameCols.C17_distinct",
    "Oups.Writer.C17_succeeds_iff",
    "Oups.Writer.C17_window",
    "Oups.Writer.C17_upsert_step",
    "Oups.Writer.C17_last_write_wins",
    "Oups.Writer.C17_dictionary",
    "Oups.Writer.C17_succeeds",
    "Oups.Writer.C17_newest_recorded",
    "Oups.Writer.C17_identifier_kept",
    "Oups.Writer.C17_duplicates_one",
    "Oups.Writer.C17_duplicates_many",
    "Oups.Writer.C17_duplicates_all",
    "Oups.Writer.C17_creation_keeps_duplicates_fails",
    "Oups.Writer.C17_append_keeps_duplicates_fails",
    "Oups.Writer.C17_list_reused",
    "Oups.Writer.C17_shared_list_fails"
   ],
   "note": "Single step and whole history; duplicates within one appended frame are kept (counter-examples). A caller's list reused with the same ordered_on is harmless (C17_list_reused); with another one it is not (C17_shared_list_fails). On any layout, the last row of each identifier of the written frame is recorded and no identifier is lost (C17_newest_recorded, C17_identifier_kept). C17_window (Props/WriteWindow): the rewritten row groups, on any layout. C17_distinct (Props/FrameCols): distinct identifiers, nothing changes. C17_succeeds_iff (Props/WriteWhen): exactly which writes with ordered_on succeed."
  },
  {
   "property": "C18",
   "status": "proved",
   "theorems": [
    "Oups.FloatSize.C18_round53",
    "Oups.FloatSize.C18_size_float",
    "Oups.Writer.C18_grouping_only",
    "Oups.Writer.C18_grouping_only_append",
    "Oups.Writer.C18_first_row_group_fails"
   ],
   "note": "For frames in the conditions of C15; the excluded row-group-0 case is C18_first_row_group_fails. C18_size_float: the size under which a row group is incomplete, computed with doubles, is the one of the model."
  },
  {
   "property": "C19",
   "status": "proved",
   "theorems": [
    "Oups.PartFiles.C19_names",
    "Oups.PartFiles.C19_name_number",
    "Oups.PartFiles.C19_other_file_fails",
    "Oups.Writer.C19_views_agree",
    "Oups.Writer.C19_part_numbers"
   ],
   "note": "C19_names: through names of files. Foreign files are C19_other_file_fails; leftovers of stopped writes are C23_vdf_leftover_fails."
  },
  {
   "property": "C20",
   "status": "proved",
   "theorems": [
    "Oups.Writer.C20_min_max",
    "Oups.Writer.C20_row_groups_nonempty"
   ],
   "note": ""
  },
  {
   "property": "C21",
   "status": "proved",
   "theorems": [
    "Oups.Metadata.C21_merge",
    "Oups.Metadata.C21_first",
    "Oups.Metadata.C21_user",
    "Oups.Metadata.C21_first_none_fails",
    "Oups.Metadata.C21_falsy_fails"
   ],
   "note": "Merge, first write and user items; deviations from the docstring are C21_first_none_fails, C21_falsy_fails."
  },
  {
   "property": "C22",
   "status": "proved",
   "theorems": [
    "Oups.Metadata.C22_isolation",
    "Oups.Metadata.C22_consumed",
    "Oups.Metadata.C22_no_key",
    "Oups.Metadata.C22_caller_dict",
    "Oups.Metadata.C22_shared_dict_fails"
   ],
   "note": "Any interleaving of operations; a metadata dict object shared by two calls leaks (C22_shared_dict_fails). C22_caller_dict: what is done to the dict of the caller."
  },
  {
   "property": "C23",
   "status": "proved",
   "theorems": [
    "Oups.Writer.C23_append_crash",
    "Oups.Writer.C23_append_retry",
    "Oups.Writer.C23_no_loss",
    "Oups.Writer.C23_before_removal",
    "Oups.Writer.C23_update_crash_fails",
    "Oups.Writer.C23_coalescing_crash_fails",
    "Oups.Writer.C23_creation_crash_fails",
    "Oups.Writer.C23_vdf_leftover_fails"
   ],
   "note": "Appends are crash-safe (NotCoalesced: nothing to coalesce, decided by the numbers of rows); any interrupted write loses no rows (C23_no_loss), but views during updates, creation and by vaex may be wrong, with counter-examples (_fails)."
  },
  {
   "property": "C24",
   "status": "proved",
   "theorems": [
    "Oups.Writer.C24_rejected_untouched",
    "Oups.Writer.C24_tuple",
    "Oups.Writer.C24_unknown_column",
    "Oups.Writer.C24_duplicates_alone",
    "Oups.Writer.C24_unknown_duplicates",
    "Oups.Writer.C24_unknown_duplicates_fails",
    "Oups.Writer.C24_zero_size",
    "Oups.Writer.C24_split_pandas",
    "Oups.Writer.C24_split_duplicates",
    "Oups.Writer.C24_empty_ordered"
   ],
   "note": ""
  },
  {
   "property": "C25",
   "status": "proved",
   "theorems": [
    "Oups.Filter.C25_rows",
    "Oups.Filter.C25_accepts",
    "Oups.Filter.C25_errors",
    "Oups.Filter.C25_flat",
    "Oups.Filter.C25_list_fails"
   ],
   "note": "Lists as values of comparisons, as numpy compares them: C25_list_fails shows what this does."
  },
  {
   "property": "C26",
   "status": "proved",
   "theorems": [
    "Oups.ColumnIndex.C26_writable",
    "Oups.ColumnIndex.C26_refused",
    "Oups.ColumnIndex.C26_only_needed",
    "Oups.ColumnIndex.C26_idempotent",
    "Oups.ColumnIndex.C26_succeeds",
    "Oups.ColumnIndex.C26_collision_fails",
    "Oups.ColumnIndex.C26_fails_iff"
   ],
   "note": "C26_fails_iff: exactly when it fails; an instance is C26_collision_fails."
  },
  {
   "property": "C27",
   "status": "proved",
   "theorems": [
    "Oups.Segment.C27_ranks"
   ],
   "note": ""
  },
  {
   "property": "C28",
   "status": "proved",
   "theorems": [
    "Oups.Segment.C28_exact",
    "Oups.Segment.C28_unique"
   ],
   "note": ""
  },
  {
   "property": "C29",
   "status": "proved",
   "theorems": [
    "Oups.Segment.C29_restart",
    "Oups.Segment.C29_restart_eq_oneshot"
   ],
   "note": ""
  },
  {
   "property": "C30",
   "status": "proved",
   "theorems": [
    "Oups.Segment.C30_restart",
    "Oups.Segment.C30_restart_eq_oneshot",
    "Oups.Segment.C30_start_day_fails",
    "Oups.Segment.C30_start_fails",
    "Oups.Segment.C30_end_fails",
    "Oups.Segment.C30_end_once",
    "Oups.Segment.C30_end_day",
    "Oups.Segment.C30_end_day_left_fails"
   ],
   "note": "For grids not depending on the rows; C30_end_once for one call with origin 'end'; counter-examples for the other origins (C30_start_day_fails, C30_start_fails, C30_end_fails, C30_end_day_left_fails)."
  },
  {
   "property": "C31",
   "status": "proved",
   "theorems": [
    "Oups.Segment.C31_rows",
    "Oups.Segment.C31_grouper",
    "Oups.Segment.C31_oneshot"
   ],
   "note": ""
  },
  {
   "property": "C32",
   "status": "proved",
   "theorems": [
    "Oups.Segment.C32_merge",
    "Oups.Segment.C32_merge_unknown_last",
    "Oups.Segment.C32_sizes"
   ],
   "note": ""
  },
  {
   "property": "C33",
   "status": "proved",
   "theorems": [
    "Oups.Segment.C33_accepts_iff",
    "Oups.Segment.C33_snapshots",
    "Oups.Segment.C33_labels_continue",
    "Oups.Segment.C33_raises",
    "Oups.Segment.C33_raises_periods"
   ],
   "note": "C33_raises: exact reasons of refusals of segmentby, and that merging never raises."
  },
  {
   "property": "C34",
   "status": "proved",
   "theorems": [
    "Oups.Segment.C34_setup",
    "Oups.Segment.C34_snapshots_without_column_fails"
   ],
   "note": "Accepted combinations exactly; one of them lacks a column for snapshots and fails later (C34_snapshots_without_column_fails)."
  },
  {
   "property": "C35",
   "status": "proved",
   "theorems": [
    "Oups.Agg.C35_first",
    "Oups.Agg.C35_last",
    "Oups.Agg.C35_max",
    "Oups.Agg.C35_min",
    "Oups.Agg.C35_sum",
    "Oups.Agg.C35_spec",
    "Oups.Agg.C35_nan_fails",
    "Oups.Agg.C35_nan",
    "Oups.Agg.C35_nat"
   ],
   "note": "C35_nan: exactly, with NaN, where the result depends on row order (C35_nan_fails); C35_nat: with missing dates. Sum: exact arithmetic, otherwise the left fold (C35_spec)."
  },
  {
   "property": "C36",
   "status": "proved",
   "theorems": [
    "Oups.Agg.C36_continue",
    "Oups.Agg.C36_split"
   ],
   "note": "Any arithmetic and comparison, any number of pieces."
  },
  {
   "property": "C37",
   "status": "proved",
   "theorems": [
    "Oups.Agg.C37_bins",
    "Oups.Agg.C37_continue",
    "Oups.Agg.C37_repeated_labels_fails"
   ],
   "note": "Any bin_by; by_x_rows and TimeGrouper instances in C42. Repeated labels with an empty bin: C37_repeated_labels_fails."
  },
  {
   "property": "C38",
   "status": "proved",
   "theorems": [
    "Oups.Agg.C38_snapshots",
    "Oups.Agg.C38_points_grouper",
    "Oups.Agg.C38_points_rows"
   ],
   "note": "Any bin_by whose ends separate its bins and any snapshots in order; instances for explicit points; TimeGrouper snapshots in C43."
  },
  {
   "property": "C39",
   "status": "proved",
   "theorems": [
    "Oups.Agg.C39_same_bins",
    "Oups.Agg.C39_grouper_separated",
    "Oups.Agg.C39_ties_fails"
   ],
   "note": "Under the condition of the statement; ties across a boundary: C39_ties_fails."
  },
  {
   "property": "C40",
   "status": "proved",
   "theorems": [
    "Oups.Agg.C40_bounds",
    "Oups.Agg.C40_grouper",
    "Oups.Agg.C40_rows",
    "Oups.Agg.C40_inconsistent_ends_fails"
   ],
   "note": "For bins whose rows are not after their ends; a user-defined bin_by accepted by the checks can overflow (C40_inconsistent_ends_fails)."
  },
  {
   "property": "C41",
   "status": "proved",
   "theorems": [
    "Oups.Agg.C41_accepts_iff",
    "Oups.Agg.C41_columns"
   ],
   "note": ""
  },
  {
   "property": "C42",
   "status": "proved",
   "theorems": [
    "Oups.Agg.C42_rows",
    "Oups.Agg.C42_grouper",
    "Oups.Agg.C42_same"
   ],
   "note": "All columns equal those of the specified bins, streamed and one-shot."
  },
  {
   "property": "C43",
   "status": "proved",
   "theorems": [
    "Oups.Agg.C43_grouper",
    "Oups.Agg.C43_rows"
   ],
   "note": "Also for by_x_rows bins with TimeGrouper snapshots."
  },
  {
   "property": "C44",
   "status": "proved",
   "theorems": [
    "Oups.Agg.C44_check",
    "Oups.Agg.C44_stream"
   ],
   "note": "Exact condition, and for streams."
  },
  {
   "property": "C45",
   "status": "proved",
   "theorems": [
    "Oups.AggStream.C45_once",
    "Oups.AggStream.C45_empty_chunk_fails",
    "Oups.AggStream.C45_unordered_fails"
   ],
   "note": "Negative results: empty chunk, chunks not ordered with respect to one another."
  },
  {
   "property": "C46",
   "status": "proved",
   "theorems": [
    "Oups.AggStream.C46_invariant",
    "Oups.AggStream.C46_growing",
    "Oups.AggStream.C46_complete",
    "Oups.AggStream.C46_no_discard_fails"
   ],
   "note": "Any filters and pre. Without discard_last, rows at the restart index are delivered twice (negative result)."
  },
  {
   "property": "C47",
   "status": "proved",
   "theorems": [
    "Oups.AggStream.C47_delivered",
    "Oups.AggStream.C47_nonempty",
    "Oups.AggStream.C47_total",
    "Oups.AggStream.C47_dataframe_filter",
    "Oups.AggStream.C47_list_fails"
   ],
   "note": "dataframe_filter meets the hypothesis on filters (C47_dataframe_filter). Filters comparing a column with a list are C47_list_fails."
  },
  {
   "property": "C48",
   "status": "proved",
   "theorems": [
    "Oups.AggStream.C48_stored",
    "Oups.AggStream.C48_same_rows",
    "Oups.AggStream.C48_time_bins",
    "Oups.AggStream.C48_rows_bins",
    "Oups.AggStream.C48_time_snaps",
    "Oups.AggStream.C48_rows_snaps",
    "Oups.AggStream.C48_received",
    "Oups.AggStream.C48_received_growing",
    "Oups.AggStream.C48_empty_write_fails",
    "Oups.AggStream.C48_tied_labels_fails",
    "Oups.AggStream.C48_ordered_on_fails",
    "Oups.AggStream.C48_max_nirgs_fails",
    "Oups.AggStream.C48_post_frame_fails"
   ],
   "note": "With the hypotheses of WriteOk (ordering column = duplicates column = label; any row-group size, any max_nirgs for calls that do not raise) and increasing labels; each of these hypotheses is shown needed by a counterexample. C48_max_nirgs_fails: with max_nirgs, a call may raise."
  },
  {
   "property": "C49",
   "status": "proved",
   "theorems": [
    "Oups.AggStream.C49_same_state",
    "Oups.AggStream.C49_sessions"
   ],
   "note": "Any split of calls into sessions ending with a final write, for a recorded restart index."
  },
  {
   "property": "C50",
   "status": "proved",
   "theorems": [
    "Oups.AggStream.C50_restart",
    "Oups.AggStream.C50_replayed",
    "Oups.AggStream.C50_again",
    "Oups.AggStream.C50_time_bins",
    "Oups.AggStream.C50_rows_bins",
    "Oups.AggStream.C50_time_snaps",
    "Oups.AggStream.C50_rows_snaps",
    "Oups.AggStream.C50_max_nirgs_fails",
    "Oups.AggStream.C50_first_run_fails",
    "Oups.AggStream.C50_metadata_only_fails",
    "Oups.AggStream.C50_between_keys_fails",
    "Oups.AggStream.C50_within_pair_fails"
   ],
   "note": "Crash anywhere in the loop, keys being at different points; every key has rows from an earlier final write. C50_restart for any settings; with max_nirgs, C50_replayed and those below if, after the final write, the dataset begins with a complete row group that is not its last one (KeySafe). Counterexamples: max_nirgs otherwise (rows stored twice by the replay, C50_max_nirgs_fails), no final write before, a key with metadata but no rows, a crash within the final write (between keys, or between bins and snapshots). C50_time_bins, C50_rows_bins, C50_time_snaps, C50_rows_snaps: what is stored is the one-shot result."
  },
  {
   "property": "C51",
   "status": "proved",
   "theorems": [
    "Oups.AggStream.C51_prefix",
    "Oups.AggStream.C51_same",
    "Oups.AggStream.C51_only",
    "Oups.AggStream.C51_no_final_write",
    "Oups.AggStream.C51_pre_buffer_fails"
   ],
   "note": "State and store equal those of the valid prefix, but for what pre did to its buffer before raising (C51_pre_buffer_fails)."
  },
  {
   "property": "C52",
   "status": "proved",
   "theorems": [
    "Oups.AggStream.C52_threads",
    "Oups.AggStream.C52_any_order",
    "Oups.AggStream.C52_alone",
    "Oups.AggStream.C52_shared_dataset_fails"
   ],
   "note": "Interleavings of the steps on the datasets and OUPS_METADATA; any order over calls; key alone. A dataset shared by two keys is not detected (C52_shared_dataset_fails)."
  },
  {
   "property": "C53",
   "status": "proved",
   "theorems": [
    "Oups.AggStream.C53_recorded",
    "Oups.AggStream.C53_index",
    "Oups.AggStream.C53_zero_fails"
   ],
   "note": "Index 0 not recorded: C53_zero_fails."
  },
  {
   "property": "C54",
   "status": "proved",
   "theorems": [
    "Oups.KeysConfig.C54_consolidated",
    "Oups.KeysConfig.C54_missing_bin_by",
    "Oups.KeysConfig.C54_unknown",
    "Oups.KeysConfig.C54_accepted",
    "Oups.KeysConfig.C54_stream",
    "Oups.KeysConfig.C54_kwargs",
    "Oups.KeysConfig.C54_reuse_fails",
    "Oups.KeysConfig.C54_series_snaps_fails",
    "Oups.KeysConfig.C54_stream_bin_by_fails",
    "Oups.KeysConfig.C54_store_params_fails",
    "Oups.KeysConfig.C54_agg_missing_fails",
    "Oups.KeysConfig.C54_raises"
   ],
   "note": "One key (C54_consolidated, C54_accepted) and the whole stream (C54_stream). Negatives: a dict cannot be used twice, snapshots given as Series give BINS, stream-level bin_by is no default for a dict of keys, dirpath/data/md_key are not refused, missing agg is a TypeError. C54_raises: reasons of exceptions."
  },
  {
   "property": "C55",
   "status": "proved",
   "theorems": [
    "Oups.AggStream.C55_not_aggstream",
    "Oups.AggStream.C55_diverging",
    "Oups.AggStream.C55_accepted",
    "Oups.AggStream.C55_added_key_fails"
   ],
   "note": "Also: a key added to a stream with results is accepted and misses the earlier rows (C55_added_key_fails)."
  },
  {
   "property": "C56",
   "status": "proved",
   "theorems": [
    "Oups.Segment.C56_calls",
    "Oups.Segment.C56_rejected",
    "Oups.Segment.C56_fixed_points",
    "Oups.Segment.C56_series_same_list_fails",
    "Oups.Segment.C56_series_restart_key_fails",
    "Oups.Segment.C56_series_refused",
    "Oups.Segment.C56_series_kept",
    "Oups.Segment.C56_series_removed",
    "Oups.Segment.C56_series_emptied",
    "Oups.Segment.C56_raises",
    "Oups.Segment.C56_series_nulls",
    "Oups.Segment.C56_series_nulls_fails"
   ],
   "note": "C56_raises: reasons of refusals. Positional access; the label-based access of a pandas Series is refuted by C56_series_same_list_fails and C56_series_restart_key_fails, and described exactly by C56_series_kept, C56_series_removed and C56_series_emptied (with C56_series_refused). C56_series_nulls, C56_series_nulls_fails: rows of cumsegagg for these snapshots."
  },
  {
   "property": "C57",
   "status": "proved",
   "theorems": [
    "Oups.ColumnIndex.C57_tuples",
    "Oups.ColumnIndex.C57_round_trip",
    "Oups.ColumnIndex.C57_plain_name_split_fails",
    "Oups.ColumnIndex.C57_plain_name_error_fails",
    "Oups.ColumnIndex.C57_plain_names",
    "Oups.ColumnIndex.C57_only_plain",
    "Oups.ColumnIndex.C57_raises",
    "Oups.ColumnIndex.C57_levels_mutated_fails",
    "Oups.ColumnIndex.C57_repr_read",
    "Oups.ColumnIndex.C57_text_round_trip"
   ],
   "note": "Tuples, with any function in the place of literal_eval that reads them (C57_tuples, C57_round_trip); C57_repr_read, C57_text_round_trip: with repr of tuples of strings and literal_eval on tuples of string literals written out. C57_plain_names, C57_only_plain, C57_raises: exactly what is done of names that are not texts of tuples. Plain names and caller list mutation are counter-examples (_fails)."
  },
  {
   "property": "C58",
   "status": "proved",
   "theorems": [
    "Oups.KeysConfig.C58_filters",
    "Oups.KeysConfig.C58_no_filter",
    "Oups.KeysConfig.C58_accepted",
    "Oups.KeysConfig.C58_reserved_none_fails",
    "Oups.KeysConfig.C58_ignored_fails",
    "Oups.KeysConfig.C58_raises"
   ],
   "note": "C58_filters (necessary), C58_accepted (sufficient), C58_no_filter. Negatives: C58_reserved_none_fails, C58_ignored_fails. C58_raises: reasons of exceptions."
  },
  {
   "property": "C59",
   "status": "proved",
   "theorems": [
    "Oups.AggStream.C59_only",
    "Oups.AggStream.C59_raises",
    "Oups.AggStream.C59_total",
    "Oups.AggStream.C59_iter",
    "Oups.AggStream.C59_time_bins",
    "Oups.AggStream.C59_rows_bins",
    "Oups.AggStream.C59_time_snaps",
    "Oups.AggStream.C59_rows_snaps",
    "Oups.AggStream.C59_max_nirgs_fails"
   ],
   "note": "C59_only (nothing else is raised), C59_raises (converse), C59_total (sufficient condition), C59_time_bins, C59_rows_bins, C59_time_snaps, C59_rows_snaps (keys meeting it), C59_iter (seeds). Keys on new datasets (no rows stored before). Negative example: C48_empty_write_fails. Without max_nirgs, or with room for all results in one row group (Roomy); otherwise C48_max_nirgs_fails, C59_max_nirgs_fails."
  },
  {
   "property": "C60",
   "status": "proved",
   "theorems": [
    "Oups.AggStream.C60_store",
    "Oups.AggStream.C60_other_keys",
    "Oups.AggStream.C60_stopped",
    "Oups.AggStream.C60_steps",
    "Oups.AggStream.C60_exception",
    "Oups.AggStream.C60_recovered",
    "Oups.AggStream.C60_time_bins",
    "Oups.AggStream.C60_stale_fails"
   ],
   "note": "C60_store, C60_other_keys, C60_stopped (link to C50), C60_recovered (a session, a stop, a replay by another process; with max_nirgs, the condition of C50), C60_time_bins, C60_exception, C60_steps (schedules exist). A step is a whole write. Negative: C60_stale_fails."
  },
  {
   "property": "C61",
   "status": "proved",
   "theorems": [
    "Oups.AggStream.C61_step",
    "Oups.AggStream.C61_held",
    "Oups.AggStream.C61_limit_fails"
   ],
   "note": "C61_step, C61_held. Usage is that of whole result frames, as in the code, although their last row is not held. Negative: C61_limit_fails."
  },
  {
   "property": "C62",
   "status": "proved",
   "theorems": [
    "Oups.Indexer.C62_one_character",
    "Oups.Indexer.C62_literal",
    "Oups.Indexer.C62_roundtrip",
    "Oups.Indexer.C62_refused",
    "Oups.Indexer.C62_not_read",
    "Oups.Indexer.C62_misread_fails",
    "Oups.Indexer.C62_class_fails",
    "Oups.Indexer.C62_empty_sep",
    "Oups.Indexer.C62_long_sep_fails"
   ],
   "note": "C62_one_character (the model of C01 to C06 is the general one), C62_literal, C62_roundtrip, C62_refused, C62_not_read (classes of one level), C62_empty_sep. Negative: C62_misread_fails (A, b, B, Z), C62_class_fails (D, S, w), C62_long_sep_fails."
  },
  {
   "property": "C63",
   "status": "proved",
   "theorems": [
    "Oups.AggStream.C63_accepts",
    "Oups.AggStream.C63_stream",
    "Oups.AggStream.C63_retry",
    "Oups.AggStream.C63_poisoned_fails",
    "Oups.AggStream.C63_pre_columns_fails",
    "Oups.AggStream.C63_empty_generator_fails"
   ],
   "note": "C63_accepts, C63_stream (links C48 and following to the entry point), C63_retry. Negative: C63_poisoned_fails (universal), C63_pre_columns_fails, C63_empty_generator_fails. Frames whose dtypes differ from those of the first one are not described."
  },
  {
   "property": "C64",
   "status": "proved",
   "theorems": [
    "Oups.KeySet.C64_ordered",
    "Oups.KeySet.C64_not_listed",
    "Oups.KeySet.C64_same",
    "Oups.KeySet.C64_mixed_fails"
   ],
   "note": "C64_ordered, C64_same. Negative: C64_mixed_fails (universal). Collections of less than 2000 keys (one sublist of SortedList). C64_not_listed: removal of a key that is not listed."
  },
  {
   "property": "C65",
   "status": "proved",
   "theorems": [
    "Oups.AggStream.C65_only_returned",
    "Oups.AggStream.C65_main_needed",
    "Oups.AggStream.C65_single",
    "Oups.AggStream.C65_pair",
    "Oups.AggStream.C65_refused",
    "Oups.AggStream.C65_pair_dropped",
    "Oups.AggStream.C65_snapshots_lost_fails"
   ],
   "note": "C65_only_returned, C65_main_needed (any history of calls), C65_single, C65_pair, C65_refused, C65_pair_dropped (final write of a key). Negative: C65_snapshots_lost_fails."
  },
  {
   "property": "C66",
   "status": "proved",
   "theorems": [
    "Oups.AggStream.C66_same",
    "Oups.AggStream.C66_left",
    "Oups.AggStream.C66_index",
    "Oups.AggStream.C66_restart",
    "Oups.AggStream.C66_replayed",
    "Oups.AggStream.C66_seed",
    "Oups.AggStream.C66_empty_chunk",
    "Oups.AggStream.C66_final_again",
    "Oups.AggStream.C66_held_twice_fails",
    "Oups.AggStream.C66_post_twice_fails",
    "Oups.AggStream.C66_post_refused_fails",
    "Oups.AggStream.C66_time_bins",
    "Oups.AggStream.C66_go_on_fails",
    "Oups.AggStream.C66_other_key_fails"
   ],
   "note": "C66_same (agrees with the model without exceptions), C66_left, C66_restart, C66_replayed, C66_time_bins (jobs), C66_seed, C66_empty_chunk (seed), C66_final_again (final write), C66_index (restart index). left: whatever a failing cumsegagg leaves in its buffer. Negative: C66_held_twice_fails, C66_go_on_fails, C66_other_key_fails, C66_post_twice_fails, C66_post_refused_fails. With max_nirgs, C66_replayed needs the condition of C50 (KeySafe)."
  },
  {
   "property": "C67",
   "status": "proved",
   "theorems": [
    "Oups.Segment.C67_oneshot",
    "Oups.Segment.C67_unique",
    "Oups.Segment.C67_restart",
    "Oups.Segment.C67_restart_eq_oneshot",
    "Oups.Segment.C67_offsets",
    "Oups.Segment.C67_dates",
    "Oups.Segment.C67_more_offsets",
    "Oups.Segment.C67_more_dates",
    "Oups.Segment.C67_several_fails",
    "Oups.Segment.C67_month_end_fails",
    "Oups.Agg.C67_stream",
    "Oups.Agg.C67_snapshots",
    "Oups.Agg.C67_fixed_snapshots",
    "Oups.AggStream.C67_stored",
    "Oups.AggStream.C67_stored_snapshots",
    "Oups.AggStream.C67_replayed",
    "Oups.AggStream.C67_sessions",
    "Oups.AggStream.C67_sessions_snapshots",
    "Oups.AggStream.C67_sessions_rows",
    "Oups.AggStream.C67_resumes",
    "Oups.AggStream.C67_resumes_snapshots",
    "Oups.AggStream.C67_resumes_rows"
   ],
   "note": "C67_oneshot (any frequency and closure), C67_unique, C67_restart, C67_restart_eq_oneshot (segmentation), C67_stream, C67_snapshots, C67_fixed_snapshots (aggregation), C67_stored, C67_stored_snapshots, C67_replayed (streams; with max_nirgs, the condition of C50), C67_sessions, C67_sessions_snapshots, C67_sessions_rows (any number of sessions and stops: conditions of C72), C67_resumes, C67_resumes_snapshots, C67_resumes_rows (which calls do not raise, by C72_ends), C67_offsets, C67_dates (MS, ME, QS, W, B on the Gregorian calendar), C67_more_offsets, C67_more_dates (QE, YS, YE and other months, SMS, BMS, BME). Negative: C67_several_fails, C67_month_end_fails."
  },
  {
   "property": "C68",
   "status": "proved",
   "theorems": [
    "Oups.Indexer.C68_same",
    "Oups.Indexer.C68_roundtrip",
    "Oups.Indexer.C68_distinct",
    "Oups.Indexer.C68_postponed",
    "Oups.Indexer.C68_shorter",
    "Oups.Indexer.C68_postponed_fails",
    "Oups.Indexer.C68_float_fails",
    "Oups.Indexer.C68_default_fails",
    "Oups.Indexer.C68_raises_fails"
   ],
   "note": "C68_same, C68_roundtrip, C68_distinct, C68_postponed, C68_shorter. Negative: C68_postponed_fails, C68_float_fails, C68_default_fails, C68_raises_fails."
  },
  {
   "property": "C69",
   "status": "proved",
   "theorems": [
    "Oups.AggStream.C69_appends",
    "Oups.AggStream.C69_within",
    "Oups.AggStream.C69_first_fails"
   ],
   "note": "C69_appends, C69_within. Negative: C69_first_fails (first write since the final write)."
  },
  {
   "property": "C70",
   "status": "proved",
   "theorems": [
    "Oups.AggStream.C70_recorded",
    "Oups.AggStream.C70_completed",
    "Oups.AggStream.C70_lost_fails"
   ],
   "note": "C70_completed, C70_recorded (the first intermediate write records what was left, whatever it is). Negative: C70_lost_fails. The stream of the later calls is a new AggStream object."
  },
  {
   "property": "C71",
   "status": "proved",
   "theorems": [
    "Oups.AggStream.C71_settings",
    "Oups.AggStream.C71_time_bins",
    "Oups.AggStream.C71_rows_bins",
    "Oups.AggStream.C71_time_snaps",
    "Oups.AggStream.C71_rows_snaps",
    "Oups.AggStream.C71_bin_by_fails"
   ],
   "note": "C71_settings (any key), C71_time_bins, C71_rows_bins, C71_time_snaps, C71_rows_snaps (by kind of bin_by). Negative: C71_bin_by_fails."
  },
  {
   "property": "C72",
   "status": "proved",
   "theorems": [
    "Oups.AggStream.C72_stored",
    "Oups.AggStream.C72_stopped",
    "Oups.AggStream.C72_stopped_after",
    "Oups.AggStream.C72_reopens",
    "Oups.AggStream.C72_ends",
    "Oups.AggStream.C72_time_bins",
    "Oups.AggStream.C72_rows_bins",
    "Oups.AggStream.C72_time_snaps",
    "Oups.AggStream.C72_rows_snaps",
    "Oups.AggStream.C72_time_resumes",
    "Oups.AggStream.C72_rows_resumes",
    "Oups.AggStream.C72_time_snaps_resume",
    "Oups.AggStream.C72_rows_snaps_resume",
    "Oups.AggStream.C72_shorter_fails"
   ],
   "note": "C72_stored, C72_time_bins, C72_rows_bins, C72_time_snaps, C72_rows_snaps: what is stored. C72_reopens, C72_ends, C72_time_resumes, C72_rows_resumes, C72_time_snaps_resume, C72_rows_snaps_resume: the next stream starts and ends (settings Roomy for the results to come). C72_stopped, C72_stopped_after: stops inside a call or between calls. Stops with max_nirgs are for datasets of which a complete row group, not the last one, is the first (index `sure` of Life; otherwise C50_max_nirgs_fails). Negative: C72_shorter_fails. Stops inside a final write are C50_between_keys_fails, C50_within_pair_fails and C70; inside the file operations of one write, C69."
  },
  {
   "property": "C73",
   "status": "proved",
   "theorems": [
    "Oups.Writer.C73_rows",
    "Oups.Writer.C73_write",
    "Oups.Writer.C73_new",
    "Oups.Writer.C73_kept",
    "Oups.Writer.C73_kept_rows",
    "Oups.Writer.C73_kept_mark",
    "Oups.Writer.C73_own_mark",
    "Oups.Writer.C73_rewritten_fails",
    "Oups.Writer.C73_lost_fails",
    "Oups.Writer.C73_metadata_fails"
   ],
   "note": "C73_rows, C73_new, C73_kept, C73_kept_rows, C73_kept_mark, C73_own_mark; C73_write: exceptions of writes. Negatives: C73_rewritten_fails, C73_lost_fails, C73_metadata_fails."
  },
  {
   "property": "C74",
   "status": "proved",
   "theorems": [
    "Oups.Indexer.C74_decorate",
    "Oups.Indexer.C74_arguments",
    "Oups.Indexer.C74_invalid",
    "Oups.Indexer.C74_read_only_error_fails",
    "Oups.Indexer.C74_separator_error_fails",
    "Oups.Indexer.C74_refused",
    "Oups.Indexer.C74_instance_refused_fails",
    "Oups.Indexer.C74_call",
    "Oups.Indexer.C74_attributes",
    "Oups.Indexer.C74_read_only_fails",
    "Oups.Indexer.C74_separator_fails",
    "Oups.Indexer.C74_check_fails",
    "Oups.Indexer.C74_self_fails",
    "Oups.Indexer.C74_from_str_fails",
    "Oups.Indexer.C74_is_toplevel",
    "Oups.Indexer.C74_instance_fails",
    "Oups.Indexer.C74_default_lost_fails"
   ],
   "note": "C74_call, C74_attributes, C74_is_toplevel; C74_decorate, C74_arguments, C74_invalid, C74_refused: exceptions. Negatives: C74_read_only_fails, C74_separator_fails, C74_check_fails, C74_self_fails, C74_from_str_fails, C74_instance_fails (for all classes), C74_default_lost_fails. C74_read_only_error_fails, C74_separator_error_fails, C74_instance_refused_fails: their exceptions."
  },
  {
   "property": "C75",
   "status": "proved",
   "theorems": [
    "Oups.ResultCols.C75_columns",
    "Oups.ResultCols.C75_label_new",
    "Oups.ResultCols.C75_label_time",
    "Oups.ResultCols.C75_refused",
    "Oups.ResultCols.C75_first",
    "Oups.ResultCols.C75_unordered",
    "Oups.ResultCols.C75_unnamed",
    "Oups.ResultCols.C75_made",
    "Oups.ResultCols.C75_makes",
    "Oups.ResultCols.C75_time_bins",
    "Oups.ResultCols.C75_rows_bins",
    "Oups.ResultCols.C75_time_snaps",
    "Oups.ResultCols.C75_rows_snaps",
    "Oups.ResultCols.C75_time_first",
    "Oups.ResultCols.C75_rows_first",
    "Oups.ResultCols.C75_shadow_fails",
    "Oups.ResultCols.C75_renamed_fails",
    "Oups.ResultCols.C75_last_fails",
    "Oups.ResultCols.C75_nirgs_fails"
   ],
   "note": "C75_columns, C75_label_new, C75_label_time: columns. C75_refused, C75_first, C75_unordered: writes; C75_unnamed: columns for an index without name. C75_made, C75_makes: what the constructor makes satisfies what C48 to C72 rely on. C75_time_bins, C75_rows_bins, C75_time_snaps, C75_rows_snaps, C75_time_first, C75_rows_first: what is stored. Negatives: C75_shadow_fails, C75_renamed_fails, C75_last_fails, C75_nirgs_fails."
  },
  {
   "property": "C76",
   "status": "proved",
   "theorems": [
    "Oups.Agg.C76_time",
    "Oups.Agg.C76_rows",
    "Oups.Agg.C76_time_accepts",
    "Oups.Agg.C76_rows_accepts",
    "Oups.Agg.C76_add_snaps",
    "Oups.Agg.C76_check",
    "Oups.Agg.C76_missing",
    "Oups.Agg.C76_same",
    "Oups.Agg.C76_missing_fails",
    "Oups.Agg.C76_snaps_again_fails",
    "Oups.Agg.C76_function_fails",
    "Oups.Agg.C76_check_fails",
    "Oups.AggStream.C76_time_sessions",
    "Oups.AggStream.C76_time_snap_sessions",
    "Oups.AggStream.C76_sessions_add_snaps_fails"
   ],
   "note": "Bins by TimeGrouper or by_x_rows; what a bin_by that raises leaves in its own dict is a parameter. Columns are read by name, dtypes of the columns are those of the data."
  },
  {
   "property": "C77",
   "status": "proved",
   "theorems": [
    "Oups.Agg.C77_time",
    "Oups.Agg.C77_calendar",
    "Oups.Agg.C77_same_bin",
    "Oups.Agg.C77_order",
    "Oups.Agg.C77_order_first",
    "Oups.Agg.C77_left",
    "Oups.Agg.C77_order_fails",
    "Oups.Agg.C77_first_fails",
    "Oups.Agg.C77_rows_fails"
   ],
   "note": "C77_time, C77_calendar: calls that return after others were refused. C77_same_bin: refused calls without effect. C77_order, C77_order_first, C77_left: what the dict holds. Negatives: C77_first_fails, C77_rows_fails, C77_order_fails. When all rows are before the restart key, by_scale raises IndexError and its dict is as it was; the model raises another exception with another restart key, the theorems hold for both."
  },
  {
   "property": "C78",
   "status": "proved",
   "theorems": [
    "Oups.Collection.C78_whole_del",
    "Oups.Collection.C78_whole_set",
    "Oups.Collection.C78_reopen",
    "Oups.Collection.C78_goes_on",
    "Oups.Collection.C78_del_again",
    "Oups.Collection.C78_del_left",
    "Oups.Collection.C78_del_raised",
    "Oups.Collection.C78_set_raised",
    "Oups.Collection.C78_empty_left_fails",
    "Oups.Collection.C78_ghost_fails",
    "Oups.Collection.C78_unseen_fails"
   ],
   "note": "C78_whole_del, C78_whole_set: all the calls give the operation of the model. C78_reopen, C78_goes_on: the store opened after any first calls. C78_del_again, C78_del_left: deletions. C78_del_raised, C78_set_raised: the instance in use. Negatives: C78_unseen_fails, C78_ghost_fails, C78_empty_left_fails. C78_goes_on asks that the key's directory is left empty or with a parquet file."
  },
  {
   "property": "C79",
   "status": "proved",
   "theorems": [
    "Oups.Collection.C79_shared",
    "Oups.Collection.C79_read",
    "Oups.Collection.C79_reopen",
    "Oups.Collection.C79_others",
    "Oups.Collection.C79_owned",
    "Oups.Collection.C79_apart",
    "Oups.Collection.C79_bases",
    "Oups.Collection.C79_first_names",
    "Oups.Collection.C79_unseen_fails",
    "Oups.Collection.C79_stale_fails",
    "Oups.Collection.C79_inside_fails"
   ],
   "note": "C79_shared, C79_read, C79_reopen, C79_others: instances on one directory. C79_owned: keys with one instance each. C79_apart, with C79_bases and C79_first_names: two collections. Negatives: C79_unseen_fails, C79_stale_fails, C79_inside_fails. Dataset directories there are at the start have a parquet file (Tidy). Operations of different instances do not overlap in time."
  },
  {
   "property": "C80",
   "status": "proved",
   "theorems": [
    "Oups.Collection.C80_untouched",
    "Oups.Collection.C80_write",
    "Oups.Collection.C80_delete",
    "Oups.Collection.C80_no_raise",
    "Oups.Collection.C80_writes",
    "Oups.Collection.C80_ends",
    "Oups.Collection.C80_outcome",
    "Oups.Collection.C80_no_empty_left",
    "Oups.Collection.C80_prune_race_fails",
    "Oups.Collection.C80_deletes_race_fails",
    "Oups.Collection.C80_listdir_race_fails"
   ],
   "note": "C80_untouched, C80_write, C80_delete: any interleaving. C80_no_raise, C80_writes, C80_outcome: when there is no exception. C80_ends: progress and a bound on the number of steps. C80_no_empty_left: deletions only. Negatives: C80_prune_race_fails, C80_deletes_race_fails, C80_listdir_race_fails. Operations are at different keys, and what a write puts in its directory is given."
  },
  {
   "property": "C81",
   "status": "proved",
   "theorems": [
    "Oups.KeySet.C81_reopened",
    "Oups.KeySet.C81_alone",
    "Oups.KeySet.C81_two_classes_fails",
    "Oups.KeySet.C81_same_directory_fails",
    "Oups.KeySet.C81_forgotten_fails"
   ],
   "note": "C81_reopened, C81_alone: keys of one class. Negatives: C81_two_classes_fails, C81_same_directory_fails, C81_forgotten_fails, for any collection. Paths of keys of derived classes are given."
  },
  {
   "property": "C82",
   "status": "proved",
   "theorems": [
    "Oups.Segment.C82_nanoseconds",
    "Oups.Segment.C82_one_bin",
    "Oups.Segment.C82_stream_right",
    "Oups.Segment.C82_third_call_refused",
    "Oups.Segment.C82_before_1970",
    "Oups.Segment.C82_microseconds_fails"
   ],
   "note": "Other resolutions than nanoseconds are refuted by C82_microseconds_fails; what is returned instead is C82_one_bin, C82_stream_right, C82_third_call_refused and C82_before_1970. Assumes that date_range of pandas 2 returns nanoseconds."
  },
  {
   "property": "C83",
   "status": "proved",
   "theorems": [
    "Oups.Collection.C83_setitem",
    "Oups.Collection.C83_setitem_refused",
    "Oups.Collection.C83_failed_setitem",
    "Oups.Collection.C83_len",
    "Oups.Collection.C83_repr_lines",
    "Oups.Collection.C83_repr_same",
    "Oups.Collection.C83_repr_fails"
   ],
   "note": "C83_setitem, C83_setitem_refused, C83_failed_setitem; C83_len (with C07); C83_repr_lines, C83_repr_same for keys whose text has no line break; C83_repr_fails: a field with a line break, an empty field."
  },
  {
   "property": "C84",
   "status": "proved",
   "theorems": [
    "Oups.Agg.C84_columns",
    "Oups.Agg.C84_arguments",
    "Oups.Agg.C84_data_unchanged",
    "Oups.Agg.C84_setup",
    "Oups.Agg.C84_direct_fails",
    "Oups.Agg.C84_views_fails"
   ],
   "note": "C84_columns, C84_arguments for one call; C84_data_unchanged for jcsagg, with C84_setup. Negatives: C84_direct_fails, C84_views_fails (what copies are for). That indexing with an array of integers copies is assumed of numpy and numba."
  },
  {
   "property": "C85",
   "status": "proved",
   "theorems": [
    "Oups.Writer.C85_write",
    "Oups.Writer.C85_same",
    "Oups.Writer.C85_python_slice_fails"
   ],
   "note": "C85_write (with the model of write for which C12 to C20 are proved), C85_same. Negative: C85_python_slice_fails. Vaex frames without lazy filters; how vaex slices is assumed (see DESIGN.md)."
  },
  {
   "property": "C86",
   "status": "proved",
   "theorems": [
    "Oups.FrameCols.C86_others_dropped",
    "Oups.FrameCols.C86_first",
    "Oups.FrameCols.C86_columns",
    "Oups.FrameCols.C86_missing",
    "Oups.FrameCols.C86_missing_max_nirgs",
    "Oups.FrameCols.C86_missing_after",
    "Oups.FrameCols.C86_all_columns",
    "Oups.FrameCols.C86_all_columns_fails",
    "Oups.FrameCols.C86_new_key_fails"
   ],
   "note": "C86_first, C86_columns, C86_others_dropped (with the model of write for which C12 to C20 are proved), C86_missing, C86_missing_max_nirgs, C86_missing_after, C86_all_columns. Negative: C86_all_columns_fails, C86_new_key_fails. Not modelled: a frame lacking a column that is merged with recorded rows, and ordered_on naming a column that is not recorded. That fastparquet writes the columns of the schema, by name, is assumed (see DESIGN.md)."
  },
  {
   "property": "C87",
   "status": "proved",
   "theorems": [
    "Oups.Inherit.C87_fields",
    "Oups.Inherit.C87_chain",
    "Oups.Inherit.C87_accepted",
    "Oups.Inherit.C87_flat",
    "Oups.Inherit.C87_class",
    "Oups.Inherit.C87_depth",
    "Oups.Inherit.C87_bare",
    "Oups.Inherit.C87_level_fails",
    "Oups.Inherit.C87_separator_fails"
   ],
   "note": "C87_fields, C87_chain, C87_depth, C87_accepted: fields, separator, levels, refusals. C87_flat, C87_class: same as a class written at once (then C74, C62). C87_bare: not decorated. Negatives: C87_separator_fails, C87_level_fails. One base class each; how dataclass collects fields is assumed as in its source."
  },
  {
   "property": "C88",
   "status": "proved",
   "theorems": [
    "Oups.Writer.C88_in_a_row",
    "Oups.Writer.C88_before_complete",
    "Oups.Writer.C88_files",
    "Oups.Writer.C88_new",
    "Oups.Writer.C88_without_fails",
    "Oups.Writer.C88_nine_fails",
    "Oups.Writer.C88_replaced_fails"
   ],
   "note": "C88_in_a_row, C88_files (any dataset), C88_before_complete, C88_new (new dataset). Negatives: C88_without_fails (one row group per write without max_nirgs), C88_nine_fails (nine incomplete row groups by one write), C88_replaced_fails (frames that replace the last recorded row: as many incomplete row groups in a row as there are writes, with max_nirgs=1)."
  },
  {
   "property": "C89",
   "status": "proved",
   "theorems": [
    "Oups.AggStream.C89_received",
    "Oups.AggStream.C89_sessions",
    "Oups.AggStream.C89_chain",
    "Oups.AggStream.C89_chain_snaps",
    "Oups.AggStream.C89_time_received",
    "Oups.AggStream.C89_rows_received",
    "Oups.AggStream.C89_snaps_received",
    "Oups.AggStream.C89_time_stored",
    "Oups.AggStream.C89_discard_fails"
   ],
   "note": "C89_received (any seed with a temporary last row group), C89_chain (a first stream with any KeyLaws), C89_time_received, C89_rows_received (first stream with TimeGrouper or by_x_rows bins), C89_chain_snaps, C89_snaps_received (snapshots of the first stream), C89_time_stored (what the second stream stores), C89_sessions (each round in new processes). The second stream has no pre in C89_chain and the theorems after it. Negative: C89_discard_fails."
  },
  {
   "property": "C90",
   "status": "proved",
   "theorems": [
    "Oups.AggStream.C90_polls",
    "Oups.AggStream.C90_calls",
    "Oups.AggStream.C90_during",
    "Oups.AggStream.C90_sessions",
    "Oups.AggStream.C90_session_during",
    "Oups.AggStream.C90_life",
    "Oups.AggStream.C90_time",
    "Oups.AggStream.C90_time_sessions",
    "Oups.AggStream.C90_time_life",
    "Oups.AggStream.C90_rows",
    "Oups.AggStream.C90_snaps",
    "Oups.AggStream.C90_last_fails",
    "Oups.AggStream.C90_stop_fails"
   ],
   "note": "C90_polls (any two reads, for one key), C90_calls (reads between calls), C90_during (a read in a call), for any KeyLaws; C90_time, C90_rows (bins of a TimeGrouper or by_x_rows), C90_snaps (snapshots of a TimeGrouper, bins beside). C90_sessions, C90_session_during, C90_time_sessions: streams created one after the other on the same store, with different settings. C90_life, C90_time_life: some streams stopped at any point; what remains of the results of the last final write. A write itself is one step here (see C23). Negative: C90_last_fails; C90_stop_fails (a stream stopped, then one that receives less rows)."
  },
  {
   "property": "C91",
   "status": "proved",
   "theorems": [
    "Oups.AggStream.C91_fed",
    "Oups.AggStream.C91_sessions",
    "Oups.AggStream.C91_polled",
    "Oups.AggStream.C91_polled_snaps",
    "Oups.AggStream.C91_settings",
    "Oups.AggStream.C91_settings_snaps",
    "Oups.AggStream.C91_time",
    "Oups.AggStream.C91_rows",
    "Oups.AggStream.C91_snaps",
    "Oups.AggStream.C91_time_stored",
    "Oups.AggStream.C91_time_settings",
    "Oups.AggStream.C91_rows_settings",
    "Oups.AggStream.C91_snaps_settings",
    "Oups.AggStream.C91_three"
   ],
   "note": "C91_fed: calls over reads that are each later than those before (Fed, Later of C90). C91_polled, C91_polled_snaps: reads of the dataset of bins, or of snapshots, of a key while its stream runs, for any KeyLaws. C91_time, C91_rows (bins of a TimeGrouper or by_x_rows), C91_snaps (snapshots of a TimeGrouper, bins beside); C91_time_stored: and what the second stream, with a TimeGrouper, stores. C91_three: three streams, one after the other. C91_sessions: each call of the second stream in a new process. C91_settings, C91_settings_snaps, C91_time_settings, C91_rows_settings, C91_snaps_settings: reads after sessions of the first stream with different settings. The second stream is without pre. Reads are between two writes of the key (see C90). That discard_last is needed: C89_discard_fails."
  }
 ]
}