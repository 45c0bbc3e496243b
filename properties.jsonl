{"id": "C01", "title": "Key to path to key round-trip", "statement": "For a key that passes construction-time validation and whose field values have the declared field types, `Cls.from_path(key.to_path) == key`; the only exception is a last level made of exactly two fields whose first is the empty string.", "quantifier": "every @toplevel class (any depth, any number of int/str fields per level, any non-alphanumeric one-character fields_sep) and every instance of it", "why_tests_cant": "infinitely many schemas, integers and strings; edge cases are empty strings, negative integers and nested levels", "anchors": ["oups/store/indexer.py: _dataclass_instance_to_str, _dataclass_instance_from_str, toplevel.to_path, toplevel.from_path"]}
{"id": "C02", "title": "Key to str to key round-trip (pickling)", "statement": "`Cls.from_str(str(key)) == key`, hence `pickle.loads(pickle.dumps(key)) == key`, under the same conditions as C01, although str() does not mark where levels end.", "quantifier": "every schema and every valid, type-conforming instance", "why_tests_cant": "same unbounded space as C01", "anchors": ["oups/store/indexer.py: _dataclass_instance_to_str, _dataclass_instance_from_str, _reduce"]}
{"id": "C03", "title": "Distinct keys never share a directory", "statement": "Two different valid type-conforming keys of one class always have different `to_path` (and different str()), so one dataset can never overwrite another one.", "quantifier": "all pairs of valid instances of any schema", "why_tests_cant": "quantifies over all pairs of keys", "anchors": ["oups/store/indexer.py: _dataclass_instance_to_str", "oups/store/collection.py: ParquetSet.set"]}
{"id": "C04", "title": "Dataset paths stay inside the store", "statement": "The path of a valid key whose string fields are all non-empty has exactly `depth` components, none of them empty, '.' or '..', so the dataset directory lies exactly `depth` levels under basepath. (With an empty string field this fails: the path can be absolute and escape basepath.)", "quantifier": "every schema and valid key", "why_tests_cant": "security-type claim: must hold for every string value", "anchors": ["oups/store/indexer.py: _validate_toplevel_instance, _dataclass_instance_to_str, _get_depth", "oups/store/collection.py: ParquetSet.set"]}
{"id": "C05", "title": "Key validation is exact", "statement": "Constructing a toplevel instance succeeds iff at each nesting level every field but possibly the last is an int or str without '/', '.' or fields_sep in its text, and a nested dataclass only appears in last position and is never the only field.", "quantifier": "every tree of field values", "why_tests_cant": "every nesting structure, position and string content", "anchors": ["oups/store/indexer.py: _validate_toplevel_instance, _dataclass_instance_to_lists"]}
{"id": "C06", "title": "Scanned directories and keys agree", "statement": "A directory is listed as a key exactly when its path, cut at each field separator and each '/', ends with tokens that convert into the plain fields of the class (surplus tokens on the left are ignored; texts converted into integers are white space, a sign or none, and decimal digits with single underscores in between). The key listed designates the very directory it was read from (`key.to_path` equals the scanned path) exactly when the path is in canonical form: at each level the texts of its fields joined by the separator (integers in decimal notation, the last level not an empty text followed by a single text), and one '/' between levels; so it does for directories written by oups for a readable key. (Unrestricted agreement is false of the code: directories with surplus fields, leading zeros, or a separator in place of '/' are read as keys of other directories.)", "quantifier": "every directory name found at the class depth", "why_tests_cant": "arbitrary directory names, including ones not created by oups", "anchors": ["oups/store/collection.py: get_keys", "oups/store/indexer.py: _dataclass_instance_from_str"]}
{"id": "C07", "title": "A ParquetSet is a map from keys to datasets", "statement": "After any sequence of set / del / read operations, `key in ps`, `len(ps)`, iteration and the data read through `ps[key]` agree with a plain dictionary subject to the same operations; operations on one key do not change any other key. (Keys without empty string fields; directories of the store written by oups.)", "quantifier": "every history of operations on any number of keys", "why_tests_cant": "state space of histories is unbounded", "anchors": ["oups/store/collection.py: ParquetSet.set, ParquetSet.__delitem__, ParquetSet.get, ParquetSet.__contains__"]}
{"id": "C08", "title": "Reopening a store finds the same keys", "statement": "A new ParquetSet opened on the same basepath has exactly the keys of the instance in use, after any history of set / del. (Stores as in C07: keys without empty string fields, directories written by oups.)", "quantifier": "every history of operations, every moment of reopening", "why_tests_cant": "unbounded histories", "anchors": ["oups/store/collection.py: get_keys, ParquetSet.__init__", "oups/store/utils.py: files_at_depth"]}
{"id": "C09", "title": "Deleting a key removes only that dataset", "statement": "`del ps[key]` removes the dataset directory and then exactly those ancestor directories below basepath that became empty; basepath itself and every other file in the store survive; deleting an unknown key does nothing. (If basepath is given with a trailing '/', basepath and its parents are removed too when they become empty. Stores as in C07.)", "quantifier": "every store content, every key, every spelling of basepath", "why_tests_cant": "depends on the whole directory tree", "anchors": ["oups/store/collection.py: ParquetSet.__delitem__", "oups/store/utils.py: strip_path_tail"]}
{"id": "C10", "title": "A failed set leaves the key set unchanged", "statement": "If `ps.set` raises (wrong key type, wrong data type or failure in the writer) the key set is the one before the call.", "quantifier": "every state and every failing call", "why_tests_cant": "all failing inputs", "anchors": ["oups/store/collection.py: ParquetSet.set, ParquetSet.__setitem__"]}
{"id": "C11", "title": "Keys are iterated in sorted order without duplicates", "statement": "Iteration over a ParquetSet yields each key once, in ascending field-wise order, whatever the order of creation or of the directory scan. (Stores as in C07.)", "quantifier": "every history and every directory scan order", "why_tests_cant": "permutations of scan order", "anchors": ["oups/store/collection.py: ParquetSet.__iter__, get_keys (SortedSet)"]}
{"id": "C12", "title": "Row-group splitting preserves rows and bounds sizes", "statement": "Without ordered_on, the frames handed to the parquet writer, concatenated, are the input rows in order; there are at most ceil(n/max) of them, none is empty (unless the input is) and none has more than max_row_group_size rows.", "quantifier": "every frame length and every positive max_row_group_size", "why_tests_cant": "arithmetic over all lengths", "anchors": ["oups/store/writer.py: iter_dataframe"]}
{"id": "C13", "title": "Row-group splitting never separates equal index values", "statement": "With ordered_on on ordered data, the chunks concatenated are the input rows, no value of the ordered_on column occurs in two chunks, and the rows of a chunk not sharing its first value number fewer than max_row_group_size.", "quantifier": "every ordered column (with any ties) and every max_row_group_size", "why_tests_cant": "all tie patterns relative to split points", "anchors": ["oups/store/writer.py: iter_dataframe (sharp_on)"]}
{"id": "C14", "title": "Appending preserves everything ever written", "statement": "With neither ordered_on nor duplicates_on, whatever max_row_group_size and max_nirgs are used at each call, a dataset reads back as the concatenation of all the frames written so far. A write is refused exactly when, on an existing dataset, max_nirgs is given without max_row_group_size, or while the last row group is complete and the frame has max_row_group_size rows or max_nirgs is 0.", "quantifier": "every history of appends with arbitrary per-call parameters", "why_tests_cant": "unbounded histories; coalescing rewrites old files", "anchors": ["oups/store/writer.py: write"]}
{"id": "C15", "title": "Ordered writes keep the dataset ordered", "statement": "After any history of ordered_on writes of ascending frames, where each frame overlaps existing row groups or lies after all of them (then without ties, or with at most max_row_group_size rows), reading returns rows in ascending order. (False when a frame falls in a gap between row groups or before all of them, when ties sit on row-group boundaries, and for max_nirgs with an overlap on row group 0.)", "quantifier": "every history of writes", "why_tests_cant": "insertion position, row-group layout and history are unbounded", "anchors": ["oups/store/writer.py: write"]}
{"id": "C16", "title": "Ordered writes lose and invent nothing", "statement": "With ordered_on and without duplicates_on, every successful write leaves exactly the old rows plus the new rows (as a multiset); with any parameters, each row recorded after a write was recorded before or is in the written frame.", "quantifier": "every dataset, frame and parameter setting, ordered or not", "why_tests_cant": "all layouts", "anchors": ["oups/store/writer.py: write"]}
{"id": "C17", "title": "duplicates_on gives last-write-wins", "statement": "When a write overlaps recorded row groups, whatever their layout (with max_nirgs, not the first one), consecutive row groups including these are rewritten (from the first of these, without max_nirgs, to the last of these or to the end) and others kept; within the rewritten row groups each duplicates_on key (the named columns with ordered_on; all columns for an empty list) occurs once with the most recently written row, and rows with other keys are kept; after any history of ascending frames (as in C15, a frame lying after all others having each key once), each key has exactly one row, the last one written; with ordered_on itself as key, the dataset is the dictionary obtained by applying the frames in turn. If no two rows have the same key, duplicates_on changes nothing. The list given as duplicates_on is modified in place (ordered_on is appended); giving the same list again with the same ordered_on makes the same write, but with another ordered_on it keys on both columns and keeps rows that should have been dropped. With ordered_on, a write on an existing dataset with max_nirgs is refused exactly when max_row_group_size is missing, or when the last row group is complete, the frame has max_row_group_size rows or max_nirgs is 0, and the range of the frame touches no row group, only the first one, or both the first and the last ones.", "quantifier": "every history of overlapping or appended writes", "why_tests_cant": "unbounded histories and layouts", "anchors": ["oups/store/writer.py: write, iter_dataframe"]}
{"id": "C18", "title": "Coalescing changes grouping only", "statement": "max_nirgs influences how rows are grouped in row groups but not the rows read back nor their order, without ordered_on, or for frames as in C15. (False when new data overlaps only row group 0.)", "quantifier": "every dataset, frame and max_nirgs", "why_tests_cant": "all row-group size patterns", "anchors": ["oups/store/writer.py: write (max_nirgs)"]}
{"id": "C19", "title": "pandas and vaex views agree", "statement": "After any history of writes, part file numbers strictly increase along the row groups, so the vaex view (`.vdf`, files ordered by number) lists the same rows in the same order as the pandas view (`.pdf`). This holds through the names of the files (part.N.parquet, any N), whatever the order in which the directory is listed and its other files, provided their names do not end with 'parquet'; write() then finds a dataset iff there is a row group. (A foreign file with such a name makes .vdf raise or show its rows, .pdf does not see it.)", "quantifier": "every history of writes, every listing of the directory", "why_tests_cant": "file naming depends on the whole history", "anchors": ["oups/store/router.py: ParquetHandle.vdf, ParquetHandle.pdf", "oups/store/writer.py: write"]}
{"id": "C20", "title": "min_max is the true extent of the data", "statement": "`store[key].min_max(col)` equals the minimum and the maximum of col over all rows of the dataset.", "quantifier": "every dataset layout with at least one row", "why_tests_cant": "all row-group layouts", "anchors": ["oups/store/router.py: ParquetHandle.min_max"]}
{"id": "C21", "title": "oups metadata merge semantics", "statement": "When oups metadata already exists in the file, writing pending metadata sets each pending key with a value (a key that does not exist only if its value is truthy), removes each existing key whose pending value is None and leaves every other key alone. (When none exists, the pending dict is stored verbatim, None values included, contrary to the docstring.)", "quantifier": "every existing and pending metadata dictionary", "why_tests_cant": "all dictionaries", "anchors": ["oups/store/writer.py: write_metadata"]}
{"id": "C22", "title": "Metadata of one key never leaks to another", "statement": "Writing dataset k consumes exactly the pending oups metadata registered for k: afterwards nothing is pending for k, and pending metadata of other keys and other datasets' metadata are unchanged; with no md_key nothing is consumed. User-defined metadata are merged independently. The caller's dict of metadata is changed only if something is pending for the key and it is not empty: the oups metadata recorded are then added to it.", "quantifier": "every set of pending metadata and every sequence of writes", "why_tests_cant": "unbounded histories", "anchors": ["oups/store/writer.py: write_metadata, OUPS_METADATA"]}
{"id": "C23", "title": "Crash-safety of appends", "statement": "If the process dies at any point of an append (with max_nirgs: one that coalesces no row group), the dataset opened through its metadata file reads exactly the rows of before or, once the metadata file has been written, the rows of after. (Not so for updates that replace row groups, nor for appends that coalesce some: there is a crash point after which the metadata file refers to deleted files.) At any point of any write, updates and the renaming of files included, the files in the directory still hold all row groups of before, or all those of after; as long as no file has been removed, the dataset reads as before.", "quantifier": "every crash point of every write", "why_tests_cant": "all crash points times all layouts", "anchors": ["oups/store/writer.py: write"]}
{"id": "C24", "title": "Rejected writes do not touch the dataset", "statement": "A write rejected by parameter checking (ordered_on a tuple or not a column, duplicates_on without ordered_on on an existing dataset, zero max_row_group_size for a frame with rows, an empty frame with ordered_on on an existing dataset) leaves the dataset unchanged. The splitter `iter_dataframe` itself refuses a pandas frame with sharp_on or with a list of duplicates_on, and duplicates_on without sharp_on. An unknown column in duplicates_on is refused, dataset unchanged, when the frame overlaps a recorded row group; otherwise it is accepted silently.", "quantifier": "every invalid call on every dataset", "why_tests_cant": "all invalid parameter combinations", "anchors": ["oups/store/writer.py: write, iter_dataframe"]}
{"id": "C25", "title": "Seed filters are a disjunction of conjunctions", "statement": "`dataframe_filter` keeps a row iff some inner list has all its (column, op, value) conditions true of that row, raises on an unknown operator wherever it appears, and never depends on other rows. (A list compared with ==, < ... is compared row by row: accepted only for frames of its length, or if it has one item.)", "quantifier": "every frame and every filter", "why_tests_cant": "all filters and frames", "anchors": ["oups/aggstream/utils.py: dataframe_filter"]}
{"id": "C26", "title": "conform_cmidx makes a frame writable", "statement": "After `conform_cmidx(df)` the writer's column multi-index check passes; level names and column names that already complied are unchanged, and applying it twice changes nothing more. It fails exactly when two values of a level have the same text, with ValueError, missing names of levels being then already replaced.", "quantifier": "every column multi-index", "why_tests_cant": "all label types and level names", "anchors": ["oups/store/utils.py: conform_cmidx", "oups/store/writer.py: check_cmidx"]}
{"id": "C27", "title": "Chunk starts are the ranks of the edges", "statement": "For an ordered non-empty column and ordered right edges, the i-th returned start is the number of rows below (left-closed) or not above (right-closed) edge i; edges beyond the first one covering all rows are dropped; the reported count of null chunks is the number of empty chunks; the traversed flag tells whether all rows are covered.", "quantifier": "every ordered column and ordered edges, both closures", "why_tests_cant": "all data/edge interleavings and ties", "anchors": ["oups/aggstream/segmentby.py: _next_chunk_starts"]}
{"id": "C28", "title": "by_x_rows makes bins of exactly x rows", "statement": "In one call without buffer, bins partition the rows into consecutive runs of exactly `by` rows except a possibly shorter, non-empty last one; each label is the ordered_on value of the first row of its bin; bin ends are the first value of the next bin (left) or the last of the bin (right).", "quantifier": "every frame length and every by ≥ 1", "why_tests_cant": "all lengths", "anchors": ["oups/aggstream/segmentby.py: by_x_rows"]}
{"id": "C29", "title": "by_x_rows restarts exactly", "statement": "Feeding the rows in any succession of non-empty pieces through a shared buffer gives the bins of a single call over the concatenation: same labels, same boundaries, the first bin of each call carrying the label of the last bin of the previous one.", "quantifier": "every sequence of pieces (any sizes), every by ≥ 1", "why_tests_cant": "all splittings", "anchors": ["oups/aggstream/segmentby.py: by_x_rows"]}
{"id": "C30", "title": "TimeGrouper binning restarts exactly", "statement": "For a fixed-frequency TimeGrouper (left- or right-closed, left or right labels), feeding ordered rows in any succession of non-empty pieces through a shared buffer gives the bins of a single call over the concatenation, including the empty bins in between, the first bin of each call being the last of the previous one, when the grid does not depend on the first timestamp (origin 'epoch' or a timestamp, 'start_day' with a frequency dividing a day, or 'end_day' with such a frequency, no offset and right-closed bins). (False for the default origin 'start_day' with other frequencies, for 'start' and 'end', and for 'end_day' with left-closed bins: a later call is refused. With 'end', right-closed, one call gives the grid of its last row.)", "quantifier": "every ordered column, every splitting, every frequency", "why_tests_cant": "all splittings and gaps", "anchors": ["oups/aggstream/segmentby.py: by_scale"]}
{"id": "C31", "title": "Every row falls in exactly one bin", "statement": "Whatever the binning (by_x_rows, or TimeGrouper with a grid as in C30), the returned next_chunk_starts are non-decreasing, end at the number of rows, and the slices they delimit concatenate to the data: no row is skipped or counted in two bins.", "quantifier": "every frame, binning and buffer reachable by restarts", "why_tests_cant": "all inputs", "anchors": ["oups/aggstream/segmentby.py: by_scale, by_x_rows, segmentby"]}
{"id": "C32", "title": "Snapshots precede the bin they observe", "statement": "Merging snapshot and bin positions keeps both sequences in order, sorts by position, puts a snapshot before a bin end located at the same position, puts a bin of unknown end last, and the returned indices are exactly the positions of bins in the merged sequence.", "quantifier": "every pair of ordered key arrays", "why_tests_cant": "all interleavings with ties", "anchors": ["oups/aggstream/segmentby.py: mergesort"]}
{"id": "C33", "title": "segmentby rejects inconsistent binning", "statement": "segmentby raises rather than returning when ordered_on is not ordered, closed is invalid, sizes differ, (with a buffer) bins do not cover the data or end with an empty bin, or the first label differs from the last label of the previous call; whatever it does return satisfies those conditions. It raises exactly for those reasons, looked at in that order after the exceptions of bin_by itself, or for snapshots without ordered_on, or for snapshot points that are refused; merging bins and snapshots never raises.", "quantifier": "every user-provided bin_by result and buffer", "why_tests_cant": "all user callables", "anchors": ["oups/aggstream/segmentby.py: segmentby"]}
{"id": "C34", "title": "Segmentation set-up is consistent", "statement": "setup_segmentby accepts exactly the parameter combinations in which the binning column is known, ordered_on agrees with the TimeGrouper column and the snapshot key, and closures agree; the returned columns to bin on are [bin_on, ordered_on], bin_on or ordered_on accordingly.", "quantifier": "all combinations of bin_by, bin_on, ordered_on and snap_by", "why_tests_cant": "combinatorial decision logic", "anchors": ["oups/aggstream/segmentby.py: setup_segmentby"]}
{"id": "C35", "title": "Aggregation functions compute what they are named after", "statement": "For each bin, `first`, `last`, `min`, `max`, `sum` of a column are the first, last, minimum, maximum and sum of the column over the rows of the bin. (With NaN, minimum and maximum are NaN if the first value of the bin is, else those of the other values: they depend on the order of rows. With missing dates, NaT, the minimum is NaT and the maximum that of the other dates.)", "quantifier": "every non-empty bin and column", "why_tests_cant": "all data", "anchors": ["oups/aggstream/jcumsegagg.py: jfirst, jlast, jmin, jmax, jsum"]}
{"id": "C36", "title": "Aggregations continue exactly over any split", "statement": "Aggregating rows ys starting from the saved result of rows xs gives the same value as aggregating xs ++ ys at once, for every function, with no rounding or overflow difference (the same elementary operations in the same order).", "quantifier": "all xs, ys, and any arithmetic (int64 with wrap-around, IEEE floats)", "why_tests_cant": "all splits and float rounding", "anchors": ["oups/aggstream/jcumsegagg.py: jfirst, jlast, jmin, jmax, jsum"]}
{"id": "C37", "title": "Bin results are the per-bin aggregates", "statement": "In a run without snapshots, the i-th row of the result is the aggregate of the rows of bin i, and is null exactly when bin i has no row (and is not the continuation of a non-empty bin). (False when several bins have the same label and one of them is empty.)", "quantifier": "every data, bin boundaries and aggregation set-up", "why_tests_cant": "all boundaries", "anchors": ["oups/aggstream/jcumsegagg.py: jcsagg", "oups/aggstream/cumsegagg.py: cumsegagg"]}
{"id": "C38", "title": "Snapshot results are cumulative within the bin", "statement": "The result at a snapshot is the aggregate of the rows since the start of the bin in progress up to the snapshot, null exactly when there is none; it never includes rows of a previous bin. (For snapshots of distinct labels and bins that their ends separate; see C39 for others.)", "quantifier": "every data and every interleaving of bins and snapshots", "why_tests_cant": "all interleavings", "anchors": ["oups/aggstream/jcumsegagg.py: jcsagg", "oups/aggstream/cumsegagg.py: cumsegagg"]}
{"id": "C39", "title": "Snapshots never change bin results", "statement": "Adding snapshots to a cumsegagg call leaves the bin results unchanged. (False for right-closed by_x_rows bins when ordered_on has ties across a bin boundary.)", "quantifier": "every data, binning and snapshot positions", "why_tests_cant": "all interleavings", "anchors": ["oups/aggstream/cumsegagg.py: cumsegagg", "oups/aggstream/segmentby.py: segmentby"]}
{"id": "C40", "title": "Null buffers never overflow", "statement": "The number of null bins / null snapshots recorded by the compiled loop never exceeds the sizes n_null_bins / n_max_null_snaps computed by the segmentation, so that the unchecked array writes stay in bounds (any bin_by whose rows are not after the declared ends of their bins and that counts its empty bins; hence by_x_rows, also when rows of several bins share a position, and TimeGrouper; false for some user-defined bin_by).", "quantifier": "every data and segmentation", "why_tests_cant": "memory-safety over all inputs", "anchors": ["oups/aggstream/jcumsegagg.py: jcsagg", "oups/aggstream/segmentby.py: segmentby", "oups/aggstream/cumsegagg.py: cumsegagg"]}
{"id": "C41", "title": "Every output column aggregates its own input", "statement": "After setup_cumsegagg, each requested output column receives its requested function applied to its requested input column, for every agg dict; columns sharing dtype or function do not get mixed up; unknown columns or functions raise.", "quantifier": "every agg dict and dtype assignment", "why_tests_cant": "all dicts", "anchors": ["oups/aggstream/cumsegagg.py: setup_cumsegagg"]}
{"id": "C42", "title": "Streamed aggregation equals one-shot aggregation", "statement": "cumsegagg over successive non-empty pieces with a shared buffer, keeping all rows but the last of each result and all rows of the final one, gives exactly the bin results of one call over the concatenation (by_x_rows, and TimeGrouper with a grid as in C30).", "quantifier": "every splitting of every ordered frame", "why_tests_cant": "all splittings", "anchors": ["oups/aggstream/cumsegagg.py: cumsegagg", "oups/aggstream/segmentby.py: by_scale, by_x_rows", "oups/aggstream/jcumsegagg.py: jcsagg"]}
{"id": "C43", "title": "Streamed snapshots equal one-shot snapshots", "statement": "With TimeGrouper bins and TimeGrouper snapshots of equal closure (grids as in C30), streaming over successive pieces gives exactly the bins and snapshots of one call over the concatenation.", "quantifier": "every splitting of every ordered frame", "why_tests_cant": "all splittings and bin/snapshot interleavings", "anchors": ["oups/aggstream/cumsegagg.py: cumsegagg", "oups/aggstream/segmentby.py: by_scale, mergesort, segmentby"]}
{"id": "C44", "title": "Zero results are refused", "statement": "With error_on_0 (always in AggStream), cumsegagg raises iff some non-null bin or snapshot result equals 0, including legitimate zeros; otherwise the returned values are those computed without the check.", "quantifier": "every data and aggregation", "why_tests_cant": "all data", "anchors": ["oups/aggstream/cumsegagg.py: cumsegagg"]}
{"id": "C45", "title": "Seed rows are delivered exactly once", "statement": "Without filters and trimming, the frames aggregated by one agg() call concatenate to the seed rows, minus, if discard_last, the rows sharing the last ordered_on value of the whole seed, whatever the chunking of the seed into non-empty chunks. (An empty chunk raises IndexError, and order is checked within chunks only.)", "quantifier": "every chunking of every ordered seed", "why_tests_cant": "all chunkings and ties across chunk ends", "anchors": ["oups/aggstream/aggstream.py: _iter_data"]}
{"id": "C46", "title": "discard_last + trim_start restarts lose and repeat nothing", "statement": "If each agg() is run with discard_last and the following one with trim_start over a seed that extends the previous one (from any earlier point on), the rows aggregated overall are each seed row once, except the rows at the last index.", "quantifier": "every sequence of growing seeds and every chunking", "why_tests_cant": "all histories", "anchors": ["oups/aggstream/aggstream.py: _iter_data, AggStream.agg"]}
{"id": "C47", "title": "Each filter sees exactly its rows", "statement": "For every filter id, the rows delivered to its keys are exactly the trimmed seed rows satisfying its filter, in order; chunks with no such row are skipped. dataframe_filter decides on each row from its own values, unless a list is compared with a column (then what is kept depends on the chunks).", "quantifier": "every seed, chunking and set of filters", "why_tests_cant": "all filters and chunkings", "anchors": ["oups/aggstream/aggstream.py: _iter_data", "oups/aggstream/utils.py: dataframe_filter"]}
{"id": "C48", "title": "Stored results do not depend on chunking, memory limit or writes", "statement": "After agg() calls ending with a final write, the dataset stored for a key (whose results have increasing labels, in the column ordered_on, the one duplicates are dropped on) holds exactly the one-shot aggregation of all delivered rows, whatever the chunking of seeds, the max_in_memory_size threshold (intermediate writes), the row-group size, max_nirgs and which calls did final_write. (With max_nirgs, calls may raise.)", "quantifier": "every history of agg calls, every threshold", "why_tests_cant": "unbounded histories combining aggregation, buffering and upserts", "anchors": ["oups/aggstream/aggstream.py: agg_iter, _post_n_write_agg_chunks, AggStream.agg", "oups/store/writer.py: write"]}
{"id": "C49", "title": "Restart from disk equals an uninterrupted run", "statement": "Re-creating the AggStream from the store after a final write and going on gives the same stored results as continuing with the same instance.", "quantifier": "every history and every restart point", "why_tests_cant": "all restart points", "anchors": ["oups/aggstream/aggstream.py: _init_buffers, _post_n_write_agg_chunks", "oups/store/writer.py: write_metadata"]}
{"id": "C50", "title": "A crash between writes is recovered by replay", "statement": "If the process dies after intermediate writes and before the final write, re-creating the AggStream and replaying the seed from the recorded restart index yields the results of an uninterrupted run. (Not possible if no final write ever happened: the store then refuses to restart; nor with max_nirgs, unless the dataset begins with a complete row group that is not its last one: a replay with other chunks may otherwise store rows twice.)", "quantifier": "every history, crash point between writes and replay chunking", "why_tests_cant": "all crash points", "anchors": ["oups/aggstream/aggstream.py: agg_iter, AggStream.agg, _init_buffers", "oups/store/writer.py: write"]}
{"id": "C51", "title": "A failing seed check keeps the valid prefix", "statement": "If pre() or the ordering check fails at chunk n, the exception is re-raised after the results of chunks before n have been written (when final_write), and chunk n and later ones contribute nothing; without final_write nothing is written at that point.", "quantifier": "every seed and failing position", "why_tests_cant": "all failing positions", "anchors": ["oups/aggstream/aggstream.py: _iter_data, AggStream.agg"]}
{"id": "C52", "title": "Keys aggregated in parallel do not interfere", "statement": "Any interleaving of the per-key work on distinct keys gives each key the result of processing it alone.", "quantifier": "every schedule of the parallel jobs", "why_tests_cant": "all schedules", "anchors": ["oups/aggstream/aggstream.py: AggStream.agg (joblib), agg_iter", "oups/store/writer.py: OUPS_METADATA"]}
{"id": "C53", "title": "Restart index is recorded by every final write", "statement": "After agg() with final_write, the stored metadata of every key holds the last seed index delivered, even when the key got no row. (False for a last index equal to 0, which is not recorded.)", "quantifier": "every seed and every final write", "why_tests_cant": "all index values and empty results", "anchors": ["oups/aggstream/aggstream.py: _post_n_write_agg_chunks"]}
{"id": "C54", "title": "Key configuration precedence", "statement": "Per-key parameters override AggStream-level ones; duplicates_on defaults to the bin column when there is one and to ordered_on otherwise; results are BINS without TimeGrouper snapshots, BOTH for a pair of keys, SNAPS otherwise; unknown parameters and a missing bin_by are refused, and the exception raised tells the reason of a refusal. (The user's per-key dicts lose their bin_by entry, so that they cannot be used twice.)", "quantifier": "every configuration dictionary", "why_tests_cant": "combinatorial configuration space", "anchors": ["oups/aggstream/aggstream.py: _init_keys_config, AggStream.__init__"]}
{"id": "C55", "title": "Diverging restart points are refused", "statement": "If the stored results of two keys were aggregated up to different seed indices, or a key designates a dataset not written by AggStream, construction raises; otherwise the restart index is the common one, or none for new keys.", "quantifier": "every store content and set of keys", "why_tests_cant": "all store contents", "anchors": ["oups/aggstream/aggstream.py: _init_buffers, _is_aggstream_result"]}
{"id": "C56", "title": "Series snapshots restart safely", "statement": "With snapshots given as a list of values, a restart either continues exactly (already observed points are not observed again, the last unfinished one is) or raises if the new list does not allow it, for points accessed by position (DatetimeIndex). It raises exactly when the last point observed is not in the list (IndexError if all points are before it, ValueError if one is after), when the list is empty after a call in which no point was observed yet (IndexError), or when some data of the previous calls is after, or at for left-closed, the point following the first one kept (ValueError). (False for a pandas Series: the result is the same as long as the first point given is kept; when it is removed, KeyError is raised if only one point is observed then, otherwise the restart key recorded is the point before the last one observed; once points have been removed, cumsegagg sets to null another snapshot than the one without rows, of which the result is zeros, or raises KeyError; explicit bin ends are refused without a closure or with a number of labels other than that of ends.)", "quantifier": "every list of points and splitting", "why_tests_cant": "all lists and splittings", "anchors": ["oups/aggstream/segmentby.py: by_scale"]}
{"id": "C57", "title": "Multi-index column names are restored", "statement": "Reading back the texts of tuples as column names with to_midx gives the multi-index of these tuples, short tuples being completed with '' and missing level names with generic ones. This holds with the texts repr gives of tuples of strings, whatever characters the strings hold (quotes, backslashes, line breaks, other alphabets). (A plain name is cut into characters if it has no more characters than there are levels, else ValueError is raised, although it should be kept; other exceptions of literal_eval go through; the caller's list of level names is modified.)", "quantifier": "every list of column names and levels", "why_tests_cant": "all name shapes and tuple lengths", "anchors": ["oups/store/writer.py: to_midx"]}
{"id": "C58", "title": "Filters and keys are paired", "statement": "A stream whose keys are given under filter ids is accepted exactly when filters is given, gives conditions to exactly the filter ids of keys other than '_', gives none to '_', and no key is under two filter ids (and each key configuration is valid); each filter id then has the conditions given for it (a flat list being a single conjunction) and '_' has none; without filter ids no row is filtered; the exception raised tells the reason of a refusal, and is never KeyError. ({'_': None} raises TypeError although allowed by the check; filters are silently ignored if keys has no filter id.)", "quantifier": "every filters and keys arguments", "why_tests_cant": "combinatorial configuration space", "anchors": ["oups/aggstream/aggstream.py: AggStream.__init__"]}
{"id": "C59", "title": "The only exceptions of a stream on ordered seeds", "statement": "On new datasets, with ordered non-empty seed chunks and valid key configurations (max_nirgs not being used, or being at least 1 with fewer results than max_row_group_size), agg() calls raise nothing but the IndexError of an intermediate write made when a key has no definitive row to write while its dataset has rows, or the ValueError for a zero in a result, and raise whenever one of these happens. In particular, with no zero result, they never raise, whatever the memory limit, if each frame delivered to a key, after the first, ends in another bin (TimeGrouper bins or snapshots) or has as many rows as a bin (by_x_rows).", "quantifier": "every history of agg calls, chunking, memory limit and row-group size", "why_tests_cant": "unbounded histories; the exception depends on the alignment of chunks, bins and memory usage", "anchors": ["oups/aggstream/aggstream.py: agg_iter, _post_n_write_agg_chunks, AggStream.agg", "oups/store/writer.py: write", "oups/aggstream/cumsegagg.py: cumsegagg"]}
{"id": "C60", "title": "A stream on a ParquetSet stores what a new process reads", "statement": "agg() calls that end on given datasets, run on a ParquetSet with per-key jobs interleaved in any way, leave directories on which a newly opened ParquetSet has exactly the keys and datasets of the process, with no metadata pending; for TimeGrouper bins, these hold the one-shot aggregation of all delivered rows; datasets of other keys are unchanged; stopped between any two steps of a call before its final write, what is on disk is a state from which replay recovers. A step that raises changes nothing. (Metadata set by a final write that fails stay pending and are recorded by the next write at the key.)", "quantifier": "every key class, directory tree, history of agg calls, schedule of jobs and stopping point", "why_tests_cant": "all histories, schedules and crash points over the files", "anchors": ["oups/aggstream/aggstream.py: _post_n_write_agg_chunks, agg_iter, AggStream.agg", "oups/store/collection.py: ParquetSet", "oups/store/writer.py: write_metadata"]}
{"id": "C61", "title": "The memory limit bounds the results held", "statement": "For each key, agg() accounts as in-memory size exactly the memory usage of the results held since the last write, hands all of them over at each write, and the results held never use more than max_in_memory_size plus the last results added. (The documented limit itself is not guaranteed: usage is compared before the results of the last chunk are counted.)", "quantifier": "every history of chunks, aggregation and limit", "why_tests_cant": "all histories of chunk sizes and writes", "anchors": ["oups/aggstream/aggstream.py: agg_iter, _post_n_write_agg_chunks"]}
{"id": "C62", "title": "Which fields separators are usable", "statement": "Any single character that is neither an ASCII letter nor an ASCII digit, given as fields_sep, is read back literally, and keys are recovered from their paths and strings. With any other letter or digit, keys are accepted and written but from_path / from_str raise re.error for every string, or, for those having a meaning in regular expressions (such as 'n', 'd'), return None for keys of one level without the characters meant; the empty string makes every key invalid. (False for the letters 'A', 'b', 'B', 'Z', 'D', 'S', 'w': paths of accepted keys are read as other keys; and for separators of several characters: two different accepted keys may share a directory.)", "quantifier": "every separator, schema, key and string", "why_tests_cant": "all separators and keys", "anchors": ["oups/store/indexer.py: toplevel, _dataclass_instance_from_str, _dataclass_instance_to_str, _validate_toplevel_instance"]}
{"id": "C63", "title": "Aggregations are set up once, from the first frame", "statement": "The first agg() call with data is accepted exactly when each column and function of the aggregation of each key is known in its first frame; after any calls without data, the stream is then the one of the configurations obtained from this frame, whatever the seed is (None, a frame, a list, a generator), all frames of the seed being aggregated. When the first key is refused, nothing is changed and the call can be made again. (When another key is refused, the stream stays unusable: whatever is done next, a key that is refused or follows it raises KeyError as soon as it is given data. Columns made by pre are not seen. A generator without frames raises StopIteration if it is the first seed, and only then.)", "quantifier": "every stream, seed and history of calls", "why_tests_cant": "all histories of calls after a refusal", "anchors": ["oups/aggstream/aggstream.py: AggStream._init_agg_cs, AggStream.agg", "oups/aggstream/cumsegagg.py: setup_cumsegagg"]}
{"id": "C64", "title": "Keys of the declared types are always ordered", "statement": "For keys whose fields have the declared types, < never raises and is the lexicographic order of the fields; after any history of writes and deletes, keys iterated, `in` and len() agree, and adding or removing a key never raises because of the order. (False for keys of other types, which are accepted: writing at an int key while the keys stored have strings raises TypeError after the data is written; the key is then `in` the collection and counted, but not iterated; deleting it raises after the data is removed.)", "quantifier": "every key class, history of operations and pair of keys", "why_tests_cant": "all orders of keys and histories", "anchors": ["oups/store/indexer.py: toplevel, sublevel", "oups/store/collection.py: ParquetSet.set, ParquetSet.__delitem__, ParquetSet.__iter__"]}
{"id": "C65", "title": "What post returns is what is recorded", "statement": "With a post function, only rows it returned for a dataset are ever recorded there, and a key without post records its own results. For a key alone, a returned frame is written and anything else writes nothing; for a pair of keys, a pair of frames is written frame by frame, each in its dataset, and anything not a pair, a frame without exactly two columns, or a pair with a frame of bins and none of snapshots, raises. (A pair with None for the bins is accepted, but its snapshots are dropped without being recorded; so is a single frame with two columns. (bins, None) raises after bins and metadata have been written.)", "quantifier": "every post function, key and history of agg calls", "why_tests_cant": "all functions and histories", "anchors": ["oups/aggstream/aggstream.py: _post_n_write_agg_chunks, agg_iter, AggStream.agg", "oups/store/writer.py: write"]}
{"id": "C66", "title": "Exceptions in agg() are recovered from the store", "statement": "If jobs of an agg() call raise after a final write (each key being anywhere in its frames), the store stays one from which a new AggStream starts in the state after that final write, and any further seeds bringing again the rows already processed (the failing ones may be corrected) store the one-shot results on all rows. If iterating over the seed raises, the same instance is as after a call on the chunks before, without final write. A final write interrupted between keys is completed by the next one as if it had not been. (False for going on with the instance after a job raised: results held are recorded twice, others are lost, and keys which did not raise have counted the chunk; a write that raises leaves post already run, and it is run again on the same results.)", "quantifier": "every history of agg calls, failing position, point reached by each key, and replay", "why_tests_cant": "all histories, failing positions and schedules of jobs", "anchors": ["oups/aggstream/aggstream.py: agg_iter, _post_n_write_agg_chunks, AggStream.agg", "oups/aggstream/cumsegagg.py: cumsegagg"]}
{"id": "C67", "title": "Calendar frequencies (weeks, months, quarters, business days)", "statement": "by_scale with a TimeGrouper of calendar frequency cuts rows along the dates of the frequency (empty bins included) from the one given by the first row; with one date per bin, or right-closed bins of any number of dates, restarting over any splitting gives the bins of one call, cumsegagg its aggregates (with snapshots along other dates or of fixed frequency), and a stream stores the one-shot results, also after a crash and a replay, and after any number of sessions and stops, for bins and snapshots of any fixed or calendar frequencies, or bins of a number of rows; calls of a new stream do not raise if each frame ends in another bin or snapshot than the rows before it (with the check of zeros, if no result is zero; with max_nirgs, if results fit in a row group). (False for left-closed bins of several dates, such as '2MS': after a chunk ending in the bin it started in, the next one may start from another date and the following call raises. With month ends, edges are midnights: rows of the last day of a month are aggregated with the following month, and an empty bin may come first.)", "quantifier": "every offset with increasing midnight dates (month, quarter and year begins and ends, half months, weeks, business days, business month begins and ends proved to be), every ordered frame and splitting, every crash point", "why_tests_cant": "all dates, splittings and histories", "anchors": ["oups/aggstream/segmentby.py: by_scale", "oups/aggstream/cumsegagg.py: cumsegagg", "oups/aggstream/aggstream.py: AggStream.agg"]}
{"id": "C68", "title": "Keys of any field types and default values", "statement": "For a class with any annotations and default values, a key accepted at construction is recovered from its path and string whenever each annotation, called on the text of its value, gives the value back (last level of two fields starting with the empty string excepted); such keys have distinct paths. Fields annotated int or str without default values are always read as if so. (False otherwise: with postponed annotations, that are strings, nothing is ever read back and depth is 1; a float field accepts the integer 3 and gives back 3.0; with default values, a directory named by the first fields only is read as a key of which it is not the directory; an annotation raising anything but TypeError and ValueError makes reading raise.)", "quantifier": "every class, annotations, default values and key", "why_tests_cant": "all annotations and keys", "anchors": ["oups/store/indexer.py: _dataclass_instance_from_str, _dataclass_fields_types_to_lists, from_path"]}
{"id": "C69", "title": "A crash inside a write of a stream", "statement": "After a final write, the first intermediate write to a dataset may replace its last stored row; every later write to it before the next final write only appends rows that come after all those stored. Hence if the process dies at any point inside such a later write (with max_nirgs: one that coalesces no row group), the dataset opens as before or as after this write, and the crash is recovered by replay like one between two writes. (Not so inside the first one: there is a point where the dataset cannot be opened any more.)", "quantifier": "every stream, frames, interleaving of per-key jobs, write, and point inside its file operations", "why_tests_cant": "all writes of all streams and all crash points in them", "anchors": ["oups/aggstream/aggstream.py: agg_iter, _post_n_write_agg_chunks", "oups/store/writer.py: write"]}
{"id": "C70", "title": "A process that goes on after a stopped final write", "statement": "If a final write is stopped in a process that goes on (KeyboardInterrupt, exception of the file system), the metadata it registered stay in OUPS_METADATA. agg() calls made again in this process up to a completed final write leave the store exactly as in a new process, with nothing pending. (False before that: the first intermediate write of rows to a key records the metadata left, with the restart index of the final write that was stopped; if the process stops then, a new one restarts after rows of which results were never written, and bins are missing from the store.)", "quantifier": "every key class, directory tree, metadata left for keys of the stream, history of agg calls and schedule of jobs", "why_tests_cant": "all states left by stopped writes and all later histories", "anchors": ["oups/aggstream/aggstream.py: _post_n_write_agg_chunks, AggStream.agg", "oups/store/writer.py: OUPS_METADATA, write_metadata"]}
{"id": "C71", "title": "Settings changed between sessions", "statement": "Sessions one after the other on the same store, each one creating an AggStream with its own settings (memory limit, max_row_group_size, max_nirgs, filters, other keys, order of keys) and ending with a final write: for a key with the same bin_by, aggregations and post in all of them, the rows stored are the results on all rows this key received over all sessions, the same as those of one aggregation of these rows at once. (Not checked by the code: another bin_by than in the previous session is accepted, and bins around the change hold rows according to neither bin_by.)", "quantifier": "every number of sessions, settings, history of agg calls in each one, rows", "why_tests_cant": "all sequences of configurations and histories", "anchors": ["oups/aggstream/aggstream.py: AggStream.__init__, _init_buffers, agg_iter, _post_n_write_agg_chunks, AggStream.agg"]}
{"id": "C72", "title": "Any number of sessions and stops", "statement": "Sessions on the same store, in any number, each one with its own settings, ending with a final write or stopped at any point before (each key being anywhere in its frames, possibly between its writes of bins and of snapshots): once rows received in completed sessions go as far as those of stopped ones, the rows stored are the results on all rows of completed sessions, the same as those of one aggregation at once (TimeGrouper or by_x_rows bins, snapshots). After any such history, if every key had rows when sessions were stopped, a new AggStream starts from the last final write, and its calls do not raise if each frame ends in another bin than the rows before it (or has as many rows as a bin) and, with the check of zeros, no result is zero. With max_nirgs, sessions are stopped only once some final write has left a dataset which begins with a complete row group that is not its last one (C50), and that calls do not raise is for a stream without it, or with max_nirgs at least 1 and fewer results to write than max_row_group_size. (Not so when a session receives less than a stopped one: results of rows that are not received are still stored.)", "quantifier": "every number of sessions and stops, settings, history of agg calls in each one, stopping point of each key, replay", "why_tests_cant": "all histories with repeated crashes, each crash happening in the replay of former ones", "anchors": ["oups/aggstream/aggstream.py: AggStream.__init__, _init_buffers, agg_iter, _post_n_write_agg_chunks, AggStream.agg"]}
{"id": "C73", "title": "Handles kept over writes", "statement": "pdf, vdf and min_max of any handle (store[key]), whenever obtained, give the rows of the last write. pf and metadata of a handle are those of the dataset when they were first asked for, whatever is written afterwards; as long as only appends are made since, this pf still reads the rows of then. A handle obtained now has the rows and metadata of the last write, hence write_metadata(pf=store[key].pf) changes no row. A write raises the exception that the dataset and the data cause, the directory then being as it was. (False for a pf kept over an update or a coalescing: its files are gone or have another content. Metadata written with the pf of a kept handle put the dataset back to what it was when pf was first asked for: rows appended since are no longer read by pdf, and the next append overwrites their files; this handle keeps the metadata written.)", "quantifier": "every history of writes, handles and accesses to them", "why_tests_cant": "all interleavings of writes and accesses to any number of handles", "anchors": ["oups/store/router.py: ParquetHandle.pf, pdf, vdf, min_max, metadata", "oups/store/writer.py: write, write_metadata", "oups/aggstream/aggstream.py: _post_n_write_agg_chunks"]}
{"id": "C74", "title": "Names of fields of indexer classes", "statement": "Calling a class decorated by toplevel, of which no field is named fields_sep, depth, to_path, _fields_sep, check or self, gives each field the positional argument of its rank, else the keyword argument of its name, else its default value, and raises if a field has none, if there are too many or unknown arguments, or, unless check is false, if the values are not valid for the separator given to toplevel; attributes then give the values back, and pickling goes by from_str if no field is named so. Arguments that do not give each field a value raise TypeError, checked or not; invalid values raise the exception of the validation; toplevel raises TypeError for a field without default value after one with a default value, IndexError for a class without field, and accepts other classes. ParquetSet accepts decorated classes, and refuses objects without fields_sep or from_path. (With the names listed, not refused by toplevel: a class with a field fields_sep, depth or to_path has no instance; one with _fields_sep has no validated instance; a value given by name to check is not stored, one given by name to self is refused; a field from_str breaks pickling; the default value of a field depth is lost. An instance given as indexer is accepted by ParquetSet, in which nothing can then be written.)", "quantifier": "every class, names of fields, default values, separator and arguments", "why_tests_cant": "all class definitions and calls", "anchors": ["oups/store/indexer.py: toplevel, TopLevel, _reduce, is_toplevel", "oups/store/collection.py: ParquetSet.__init__, ParquetSet.set"]}
{"id": "C75", "title": "Columns of results and their writes", "statement": "Results of each key have the label of bins as first column, named by the second item of bin_on, else by bin_on, else by the stream's ordered_on, then the aggregations in the order given; they are written ordered on ordered_on, duplicates being found on the label column and ordered_on. If ordered_on is the label column, or if it is an aggregation with `first` of the column of positions and no bin is empty, then for every accepted configuration without duplicates_on and post, over any number of sessions with other settings, some of them stopped (with max_nirgs, as in C72), the rows stored are the results of one aggregation of all rows (TimeGrouper or by_x_rows bins; with snapshots if ordered_on is the label). If ordered_on is no column of results, no write ever succeeds. With None as ordered_on of a key, the first write is accepted and the next ones are refused, or, for a callable bin_by without bin_on, put their rows after those stored. (Not refused by the constructor: ordered_on that is None, or no column of results; a callable bin_by without bin_on and an aggregation named ordered_on; max_nirgs without max_row_group_size, with which the second write raises. With ordered_on an aggregation with `last`, as in the tests of the project, a bin that was not complete at the end of a session is stored twice.)", "quantifier": "every configuration accepted by the constructor, every rows, number of sessions and stops", "why_tests_cant": "all combinations of configurations and histories", "anchors": ["oups/aggstream/aggstream.py: _init_keys_config, _concat_agg_res, _post_n_write_agg_chunks", "oups/aggstream/cumsegagg.py: cumsegagg", "oups/store/writer.py: write"]}
{"id": "C76", "title": "The buffer dict of cumsegagg", "statement": "The dict given as buffer may be used by successive calls with other snapshots, other aggregations and the check of zeros on or off. If all calls return, then for each output column requested in all calls from the same input with the same function, the rows of bins put end to end (the last row of a result being replaced by the next one) are the aggregates over the bins of all rows (TimeGrouper, or by_x_rows with rows at different positions if right-closed with snapshots). After such calls, a call with rows, without snapshots or with those of a TimeGrouper or calendar frequency, and without check of zeros, returns if and only if it asks for snapshots only if the first call with rows did, and all its output columns are columns of the last call with rows; otherwise it raises KeyError. Snapshots asked with a dict made without leave the dict as it was; the check of zeros raises once the dict is up to date; a missing column raises with the segmentation advanced and the last results as they were. With the same parameters in all calls the dict gives the results and exceptions of a buffer with a fixed set of entries, also in AggStream over any sessions. (After a call refused for a missing column, the next call with former columns adds up rows of different bins; with snapshots, then without, then with again, snapshots due in between show rows that come later; the function of a column can be changed and the bin in progress mixes both; snapshots cannot be added to a key that has results.)", "quantifier": "every sequence of calls, rows, snapshots and aggregations", "why_tests_cant": "all sequences of calls with changing parameters on one buffer", "anchors": ["oups/aggstream/cumsegagg.py: cumsegagg (lines 396-582)", "oups/aggstream/segmentby.py: setup_mainbuffer, segmentby", "oups/aggstream/aggstream.py: agg_iter"]}
{"id": "C77", "title": "Calls of cumsegagg refused by the segmentation", "statement": "After calls on one buffer dict that returned, one of them with rows, further calls are made and their exceptions are caught: same output columns, snapshots that may differ, no check of zeros, bins from a TimeGrouper or along a calendar (one date per bin, or right-closed). If the rows of the calls that returned are ordered, these calls give what they give when those that raised are not made, and their rows of bins are the aggregates over the bins of their rows: whatever was refused can be submitted again. A call refused with rows that are all in the bin in progress changes no outcome of later calls. Rows that are not ordered are always refused; they leave a dict that has been used as it was, and do not change the first call to come if it agrees on having snapshots. For any bin_by, a dict that has an entry for bins keeps after a refusal all that it holds, but for the dict of bin_by if bin_by was called. (When the very first call is refused in its snapshots and submitted again, rows of the first bin are added to the last one and the first bin is lost; with by_x_rows the rows of a refused call are counted in the bin in progress; a first call without snapshots refused for its order makes calls with snapshots impossible. A refused call whose rows go beyond the bin in progress makes one further call be refused.)", "quantifier": "every sequence of calls and rows, whatever raises", "why_tests_cant": "all sequences of calls with exceptions caught", "anchors": ["oups/aggstream/segmentby.py: setup_mainbuffer, by_scale, segmentby (lines 880-1027)", "oups/aggstream/cumsegagg.py: cumsegagg (lines 396-582)"]}
{"id": "C78", "title": "Writes and deletions of a collection that do not come to their end", "statement": "A process using a ParquetSet may stop, or a call of the operating system may raise, at any point of a write at a key or of the deletion of a key, rmtree removing files and directories in any order. A ParquetSet opened afterwards has the other keys as they were, with the same datasets, and no file outside of the key's directory is changed; the key is there exactly when its directory has a parquet file. Any further operations then act as on a dict in which the key has what is left. A stopped deletion is completed by deleting the key again, if it is still there; if it is not, what is left, for a directory that has only parquet files, is empty directories. When the deletion raises within rmtree, the instance in use still has the key, and deleting it again completes the deletion; when it raises later, the instance has the keys of the store. When a write raises, the instance has the same keys as before, and a later write at the key that succeeds makes the keys of the instance those of the store again. (The key of a first write that raised may be in the store but not in the instance, which does not delete it; a key of which the deletion raised may be in the instance but not in the store; an empty directory left is not removed by deleting the key.)", "quantifier": "every key class, directory tree, history of operations, key, order of removals and point where it stops or raises", "why_tests_cant": "all stopping points of all operations after all histories", "anchors": ["oups/store/collection.py: ParquetSet.set, ParquetSet.__delitem__, ParquetSet.__init__", "oups/store/utils.py: files_at_depth, strip_path_tail"]}
{"id": "C79", "title": "Several ParquetSet on the same files", "statement": "Any number of ParquetSet instances for the same directory and class, opened at any time and used one after the other in any order: the datasets are those of one dict to which all operations are applied in turn; each instance has the keys there were when it was opened, plus those it wrote, minus those it deleted; reading through any of them gives the dataset there is; an instance opened now has the keys there are. If each key is written and deleted through one instance only, all operations do and raise what they do with one instance. Two ParquetSet of other classes or directories, no dataset directory of one being that of the other, in it or around it, and not read as such, are two independent dicts; it is so when neither directory given is in the other. (False for keys handled through several instances: deleting a key written through another instance does nothing, deleting one deleted through another raises FileNotFoundError, each time. False for two classes in the same directory when the path of a key of one starts that of a key of the other: deleting the first removes the dataset of the second.)", "quantifier": "every number of instances, class, directory tree, and sequence of openings, writes and deletes through any of them", "why_tests_cant": "all interleavings of operations of all instances", "anchors": ["oups/store/collection.py: ParquetSet.__init__, set, get, __delitem__", "oups/store/collection.py: get_keys"]}
{"id": "C80", "title": "Operations at different keys may overlap in time", "statement": "Several processes or threads write or delete datasets at different keys, their calls to the operating system being interleaved in any way. Datasets at other keys and files outside of the directories of these keys do not change; a write that ends has written its result and one that raises has written nothing, where there was nothing; a deletion has removed its dataset, even if it raises; all operations end. There is no exception between writes, nor if the keys deleted have first names in their paths that the other keys do not have, and the datasets are then those of the operations made one after the other. Deletions, once finished, leave no empty directory on the way to those deleted. (A deletion may remove a parent directory that a write has just found, and this write then raises FileNotFoundError; two deletions may both find a parent directory empty, and one of them raises.)", "quantifier": "every file system, number of operations, keys and interleaving", "why_tests_cant": "interleavings of system calls cannot be enumerated nor reproduced by tests", "anchors": ["oups/store/collection.py: ParquetSet.set", "oups/store/collection.py: ParquetSet.__delitem__", "oups/aggstream/aggstream.py: AggStream.agg (parallel)"]}
{"id": "C81", "title": "Keys of classes derived from the indexer class", "statement": "A ParquetSet accepts keys of classes derived from its indexer class. If all keys are of one class having the fields and separator of the indexer class (a derived one: in a directory without dataset), it is the collection with keys of the indexer class, and once opened again it has the same keys, of the indexer class. (With keys of two classes, writing raises TypeError once the data is written, and the key is then in the collection and not iterated; keys of two classes with the same values have the same directory, so that deleting one removes the data of the other; after opening again, keys of the derived class are not found, and deleting them does nothing.)", "quantifier": "every directory, history of operations and paths of derived classes", "why_tests_cant": "all histories, and classes users may define", "anchors": ["oups/store/collection.py: ParquetSet.set", "oups/store/collection.py: ParquetSet.__delitem__", "oups/store/indexer.py: toplevel"]}
{"id": "C82", "title": "Date-times that are not in nanoseconds", "statement": "Bins of a TimeGrouper are those of its grid for columns of date-times in nanoseconds. With a column in microseconds, milliseconds or seconds (and pandas 2, of which date_range returns nanoseconds), by_scale compares numbers of ticks with numbers of nanoseconds: for dates such that the last number of ticks is less than the number of nanoseconds of the first row (all dates of the century), one call returns all rows in a single bin, that of the first row; right-closed, so does any succession of calls; left-closed, the third call raises if the second piece begins in another bin than the first row. For dates before 1970 (but the last months of 1969), the bins of the grid are returned without rows: no row is in a bin, and nothing is raised.", "quantifier": "every frequency which does not depend on the first row, frame, resolution and splitting into pieces", "why_tests_cant": "tests use nanoseconds only; the result is silently wrong, for all data", "anchors": ["oups/aggstream/segmentby.py: by_scale, _next_chunk_starts"]}
{"id": "C83", "title": "Assignments, number and listing of the datasets of a ParquetSet", "statement": "ps[key] = df is ps.set(key, df) and ps[key] = (dict, df) is ps.set(key, df, **dict); a tuple that has not two items, a first item that is not a dict, or data which is not a dataframe is refused, and an assignment that raises changes nothing. After any operations len(ps) and `key in ps` are the number of keys and the membership of the dictionary of what was written and not deleted. repr(ps) has one line per key, in the order of keys, from which from_str gives the keys back: collections with the same repr have the same keys. (Not so with a line break in a field, nor with an empty field, which are accepted.)", "quantifier": "every indexer class without empty field, assigned value and succession of operations", "why_tests_cant": "tests assign valid values, and list keys of letters", "anchors": ["oups/store/collection.py: ParquetSet.__setitem__, __len__, __contains__, __repr__"]}
{"id": "C84", "title": "Aggregation functions work in place, on copies", "statement": "jfirst, jlast, jmax, jmin and jsum return, for each column of the array they are given, the aggregate of that column (continued from `initial` if asked). jmax, jmin and jsum overwrite `initial`, or the first row of the array, with what they return, and nothing else; since jcsagg gives them copies of the columns, the data is the same after the call, whatever the functions, the columns shared by several functions and their order, and results are those of C35 to C43. (Called on an array itself they change it; with views, a function would read the data changed by the previous ones.)", "quantifier": "every array, set of functions and columns, chunks and values, any arithmetic", "why_tests_cant": "tests compare results, not the data given; aggregating the same column with several functions after an in-place one is one of many combinations", "anchors": ["oups/aggstream/jcumsegagg.py: jfirst, jlast, jmax, jmin, jsum, jcsagg"]}
{"id": "C85", "title": "vaex DataFrames are written as pandas ones", "statement": "write() of a vaex DataFrame gives the same row groups, in the same files, or the same exception, as write() of the pandas DataFrame with the same rows, so that all that holds of writes holds for both. (This rests on vaex reading the slice [:0] as all the rows: read as Python does, every write of a vaex DataFrame with ordered_on on a recorded dataset would raise IndexError.)", "quantifier": "every table, recorded dataset, parameters and rows", "why_tests_cant": "all datasets, parameters and frames", "anchors": ["oups/store/writer.py: iter_dataframe, write"]}
{"id": "C86", "title": "The columns of a dataset are those of its first frame", "statement": "The first frame written gives a dataset its columns; no later write changes them, whatever the columns of the frames. A frame that has the columns of the dataset, in any order, and others not named in ordered_on and duplicates_on is written as its restriction to the columns of the dataset, the others being dropped silently. A frame lacking a column of the dataset cannot be appended (KeyError, also with max_nirgs when nothing is coalesced), nor written with ordered_on after the recorded rows. With duplicates_on=[] and an additional column, no recorded row is seen as a duplicate of a new one: a row written again with one more column is recorded twice (so it is when duplicates_on names an additional column).", "quantifier": "every dataset, frames with any columns, parameters", "why_tests_cant": "all columns, datasets and parameters", "anchors": ["oups/store/writer.py: write"]}
{"id": "C87", "title": "Indexer classes deriving from each other", "statement": "A class with a base class, decorated by toplevel, has the fields of its base class at their places, then its new ones; a field annotated again takes the new annotation, and as default value that written last in the class or its base classes, decorated or not. It is the same (fields, separator, number of levels) as a class written at once with these fields, so that all that holds of classes without base holds of it. It is refused exactly if it derives from a dataclass that is not frozen, if a field without default value comes after one with, or if there is no field. A derived class that is not decorated has the fields, separator and number of levels of its base class, and what it annotates is no field. (The separator of the base class is not that of a derived class decorated without one. A field added after a level makes a class of which no instance with a level is valid.)", "quantifier": "every chain of classes with one base each, annotations, default values and decorators", "why_tests_cant": "all hierarchies of classes users may define", "anchors": ["oups/store/indexer.py: toplevel, sublevel, TopLevel, _get_depth, _validate_toplevel_instance"]}
{"id": "C88", "title": "How many row groups there are with max_nirgs", "statement": "Writes that append rows, with a given max_row_group_size and max_nirgs (without ordered_on, or with it and values in strict order, after those recorded): if a dataset has no more than b incomplete row groups (90% of max_row_group_size or less) in a row, b being at least max_nirgs and nine, it still has no more than b in a row after any number of such writes. In a dataset made by such writes there are never more than max_nirgs in a row before a complete one, nor more than max_nirgs or nine, the larger, at the end. Hence the number of row groups is at most b + 1 times the number of complete row groups that the rows make, plus b, however many writes there were. (Without max_nirgs there is one row group per write. max_nirgs itself is no bound: one write may leave nine incomplete row groups, its rows being put in equal parts. It is not so if the first row of each frame replaces the last recorded one, as in the first write of each session of an AggStream: with max_nirgs=1, writes of two rows may each leave one more incomplete row group before the last one, and none of them is ever coalesced.)", "quantifier": "every dataset, number of writes, rows, max_row_group_size and max_nirgs", "why_tests_cant": "the bound is over all histories of writes, tests make one or two", "anchors": ["oups/store/writer.py: iter_dataframe (lines 120-127), write (lines 508-532)"]}
{"id": "C89", "title": "A stream fed by the results of another one", "statement": "When the seed of agg is such that its last row group is temporary (it may be changed or extended before the next call), calls with trim_start and discard_last deliver to each key, once and with their final values, the rows of the last version of the seed that pass its filter, except the last row group. In particular, when the seed of a second AggStream is read, after each final write of a first one, from the bins (or the snapshots) that the first one stores (in chunks of any size, from the start or from the restart index), whatever the rounds and their calls, what the second one stores is cumsegagg, at once, on the bins (but the last) that cumsegagg returns, at once, on all rows of the first stream. (False without discard_last: a temporary bin is counted, then the definitive one also.)", "quantifier": "every pair of streams, every number of rounds, calls and chunks", "why_tests_cant": "all histories of two streams", "anchors": ["oups/aggstream/aggstream.py: AggStream.agg, _iter_data, _post_n_write_agg_chunks", "oups/aggstream/cumsegagg.py: cumsegagg"]}
{"id": "C90", "title": "What is read while a stream runs", "statement": "While calls to agg() on a key that was new go on, with or without final writes, in one stream or in streams created one after the other on the store after a final write, with any settings, the dataset of a key can be read at any time between two of its writes (between calls, or within a call, each key being anywhere): all rows read but the last one are definitive. They are rows that cumsegagg returns, at once, on all rows received at the end of the call, and are found unchanged, at the same places, by any later read; there are never less rows in a later read, and the values of the ordering column already read, that of the last row included, are still there. Bins and snapshots, any memory limit, any row group size and max_nirgs. (The last row read may change, even if it is read after a final write. Other rows may change only if a stream is stopped before its final write, and the next one receives less rows. Even so, all results that a final write has stored, but the last one, are found by any later read.)", "quantifier": "every stream, history of calls and pair of reads", "why_tests_cant": "all moments of all histories", "anchors": ["oups/aggstream/aggstream.py: agg_iter, _post_n_write_agg_chunks, AggStream.agg", "oups/store/writer.py: write", "oups/aggstream/cumsegagg.py: cumsegagg"]}
{"id": "C91", "title": "A stream fed by another one while it runs", "statement": "The seed of a stream is the bins (or snapshots) that a key of another stream, new at its start, stores; calls to agg() of the second stream are made, with discard_last=True, at any moments while the first one runs (not only after its final writes), each over what is then read, in row groups of any size, entirely or from the restart index. Then each key of the second stream has received, once, in order, the rows of the last read but the last row, those that pass its filter; they are rows that cumsegagg returns, at once, on all rows of the first stream, last one excluded, with their final values: no temporary bin is ever received. If the last call of the second stream ends with a final write, what is stored is what cumsegagg returns, at once, on these rows. A third stream fed by the second one in the same way only receives final values too. Same if each call of the second stream is in a new process; and if reads are after final writes of streams created one after the other with different settings, in which case all rows but the last one are received.", "quantifier": "every run of the first stream, moments of the calls of the second one, size of row groups, filter, key", "why_tests_cant": "all interleavings of two streams", "anchors": ["oups/aggstream/aggstream.py: _iter_data, agg_iter, _post_n_write_agg_chunks, AggStream.agg", "oups/store/writer.py: write"]}
