# Formal model of oups: design

Target: `/repo` (yohplala/oups, pinned commit), Python.  Model and proofs: Lean 4
(`/verif/lean`), properties: `properties.jsonl`, status: `MANIFEST.json`,
mutation log: `seeded/LOG.jsonl`.

## 1. Layout

| module | content |
|---|---|
| `Verif/Basic/*` | list utilities with no oups content |
| `Verif/Model/*` | transcription of the Python functions, each definition citing file and lines |
| `Verif/Spec/*` | specifications written without the model's helpers |
| `Verif/Proofs/*` | lemmas |
| `Verif/Props/*` | the property theorems named `Cnn_...`, each with an `example` that meets its hypotheses; counter-examples are named `Cnn_..._fails` |
| `Verif/Tests/*` | the tests of the repository run on the model: their data and the results they expect, as `example`s |

Theorem naming: `Cnn_*` proves (a clause of) property Cnn; `_partial` marks a
theorem weaker than the English statement; `_fails` is a proved
counter-example, i.e. a finding about the code.

## 2. Trusted base

* Lean 4.33 kernel. Axioms: `propext`, `Classical.choice`, `Quot.sound` only (section 5, per theorem). No own axiom,
  no `sorry`, no `native_decide`, no `bv_decide`.
* The transcription Python -> Lean is by hand. Each definition of the model cites the lines it follows; the header of
  each file of `Verif/Model` lists its simplifications. The code was read, never run.
* As a check of the transcription, `Verif/Tests` runs the tests of the repository on the model, with the same data and
  the expected results written in these tests: test_writer, test_indexer, test_utils, test_collection, test_router
  (min/max), test_metadata, test_segmentby, test_segmentby_restart, test_jcumsegagg, test_cumsegagg,
  test_cumsegagg_restart, test_aggstream_init, test_aggstream_simple and test_aggstream_advanced. The model agrees on all of them.
* The specifications of `Verif/Spec` and the statements of `Verif/Props`: that they say what `properties.jsonl` says.
* Behaviour of external libraries, written as definitions of the model (or as parameters, then nothing is assumed):

| library | assumed | used in |
|---|---|---|
| Python | `str.split`/`join`, slices with negative bounds, truncation of `zip`, `int(str)` on ASCII digits, arity of dataclass constructors, fields collected by `dataclass` from base classes and its refusals as in the header of `Inherit`, escape sequences of `re`, order and update of `dict`, truth value of `None`, `{}`, `0` | Indexer, Metadata, KeysConfig |
| Python, files | directories are a finite map from paths to contents; no link, no `.`/`..`, no concurrent process but those of `StoreRace`; `mkdir`, `rmtree`, `rmdir`, `iterdir` succeed | Collection |
| `sortedcontainers` | `SortedSet` is an ascending list without repetition for the comparison of keys | Collection |
| `pickle`, `cloudpickle` | `loads(dumps(x)) = x` for the metadata of oups | Metadata, AggStream |
| numpy | `searchsorted`, `unique`, `arange`, `nonzero`, `concatenate`, stable `argsort(kind="mergesort")`, boolean masks; writes in an array of null indices are unchecked | Segment, Writer, Aggregate |
| pandas | `iloc`, `drop_duplicates(keep="last")`, masks; a comparison is any function (`Filter.Ops`); an array compared with a list is compared item by item, with a list of one item to it, with another length it raises (numpy 1.25 and later) | Filter, Writer, SeedIter |
| pandas, time | `_get_timestamp_range_edges` and `date_range` for a fixed frequency (`Tick`), without time zone, with origin `epoch`, `start`, `start_day`, `end`, `end_day` or a timestamp; for other offsets, from the dates they land on, which for months, quarters, weeks and business days are those of the Gregorian calendar; `date_range` returns nanoseconds for any resolution of its bounds (pandas 2) | Segment, Calendar, Resolution |
| pandas, `Series` | `s[i]` looks up the label `i`, masks and slices keep labels | SeriesLabels |
| pandas, `MultiIndex` | `set_levels` refuses repeated values; `from_tuples` fills short tuples and checks the number of names; `literal_eval` is any function, or any one that reads tuples of string literals as written out in TupleText; `repr` of tuples of strings, with any `isprintable` | ColumnIndex, TupleText |
| vaex | opening several files concatenates their rows in the order given; `sort` is stable; slicing is positional, with `start or 0` and `stop or len(df)` for bounds (`[:0]` is all rows), negative bounds counting from the end; `extract` of a frame without filter is the frame; `concat` has the columns of both frames, values being missing where one has not the column | Writer, FrameCols, Router, VaexWrite |
| fastparquet | a dataset is a list of row groups, one file `part.N.parquet` each; new row groups are numbered from `max + 1`; `remove_row_groups`, `_sort_part_names` (two passes of renaming), `_write_common_metadata` as in the header of `WriterDisk`; `_metadata` is written in one step; statistics are the exact min and max; a row group is kept by `filter_row_groups` iff `max >= start` and `min <= end`; an empty frame gives no row group; creating a dataset drops the custom metadata of the former one; `update_custom_metadata` removes items of value `None` and sets others; frames given by an iterator are written through the columns of the schema, looked up by name, without other check | Writer, FrameCols, WriterDisk, Router, Metadata |
| numba | compiled functions compute what the source computes; fancy indexing copies | Aggregate, Segment |
| joblib | jobs run in threads, interleaved in any way; each gives its own result; items of a `dict` are set, read, deleted in one step | AggThreads |

* Values: those of `ordered_on`, `bin_on` and labels are integers (timestamps in the unit of the column; only their order
  and, for time grids, their arithmetic is used), without null. Aggregated values are of any type with any `add`, `lt`,
  `zero`, and no law unless a theorem states one: floating point and wrap-around are included.
* User functions `pre`, `post`, `bin_by` are any functions of what they receive; `post` and `pre` may modify their buffer.

## 3. What is modelled

Functions of `/repo/oups`, and where they are.

| code | model |
|---|---|
| `store/indexer.py` `_dataclass_instance_to_lists`, `_validate_toplevel_instance`, `_dataclass_instance_to_str`, `_dataclass_fields_types_to_lists`, `_dataclass_instance_from_str`, `_get_depth`, `to_path`, `from_path`, `_reduce` | `Model/Indexer`, any `fields_sep` in `Model/IndexerSep`, any annotations and default values in `Model/IndexerClass` |
| `store/indexer.py` `TopLevel`, `toplevel`, `is_toplevel`, `_reduce`, names of fields and keyword arguments | `Model/IndexerAttrs`, classes deriving from each other in `Model/Inherit` |
| `store/collection.py` all; `store/utils.py` `files_at_depth`, `strip_path_tail` | `Model/Collection`, with schemas and writer in `Model/CollectionStore`, `SortedSet` and keys that are not ordered in `Model/KeySet`, keys of derived classes in `Model/SubClass`, several instances on the same files in `Model/CollectionShare`, the single calls to the operating system of `set` and `__delitem__` in `Model/StoreSteps`, interleaved in `Model/StoreRace` |
| `store/utils.py` `conform_cmidx`; `store/writer.py` `to_midx`, `check_cmidx` | `Model/ColumnIndex`, `Model/TupleText` (texts of names) |
| `store/writer.py` `iter_dataframe`, `write` | `Model/Writer` (result), `Model/WriterDisk` (order of file operations), `Model/FloatSize` (`int(max_row_group_size * 0.9)` with doubles), `Model/VaexWrite` (pandas and vaex frames), `Model/FrameCols` (frames with other columns than the dataset) |
| `store/writer.py` `write_metadata`, `OUPS_METADATA` | `Model/Metadata` |
| `store/router.py` `vdf` through names of files, existence of a dataset (`writer.py` 456) | `Model/PartFiles` |
| `store/router.py` `pf`, `pdf`, `vdf`, `min_max`; `metadata` through `Model/Metadata` | `Model/Router`, handles over time in `Model/Handle` |
| `aggstream/utils.py` `dataframe_filter` | `Model/Filter` |
| `aggstream/segmentby.py` `_next_chunk_starts`, `by_scale`, `by_x_rows`, `mergesort`, `setup_segmentby`, `setup_mainbuffer`, `segmentby` | `Model/Segment`, `Model/SeriesLabels`, dates of calendar frequencies in `Model/Calendar` |
| `aggstream/jcumsegagg.py` all; `aggstream/cumsegagg.py` `setup_cumsegagg`, `setup_chunk_res`, `cumsegagg` | `Model/Aggregate`; arrays modified in place by `jcumsegagg.py` in `Model/AggArrays` |
| `aggstream/segmentby.py` `by_scale` with a `TimeGrouper` on date-times that are not in nanoseconds | `Model/Resolution` |
| `store/collection.py` `ParquetSet.__setitem__`, `__len__`, `__contains__`, `__iter__`, `__repr__` | `Model/CollectionItems` |
| `aggstream/segmentby.py` `setup_mainbuffer`, `segmentby`; `aggstream/cumsegagg.py` `cumsegagg`: entries of the `buffer` dict, also after exceptions | `Model/AggBuffer` |
| `aggstream/aggstream.py` `_iter_data` | `Model/SeedIter` |
| `aggstream/aggstream.py` `_init_keys_config`, `AggStream.__init__` (parameters, filters, keys) | `Model/KeysConfig` |
| `aggstream/aggstream.py` `_concat_agg_res` (columns), parameters of writes; `aggstream/cumsegagg.py` names of indexes | `Model/ResultCols` |
| `aggstream/aggstream.py` `_is_aggstream_result`, `_init_buffers`, `_reset_agg_buffers`, `_concat_agg_res`, `_post_n_write_agg_chunks`, `agg_iter`, `AggStream.agg` | `Model/AggStream`; shared state of threads in `Model/AggThreads`, on the files of a `ParquetSet` in `Model/AggStore`, state after exceptions in `Model/AggRaise` |
| `aggstream/aggstream.py` `AggStream._init_agg_cs` and its use in `AggStream.agg` | `Model/AggSetup` |

Not modelled: indexer classes with several base classes, or decorated twice, and attributes other than fields;
`__repr__` of keys; encoding, compression and dtypes of parquet files;
pandas indexes of written frames; columns with a time zone (their type is not `datetime64[ns]`, hence `by_scale` gives numba arrays it refuses); null values in ordering columns;
progress bar; errors of the file system, except where they happen in `set` and `__delitem__` of a collection (C78) and in a write (C23, C69); state after exceptions, except where a theorem speaks of it
(rejected writes, interrupted writes, exceptions in `agg`, refused set-up of aggregations, exceptions of `cumsegagg` and its `buffer`).

## 4. Per property plan

* **C01** Key to path to key round-trip. Model `toLists/validate/toStr/fromStr` over `List Char`, schema tree `FTy`; prove `fromStr (toStr v) = some v` by induction on the levels (join/split inverse lemma, int print/parse inverse). Exception exhibited by `decide`.
* **C02** Key to str to key round-trip (pickling). Same with one flat separator; the levels are recovered from the schema by negative slices.
* **C03** Distinct keys never share a directory. Corollary of C01/C02 plus direct treatment of the exceptional keys.
* **C04** Dataset paths stay inside the store. Induction on levels; counterexamples for empty fields.
* **C05** Key validation is exact. Independent inductive predicate `Valid`; `validate v = ok <-> Valid v`.
* **C06** Scanned directories and keys: exactly which names are read as a key, and exactly which are the
  directory of the key read. Counterexamples to unrestricted agreement.
* **C07** A ParquetSet is a map from keys to datasets. File system = finite map from component paths; ParquetSet state = (fs, key set); refinement to `Key -> Option Dataset`, induction over histories.
* **C08** Reopening a store finds the same keys. Invariant: key set = keys found by the scan; preserved by each operation.
* **C09** Deleting a key removes only that dataset. Model of the upward loop of `__delitem__` and `strip_path_tail` on strings; frame theorem; trailing-slash counterexample.
* **C10** A failed set leaves the key set unchanged. `set` returns the state unchanged in the key component on error, from the order of statements in the code.
* **C11** Keys are iterated in sorted order without duplicates. SortedSet as insertion in sorted duplicate-free list; independence of scan order by uniqueness of sorted lists.
* **C12** Row-group splitting preserves rows and bounds sizes. `iterDataframe` on lists; arithmetic of ceil divisions.
* **C13** Row-group splitting never separates equal index values. searchsorted-left + unique; boundary lemma on sorted lists.
* **C14** Appending preserves everything ever written. `write` model on list of row groups; induction over history. `C14_succeeds_iff` (Props/WriteWhen.lean) is an exact condition for success, over `FullAtEnd` (Spec/WriteWhen.lean).
* **C15** Ordered writes keep the dataset ordered. Invariant: row groups individually sorted, consecutive and value-disjoint; one step preservation; three counterexamples.
* **C16** Ordered writes lose and invent nothing. Permutation theorem on `write`; for any parameters and layout, ordered or not, each row recorded was recorded before or is in the frame.
* **C17** duplicates_on gives last-write-wins. Upsert refinement to finite map for strictly increasing data; clause for the rewritten window in general. On any layout, the last row of each identifier of the frame is recorded and no identifier is lost. The list given by the caller is modified in place: what a second use of it gives is stated.
* **C18** Coalescing changes grouping only. Equality of read-back with and without `max_nirgs`; counterexample for row group 0.
* **C19** pandas and vaex views agree. Invariant: part ids strictly increasing along the list; then slices and `int` on the names of files, and sort commuting with the reading of numbers.
* **C20** min_max is the true extent of the data. min/max of mins/maxs.
* **C21** oups metadata merge semantics. `writeMetadata` on association lists, stated by lookup.
* **C22** Metadata of one key never leaks to another. OUPS_METADATA as a map; frame lemma.
* **C23** Crash-safety of appends. Write as a sequence of atomic file-system steps; every prefix analysed. `C23_no_loss` (Spec/WriterDisk, Proofs/WriterSafe): at each prefix, updates and two-pass renaming included, distinct files hold all row groups of before or all of after; `C23_before_removal`: unchanged view until the first removal.
* **C24** Rejected writes do not touch the dataset. Error branches return before any step on disk. Unknown columns of duplicates_on are seen only when a row group overlaps.
* **C25** Seed filters are a disjunction of conjunctions. `dataframeFilter` with masks; pointwise specification.
* **C26** conform_cmidx makes a frame writable. `conformCmidx`, `checkCmidx` over label types.
* **C27** Chunk starts are the ranks of the edges. `nextChunkStarts` loop; rank specification with `countP`.
* **C28** by_x_rows makes bins of exactly x rows. `byXRows` without buffer.
* **C29** by_x_rows restarts exactly. Invariant linking buffer and processed prefix.
* **C30** TimeGrouper binning restarts exactly. `byScale` with grid contract for TimeGrouper; invariant on restart key.
* **C31** Every row falls in exactly one bin. Slices of monotone starts ending at length concatenate to data.
* **C32** Snapshots precede the bin they observe. Merge specification: sorted, stable, sublists.
* **C33** segmentby rejects inconsistent binning. Checks of `segmentby` modelled; ok implies the conditions, and `C33_raises` gives the exact reason of each exception.
* **C34** Segmentation set-up is consistent. Decision function versus relational specification.
* **C35** Aggregation functions compute what they are named after. Folds versus specification on non-empty lists (linear order for min/max).
* **C36** Aggregations continue exactly over any split. Left-fold homomorphism with no law on add/lt.
* **C37** Bin results are the per-bin aggregates. `jcsagg` loop invariant, no snapshots.
* **C38** Snapshot results are cumulative within the bin. `jcsagg` loop invariant with snapshots.
* **C39** Snapshots never change bin results. Corollary on projections of C37/C38; counterexample.
* **C40** Null buffers never overflow. Counting empty chunks versus recorded nulls.
* **C41** Every output column aggregates its own input. `setupCumsegagg` column indices; lookup specification.
* **C42** Streamed aggregation equals one-shot aggregation. C29/C30 + C36 + C37.
* **C43** Streamed snapshots equal one-shot snapshots. C30 for both sequences + merge + C38.
* **C44** Zero results are refused. Check as a filter on the results.
* **C45** Seed rows are delivered exactly once. `iterData` as state machine with remainder; induction over chunks.
* **C46** discard_last + trim_start restarts lose and repeat nothing. Composition of C45 over restarts.
* **C47** Each filter sees exactly its rows. C45 with filter; filter distributes over concatenation.
* **C48** Stored results do not depend on chunking, memory limit or writes. State machine of `agg_iter` + upsert theorem + C42.
* **C49** Restart from disk equals an uninterrupted run. State stored in metadata equals live state after final write.
* **C50** A crash between writes is recovered by replay. Upsert idempotence under replay. With `max_nirgs`, a complete first row group
  that is not the last one is never rewritten (`Proofs/WriterHead`), so that the case where index 0 is taken for no index does not occur.
* **C51** A failing seed check keeps the valid prefix. Result of the run with exception equals the run on the prefix.
* **C52** Keys aggregated in parallel do not interfere. Commuting steps on a product of per-key states; permutation-invariance of schedules.
* **C53** Restart index is recorded by every final write. From `_post_n_write_agg_chunks`; counterexample for 0.
* **C54** Key configuration precedence. `initKeysConfig` on association lists.
* **C55** Diverging restart points are refused. `initBuffers` fold over keys.
* **C56** Series snapshots restart safely. Series branch of `by_scale`; `C56_series_kept` and `C56_series_removed` say what label-based access changes.
* **C57** Multi-index column names are restored. `toMidx` with any literal parser of tuples; then with `repr` of tuples of strings and the reader of string literals written out, character by character (induction over strings, then over items).
* **C58** Filters and keys are paired. `initStream`, both directions.
* **C59** The only exceptions of a stream on ordered seeds. `aggs`, both directions, and conditions for none. `max_nirgs` is allowed when all results fit in one row group (`Roomy`, Spec/AggTotal.lean).
* **C60** A stream on a ParquetSet stores what a new process reads. `Proc.run` of `Model/AggStore` simulates `aggs` for every schedule; stops give the states of C50.
* **C61** The memory limit bounds the results held. `Held` (Spec/AggMemory) lists the frames of a key; all but the last are `Within` the limit, an invariant of `keyStep`.
* **C62** Which fields separators are usable. The regular expression `/|\{fields_sep}` (Model/IndexerSep) with the escape sequences of `re` and the positions where `re.split` cuts on empty matches; strings as separators for validation and paths; equal to Model/Indexer for one plain character.
* **C63** Aggregations are set up once, from the first frame. Model/AggSetup: `agg` with `agg_cs`, refinement to `Model/AggStream` with the configurations obtained from the first frame; a partially filled `agg_cs` makes a key that always raises.
* **C64** Keys of the declared types are always ordered. Model/KeySet: `<` of instances as a function that may raise, `SortedSet` as a set and a list searched by bisection (sortedcontainers, less than 2000 items), collections over it; refinement to Model/Collection for keys of the declared types, and what happens to an `int` among strings.
* **C65** What `post` returns is what is recorded. Invariant of the datasets over any history of calls for what the functions can return, and the outcome of one final write for each kind of value returned.
* **C66** Exceptions in agg() are recovered from the store. `Model/AggRaise`: the functions of the stream with their state when they raise, in place. Keys at any point of their frames (`Spec/AggRaise`) satisfy the invariant of C50; induction over keys for the final write made again.
* **C67** Calendar frequencies (weeks, months, quarters, business days). `Model/Segment` (`byCalendar`): edges from the dates of any offset. `Spec/Calendar`: bins between every n-th date from the first. `Proofs/SpanGrid`: bins along any increasing sequence of edges; the law of restart of C30 then gives all theorems on aggregation and streams. `Props/CalendarLife`: C72 for bins and snapshots of any frequencies (`Freq`).
* **C68** Keys of any field types and default values. Model/IndexerClass: annotations as functions that may raise, `__init__` with default values; equal to Model/Indexer for `int` and `str`; the round trip from the tokens of C01, for annotations that give back each value from its text.
* **C69** Crash inside a write of a stream. Invariant on the number of stored rows (Proofs/AggAppend), on top of that of C48: since a final write, a dataset is as it was, or has definitive rows only; steps of a call projected on a key (`loop_act`); file operations of appends (C23).
* **C70** A process that goes on after a stopped final write. Steps on a key from two states with the same rows, whatever the metadata and the item left: same exceptions, same rows; equal
  as soon as an item is registered and used (sameRows_run), which a final write does for each key. The loop of `agg` registers nothing, so its first write uses the item left.
* **C71** Settings changed between sessions. At rest, the invariant of C48 does not depend on settings (`KInv.resettle`: stored rows are exactly the results, so `max_nirgs` is harmless again);
  the buffer of the next session is the one recorded; induction on sessions.
* **C72** Any number of sessions and stops. `Life` (Spec/AggLife.lean) is the history of one key: its rows are those of completed sessions, its front is
  how far any session went. At rest the invariant of C48 does not depend on settings (`KInv.resettle`). With `sure` it also holds with the front
  for the rows to come, for all settings for which the first row group is complete (`KLoose`; always without `max_nirgs`); this is kept by
  sessions (`keyRun_loose`) and by stops (`keyCrash_inv`, `keyCrash_loose`), so it holds for all histories by induction (`Life.inv`). That the next calls end is
  `keyRun_adds` of C59 started after the rows already aggregated.
* **C73** Handles kept over writes. `Dir` (Model/Handle) is the directory of C19 and C23 with key-value metadata; handles cache a `Pf`. Invariant: the directory is that of the
  dataset as a value (`dataset`, Spec/Handle), which handles do not change; row groups of a cached `Pf` stay a prefix of those of the dataset while writes are appends.
* **C74** Names of fields of indexer classes. Attribute access as in Python (property, then instance, then class); `Given` (Spec/IndexerAttrs) is the binding of
  arguments by position, name and default, independent of the recursion `bindFields`. The separator used for validation is read on the instance, so that `validateS` of C62
  (and `validate` of C05 for one character) applies exactly when no field shadows it. Props/AttrErrors tells which exception each refusal raises.
* **C75** Columns of results and their writes. `Made` says that a key of the stream is what the constructor makes from an accepted configuration (C54); its laws (order of writes, columns of duplicates, no `post`) are then proved instead of assumed, and C72 applies. `label` (Spec/ResultCols) is the documented rule for the name of labels. For results in the order of a `first` value, `ByFirst` and `FirstOk` (Proofs/ResultFirst): labels and first rows of bins do not change as rows are added. Null values of the ordering column (empty bins) are excluded.
* **C76** The dict given as `buffer` to `cumsegagg`. Refinement of the typed buffer; column-wise projection; invariant over histories of calls with changing parameters, from which the calls accepted are characterised.
* **C77** Calls refused by the segmentation. What is left in the dict, by cases of where `segmentby` raises; the restart key of `by_scale` matters only by its cell, so a refused call is either without effect or makes one more call be refused; induction over calls with caught exceptions.
* **C78** Operations of a collection stopped or raising. Removals change files below the key's directory only, and remove empty directories only; this is an invariant over any prefix of calls, and with it well-formedness and canonicity of the tree, from which `getKeys` is characterised as in C03.
* **C79** Several collections on the same files. Refinement to one dictionary and, per instance, the set of keys it knows of (`View`), for any interleaving; ownership of keys is an invariant making owners aware of their keys. Two collections: the invariant of C07 of one is kept by operations of the other, as lookups at its dataset directories do not change.
* **C80** Operations at different keys that overlap in time. A transition system: each operation is at a program point, a step is one call to the operating system by one of them. Invariant per operation (`Ok`: where it is, what is in its directory), kept by the steps of the others since they change only their directory and whether there are directories leading to it (`Effect`). No exception: what an operation relies on is there (`Sound`). Ends: a measure that decreases. No empty directory left: each empty directory is about to be looked at by one of the deletions (`Watched`).
* **C81** Keys of classes derived from the indexer class. Keys are pairs of a class and values, in the model of C64; the collection with keys of one class is the image of the one without classes, step by step. Exceptions of comparisons between two classes give the negative findings.
* **C82** Date-times that are not in nanoseconds. `by_scale` with a `TimeGrouper`, ticks of the column and nanoseconds of edges being told apart.
* **C83** Assignments, number and listing of the datasets of a `ParquetSet`. What is assigned is a dataframe, a tuple of values, or anything else; values are dataframes, dicts of parameters, or anything else.
* **C84** Aggregation functions work in place, on copies. `Model/AggArrays`: two-dimensional arrays, the functions writing into `initial` or the first row; equal, column by column, to `Model/Aggregate`.
* **C85** vaex frames are written as pandas ones. `Model/VaexWrite`: the branches of `iter_dataframe` and `write` for each kind of frame, with vaex slices; equal to `Model/Writer`.
* **C86** Columns of a dataset are those of its first frame. `Model/FrameCols`: rows of the concatenation as values by column, some missing, written through `Model/Writer`; `write` commutes with replacing rows by others with the same values in the columns compared (`Proofs/WriterMap`), hence with the restriction to the columns of the dataset.
* **C87** Indexer classes deriving from each other. `Model/Inherit`: class statements one after the other, each deriving from the previous one, fields collected as `dataclass` does (all base classes, then the class, in a dict). Invariant over the chain: fields, visible default values, separator, kinds of dataclasses.
* **C88** Number of row groups with `max_nirgs`. No new model: histories of `write` (C17) that append. The rows given to one write are put in equal pieces, so that they are all complete, or there are at most nine of them (a size of 90% or less of `max_row_group_size` is only possible with nine pieces or fewer). Invariant over the history: incomplete row groups in a row, before and at the end.
* **C89** A stream fed by the results of another one. No new model: `agg` (C48) on the rows read from a dataset (`readRows`), which is what `ParquetHandle` gives chunk by chunk. `GoesOn` says which changes of the seed are allowed between two calls, `Revised` and `Chain` which histories; rows delivered are those of the last version of the seed before the restart index (invariant), the restart index not being after the last row of any version. Bins of `cumsegagg` but the last do not change as rows are added (`Lawful.dropLast_prefix`).
* **C90** What is read while a stream runs. No new model: rows of the datasets between the operations on a key (`agg_iter` on a frame, final write), or in a call (`Crash`, of C50: keys anywhere, bins possibly written and snapshots not). Each operation writes a dataset at most once, so that each state of a dataset is one of those. Invariant, beside the one of C48: no more than one row is stored beyond those that are neither held nor the last result (`Snug`). Streams created one after the other start from the state of C71 (`Settled`).
* **C91** A stream fed by another one while it runs. No new model: reads of C90, calls of C89 (`Fed`: trim_start and discard_last, over all rows read or without rows before the restart index). A read being later than the one before (`Later`) is what C89 requires of a seed (`Revised`).

## 5. Axioms

Result of `#print axioms` for the theorems of `Verif/Props` named `Cnn_...`.

* no axiom (5): `C35_first`, `C56_series_restart_key_fails`, `C74_default_lost_fails`, `C74_instance_refused_fails`, `C87_separator_fails`.
* `propext` (49): `C09_unknown`, `C10_failed_set`, `C21_falsy_fails`, `C21_first_none_fails`, `C21_user`, `C22_no_key`, `C22_shared_dict_fails`, `C25_flat`, `C25_list_fails`, `C26_collision_fails`, `C30_end_day_left_fails`, `C30_end_fails`, `C30_start_day_fails`, `C30_start_fails`, `C32_sizes`, `C35_last`, `C35_nan_fails`, `C35_spec`, `C35_sum`, `C40_inconsistent_ends_fails`, `C45_empty_chunk_fails`, `C45_unordered_fails`, `C46_no_discard_fails`, `C47_list_fails`, `C50_again`, `C54_agg_missing_fails`, `C54_missing_bin_by`, `C54_reuse_fails`, `C54_series_snaps_fails`, `C54_store_params_fails`, `C54_stream_bin_by_fails`, `C55_not_aggstream`, `C56_rejected`, `C56_series_same_list_fails`, `C58_ignored_fails`, `C58_reserved_none_fails`, `C62_literal`, `C64_ordered`, `C67_month_end_fails`, `C74_instance_fails`, `C74_is_toplevel`, `C74_refused`, `C75_shadow_fails`, `C79_bases`, `C82_microseconds_fails`, `C83_setitem`, `C84_direct_fails`, `C84_views_fails`, `C87_bare`.
* `propext`, `Quot.sound` (147): `C01_empty_first_field_fails`, `C01_type_not_enforced_fails`, `C04_empty_field_escapes_fails`, `C04_empty_key_is_basepath_fails`, `C06_leading_zero_fails`, `C06_surplus_fields_fails`, `C12_split_empty`, `C14_append_succeeds`, `C14_coalesce_complete_fails`, `C14_max_nirgs_alone_fails`, `C15_before_all_fails`, `C15_first_row_group_fails`, `C15_gap_fails`, `C15_ties_fails`, `C15_ties_history_fails`, `C17_append_keeps_duplicates_fails`, `C17_creation_keeps_duplicates_fails`, `C17_duplicates_all`, `C17_duplicates_many`, `C17_duplicates_one`, `C17_list_reused`, `C17_shared_list_fails`, `C18_first_row_group_fails`, `C18_round53`, `C18_size_float`, `C21_first`, `C21_merge`, `C22_caller_dict`, `C22_consumed`, `C22_isolation`, `C23_before_removal`, `C23_coalescing_crash_fails`, `C23_creation_crash_fails`, `C23_update_crash_fails`, `C24_duplicates_alone`, `C24_empty_ordered`, `C24_rejected_untouched`, `C24_split_duplicates`, `C24_split_pandas`, `C24_tuple`, `C24_unknown_column`, `C24_unknown_duplicates_fails`, `C24_zero_size`, `C26_refused`, `C33_accepts_iff`, `C33_labels_continue`, `C33_snapshots`, `C34_setup`, `C34_snapshots_without_column_fails`, `C35_max`, `C35_min`, `C35_nan`, `C35_nat`, `C36_continue`, `C36_split`, `C37_repeated_labels_fails`, `C39_ties_fails`, `C42_same`, `C47_total`, `C48_empty_write_fails`, `C48_max_nirgs_fails`, `C48_ordered_on_fails`, `C48_post_frame_fails`, `C48_tied_labels_fails`, `C50_between_keys_fails`, `C50_first_run_fails`, `C50_max_nirgs_fails`, `C50_metadata_only_fails`, `C50_within_pair_fails`, `C51_no_final_write`, `C51_only`, `C51_pre_buffer_fails`, `C51_prefix`, `C51_same`, `C52_shared_dataset_fails`, `C53_zero_fails`, `C55_accepted`, `C55_added_key_fails`, `C55_diverging`, `C56_fixed_points`, `C56_series_nulls_fails`, `C56_series_refused`, `C59_iter`, `C59_max_nirgs_fails`, `C60_steps`, `C61_limit_fails`, `C61_step`, `C62_class_fails`, `C62_empty_sep`, `C62_long_sep_fails`, `C62_one_character`, `C63_empty_generator_fails`, `C63_retry`, `C63_stream`, `C64_mixed_fails`, `C64_not_listed`, `C65_main_needed`, `C65_pair`, `C65_pair_dropped`, `C65_refused`, `C65_single`, `C65_snapshots_lost_fails`, `C66_empty_chunk`, `C66_go_on_fails`, `C66_held_twice_fails`, `C66_index`, `C66_other_key_fails`, `C66_post_refused_fails`, `C66_post_twice_fails`, `C66_same`, `C66_seed`, `C67_more_dates`, `C68_postponed`, `C70_recorded`, `C71_bin_by_fails`, `C72_shorter_fails`, `C73_lost_fails`, `C73_metadata_fails`, `C73_rewritten_fails`, `C74_decorate`, `C74_from_str_fails`, `C74_separator_error_fails`, `C75_last_fails`, `C75_nirgs_fails`, `C75_unnamed`, `C76_add_snaps`, `C76_check`, `C76_check_fails`, `C76_function_fails`, `C76_missing_fails`, `C76_sessions_add_snaps_fails`, `C76_snaps_again_fails`, `C77_first_fails`, `C77_order`, `C77_order_fails`, `C77_order_first`, `C77_rows_fails`, `C79_first_names`, `C81_same_directory_fails`, `C81_two_classes_fails`, `C82_nanoseconds`, `C83_setitem_refused`, `C85_python_slice_fails`, `C86_all_columns_fails`, `C86_new_key_fails`, `C88_nine_fails`, `C89_discard_fails`.
* `propext`, `Classical.choice`, `Quot.sound` (380): `C01_path_roundtrip`, `C01_path_roundtrip_exception`, `C02_str_roundtrip`, `C02_str_roundtrip_exception`, `C03_distinct_keys_distinct_paths`, `C04_path_contained`, `C05_validation_exact`, `C06_exact`, `C06_named`, `C06_read`, `C06_written`, `C07_dictionary`, `C07_errors`, `C07_other_keys`, `C07_store`, `C08_reopen`, `C08_store`, `C09_del_known`, `C09_survivors`, `C09_trailing_slash_fails`, `C11_ascending`, `C11_scan_order`, `C11_store`, `C12_split`, `C13_sharp_split`, `C14_append`, `C14_succeeds_iff`, `C15_ordered`, `C15_ordered_step`, `C16_merge_history`, `C16_merge_step`, `C16_no_invention`, `C16_perm`, `C16_perm_history`, `C17_dictionary`, `C17_distinct`, `C17_identifier_kept`, `C17_last_write_wins`, `C17_newest_recorded`, `C17_succeeds`, `C17_succeeds_iff`, `C17_upsert_step`, `C17_window`, `C18_grouping_only`, `C18_grouping_only_append`, `C19_name_number`, `C19_names`, `C19_other_file_fails`, `C19_part_numbers`, `C19_views_agree`, `C20_min_max`, `C20_row_groups_nonempty`, `C23_append_crash`, `C23_append_retry`, `C23_no_loss`, `C23_vdf_leftover_fails`, `C24_unknown_duplicates`, `C25_accepts`, `C25_errors`, `C25_rows`, `C26_fails_iff`, `C26_idempotent`, `C26_only_needed`, `C26_succeeds`, `C26_writable`, `C27_ranks`, `C28_exact`, `C28_unique`, `C29_restart`, `C29_restart_eq_oneshot`, `C30_end_day`, `C30_end_once`, `C30_restart`, `C30_restart_eq_oneshot`, `C31_grouper`, `C31_oneshot`, `C31_rows`, `C32_merge`, `C32_merge_unknown_last`, `C33_raises`, `C33_raises_periods`, `C37_bins`, `C37_continue`, `C38_points_grouper`, `C38_points_rows`, `C38_snapshots`, `C39_grouper_separated`, `C39_same_bins`, `C40_bounds`, `C40_grouper`, `C40_rows`, `C41_accepts_iff`, `C41_columns`, `C42_grouper`, `C42_rows`, `C43_grouper`, `C43_rows`, `C44_check`, `C44_stream`, `C45_once`, `C46_complete`, `C46_growing`, `C46_invariant`, `C47_dataframe_filter`, `C47_delivered`, `C47_nonempty`, `C48_received`, `C48_received_growing`, `C48_rows_bins`, `C48_rows_snaps`, `C48_same_rows`, `C48_stored`, `C48_time_bins`, `C48_time_snaps`, `C49_same_state`, `C49_sessions`, `C50_replayed`, `C50_restart`, `C50_rows_bins`, `C50_rows_snaps`, `C50_time_bins`, `C50_time_snaps`, `C52_alone`, `C52_any_order`, `C52_threads`, `C53_index`, `C53_recorded`, `C54_accepted`, `C54_consolidated`, `C54_kwargs`, `C54_raises`, `C54_stream`, `C54_unknown`, `C56_calls`, `C56_raises`, `C56_series_emptied`, `C56_series_kept`, `C56_series_nulls`, `C56_series_removed`, `C57_levels_mutated_fails`, `C57_only_plain`, `C57_plain_name_error_fails`, `C57_plain_name_split_fails`, `C57_plain_names`, `C57_raises`, `C57_repr_read`, `C57_round_trip`, `C57_text_round_trip`, `C57_tuples`, `C58_accepted`, `C58_filters`, `C58_no_filter`, `C58_raises`, `C59_only`, `C59_raises`, `C59_rows_bins`, `C59_rows_snaps`, `C59_time_bins`, `C59_time_snaps`, `C59_total`, `C60_exception`, `C60_other_keys`, `C60_recovered`, `C60_stale_fails`, `C60_stopped`, `C60_store`, `C60_time_bins`, `C61_held`, `C62_misread_fails`, `C62_not_read`, `C62_refused`, `C62_roundtrip`, `C63_accepts`, `C63_poisoned_fails`, `C63_pre_columns_fails`, `C64_same`, `C65_only_returned`, `C66_final_again`, `C66_left`, `C66_replayed`, `C66_restart`, `C66_time_bins`, `C67_dates`, `C67_fixed_snapshots`, `C67_more_offsets`, `C67_offsets`, `C67_oneshot`, `C67_replayed`, `C67_restart`, `C67_restart_eq_oneshot`, `C67_resumes`, `C67_resumes_rows`, `C67_resumes_snapshots`, `C67_sessions`, `C67_sessions_rows`, `C67_sessions_snapshots`, `C67_several_fails`, `C67_snapshots`, `C67_stored`, `C67_stored_snapshots`, `C67_stream`, `C67_unique`, `C68_default_fails`, `C68_distinct`, `C68_float_fails`, `C68_postponed_fails`, `C68_raises_fails`, `C68_roundtrip`, `C68_same`, `C68_shorter`, `C69_appends`, `C69_first_fails`, `C69_within`, `C70_completed`, `C70_lost_fails`, `C71_rows_bins`, `C71_rows_snaps`, `C71_settings`, `C71_time_bins`, `C71_time_snaps`, `C72_ends`, `C72_reopens`, `C72_rows_bins`, `C72_rows_resumes`, `C72_rows_snaps`, `C72_rows_snaps_resume`, `C72_stopped`, `C72_stopped_after`, `C72_stored`, `C72_time_bins`, `C72_time_resumes`, `C72_time_snaps`, `C72_time_snaps_resume`, `C73_kept`, `C73_kept_mark`, `C73_kept_rows`, `C73_new`, `C73_own_mark`, `C73_rows`, `C73_write`, `C74_arguments`, `C74_attributes`, `C74_call`, `C74_check_fails`, `C74_invalid`, `C74_read_only_error_fails`, `C74_read_only_fails`, `C74_self_fails`, `C74_separator_fails`, `C75_columns`, `C75_first`, `C75_label_new`, `C75_label_time`, `C75_made`, `C75_makes`, `C75_refused`, `C75_renamed_fails`, `C75_rows_bins`, `C75_rows_first`, `C75_rows_snaps`, `C75_time_bins`, `C75_time_first`, `C75_time_snaps`, `C75_unordered`, `C76_missing`, `C76_rows`, `C76_rows_accepts`, `C76_same`, `C76_time`, `C76_time_accepts`, `C76_time_sessions`, `C76_time_snap_sessions`, `C77_calendar`, `C77_left`, `C77_same_bin`, `C77_time`, `C78_del_again`, `C78_del_left`, `C78_del_raised`, `C78_empty_left_fails`, `C78_ghost_fails`, `C78_goes_on`, `C78_reopen`, `C78_set_raised`, `C78_unseen_fails`, `C78_whole_del`, `C78_whole_set`, `C79_apart`, `C79_inside_fails`, `C79_others`, `C79_owned`, `C79_read`, `C79_reopen`, `C79_shared`, `C79_stale_fails`, `C79_unseen_fails`, `C80_delete`, `C80_deletes_race_fails`, `C80_ends`, `C80_listdir_race_fails`, `C80_no_empty_left`, `C80_no_raise`, `C80_outcome`, `C80_prune_race_fails`, `C80_untouched`, `C80_write`, `C80_writes`, `C81_alone`, `C81_forgotten_fails`, `C81_reopened`, `C82_before_1970`, `C82_one_bin`, `C82_stream_right`, `C82_third_call_refused`, `C83_failed_setitem`, `C83_len`, `C83_repr_fails`, `C83_repr_lines`, `C83_repr_same`, `C84_arguments`, `C84_columns`, `C84_data_unchanged`, `C84_setup`, `C85_same`, `C85_write`, `C86_all_columns`, `C86_columns`, `C86_first`, `C86_missing`, `C86_missing_after`, `C86_missing_max_nirgs`, `C86_others_dropped`, `C87_accepted`, `C87_chain`, `C87_class`, `C87_depth`, `C87_fields`, `C87_flat`, `C87_level_fails`, `C88_before_complete`, `C88_files`, `C88_in_a_row`, `C88_new`, `C88_replaced_fails`, `C88_without_fails`, `C89_chain`, `C89_chain_snaps`, `C89_received`, `C89_rows_received`, `C89_sessions`, `C89_snaps_received`, `C89_time_received`, `C89_time_stored`, `C90_calls`, `C90_during`, `C90_last_fails`, `C90_life`, `C90_polls`, `C90_rows`, `C90_session_during`, `C90_sessions`, `C90_snaps`, `C90_stop_fails`, `C90_time`, `C90_time_life`, `C90_time_sessions`, `C91_fed`, `C91_polled`, `C91_polled_snaps`, `C91_rows`, `C91_rows_settings`, `C91_sessions`, `C91_settings`, `C91_settings_snaps`, `C91_snaps`, `C91_snaps_settings`, `C91_three`, `C91_time`, `C91_time_settings`, `C91_time_stored`.

## 6. Wrong programs (`seeded/LOG.jsonl`)

Each line is one edit of a definition of the model, made in a copy, after which the whole project was built again.
`definition`, `edit`: what was changed. `claim`: the property the edit breaks. `failed`: the declarations that no longer
compile, without those that fail because of them. `property_theorems_no_longer_proved`: theorems `Cnn_...` that depend
on these. `tightened`: theorems added or strengthened after an edit that no theorem noticed. Edits that leave the
behaviour unchanged are marked as such.
