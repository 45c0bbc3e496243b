import Verif.Props.KeysConfig
import Verif.Tests.AggStream
/-!
The tests of `/repo/tests/test_aggstream/test_aggstream_init.py`, run on the model.

Columns are numbered: `ts` 1, `ts_dflt` 2, `ts_spec` 3, `bin_on_spec` 4, `bin_out_spec` 5; outputs `agg_out` 10,
`out_dflt` 11, `out_spec` 12. `always_true` is `Val.other 1`, `always_false` is `Val.other 2`. Keys are numbered, and
conditions of filters are numbers.
-/
set_option maxRecDepth 20000
namespace Oups.Tests.AggStreamInit
open Oups.KeysConfig Oups.Segment

/-- Dicts with the same items. -/
def same (a b : Dict) : Bool := a.length == b.length && a.all fun x => b.contains x

/-- What the test compares for a key: filter id, key, `bin_on_out`, `post`, size in memory, `write_config`,
`agg_res_type`, outputs of `agg_pd`. -/
structure Ref where
  filter : String
  key : Nat
  binOnOut : Option Nat
  post : Val
  maxMem : Nat
  write : Dict
  resType : AggStream.ResType
  agg : List Nat

def matchesRef (r : Ref) (c : String × Nat × KeyConf) : Bool :=
  c.1 == r.filter && c.2.1 == r.key && c.2.2.binOnOut == r.binOnOut && c.2.2.post == r.post && c.2.2.maxMem == .size r.maxMem &&
    same c.2.2.write r.write && decide (c.2.2.resType = r.resType) && c.2.2.agg == r.agg

/-- The stream has these filters, and these configurations. -/
def check (a : Args Nat String Nat) (filters : List (String × Option (List (List Nat)))) (refs : List Ref) : Bool :=
  match initStream "_" (fun _ => false) a with
  | .error _ => false
  | .ok (fs, cs) => decide (fs = filters) && cs.length == refs.length && (refs.zip cs).all fun x => matchesRef x.1 x.2

def hour (c : Nat) : Val := .binBy (.grouper (some c) .left)

/-! ### test_aggstream_init (80-441) -/

/-- Test 1. -/
example : check { orderedOn := 1, keys := .single 1, agg := .agg [10], binBy := hour 1, kwargs := [("max_row_group_size", .size 6)] }
    [("_", none)]
    [⟨"_", 1, some 1, .none, 146800640,
      [("ordered_on", .name 1), ("max_row_group_size", .size 6), ("duplicates_on", .name 1)], .bins, [10]⟩] = true := by decide

/-- Test 2. -/
example : check {
      orderedOn := 2, agg := .agg [11], post := .other 1, maxMem := 10,
      kwargs := [("max_row_group_size", .size 1000), ("max_nirgs", .size 4)]
      keys := .plain [
        (1, [("agg", .agg [12]), ("bin_by", hour 2), ("post", .other 2), ("max_in_memory_size", .size 1)]),
        (2, [("agg", .agg [12]), ("bin_by", .binBy .callable), ("post", .none), ("max_row_group_size", .size 3000),
          ("ordered_on", .name 3)]),
        (3, [("bin_by", .binBy .callable), ("bin_on", .pair (.name 4) (.name 5))]),
        (4, [("bin_by", hour 2), ("ordered_on", .name 3)])] }
    [("_", none)]
    [⟨"_", 1, some 2, .other 2, 1048576,
        [("max_row_group_size", .size 1000), ("max_nirgs", .size 4), ("ordered_on", .name 2), ("duplicates_on", .name 2)],
        .bins, [12]⟩,
      ⟨"_", 2, none, .none, 10485760,
        [("max_row_group_size", .size 3000), ("max_nirgs", .size 4), ("ordered_on", .name 3), ("duplicates_on", .name 3)],
        .bins, [12]⟩,
      ⟨"_", 3, some 5, .other 1, 10485760,
        [("max_row_group_size", .size 1000), ("max_nirgs", .size 4), ("ordered_on", .name 2), ("duplicates_on", .name 5)],
        .bins, [11]⟩,
      ⟨"_", 4, some 2, .other 1, 10485760,
        [("max_row_group_size", .size 1000), ("max_nirgs", .size 4), ("ordered_on", .name 3), ("duplicates_on", .name 2)],
        .bins, [11]⟩] = true := by decide

/-- Test 3. -/
def args3 : Args Nat String Nat where
  orderedOn := 2
  agg := .agg [11]
  post := .other 1
  snapBy := .snapBy (.grouper (some 2) .left)
  maxMem := 10
  kwargs := [("max_row_group_size", .size 1000), ("max_nirgs", .size 4)]
  keys := .byFilter [
    ("filter1", [
      (1, [("agg", .agg [12]), ("bin_by", hour 2), ("post", .other 2)]),
      (2, [("agg", .agg [12]), ("bin_by", .binBy .callable), ("post", .none), ("max_row_group_size", .size 3000),
        ("ordered_on", .name 3), ("max_in_memory_size", .size 1)]),
      (3, [("bin_by", .binBy .callable), ("bin_on", .pair (.name 4) (.name 5))])]),
    ("filter2", [(4, [("bin_by", hour 2), ("ordered_on", .name 3)])])]
  filters := some [("filter1", .flat [4]), ("filter2", .nested [[10]])]

example : check args3 [("filter1", some [[4]]), ("filter2", some [[10]])]
    [⟨"filter1", 1, some 2, .other 2, 10485760,
        [("max_row_group_size", .size 1000), ("max_nirgs", .size 4), ("ordered_on", .name 2), ("duplicates_on", .name 2)],
        .snaps, [12]⟩,
      ⟨"filter1", 2, none, .none, 1048576,
        [("max_row_group_size", .size 3000), ("max_nirgs", .size 4), ("ordered_on", .name 3), ("duplicates_on", .name 3)],
        .snaps, [12]⟩,
      ⟨"filter1", 3, some 5, .other 1, 10485760,
        [("max_row_group_size", .size 1000), ("max_nirgs", .size 4), ("ordered_on", .name 2), ("duplicates_on", .name 5)],
        .snaps, [11]⟩,
      ⟨"filter2", 4, some 2, .other 1, 10485760,
        [("max_row_group_size", .size 1000), ("max_nirgs", .size 4), ("ordered_on", .name 3), ("duplicates_on", .name 2)],
        .snaps, [11]⟩] = true := by decide

/-- `snap_by` is in the configuration of each key. -/
example : (match initStream "_" (fun _ => false) args3 with
    | .error _ => false
    | .ok (_, cs) => cs.all fun c => c.2.2.seg.snapGrouper) = true := by decide

/-! ### test_exception_not_key_of_streamagg_results (444-465) -/

open Oups.Tests.AggStream in
example : (match session {} () () (alone hourKey)
      (fun k => if k = 0 then ⟨[⟨0, [(480, some [[1]]), (510, some [[2]])]⟩], none, true⟩ else {}) [] with
    | .error e => decide (e = AggStream.Err.notAggStream)
    | .ok _ => false) = true := by decide

/-! ### test_exceptions_Aggstream_parameters (468-532) -/

def refusal (a : Args Nat String Nat) : Option KeysConfig.Err :=
  match initStream "_" (fun _ => false) { a with orderedOn := 1 } with
  | .error e => some e
  | .ok _ => none

def out : Dict := [("agg", .agg [12])]

/-- 0, 1. -/
example : refusal { orderedOn := 1, keys := .plain [(1, out)] } = some .missingBinBy ∧
    refusal { orderedOn := 1, keys := .plain [(1, out)], kwargs := [("my_invented_parameter", .size 0)] } =
      some (.badKwarg "my_invented_parameter") := by decide

/-- 2, 3. -/
example : refusal { orderedOn := 1, keys := .byFilter [("filter1", [(1, out)])], filters := some [("filter2", .nested [[0]])] } =
      some .filterIds ∧
    refusal { orderedOn := 1, keys := .byFilter [("filter1", [(1, out)])] } = some .noFilters := by decide

/-- 4, 5. -/
example : refusal { orderedOn := 1, keys := .byFilter [("_", [(1, out)])], filters := some [("_", .nested [[0]])] } =
      some .reservedFilter ∧
    refusal {
        orderedOn := 1
        keys := .byFilter [("filter1", [(1, out)]), ("filter2", [(1, out)])]
        filters := some [("filter1", .nested [[0]]), ("filter2", .nested [[2]])] } = some .dupKeys := by decide

end Oups.Tests.AggStreamInit
