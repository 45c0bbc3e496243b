import Verif.Model.Router
import Verif.Model.Metadata
import Verif.Model.ColumnIndex
import Verif.Props.KeySet
/-!
The tests of `/repo/tests/test_store/` on keys, collections, metadata, column indexes and dataset handles, run on the model.
-/
namespace Oups.Tests.Store
open Oups.Indexer Oups.Collection

def s (x : String) : Str := x.toList

/-- Equality of keys (`==` of dataclass instances). -/
def isKey (k : List FVal) : Option FVal → Bool
  | some (.dc fs) => cmpKey fs k == .eq
  | _ => false

/-! ### test_indexer.py -/

/-! test_toplevel_to_str (39-60) -/
example : toStr '-' false [.int 3, .str (s "oh")] = .ok (s "3-oh") := by decide +kernel
example : toStr '.' false [.int 3, .str (s "oh")] = .ok (s "3.oh") := by decide +kernel

/-! test_toplevel_equality_and_dict (63-79) -/
example : cmpKey [.int 3, .str (s "oh")] [.int 3, .str (s "oh")] = .eq ∧
    cmpKey [.int 3, .str (s "oh")] [.int 4, .str (s "oh")] ≠ .eq := by decide +kernel

/-- `SubLevel2`, `SubLevel1`, `TopLevel` (82-101). -/
def subLevel2 : Schema := .leaf [.str, .int, .int]
def subLevel1 : Schema := .node [.int, .str] subLevel2
def topLevel : Schema := .node [.str, .int] subLevel1

def sl2 : FVal := .dc [.str (s "ou"), .int 3, .int 7]
def tl : List FVal := [.str (s "aha"), .int 2, .dc [.int 5, .str (s "oh"), sl2]]

/-! test_toplevel_nested_dataclass_to_str (104-116) -/
example : validate '-' tl = .ok () ∧ toStr '-' false tl = .ok (s "aha-2-5-oh-ou-3-7") ∧
    isKey tl (fromStr '-' topLevel (s "aha-2-5-oh-ou-3-7")) = true := by decide +kernel

/-! test_toplevel_nested_dataclass_attributes (119-144) -/
example : tl.length = 3 ∧ topLevel.depth = 3 := by decide

/-! test_sublevel_with_single_attribute (147-155) -/
example : toPath '-' [.str (s "ah"), .int 5, .dc [.str (s "oh")]] = .ok (s "ah-5/oh") := by decide +kernel

/-! test_toplevel_nested_dataclass_validation (158-207) -/
example : validate '-' [.str (s "aha"), .int 2, .dc [.int 5, .other (s "{5: ['ah']}"), sl2]] = .error .typeError ∧
    validate '-' [.str (s "aha"), .int 2, .dc [.int 5, .str (s "oh"), sl2, .dc [.str (s "fi"), .int 9, .int 2]]] =
      .error .typeError ∧
    validate '-' [.str (s "aha"), .int 2, .dc [sl2]] = .error .typeError ∧
    validate '-' [.str (s "aha"), .int 2, .dc [.int 4, .str (s "6/2"), sl2]] = .error .valueError ∧
    validate '-' [.str (s "aha"), .int 2, .dc [.int 4, .str (s "6-2"), sl2]] = .error .valueError := by decide +kernel

/-! test_toplevel_nested_dataclass_str_roundtrip_3_levels (210-223) -/
example : toPath '-' tl = .ok (s "aha-2/5-oh/ou-3-7") ∧ isKey tl (fromStr '-' topLevel (s "aha-2/5-oh/ou-3-7")) = true := by
  decide +kernel

/-! test_toplevel_nested_dataclass_str_roundtrip_2_levels (226-258) -/
example : let k : List FVal := [.str (s "aha"), .dc [.int 5, .str (s "oh")]]
    let sch : Schema := .node [.str] (.leaf [.int, .str])
    toPath '-' k = .ok (s "aha/5-oh") ∧ isKey k (fromStr '-' sch (s "aha/5-oh")) = true ∧
    toStr '-' false k = .ok (s "aha-5-oh") ∧ isKey k (fromStr '-' sch (s "aha-5-oh")) = true ∧
    (fromStr '.' sch (s "aha/5-oh")).isNone = true := by decide +kernel

/-! ### test_utils.py -/

/-- `test-data/dummy_store.zip`. -/
def dummyStore : FS (List Str) :=
  [([], []), ([s "store"], []), ([s "store", s "paris.temperature"], []),
   ([s "store", s "paris.temperature", s "bastille.summer"], [s "datasetfile2.parq", s "datasetfile1.parq"]),
   ([s "store", s "paris.temperature", s "bastille.summer", s "forgottendir"], [s "forgottenfile.parq"]),
   ([s "store", s "paris.temperature", s "notredame.summer"], []),
   ([s "store", s "stockholm.pressure"], []), ([s "store", s "stockholm.pressure", s "flemings.spring"], []),
   ([s "store", s "stockholm.pressure", s "flemings.spring", s "innerplace.morning"], [s "_metadata"]),
   ([s "store", s "stockholm.pressure", s "skansen.fall"], [s "datasetfile.parquet"]),
   ([s "store", s "london.temperature"], []),
   ([s "store", s "london.temperature", s "greenwich.summer"], [s "dataset.parquet"]),
   ([s "store", s "london.temperature", s "westminster.winter"], [s "dummyfile.txt"])]

/-! test_files_at_depth (27-71); the test sorts the results -/
example : dummyStore.filesAtDepth id 2 [s "store"] =
    [([s "store", s "paris.temperature", s "bastille.summer"], [s "datasetfile2.parq", s "datasetfile1.parq"]),
     ([s "store", s "stockholm.pressure", s "skansen.fall"], [s "datasetfile.parquet"]),
     ([s "store", s "london.temperature", s "greenwich.summer"], [s "dataset.parquet"]),
     ([s "store", s "london.temperature", s "westminster.winter"], [s "dummyfile.txt"])] := by decide +kernel

example : dummyStore.filesAtDepth id 1 [s "store"] = [] := by decide +kernel

example : dummyStore.filesAtDepth id 3 [s "store"] =
    [([s "store", s "paris.temperature", s "bastille.summer", s "forgottendir"], [s "forgottenfile.parq"]),
     ([s "store", s "stockholm.pressure", s "flemings.spring", s "innerplace.morning"], [s "_metadata"])] := by
  decide +kernel

/-! test_conform_cmidx (74-90) -/
section
open Oups.ColumnIndex
example : conformCmidx ⟨[none, some "oh", none], [[.str "a"], [.obj 0 "1"], [.str "o"]], [[some 0, some 0, some 0]]⟩ =
    (⟨[some "", some "oh", some ""], [[.str "a"], [.str "1"], [.str "o"]], [[some 0, some 0, some 0]]⟩, none) := by decide

/-! ### test_writer.py, column indexes -/

/-- `literal_eval` of the names of these tests. -/
def evalEx (x : String) : Eval :=
  if x = "('lev1-col1','lev2-col1')" then .seq [.str "lev1-col1", .str "lev2-col1"]
  else if x = "('lev1-col2','lev2-col2')" then .seq [.str "lev1-col2", .str "lev2-col2"]
  else .valueError

/-! test_init_idx_expansion_vaex (88-107) -/
example : (toMidx evalEx ["('lev1-col1','lev2-col1')", "('lev1-col2','lev2-col2')"] none).1.toOption =
    some (["l0", "l1"], [[some (.str "lev1-col1"), some (.str "lev2-col1")], [some (.str "lev1-col2"), some (.str "lev2-col2")]]) := by
  decide +kernel

/-! test_init_idx_expansion_sparse_levels (110-124) -/
example : (toMidx evalEx ["('lev1-col1','lev2-col1')", "('lev1-col2','lev2-col2')"] (some ["ah"])).1.toOption =
    some (["ah", "l1"], [[some (.str "lev1-col1"), some (.str "lev2-col1")], [some (.str "lev1-col2"), some (.str "lev2-col2")]]) := by
  decide +kernel

/-! test_exception_check_cmix (756-765) -/
example : checkCmidx ⟨[none, none], [[.str "a"], [.obj 0 "1"]], [[some 0, some 0]]⟩ = .error .valueError := by rfl
end

/-! ### test_collection.py -/

/-- `WeatherEntry`. -/
def weather : Schema := .node [.str, .str] (.leaf [.str, .str])
def entry (a b c d : String) : List FVal := [.str (s a), .str (s b), .dc [.str (s c), .str (s d)]]

/-- Collections of directories given by the names of their files, only scanned. -/
def scanEnv (sep : Char) : Env (List FVal) (List Str) Unit := KeySet.rawEnv sep weather id [] fun _ _ => none

/-! test_parquet_set_init (34-71) -/
example : ((PS.openAt (scanEnv '-') (s "store") dummyStore).keys.map fun k => toStr '-' false k) = [] := by decide +kernel
example : ((PS.openAt (scanEnv '.') (s "store") dummyStore).keys.map fun k => toStr '.' false k) =
    [.ok (s "london.temperature.greenwich.summer"), .ok (s "paris.temperature.bastille.summer"),
      .ok (s "stockholm.pressure.skansen.fall")] := by decide +kernel
example : entry "london" "temperature" "greenwich" "summer" ∈ (PS.openAt (scanEnv '.') (s "store") dummyStore).keys := by
  decide +kernel

/-- Datasets of rows (timestamp, temperature). -/
def tempTable : Writer.Table (List Int) := ⟨[0, 1], fun c r => r.getD c 0⟩

def weatherEnv : Env (List FVal) (Option (List (Writer.RG (List Int)))) (Writer.Params × List (List Int)) :=
  KeySet.rawEnv '-' weather datasetFiles none fun w c =>
    match Writer.write tempTable w.1 (c.getD []) w.2 with
    | .ok rgs => some (some rgs)
    | .error _ => none

def df : List (List Int) := [[8, 84], [10, 53], [12, 49], [14, 23]]
def we1 : List FVal := entry "paris" "temperature" "notredame" "winter"
def we2 : List FVal := entry "paris" "temperature" "notredame" "summer"
def we3 : List FVal := entry "london" "temperature" "greenwich" "winter"

def ps0 : PS (List FVal) (Option (List (Writer.RG (List Int)))) := PS.openAt weatherEnv (s "/tmp/store") [([], none), ([s "tmp"], none)]

/-! test_set_parquet (93-107) -/
example : let ps := (ps0.set weatherEnv (some we1) true ({}, df.take 2)).1
    we1 ∈ ps.keys ∧ (ps.get weatherEnv we1).map (fun c => c.map Writer.readRows) = some (some (df.take 2)) := by decide +kernel

/-! test_set_parquet_with_config (110-127), test_set_and_get_roundtrip_pandas (173-186), test_set_pandas_and_get_vaex
(189-202), test_set_pandas_and_get_parquet_file (205-219) -/
example : let ps := (ps0.set weatherEnv (some we1) true ({ maxRg := some 2 }, df)).1
    we1 ∈ ps.keys ∧ ps.get weatherEnv we1 = some (some [⟨0, df.take 2⟩, ⟨1, df.drop 2⟩]) ∧
    (ps.get weatherEnv we1).map (fun c => c.map Writer.pdfRows) = some (some df) ∧
    (ps.get weatherEnv we1).map (fun c => c.map Writer.vdfRows) = some (some df) := by decide +kernel

/-! test_exception_data_not_a_dataframe (146-153) -/
example : (ps0.set weatherEnv (some we1) false ({}, [])).2 = some .typeError := by decide

/-! test_iterator (156-170) -/
example : ((ps0.run weatherEnv [.set (some we1) true ({}, df), .set (some we3) true ({}, df)]).keys = [we3, we1]) := by
  decide +kernel

/-! test_dataset_removal (245-274) -/
example : let ps := ps0.run weatherEnv [.set (some we1) true ({}, df), .set (some we2) true ({}, df), .set (some we3) true ({}, df)]
    let dir (k : List FVal) : Path := resolve (osJoin (s "/tmp/store") (weatherEnv.toPath k))
    (ps.fs.lookup (dir we3)).isSome = true ∧ ps.keys.length = 3 ∧
    let ps := (ps.del weatherEnv we3).1
    ps.fs.lookup (dir we3) = none ∧ ps.keys.length = 2 ∧ (ps.fs.lookup (dir we2)).isSome = true ∧
    let ps := (ps.del weatherEnv we2).1
    ps.fs.lookup (dir we2) = none ∧ ps.keys.length = 1 ∧ (ps.fs.lookup (dir we1)).isSome = true := by decide +kernel

/-! test_11_rgs_pandas_to_vaex (277-292): files in lexicographic order, `part.10` before `part.2` -/
example : let df : List (List Int) := (List.range 11).map fun i => [Int.ofNat i, 10 + Int.ofNat i]
    ((Writer.write tempTable { maxRg := some 1 } [] df).map fun rgs =>
      (rgs.length, Writer.vdfRows ([0, 1, 10, 2, 3, 4, 5, 6, 7, 8, 9].filterMap fun i => rgs[i]?))) = .ok (11, df) := by
  decide +kernel

/-! ### test_router.py -/

/-! test_min_max (75-89), on two row groups of two rows -/
example : Writer.minMax tempTable 0 [⟨0, df.take 2⟩, ⟨1, df.drop 2⟩] = some (8, 14) ∧
    Writer.minMax tempTable 1 [⟨0, df.take 2⟩, ⟨1, df.drop 2⟩] = some (23, 84) := by decide +kernel

/-! ### test_metadata.py -/
section
open Oups.Metadata

/-- Items 1 to 4 are `md1` to `md4`, values 1 and 2 are `step1` and `step2`. -/
abbrev MdStore := Metadata.Store Nat Nat Nat Nat Unit

def md0 : MdStore := ⟨fun _ => ⟨fun _ => none, none⟩, fun _ => none⟩
def step1 : List (Nat × Option Nat) := [(1, some 1), (2, some 1), (3, some 1)]
def step2 : List (Nat × Option Nat) := [(1, none), (2, some 2), (4, some 2)]

def userMd (x : MdStore) : List (Option Nat) := [1, 2, 3, 4].map (x.files ()).user
def oupsMd (x : MdStore) : Option (List (Option (Option Nat))) := (x.files ()).oups.map fun d => [1, 2, 3, 4].map d

def after (ops : List (Metadata.Op Nat Nat Nat Nat Unit)) : MdStore := runOps (fun _ => true) (fun _ => true) md0 ops

/-! test_custom_metadata (40-58) -/
example : userMd (after [.write () (some step1) true]) = [some 1, some 1, some 1, none] ∧
    userMd (after [.write () (some step1) true, .write () (some step2) true]) = [none, some 2, some 1, some 2] ∧
    oupsMd (after [.write () (some step1) true, .write () (some step2) true]) = none := by decide

/-! test_oups_metadata_wo_custom_metadata (61-81) -/
example : oupsMd (after [.register () step1, .write () none true]) = some [some (some 1), some (some 1), some (some 1), none] ∧
    (after [.register () step1, .write () none true]).pending () = none ∧
    oupsMd (after [.register () step1, .write () none true, .register () step2, .write () none true]) =
      some [none, some (some 2), some (some 1), some (some 2)] ∧
    (after [.register () step1, .write () none true, .register () step2, .write () none true]).pending () = none := by decide

/-! test_oups_metadata_with_custom_metadata (84-115) -/
example : oupsMd (after [.register () step1, .write () (some step1) true]) =
      some [some (some 1), some (some 1), some (some 1), none] ∧
    userMd (after [.register () step1, .write () (some step1) true]) = [some 1, some 1, some 1, none] ∧
    oupsMd (after [.register () step1, .write () (some step1) true, .register () step2, .write () (some step2) true]) =
      some [none, some (some 2), some (some 1), some (some 2)] ∧
    userMd (after [.register () step1, .write () (some step1) true, .register () step2, .write () (some step2) true]) =
      [none, some 2, some 1, some 2] := by decide

/-! test_write_metadata (118-127) -/
example : oupsMd (after [.write () none true, .register () [(1, some 7)], .write () none true]) =
    some [some (some 7), none, none, none] := by decide
end

end Oups.Tests.Store
