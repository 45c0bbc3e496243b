import Verif.Model.Collection
import Verif.Model.Writer
import Verif.Spec.Indexer
/-
The collections of `/repo/oups/store/collection.py` with the indexing schemas of `Verif.Model.Indexer` and the writer of
`Verif.Model.Writer`.

Simplifications
* Keys are the instances that pass validation, have the declared types and no empty string field (with empty fields,
  paths leave the basepath, see C04). `from_path` of a directory not read as such a key gives nothing.
* The files of a dataset are those of its row groups and `_metadata`.
* The content of a directory without dataset is `none`: files not written by oups are not in the directories of datasets.
-/
namespace Oups.Collection
open Oups.Indexer (Str FVal Schema)

/-- Comparison of two strings, by code points. -/
def cmpStr : Str → Str → Ordering
  | [], [] => .eq
  | [], _ :: _ => .lt
  | _ :: _, [] => .gt
  | a :: as, b :: bs => if a.toNat < b.toNat then .lt else if b.toNat < a.toNat then .gt else cmpStr as bs

/-- Comparison of two ints. -/
def cmpInt (a b : Int) : Ordering := if a < b then .lt else if b < a then .gt else .eq

mutual
/-- Comparison of fields. Values of different types, which Python refuses to compare, cannot be met with the declared
types; they are compared arbitrarily. -/
def cmpVal : FVal → FVal → Ordering
  | .int a, .int b => cmpInt a b
  | .int _, _ => .lt
  | _, .int _ => .gt
  | .str a, .str b => cmpStr a b
  | .str _, _ => .lt
  | _, .str _ => .gt
  | .other a, .other b => cmpStr a b
  | .other _, _ => .lt
  | _, .other _ => .gt
  | .dc a, .dc b => cmpKey a b
/-- Comparison of dataclass instances: tuples of their fields (`order=True`, indexer.py 326 and `sublevel` 243-262). -/
def cmpKey : List FVal → List FVal → Ordering
  | [], [] => .eq
  | [], _ :: _ => .lt
  | _ :: _, [] => .gt
  | a :: as, b :: bs => (cmpVal a b).then (cmpKey as bs)
end

/-- Keys of a class, see the header. -/
structure IsKey (sep : Char) (sch : Schema) (fs : List FVal) : Prop where
  conf : sch.Conf fs
  valid : Indexer.validate sep fs = .ok ()
  noEmpty : Indexer.NoEmpty fs

abbrev Key (sep : Char) (sch : Schema) := { fs : List FVal // IsKey sep sch fs }

/-- Files of a dataset directory (fastparquet naming of parts). -/
def datasetFiles {R : Type} : Option (List (Writer.RG R)) → List Str
  | none => []
  | some rgs => "_metadata".toList ::
      rgs.map fun g => "part.".toList ++ Indexer.natStr g.id ++ ".parquet".toList

open Classical in
/-- `ParquetSet` over the class `sch`: `to_path`, `from_path` (indexer.py 349-358), `depth`, order; directories have contents
of type `C`, written by `writer`. -/
noncomputable def classEnv (sep : Char) (sch : Schema) {C W : Type} (names : C → List Str) (empty : C)
    (writer : W → C → Option C) : Env (Key sep sch) C W where
  toPath k := match Indexer.toPath sep k.1 with
    | .ok p => p
    | .error _ => []
  fromPath s := match Indexer.fromStr sep sch s with
    | some (.dc fs) => if h : IsKey sep sch fs then some ⟨fs, h⟩ else none
    | _ => none
  depth := sch.depth
  lt a b := cmpKey a.1 b.1 == .lt
  names := names
  empty := empty
  writer := writer

/-- With `write` (writer.py 326-615), called by `set` with `(parameters, data)`. -/
noncomputable def storeEnv {R : Type} (sep : Char) (sch : Schema) (T : Writer.Table R) :
    Env (Key sep sch) (Option (List (Writer.RG R))) (Writer.Params × List R) :=
  classEnv sep sch datasetFiles none fun w c => match Writer.write T w.1 (c.getD []) w.2 with
    | .ok rgs => some (some rgs)
    | .error _ => none

end Oups.Collection
