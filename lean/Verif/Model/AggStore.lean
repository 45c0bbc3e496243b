import Verif.Model.AggThreads
import Verif.Model.CollectionStore
/-
An aggregation stream on a `ParquetSet`: the steps of `Verif.Model.AggThreads` on the directories of the store and on
`OUPS_METADATA` (`/repo/oups/aggstream/aggstream.py:797-835`, `/repo/oups/store/collection.py:177-249`).

Simplifications
* All datasets of the store have rows of the same type.
* Of the metadata of a dataset, only the `aggstream` item is described.
* `write_metadata` on an existing dataset rewrites `_metadata`: the content of the directory is replaced.
-/
namespace Oups.AggStream
open Oups.Writer (Table Params RG)
open Oups.Collection (Env PS resolve osJoin datasetFiles)
open Oups.Indexer (Str)

section
variable {K A M : Type} [DecidableEq K]

/-- Content of a dataset directory: row groups, and metadata; `none` without dataset. -/
abbrev Files (A M : Type) := Option (List (RG (Row A)) × Option M)

def filesData : Files A M → Dataset (Row A) M
  | none => {}
  | some (rgs, md) => ⟨rgs, md, true⟩

def filesNames (c : Files A M) : List Str := datasetFiles (c.map Prod.fst)

/-- What `write` is given (collection.py 201-203, writer.py 326-339), with the item of the key in `OUPS_METADATA`. -/
structure Put (A M : Type) where
  table : Table (Row A)
  params : Params
  rows : List (Row A)
  pending : Option M

def putFiles (p : Put A M) (c : Files A M) : Option (Files A M) :=
  match storeSet p.table p.params (filesData c) p.rows p.pending with
  | .error _ => none
  | .ok d => some (some (d.rgs, d.md))

/-- `store[key] = DataFrame()` (aggstream.py 835). -/
def emptyFrame (pending : Option M) : Put A M := ⟨⟨[], fun _ _ => 0⟩, {}, [], pending⟩

/-- What a process has: its `ParquetSet`, with the files, and `OUPS_METADATA`. -/
structure Proc (K A M : Type) where
  ps : PS K (Files A M)
  pending : K → Option M

inductive StoreErr where
  | raised (e : Err)
  | store (e : Collection.Err)

/-- `del OUPS_METADATA[key]` (writer.py 313). -/
def Proc.done (pr : Proc K A M) (ps : PS K (Files A M)) (k : K) : Proc K A M :=
  ⟨ps, fun k' => if k' = k then none else pr.pending k'⟩

/-- `store[key] = config, data`. -/
def Proc.put (E : Env K (Files A M) (Put A M)) (pr : Proc K A M) (k : K) (p : Put A M) : Proc K A M × Option StoreErr :=
  match pr.ps.set E (some k) true p with
  | (ps, none) => (pr.done ps k, none)
  | (ps, some e) => ({ pr with ps := ps }, some (.store e))

/-- A step; the state is also given when an exception is raised. -/
def Proc.act (E : Env K (Files A M) (Put A M)) (pr : Proc K A M) (k : K) : Act A M → Proc K A M × Option StoreErr
  | .pend m => ({ pr with pending := fun k' => if k' = k then some m else pr.pending k' }, none)
  | .store T p rows => pr.put E k ⟨T, p, rows, pr.pending k⟩
  | .writeMd =>
    match pr.ps.get E k with
    | some (some (rgs, md)) =>
      (pr.done { pr.ps with
        fs := pr.ps.fs.put (resolve (osJoin pr.ps.basepath (E.toPath k))) (some (rgs, (pr.pending k).or md)) } k, none)
    | _ => pr.put E k (emptyFrame (pr.pending k))
  | .raise e => (pr, some (.raised e))

/-- Steps in a row, up to the first exception. -/
def Proc.run (E : Env K (Files A M) (Put A M)) : List (K × Act A M) → Proc K A M → Proc K A M × Option StoreErr
  | [], pr => (pr, none)
  | (k, a) :: l, pr =>
    match pr.act E k a with
    | (pr, some e) => (pr, some e)
    | (pr, none) => Proc.run E l pr

/-- The datasets, as the stream sees them: `store[key]`. -/
def storeWorld (E : Env K (Files A M) (Put A M)) (ps : PS K (Files A M)) : World K A M :=
  fun k => filesData ((ps.get E k).getD none)

/-- `ParquetSet` over the class `sch`, for aggregation results. -/
noncomputable def aggEnv (A M : Type) (sep : Char) (sch : Indexer.Schema) :
    Env (Collection.Key sep sch) (Files A M) (Put A M) :=
  Collection.classEnv sep sch filesNames none putFiles

end
end Oups.AggStream
