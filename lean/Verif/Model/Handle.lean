import Verif.Model.Router
/-
Model of `/repo/oups/store/router.py` (`ParquetHandle`) over time: `pf` is read once per handle and kept
(`cached_property`, 59-64), and `metadata`, `_oups_metadata` (103-118) are those of `pf`; `pdf`, `vdf` and `min_max` read
the directory at each use. With `write_metadata` (`/repo/oups/store/writer.py` 251-323) for the `ParquetFile` given, as
called with `store[key].pf` in `/repo/oups/aggstream/aggstream.py` 834.

Simplifications
* The directory of one dataset; handles are numbered in the order of the calls to `ParquetSet.get` (collection.py 236-249).
* `key_value_metadata` is of any type `M`; writing metadata applies a function to it (see C21), starting from `kv0` for
  a dataset that is created.
* No write is interrupted: a dataset without `_metadata` does not exist.
* `ParquetFile` keeps, for each row group, the name of its file and where its columns are in this file: reading a
  row group from a file that has not the same content any more is an error or returns anything (`none`).
-/
namespace Oups.Writer

section
variable {R M : Type}

/-- Directory of a dataset. `kv` is in `_metadata`, meaningless without this file. -/
structure Dir (R M : Type) where
  disk : Disk R
  kv : M

/-- `ParquetFile`. -/
structure Pf (R M : Type) where
  rgs : List (RG R)
  kv : M

/-- `ParquetFile(dirpath)`; `none` for `FileNotFoundError`. -/
def Dir.openPf (d : Dir R M) : Option (Pf R M) := d.disk.view.map fun rgs => ⟨rgs, d.kv⟩

/-- `pf.to_pandas()`. -/
def Pf.toPandas [DecidableEq R] (pf : Pf R M) (d : Dir R M) : Option (List R) :=
  if ∀ g ∈ pf.rgs, d.disk.part g.id = some g.rows then some (readRows pf.rgs) else none

/-- `write` (writer.py 326-615), `upd` being the effect of its metadata. -/
def Dir.write (T : Table R) (kv0 : M) (p : Params) (data : List R) (upd : M → M) (d : Dir R M) :
    Dir R M × Option Err :=
  let rgs := d.disk.view.getD []
  match writeTrace T p rgs data with
  | (ss, some e) => ({ d with disk := exec d.disk ss }, some e)
  | (ss, none) => (⟨exec d.disk ss, upd (if rgs.isEmpty then kv0 else d.kv)⟩, none)

/-- `write_metadata(pf, ...)` (writer.py 251-323): the directory, and `pf`, modified in place. -/
def Dir.writeMetadata (pf : Pf R M) (upd : M → M) (d : Dir R M) : Dir R M × Pf R M :=
  (⟨execStep d.disk (.putMeta (pf.rgs.map RG.id)), upd pf.kv⟩, { pf with kv := upd pf.kv })

/-- Handle: the cached `pf`. -/
abbrev Handle (R M : Type) := Option (Pf R M)

/-- `handle.pf` (router.py 59-64): what is returned, and the handle. -/
def Handle.pf (h : Handle R M) (d : Dir R M) : Option (Pf R M) × Handle R M :=
  match h with
  | some pf => (some pf, some pf)
  | none => (d.openPf, d.openPf)

/-- `handle.metadata` (router.py 103-108). -/
def Handle.metadata (h : Handle R M) (d : Dir R M) : Option M := (h.pf d).1.map Pf.kv

/-- `handle.pdf` (router.py 66-71). -/
def Handle.pdf (_ : Handle R M) (d : Dir R M) : Option (List R) := d.openPf.map fun pf => pdfRows pf.rgs

/-- `handle.min_max(col)` (router.py 85-101). -/
def Handle.minMax (T : Table R) (c : Col) (_ : Handle R M) (d : Dir R M) : Option (Int × Int) :=
  d.openPf.bind fun pf => Writer.minMax T c pf.rgs

/-- The directory and the handles of a process. -/
structure St (R M : Type) where
  dir : Dir R M
  handles : List (Handle R M)

inductive Ev (R M : Type)
  /-- `store[key] = config, data`. -/
  | write (p : Params) (data : List R) (upd : M → M)
  /-- `store[key]`. -/
  | get
  /-- `handle.pf`, `handle.metadata` or `handle._oups_metadata`. -/
  | look (i : Nat)
  /-- `write_metadata(pf=store[key].pf, ...)`. -/
  | mark (upd : M → M)
  /-- `write_metadata(pf=handle.pf, ...)`. -/
  | markBy (i : Nat) (upd : M → M)

def St.step (T : Table R) (kv0 : M) (s : St R M) : Ev R M → St R M
  | .write p data upd => { s with dir := (s.dir.write T kv0 p data upd).1 }
  | .get => { s with handles := s.handles ++ [none] }
  | .look i => { s with handles := s.handles.modify i fun h => (h.pf s.dir).2 }
  | .mark upd =>
    match s.dir.openPf with
    | none => s
    | some pf => { s with dir := (s.dir.writeMetadata pf upd).1 }
  | .markBy i upd =>
    match (s.handles[i]?).bind fun h => (h.pf s.dir).1 with
    | none => s
    | some pf =>
      { dir := (s.dir.writeMetadata pf upd).1, handles := s.handles.set i (some (s.dir.writeMetadata pf upd).2) }

def St.run (T : Table R) (kv0 : M) (s : St R M) (evs : List (Ev R M)) : St R M := evs.foldl (St.step T kv0) s

/-- An empty directory, no handle. -/
def St.start (kv0 : M) : St R M := ⟨⟨⟨fun _ => none, fun _ => none, none⟩, kv0⟩, []⟩

end
end Oups.Writer
