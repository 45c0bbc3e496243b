import Verif.Model.Writer
/-
Effect of `write` on files, step by step.

The order of the file operations is that of `/repo/oups/store/writer.py` 533-615, with the fastparquet routines
`write` (file_scheme='hive'), `ParquetFile.write_row_groups`, `remove_row_groups`, `_sort_part_names` and
`_write_common_metadata`, that are not part of the repository and are described here:
* one file per row group, written one after the other as the iterator yields frames;
* removal of the files of removed row groups, one after the other;
* renaming in two passes of the files whose number is not the position of their row group, the first pass giving
  temporary names;
* `_metadata` lists the files of the row groups in order, and is written in one step.
`iter_dataframe` is a generator: its checks are done when the first frame is requested.
-/
namespace Oups.Writer

structure Disk (R : Type) where
  /-- Content of `part.N.parquet`. -/
  part : Nat → Option (List R)
  /-- Content of the file temporarily named after `part.N.parquet`. -/
  tmp : Nat → Option (List R)
  /-- Content of `_metadata`: numbers of the files of the row groups. -/
  md : Option (List Nat)

inductive Step (R : Type)
  | putPart (i : Nat) (rows : List R)
  | delPart (i : Nat)
  | toTmp (i j : Nat)
  | fromTmp (j : Nat)
  | putMeta (ids : List Nat)

def setAt {α : Type} (f : Nat → Option α) (i : Nat) (v : Option α) : Nat → Option α :=
  fun j => if j = i then v else f j

def execStep {R : Type} (d : Disk R) : Step R → Disk R
  | .putPart i rows => { d with part := setAt d.part i (some rows) }
  | .delPart i => { d with part := setAt d.part i none }
  | .toTmp i j => { d with tmp := setAt d.tmp j (d.part i), part := setAt d.part i none }
  | .fromTmp j => { d with part := setAt d.part j (d.tmp j), tmp := setAt d.tmp j none }
  | .putMeta ids => { d with md := some ids }

def exec {R : Type} (d : Disk R) (ss : List (Step R)) : Disk R := ss.foldl execStep d

/-- `ParquetFile(dirpath)`: row groups listed in `_metadata`; `none` if there is no `_metadata` or if a listed
file does not exist. -/
def Disk.view {R : Type} (d : Disk R) : Option (List (RG R)) :=
  d.md.bind fun ids => ids.mapM fun i => (d.part i).map fun rows => ⟨i, rows⟩

def putRgs {R : Type} (gs : List (RG R)) : List (Step R) := gs.map fun g => .putPart g.id g.rows

/-- `pf._sort_part_names(write_fmd=False)` (writer.py 584). -/
def renameSteps {R : Type} (rgs : List (RG R)) : List (Step R) :=
  let moved := rgs.zipIdx.filter fun p => p.1.id ≠ p.2
  moved.map (fun p => .toTmp p.1.id p.2) ++ moved.map (fun p => .fromTmp p.2)

/-- Update case (writer.py 545-584), then `_write_common_metadata` (writer.py 323, 615). -/
def updateTrace {R : Type} (T : Table R) (p : Params) (rgs : List (RG R)) (data : List R)
    (on : Option Col) (start : Nat) (stop : Option Nat) : List (Step R) × Option Err :=
  let e := stop.getD rgs.length
  let overlapping := (rgs.take e).drop start
  if overlapping.isEmpty then ([], some .noFiles)
  else
    let merged := readRows overlapping ++ data
    let merged := match on with
      | none => merged
      | some c => stableSort (T.get c) merged
    match iterDataframe T merged true p.maxRg on p.dupOn with
    | .error err => ([], some err)
    | .ok chunks =>
      let new := numberFrom (nextId rgs) chunks
      let kept := (rgs ++ new).take start ++ (rgs ++ new).drop e
      let sorted := match stop, on with
        | some _, some c => sortRgs T c kept
        | _, _ => kept
      (putRgs new ++ overlapping.map (fun g => .delPart g.id) ++ renameSteps sorted
        ++ [.putMeta ((renumber sorted).map RG.id)], none)

/-- `write` (writer.py 326-615) on a dataset with row groups `rgs`: file operations done, then exception if any. -/
def writeTrace {R : Type} (T : Table R) (p : Params) (rgs : List (RG R)) (data : List R) :
    List (Step R) × Option Err :=
  match checkOrderedOn T p.orderedOn with
  | .error e => ([], some e)
  | .ok on =>
    if rgs.isEmpty then
      -- case initiating a new dataset (writer.py 585-613)
      match iterDataframe T data false p.maxRg none none with
      | .error e => ([], some e)
      | .ok chunks =>
        let first := numberFrom 0 (chunks.take 1)
        let new := numberFrom 0 chunks
        (putRgs first ++ [.putMeta (first.map RG.id)] ++ putRgs (new.drop first.length)
          ++ [.putMeta (new.map RG.id)], none)
    else if p.dupOn.isSome && on.isNone then ([], some .valueError)
    else
      match overlapWindow T rgs data on with
      | .error e => ([], some e)
      | .ok w =>
        let start : Except Err (Option Nat) := match p.maxNirgs, p.maxRg with
          | none, _ => .ok w.1
          | some _, none => .error .typeError
          | some k, some m => .ok (coalesce m k rgs data.length w.1 w.2)
        match start with
        | .error e => ([], some e)
        | .ok none =>
          -- case 'appending' (writer.py 533-544)
          match iterDataframe T data false p.maxRg none none with
          | .error e => ([], some e)
          | .ok chunks =>
            let new := numberFrom (nextId rgs) chunks
            (putRgs new ++ [.putMeta ((rgs ++ new).map RG.id)], none)
        | .ok (some s) => updateTrace T p rgs data on s w.2

end Oups.Writer
