import Verif.Model.Collection
/-!
The calls to the operating system made by `ParquetSet.set` and `ParquetSet.__delitem__`, one by one
(`/repo/oups/store/collection.py` 177-203 and 257-279), for what is on disk and in memory when the process stops, or when one
of these calls raises.

Simplifications, besides those of `Model/Collection`:
* `files p c`: a file of the directory `p` is created, written, renamed or removed; `c` is the content of `p` after it. `RmCalls` has
  them remove files, one or several;
* `shutil.rmtree` (collection.py 272) goes through files and directories in the order of the operating system: any order in which a
  directory is removed once it is empty;
* directories are created before files are written; contents of the dataset directory while the writer is working are any.
-/
namespace Oups.Collection
open Oups.Indexer (Str)

inductive Call (C : Type)
  | mkdir (p : Path)
  | files (p : Path) (c : C)
  | rmdir (p : Path)

section
variable {K C W : Type}

def Call.run (empty : C) (fs : FS C) : Call C → FS C
  | .mkdir p => fs.put p empty
  | .files p c => fs.put p c
  | .rmdir p => fs.rmdir p

def runCalls (empty : C) (fs : FS C) (cs : List (Call C)) : FS C := cs.foldl (Call.run empty) fs

/-- Calls that remove files in directories `F` and empty directories `P`, from `fs`. -/
inductive RmCalls (names : C → List Str) (F P : Path → Prop) : FS C → List (Call C) → Prop
  | nil (fs : FS C) : RmCalls names F P fs []
  | files {fs : FS C} {p : Path} {c c' : C} {cs : List (Call C)} : F p → fs.lookup p = some c → (names c').Sublist (names c) →
      RmCalls names F P (fs.put p c') cs → RmCalls names F P fs (.files p c' :: cs)
  | rmdir {fs : FS C} {p : Path} {cs : List (Call C)} : P p → fs.isEmptyDir names p = some true →
      RmCalls names F P (fs.rmdir p) cs → RmCalls names F P fs (.rmdir p :: cs)

/-- Calls of `rmtree(dir)` up to its end (collection.py 272). -/
def Rmtree (E : Env K C W) (dir : Path) (fs : FS C) (cs : List (Call C)) : Prop :=
  RmCalls E.names (dir <+: ·) (dir <+: ·) fs cs ∧ (runCalls E.empty fs cs).lookup dir = none

/-- Calls of the loop on parent directories (collection.py 275-279), see `pruneLoop`. -/
def pruneCalls (E : Env K C W) (basepath : Str) : Nat → FS C → Option Str → List (Call C)
  | 0, _, _ => []
  | _ + 1, _, none => []
  | fuel + 1, fs, some upper =>
    if upper = basepath then []
    else if upper = [] then []
    else match fs.isEmptyDir E.names (resolve upper) with
      | some true => .rmdir (resolve upper) :: pruneCalls E basepath fuel (fs.rmdir (resolve upper)) (stripPathTail upper)
      | _ => []

/-- Calls of `del ps[k]` (collection.py 257-279), those of `rmtree` being `rm`. -/
def delCalls (E : Env K C W) (ps : PS K C) (k : K) (rm : List (Call C)) : List (Call C) :=
  let dirpath := osJoin ps.basepath (E.toPath k)
  rm ++ pruneCalls E ps.basepath (dirpath.length + 1) (runCalls E.empty ps.fs rm) (stripPathTail dirpath)

/-- `mkdirs`: creates the missing ones, parents first. -/
def mkdirCalls (fs : FS C) (p : Path) : List (Call C) :=
  (((List.range (p.length + 1)).map p.take).filter fun q => (fs.lookup q).isNone).map .mkdir

/-- Calls of `set` (collection.py 177-203) on the key `k`: contents of the dataset directory are `mids`, the last one being what is
written. -/
def setCalls (E : Env K C W) (ps : PS K C) (k : K) (mids : List C) : List (Call C) :=
  let dir := resolve (osJoin ps.basepath (E.toPath k))
  mkdirCalls ps.fs dir ++ mids.map (.files dir)

variable [DecidableEq K]

/-- The file system after calls `pre`, first ones of an operation on `k`. -/
inductive Stopped (E : Env K C W) (ps : PS K C) (k : K) : FS C → Prop
  | del {rm pre : List (Call C)} : k ∈ ps.keys → Rmtree E (resolve (osJoin ps.basepath (E.toPath k))) ps.fs rm →
      pre <+: delCalls E ps k rm → Stopped E ps k (runCalls E.empty ps.fs pre)
  | set {mids : List C} {pre : List (Call C)} : pre <+: setCalls E ps k mids → Stopped E ps k (runCalls E.empty ps.fs pre)

/-- The instance in use when `del ps[k]` raises after the calls `pre`: the key is removed from `_keys` once `rmtree` is done
(collection.py 272-273). -/
def PS.delRaised (E : Env K C W) (ps : PS K C) (k : K) (rm pre : List (Call C)) : PS K C :=
  { ps with fs := runCalls E.empty ps.fs pre
            keys := if rm.length ≤ pre.length then ps.keys.filter (· ≠ k) else ps.keys }

/-- The instance in use when `set` raises after the calls `pre` (collection.py 198-202). -/
def PS.setRaised (E : Env K C W) (ps : PS K C) (pre : List (Call C)) : PS K C :=
  { ps with fs := runCalls E.empty ps.fs pre }

end
end Oups.Collection
