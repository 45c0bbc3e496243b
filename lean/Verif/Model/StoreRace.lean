import Verif.Model.Collection
/-!
Operations at several keys that overlap in time: several processes or threads in `ParquetSet.set` and
`ParquetSet.__delitem__` (`/repo/oups/store/collection.py` 177-203 and 257-279), as those of `AggStream` with
`parallel=True` (`/repo/oups/aggstream/aggstream.py` 1482-1515), each of their calls to the operating system being one step.

Simplifications, besides those of `Model/Collection`:
* what a write puts in the dataset directory (`mids`, the last one being the result) is known when it starts: it depends on the
  content of this directory only;
* `os.makedirs(dir, exist_ok=True)` goes through the directories from the root;
* `shutil.rmtree` removes files and empty directories in any order;
* directories are lists of names, the directory of the collection being `base`.
-/
namespace Oups.Collection
open Oups.Indexer (Str)

section
variable {K C : Type}

/-- What is asked for: a write at a key, with the contents of its directory one after the other, or a deletion. -/
inductive Job (K C : Type)
  | write (k : K) (mids : List C)
  | delete (k : K)

/-- An operation in progress. -/
inductive Proc (C : Type)
  /-- in `makedirs(dir)`, directories `todo` are still to be made -/
  | making (todo : List Path) (dir : Path) (mids : List C)
  /-- writing files -/
  | writing (dir : Path) (mids : List C)
  /-- in `rmtree(dir)` -/
  | removing (dir : Path)
  /-- about to do `listdir(upper)` -/
  | looking (upper : Path)
  /-- about to do `rmdir(upper)` -/
  | pruning (upper : Path)
  | done
  | raised

/-- First step of an operation. -/
def Job.start (base : Path) (comps : K → List Str) : Job K C → Proc C
  | .write k mids =>
    .making ((List.range ((base ++ comps k).length + 1)).map (base ++ comps k).take) (base ++ comps k) mids
  | .delete k => .removing (base ++ comps k)

/-- One call to the operating system. -/
inductive Proc.Step (names : C → List Str) (empty : C) (base : Path) : FS C → Proc C → FS C → Proc C → Prop
  | found {fs q todo d ms} : (fs.lookup q).isSome → Step names empty base fs (.making (q :: todo) d ms) fs (.making todo d ms)
  | mkdir {fs q todo d ms} : fs.lookup q = none → (q = [] ∨ (fs.lookup q.dropLast).isSome) →
      Step names empty base fs (.making (q :: todo) d ms) (fs.put q empty) (.making todo d ms)
  | mkdirRaise {fs q todo d ms} : fs.lookup q = none → q ≠ [] → fs.lookup q.dropLast = none →
      Step names empty base fs (.making (q :: todo) d ms) fs .raised
  | made {fs d ms} : Step names empty base fs (.making [] d ms) fs (.writing d ms)
  | files {fs d c ms} : (fs.lookup d).isSome → Step names empty base fs (.writing d (c :: ms)) (fs.put d c) (.writing d ms)
  | filesRaise {fs d c ms} : fs.lookup d = none → Step names empty base fs (.writing d (c :: ms)) fs .raised
  | written {fs d} : Step names empty base fs (.writing d []) fs .done
  | unlink {fs d q c c'} : d <+: q → fs.lookup q = some c → (names c').Sublist (names c) →
      (names c').length < (names c).length → Step names empty base fs (.removing d) (fs.put q c') (.removing d)
  | rmsub {fs d q} : d <+: q → fs.isEmptyDir names q = some true →
      Step names empty base fs (.removing d) (fs.rmdir q) (.removing d)
  | removed {fs d} : fs.lookup d = none → Step names empty base fs (.removing d) fs (.looking d.dropLast)
  | top {fs} : Step names empty base fs (.looking base) fs .done
  | stop {fs u} : u ≠ base → fs.isEmptyDir names u = some false → Step names empty base fs (.looking u) fs .done
  | gone {fs u} : u ≠ base → fs.isEmptyDir names u = none → Step names empty base fs (.looking u) fs .raised
  | empty {fs u} : u ≠ base → fs.isEmptyDir names u = some true → Step names empty base fs (.looking u) fs (.pruning u)
  | rmdir {fs u} : fs.isEmptyDir names u = some true → Step names empty base fs (.pruning u) (fs.rmdir u) (.looking u.dropLast)
  | rmdirRaise {fs u} : fs.isEmptyDir names u ≠ some true → Step names empty base fs (.pruning u) fs .raised

/-- Operations in progress on a file system. -/
structure Sys (C : Type) where
  fs : FS C
  procs : List (Proc C)

/-- One of the operations makes a step. -/
inductive Sys.Step (names : C → List Str) (empty : C) (base : Path) (s : Sys C) : Sys C → Prop
  | mk {i : Nat} {p p' : Proc C} {fs' : FS C} : s.procs[i]? = some p → Proc.Step names empty base s.fs p fs' p' →
      Sys.Step names empty base s ⟨fs', s.procs.set i p'⟩

/-- States reached from the start of the operations `jobs`, all together. -/
inductive Sys.Reach (names : C → List Str) (empty : C) (base : Path) (comps : K → List Str) (fs : FS C)
    (jobs : List (Job K C)) : Sys C → Prop
  | start : Reach names empty base comps fs jobs ⟨fs, jobs.map (Job.start base comps)⟩
  | step {s s' : Sys C} : Reach names empty base comps fs jobs s → Sys.Step names empty base s s' →
      Reach names empty base comps fs jobs s'

end
end Oups.Collection
