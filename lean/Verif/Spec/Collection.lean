import Verif.Model.Collection
import Mathlib.Order.Basic
/-! Specification vocabulary for collections of datasets. -/
namespace Oups.Collection
open Oups.Indexer (Str join)

/-- What is expected from the indexer class and the writer: distinct keys have distinct paths of `depth` plain names,
paths can be read back, keys are linearly ordered, and what has been written has a parquet file. -/
structure Lawful {K C W : Type} (E : Env K C W) (comps : K → List Str) : Prop where
  path : ∀ k, E.toPath k = join '/' (comps k)
  length : ∀ k, (comps k).length = E.depth
  pos : 0 < E.depth
  plain : ∀ k, ∀ s ∈ comps k, s ≠ [] ∧ '/' ∉ s
  back : ∀ k, E.fromPath (join '/' (comps k)) = some k
  lt_irrefl : ∀ a, E.lt a a = false
  lt_trans : ∀ a b c, E.lt a b = true → E.lt b c = true → E.lt a c = true
  lt_total : ∀ a b, a ≠ b → E.lt a b = true ∨ E.lt b a = true
  noFile : E.names E.empty = []
  writes : ∀ w c c', E.writer w c = some c' → (E.names c').any isParquetFile = true

/-- A basepath as users write it: not empty, not ending with '/'. -/
def PlainBase (s : Str) : Prop := s ≠ [] ∧ s.getLast? ≠ some '/'

/-- Directories at the depth of datasets, with parquet files, are read as keys of which they are the path, or not read. -/
def Canonical {K C W : Type} (E : Env K C W) (comps : K → List Str) (base : Path) (fs : FS C) : Prop :=
  ∀ rel c k, fs.lookup (base ++ rel) = some c → rel.length = E.depth → (E.names c).any isParquetFile = true →
    E.fromPath (join '/' rel) = some k → comps k = rel

/-- A well-formed file system: one entry per directory, parents exist. -/
def FS.WF {C : Type} (fs : FS C) : Prop :=
  (fs.map Prod.fst).Nodup ∧ ∀ (p : Path) x, (fs.lookup (p ++ [x])).isSome → (fs.lookup p).isSome

/-- The dictionary a user has in mind: datasets by key. -/
abbrev Dict (K C : Type) := K → Option C

/-- Effect of an operation on the dictionary. -/
def Dict.step {K C W : Type} [DecidableEq K] (writer : W → C → Option C) (empty : C) (m : Dict K C) :
    Op K W → Dict K C
  | .set (some k) true w =>
    match writer w ((m k).getD empty) with
    | some c => fun k' => if k' = k then some c else m k'
    | none => m
  | .set _ _ _ => m
  | .del k => fun k' => if k' = k then none else m k'

def Dict.run {K C W : Type} [DecidableEq K] (writer : W → C → Option C) (empty : C) (m : Dict K C)
    (ops : List (Op K W)) : Dict K C := ops.foldl (Dict.step writer empty) m

/-- Directories of possible datasets contain a dataset or no file. -/
def NoStray {K C W : Type} (E : Env K C W) (comps : K → List Str) (base : Path) (fs : FS C) : Prop :=
  ∀ k c, fs.lookup (base ++ comps k) = some c → (E.names c).any isParquetFile = true ∨ c = E.empty

/-- Datasets found in the directories of the keys: those with a parquet file. -/
def storedDict {K C W : Type} (E : Env K C W) (comps : K → List Str) (base : Path) (fs : FS C) : Dict K C := fun k =>
  match fs.lookup (base ++ comps k) with
  | some c => if (E.names c).any isParquetFile then some c else none
  | none => none

/-- What an operation is expected to raise, from the datasets before it. -/
def Dict.raises {K C W : Type} (writer : W → C → Option C) (empty : C) (m : Dict K C) : Op K W → Option Err
  | .set none _ _ => some .typeError
  | .set (some _) false _ => some .typeError
  | .set (some k) true w => if (writer w ((m k).getD empty)).isSome then none else some .writer
  | .del _ => none

/-- Key an operation is about. -/
def Op.key {K W : Type} : Op K W → Option K
  | .set k _ _ => k
  | .del k => some k

/-- Directories expected to disappear with the dataset directory `dir`: it and all what is in it, and the directories
strictly between `base` and it in which nothing else is left than directories without files leading to it. -/
def Vanishes {C : Type} (names : C → List Str) (fs : FS C) (base dir q : Path) : Prop :=
  dir <+: q ∨ (base <+: q ∧ q ≠ base ∧ q <+: dir ∧
    ∀ q' c, q <+: q' → fs.lookup q' = some c → dir <+: q' ∨ (q' <+: dir ∧ names c = []))

end Oups.Collection
