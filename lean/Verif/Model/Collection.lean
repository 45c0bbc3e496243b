import Verif.Model.Indexer
/-
Model of `/repo/oups/store/collection.py`, and of `files_at_depth` and `strip_path_tail`
(`/repo/oups/store/utils.py` 16-73).

Simplifications
* The file system is the list of its directories: path from the root (list of names) and content, that is the
  files directly in that directory. The content is of any type `C`, with the names of its files (`names`).
* Relative paths start from the root. Path names '.' and '..' and links are not handled.
* Keys are of any type `K`, with their path (`toPath`), the reading of a path (`fromPath`) and the comparison
  used for sorting (`lt`); the indexing schemas of `Verif.Model.Indexer` are an instance of it.
* The writer is a parameter: from what is to be written and the content of the dataset directory, it gives the new
  content, or an error with nothing changed (see property C24).
* `SortedSet` is an ascending list without repetition.
-/
namespace Oups.Collection
open Oups.Indexer (Str split join)

abbrev Path := List Str

/-- Directories of the file system. -/
abbrev FS (C : Type) := List (Path × C)

inductive Err | typeError | fileNotFound | writer
deriving DecidableEq, Repr

/-- `is_parquet_file` (collection.py 26-42). -/
def isParquetFile (f : Str) : Bool :=
  ".parquet".toList.isSuffixOf f || ".parq".toList.isSuffixOf f || f == "_metadata".toList ||
    f == "_common_metadata".toList

/-- `os.path.join(a, b)`. -/
def osJoin (a b : Str) : Str :=
  if b.head? = some '/' then b
  else if a = [] ∨ a.getLast? = some '/' then a ++ b
  else a ++ '/' :: b

/-- Directory designated by a path. -/
def resolve (s : Str) : Path := (split (· == '/') s).filter (· ≠ [])

/-- `strip_path_tail` (utils.py 58-73). -/
def stripPathTail (s : Str) : Option Str :=
  if '/' ∈ s then some ((s.reverse.dropWhile (· ≠ '/')).drop 1).reverse else none

section FS
variable {C : Type}

def FS.lookup (fs : FS C) (p : Path) : Option C := (fs.find? fun e => e.1 = p).map Prod.snd

def FS.put (fs : FS C) (p : Path) (c : C) : FS C := fs.filter (fun e => e.1 ≠ p) ++ [(p, c)]

/-- `mkdirs`: creates a directory and its parents. -/
def FS.mkdirs (empty : C) (fs : FS C) (p : Path) : FS C :=
  ((List.range (p.length + 1)).map p.take).foldl (fun fs q => if (fs.lookup q).isSome then fs else fs.put q empty) fs

/-- `shutil.rmtree`. -/
def FS.rmtree (fs : FS C) (p : Path) : FS C := fs.filter fun e => !p.isPrefixOf e.1

/-- `os.rmdir` of an empty directory. -/
def FS.rmdir (fs : FS C) (p : Path) : FS C := fs.filter fun e => e.1 ≠ p

/-- Sub-directories. -/
def FS.children (fs : FS C) (p : Path) : List Path := (fs.map Prod.fst).filter fun q => q ≠ [] ∧ q.dropLast = p

/-- `not listdir(p)`; `none` if `p` does not exist. -/
def FS.isEmptyDir (names : C → List Str) (fs : FS C) (p : Path) : Option Bool :=
  (fs.lookup p).map fun c => (names c).isEmpty && (fs.children p).isEmpty

/-- `files_at_depth` (utils.py 16-55). -/
def FS.filesAtDepth (names : C → List Str) (fs : FS C) : Nat → Path → List (Path × List Str)
  | 0, p =>
    match fs.lookup p with
    | some c => if names c ≠ [] then [(p, names c)] else []
    | none => []
  | d + 1, p => (fs.children p).flatMap (FS.filesAtDepth names fs d)

end FS

/-- What the collection uses of the indexer class and of the writer. `W` is what is given to the writer. -/
structure Env (K C W : Type) where
  toPath : K → Str
  fromPath : Str → Option K
  depth : Nat
  lt : K → K → Bool
  names : C → List Str
  empty : C
  writer : W → C → Option C

section
variable {K C W : Type} [DecidableEq K]

/-- `SortedSet.add`. -/
def sortedAdd (lt : K → K → Bool) (k : K) : List K → List K
  | [] => [k]
  | a :: l => if k = a then a :: l else if lt k a then k :: a :: l else a :: sortedAdd lt k l

/-- `get_keys` (collection.py 45-85). -/
def getKeys (E : Env K C W) (fs : FS C) (basepath : Str) : List K :=
  let keys := (fs.filesAtDepth E.names E.depth (resolve basepath)).filterMap fun pf =>
    if pf.2.any isParquetFile then E.fromPath (join '/' (pf.1.drop (pf.1.length - E.depth))) else none
  keys.foldl (fun l k => sortedAdd E.lt k l) []

/-- `ParquetSet`: keys in memory; `fs` is the file system. -/
structure PS (K C : Type) where
  basepath : Str
  keys : List K
  fs : FS C

/-- `ParquetSet.__init__` (collection.py 110-130). -/
def PS.openAt (E : Env K C W) (basepath : Str) (fs : FS C) : PS K C :=
  ⟨basepath, getKeys E fs basepath, fs⟩

/-- `ParquetSet.set` (collection.py 176-203). `key` is `none` if it is not an instance of the indexer class,
`isDf` tells if `data` is a dataframe. -/
def PS.set (E : Env K C W) (ps : PS K C) (key : Option K) (isDf : Bool) (w : W) : PS K C × Option Err :=
  match key with
  | none => (ps, some .typeError)
  | some k =>
    if !isDf then (ps, some .typeError)
    else
      let dir := resolve (osJoin ps.basepath (E.toPath k))
      match E.writer w ((ps.fs.lookup dir).getD E.empty) with
      | none => (ps, some .writer)
      | some c =>
        ({ ps with fs := (ps.fs.mkdirs E.empty dir).put dir c,
                   keys := if k ∈ ps.keys then ps.keys else sortedAdd E.lt k ps.keys }, none)

/-- `ParquetSet.get(key)` (collection.py 236-249): content of the dataset directory. -/
def PS.get (E : Env K C W) (ps : PS K C) (k : K) : Option C :=
  ps.fs.lookup (resolve (osJoin ps.basepath (E.toPath k)))

/-- `while` loop of `__delitem__` (collection.py 277-279). `listdir(None)` followed by `rmdir(None)` is an error, as is
`listdir` of a missing directory; the loop ends since paths get shorter (`fuel` is the length of the path). -/
def pruneLoop (E : Env K C W) (basepath : Str) : Nat → FS C → Option Str → FS C × Option Err
  | 0, fs, _ => (fs, some .fileNotFound)
  | _ + 1, fs, none => (fs, some .typeError)
  | fuel + 1, fs, some upper =>
    if upper = basepath then (fs, none)
    else if upper = [] then (fs, some .fileNotFound)
    else match fs.isEmptyDir E.names (resolve upper) with
      | none => (fs, some .fileNotFound)
      | some false => (fs, none)
      | some true => pruneLoop E basepath fuel (fs.rmdir (resolve upper)) (stripPathTail upper)

/-- `ParquetSet.__delitem__` (collection.py 257-279). -/
def PS.del (E : Env K C W) (ps : PS K C) (k : K) : PS K C × Option Err :=
  if k ∈ ps.keys then
    let dirpath := osJoin ps.basepath (E.toPath k)
    if (ps.fs.lookup (resolve dirpath)).isNone then (ps, some .fileNotFound)
    else
      let fs := ps.fs.rmtree (resolve dirpath)
      let r := pruneLoop E ps.basepath (dirpath.length + 1) fs (stripPathTail dirpath)
      ({ ps with fs := r.1, keys := ps.keys.filter (· ≠ k) }, r.2)
  else (ps, none)

/-- Operations of a user. -/
inductive Op (K W : Type)
  | set (key : Option K) (isDf : Bool) (w : W)
  | del (key : K)

def PS.step (E : Env K C W) (ps : PS K C) : Op K W → PS K C × Option Err
  | .set k d w => ps.set E k d w
  | .del k => ps.del E k

def PS.run (E : Env K C W) (ps : PS K C) (ops : List (Op K W)) : PS K C :=
  ops.foldl (fun ps op => (ps.step E op).1) ps

end
end Oups.Collection
