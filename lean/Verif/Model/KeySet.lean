import Verif.Model.CollectionStore
/-
Model of the keys in memory of `/repo/oups/store/collection.py` when keys may be refused by comparisons: types of fields
are not enforced (see C01), and Python does not order an `int` and a `str`. `ParquetSet.set` (176-203), `__contains__`
(164-168), `__iter__` (170-174), `__len__` (152-156), `__delitem__` (257-279).

`SortedSet` of sortedcontainers has a set, for `in` and `len`, and a `SortedList`, for iterations; `add` and `remove`
change the set first.

Simplifications
* The `SortedList` has less than 2000 items: a single list.
* The last field of a level, if a dataclass instance, is of the declared class.
-/
namespace Oups.KeySet
open Oups.Indexer (Str FVal)
open Oups.Collection (Path FS Env cmpStr cmpVal osJoin resolve stripPathTail pruneLoop)

inductive Err
  /-- As in `Oups.Collection`. -/
  | base (e : Collection.Err)
  /-- `TypeError`: `<` not supported between two values. -/
  | notOrdered
  /-- `ValueError` of `SortedList.remove`. -/
  | notListed
deriving DecidableEq, Repr

/-! ### Comparison of keys -/

mutual
/-- `a < b`. -/
def ltVal : FVal → FVal → Except Err Bool
  | .int a, .int b => .ok (decide (a < b))
  | .str a, .str b => .ok (cmpStr a b == .lt)
  | .dc a, .dc b => ltFields a b
  | _, _ => .error .notOrdered
/-- `<` of two instances: that of the tuples of their fields, by the first fields that are not equal
(`order=True`, indexer.py 331 and 397). -/
def ltFields : List FVal → List FVal → Except Err Bool
  | [], [] => .ok false
  | [], _ :: _ => .ok true
  | _ :: _, [] => .ok false
  | a :: as, b :: bs => if cmpVal a b = .eq then ltFields as bs else ltVal a b
end

/-! ### Sorted sets -/

section
variable {K : Type} [DecidableEq K]

/-- `bisect.bisect_right(l, x, lo, hi)`. -/
def bisectRight (lt : K → K → Except Err Bool) (x : K) (l : List K) (lo hi : Nat) : Except Err Nat :=
  if lo < hi then
    match l[(lo + hi) / 2]? with
    | none => .ok lo
    | some y =>
      match lt x y with
      | .error e => .error e
      | .ok true => bisectRight lt x l lo ((lo + hi) / 2)
      | .ok false => bisectRight lt x l ((lo + hi) / 2 + 1) hi
  else .ok lo
termination_by hi - lo

/-- `bisect.bisect_left(l, x, lo, hi)`. -/
def bisectLeft (lt : K → K → Except Err Bool) (x : K) (l : List K) (lo hi : Nat) : Except Err Nat :=
  if lo < hi then
    match l[(lo + hi) / 2]? with
    | none => .ok lo
    | some y =>
      match lt y x with
      | .error e => .error e
      | .ok true => bisectLeft lt x l ((lo + hi) / 2 + 1) hi
      | .ok false => bisectLeft lt x l lo ((lo + hi) / 2)
  else .ok lo
termination_by hi - lo

/-- `SortedList.add`: compared to the last item first. -/
def listAdd (lt : K → K → Except Err Bool) (x : K) (l : List K) : Except Err (List K) :=
  match l.getLast? with
  | none => .ok [x]
  | some m =>
    match lt x m with
    | .error e => .error e
    | .ok false => .ok (l ++ [x])
    | .ok true =>
      match bisectRight lt x l 0 l.length with
      | .error e => .error e
      | .ok i => .ok (l.take i ++ x :: l.drop i)

/-- `SortedList.remove`: the last item is compared first. -/
def listRemove (lt : K → K → Except Err Bool) (x : K) (l : List K) : Except Err (List K) :=
  match l.getLast? with
  | none => .error .notListed
  | some m =>
    match lt m x with
    | .error e => .error e
    | .ok true => .error .notListed
    | .ok false =>
      match bisectLeft lt x l 0 l.length with
      | .error e => .error e
      | .ok i => if l[i]? = some x then .ok (l.take i ++ l.drop (i + 1)) else .error .notListed

/-- `SortedSet`. -/
structure SSet (K : Type) where
  set : List K
  list : List K

/-- `SortedSet.add`. -/
def SSet.add (lt : K → K → Except Err Bool) (x : K) (s : SSet K) : SSet K × Option Err :=
  if x ∈ s.set then (s, none)
  else
    match listAdd lt x s.list with
    | .error e => (⟨x :: s.set, s.list⟩, some e)
    | .ok l => (⟨x :: s.set, l⟩, none)

/-- `SortedSet.remove` of an item of the set. -/
def SSet.remove (lt : K → K → Except Err Bool) (x : K) (s : SSet K) : SSet K × Option Err :=
  match listRemove lt x s.list with
  | .error e => (⟨s.set.filter (· ≠ x), s.list⟩, some e)
  | .ok l => (⟨s.set.filter (· ≠ x), l⟩, none)

/-! ### Collections -/

variable {C W : Type}

/-- `ParquetSet`. -/
structure Coll (K C : Type) where
  basepath : Str
  keys : SSet K
  fs : FS C

/-- `ParquetSet.__init__` (collection.py 110-130); keys read from paths have the declared types. -/
def Coll.openAt (E : Env K C W) (basepath : Str) (fs : FS C) : Coll K C :=
  ⟨basepath, ⟨Collection.getKeys E fs basepath, Collection.getKeys E fs basepath⟩, fs⟩

/-- `ParquetSet.set` (collection.py 176-203). -/
def Coll.set (E : Env K C W) (lt : K → K → Except Err Bool) (s : Coll K C) (key : Option K) (isDf : Bool) (w : W) :
    Coll K C × Option Err :=
  match key with
  | none => (s, some (.base .typeError))
  | some k =>
    if !isDf then (s, some (.base .typeError))
    else
      let dir := resolve (osJoin s.basepath (E.toPath k))
      match E.writer w ((s.fs.lookup dir).getD E.empty) with
      | none => (s, some (.base .writer))
      | some c =>
        let fs := (s.fs.mkdirs E.empty dir).put dir c
        if k ∈ s.keys.set then ({ s with fs := fs }, none)
        else
          let r := s.keys.add lt k
          ({ s with fs := fs, keys := r.1 }, r.2)

/-- `ParquetSet.__delitem__` (collection.py 257-279). -/
def Coll.del (E : Env K C W) (lt : K → K → Except Err Bool) (s : Coll K C) (k : K) : Coll K C × Option Err :=
  if k ∈ s.keys.set then
    let dirpath := osJoin s.basepath (E.toPath k)
    if (s.fs.lookup (resolve dirpath)).isNone then (s, some (.base .fileNotFound))
    else
      let fs := s.fs.rmtree (resolve dirpath)
      match s.keys.remove lt k with
      | (ks, some e) => ({ s with fs := fs, keys := ks }, some e)
      | (ks, none) =>
        let r := pruneLoop E s.basepath (dirpath.length + 1) fs (stripPathTail dirpath)
        ({ s with fs := r.1, keys := ks }, r.2.map .base)
  else (s, none)

def Coll.step (E : Env K C W) (lt : K → K → Except Err Bool) (s : Coll K C) : Collection.Op K W → Coll K C × Option Err
  | .set k d w => s.set E lt k d w
  | .del k => s.del E lt k

def Coll.run (E : Env K C W) (lt : K → K → Except Err Bool) (s : Coll K C) (ops : List (Collection.Op K W)) : Coll K C :=
  ops.foldl (fun s op => (s.step E lt op).1) s

end

/-! ### Keys of any types -/

/-- `ParquetSet` over a class, with any instance of it as a key. -/
def rawEnv (sep : Char) (sch : Indexer.Schema) {C W : Type} (names : C → List Str) (empty : C)
    (writer : W → C → Option C) : Env (List FVal) C W where
  toPath k := match Indexer.toPath sep k with
    | .ok p => p
    | .error _ => []
  fromPath s := match Indexer.fromStr sep sch s with
    | some (.dc fs) => some fs
    | _ => none
  depth := sch.depth
  lt a b := Collection.cmpKey a b == .lt
  names := names
  empty := empty
  writer := writer

end Oups.KeySet
