import Verif.Model.CollectionStore
/-
Model of the other methods of `ParquetSet` (`/repo/oups/store/collection.py`): `__len__` (153-157), `__repr__` (159-163),
`__contains__` (165-169), `__iter__` (171-175) and `__setitem__` (206-235).

Simplifications
* What is assigned is a dataframe, a tuple of values, or anything else; a value is a dataframe, a dict of parameters of `write`, or
  anything else. Names in the dict that are not parameters of `write` are refused by the writer.
* `str` of a key is that of `toplevel` (indexer.py 346).
-/
namespace Oups.Collection
open Oups.Indexer (Str FVal join)

section
variable {K C P F : Type}

/-- A value. -/
inductive Val (P F : Type)
  | frame (f : F)
  | dict (p : P)
  | other
  deriving DecidableEq, Repr

/-- What is assigned. -/
inductive Item (P F : Type)
  | value (v : Val P F)
  | tuple (l : List (Val P F))
  deriving DecidableEq, Repr

/-- Exceptions of `__setitem__`: those of `set`, or a tuple that has not 2 items (227). -/
inductive ItemErr
  | unpack
  | set (e : Err)
  deriving DecidableEq, Repr

variable [DecidableEq K]

/-- `set` with a value as data: `data` that is not a dataframe is refused, as keys that are not instances of the indexer class (195-198). -/
def PS.setVal (E : Env K C (P × F)) (ps : PS K C) (key : Option K) (p : P) : Val P F → PS K C × Option Err
  | .frame f => ps.set E key true (p, f)
  | _ => (ps, some .typeError)

/-- `__setitem__` (206-235); `p0` is no parameter. -/
def PS.setItem (E : Env K C (P × F)) (p0 : P) (ps : PS K C) (key : Option K) : Item P F → PS K C × Option ItemErr
  | .tuple [.dict p, v] => ((ps.setVal E key p v).1, (ps.setVal E key p v).2.map .set)
  | .tuple [_, _] => (ps, some (.set .typeError))
  | .tuple _ => (ps, some .unpack)
  | .value v => ((ps.setVal E key p0 v).1, (ps.setVal E key p0 v).2.map .set)

/-- `__len__`. -/
def PS.len (ps : PS K C) : Nat := ps.keys.length

/-- `__contains__`. -/
def PS.has (ps : PS K C) (k : K) : Bool := decide (k ∈ ps.keys)

end

/-- `str(key)`. -/
def strOf (sep : Char) (fs : List FVal) : Str :=
  match Indexer.toStr sep false fs with
  | .ok s => s
  | .error _ => []

/-- `__repr__`: `"\n".join(map(str, keys))`. -/
def reprOf (sep : Char) (keys : List (List FVal)) : Str := join '\n' (keys.map (strOf sep))

end Oups.Collection
