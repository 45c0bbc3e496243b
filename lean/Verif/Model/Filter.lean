/-
Model of `/repo/oups/aggstream/utils.py`: `dataframe_filter` (lines 27-71).

Simplifications
* A DataFrame is a number of rows and, per column name, the array of its values (`none` if there is no such column).
* Values belong to a type `V` with the comparisons of numpy (`eq`, `lt`, `le`), the membership test of pandas
  (`same`) and the negation of booleans (`truth`), as in `Ops`.
* The value of a condition is a scalar, or a list: of values to look for (`in` and `not in`), or compared as numpy does with an array
  (comparisons): row by row, the same value for all rows if it is of one item, and `ValueError` for any other length.
-/
namespace Oups.Filter

inductive Err | valueError | keyError | typeError | indexError
deriving DecidableEq, Repr

/-- Elementary operations on values: `x == y`, `x < y`, `x <= y`, membership equality, truth value. -/
structure Ops (V : Type) where
  eq : V → V → Bool
  lt : V → V → Bool
  le : V → V → Bool
  same : V → V → Bool
  truth : V → Bool

inductive Arg (V : Type)
  | one (v : V)
  | many (l : List V)

/-- `(name, op, val)`. -/
structure Cond (V : Type) where
  name : String
  op : String
  val : Arg V

structure Frame (V : Type) where
  len : Nat
  col : String → Option (List V)

/-- Columns have one value per row. -/
def Frame.WF {V : Type} (df : Frame V) : Prop := ∀ c vs, df.col c = some vs → vs.length = df.len

/-- `filters`: a list of tuples (not accepted), or a list of lists of tuples. -/
inductive Filters (V : Type)
  | flat (l : List (Cond V))
  | nested (l : List (List (Cond V)))

variable {V : Type}

/-- `ops` (utils.py 16-24). -/
def opsTable (O : Ops V) (op : String) : Option (V → V → Bool) :=
  if op = "==" then some O.eq
  else if op = "=" then some O.eq
  else if op = "!=" then some (fun x y => !O.eq x y)
  else if op = ">" then some (fun x y => O.lt y x)
  else if op = ">=" then some (fun x y => O.le y x)
  else if op = "<" then some O.lt
  else if op = "<=" then some O.le
  else none

/-- `df[name]`. -/
def getCol (df : Frame V) (name : String) : Except Err (List V) :=
  match df.col name with
  | some vs => .ok vs
  | none => .error .keyError

/-- `ops[op](df[name].values, val)` for a list `val` (utils.py 63): numpy broadcasting, to the length of the frame. -/
def listArray (f : V → V → Bool) (vs l : List V) : Except Err (List Bool) :=
  if l.length = vs.length then .ok (List.zipWith f vs l)
  else match l with
    | [v] => .ok (vs.map fun x => f x v)
    | _ => .error .valueError

/-- Right-hand side of the `and_part &= ...` of one condition (utils.py 57-68). -/
def condArray (O : Ops V) (df : Frame V) (c : Cond V) : Except Err (List Bool) :=
  if c.op = "in" then do
    let vs ← getCol df c.name
    match c.val with
    | .many l => .ok (vs.map fun x => l.any (O.same x))
    | .one _ => .error .typeError
  else if c.op = "not in" then do
    let vs ← getCol df c.name
    match c.val with
    | .many l => .ok (vs.map fun x => !l.any (O.same x))
    | .one _ => .error .typeError
  else match opsTable O c.op with
    | some f => do
      let vs ← getCol df c.name
      match c.val with
      | .one v => .ok (vs.map fun x => f x v)
      | .many l => listArray f vs l
    | none =>
      if c.op = "~" then do
        let vs ← getCol df c.name
        .ok (vs.map fun x => !O.truth x)
      else .error .valueError

/-- `and_part` (utils.py 55-68). -/
def andPart (O : Ops V) (df : Frame V) (conds : List (Cond V)) : Except Err (List Bool) :=
  conds.foldlM (fun acc c => do
    let a ← condArray O df c
    .ok (List.zipWith (· && ·) acc a)) (List.replicate df.len true)

/-- `dataframe_filter` (utils.py 27-71). -/
def dataframeFilter (O : Ops V) (df : Frame V) : Filters V → Except Err (List Bool)
  | .flat [] => .error .indexError
  | .flat (_ :: _) => .error .valueError
  | .nested [] => .error .indexError
  | .nested (p :: ps) => (p :: ps).foldlM (fun acc conds => do
      let a ← andPart O df conds
      .ok (List.zipWith (· || ·) acc a)) (List.replicate df.len false)

end Oups.Filter
