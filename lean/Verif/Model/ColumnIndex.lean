/-
Model of column multi-indexes: `conform_cmidx` (/repo/oups/store/utils.py 76-120), `check_cmidx` and `to_midx`
(/repo/oups/store/writer.py 167-248).

Simplifications
* A pandas `MultiIndex` is its level names, its levels (lists of distinct values) and one tuple of codes per
  column; a code is the position of a value in its level, or missing (-1 in pandas).
* Values are strings or other objects with the text `str(obj)` gives.
* `set_levels` refuses levels with twice the same value (`verify_integrity`).
* `MultiIndex.from_tuples` completes short tuples with missing values and refuses names in a number different
  from that of levels.
* `literal_eval` is a parameter: it gives a sequence, raises `ValueError`, or raises another exception.
-/
namespace Oups.ColumnIndex

inductive Err | valueError | typeError | other
deriving DecidableEq, Repr

inductive Val
  | str (s : String)
  | obj (id : Nat) (text : String)
deriving DecidableEq, Repr

def Val.isStr : Val → Bool
  | .str _ => true
  | .obj _ _ => false

/-- `name if isinstance(name, str) else str(name)` -/
def Val.toStr : Val → Val
  | .str s => .str s
  | .obj _ t => .str t

structure MIdx where
  names : List (Option String)
  levels : List (List Val)
  codes : List (List (Option Nat))
deriving DecidableEq, Repr

/-- Name of a column: its value at each level. -/
def MIdx.column (m : MIdx) (code : List (Option Nat)) : List (Option Val) :=
  List.zipWith (fun level c => c.bind fun i => level[i]?) m.levels code

def MIdx.columns (m : MIdx) : List (List (Option Val)) := m.codes.map m.column

/-- `check_cmidx` (writer.py 226-248). -/
def checkCmidx (m : MIdx) : Except Err Unit :=
  if none ∈ m.names then .error .valueError
  else if m.levels.any (fun level => level.any fun v => !v.isStr) then .error .typeError
  else .ok ()

/-- `conform_cmidx` (utils.py 76-120). In case of error, level names are already modified. -/
def conformCmidx (m : MIdx) : MIdx × Option Err :=
  let m1 := if none ∈ m.names then { m with names := m.names.map fun n => some (n.getD "") } else m
  let strLevels := m1.levels.map fun level => (level, level.map Val.toStr)
  let updated := strLevels.map fun p => if p.1 ≠ p.2 then p.2 else p.1
  if strLevels.any (fun p => p.1 ≠ p.2) then
    if strLevels.any (fun p => p.1 ≠ p.2 ∧ ¬ p.2.Nodup) then (m1, some .valueError)
    else ({ m1 with levels := updated }, none)
  else (m1, none)

/-! ### to_midx -/

inductive Eval
  | seq (t : List Val)
  | valueError
  | raises (e : Err)

/-- `tuple(val)` for a string. -/
def charTuple (s : String) : List Val := s.toList.map fun c => .str (String.ofList [c])

/-- First loop of `to_midx` (writer.py 197-207): tuples and `max_levels`. -/
def evalNames (eval : String → Eval) : List String → Nat → Except Err (List (List Val) × Nat)
  | [], mx => .ok ([], mx)
  | s :: r, mx =>
    match eval s with
    | .raises e => .error e
    | .seq t =>
      match evalNames eval r (max t.length mx) with
      | .error e => .error e
      | .ok (ts, m) => .ok (t :: ts, m)
    | .valueError =>
      match evalNames eval r mx with
      | .error e => .error e
      | .ok (ts, m) => .ok (charTuple s :: ts, m)

def maxLen (ts : List (List Val)) : Nat := (ts.map List.length).foldr max 0

/-- `MultiIndex.from_tuples(tuples, names)`: names and columns. -/
def fromTuples (ts : List (List Val)) (names : List String) : Except Err (List String × List (List (Option Val))) :=
  if ts ≠ [] ∧ names.length ≠ maxLen ts then .error .valueError
  else .ok (names, ts.map fun t => t.map some ++ List.replicate (maxLen ts - t.length) none)

/-- `to_midx` (writer.py 167-223), with the list `levels` of the caller after the call. -/
def toMidx (eval : String → Eval) (idx : List String) (levels : Option (List String)) :
    Except Err (List String × List (List (Option Val))) × Option (List String) :=
  match evalNames eval idx 0 with
  | .error e => (.error e, levels)
  | .ok (ts, mx) =>
    let given := levels.getD []
    let names := given ++ (List.range' given.length (mx - given.length)).map fun i => "l" ++ toString i
    let tuples := ts.map fun t => if mx - t.length ≠ 0 then t ++ List.replicate (mx - t.length) (.str "") else t
    (fromTuples tuples names, levels.map fun _ => names)

end Oups.ColumnIndex
