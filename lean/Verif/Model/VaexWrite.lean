import Verif.Model.Writer
/-
Model of `write` and `iter_dataframe` (`/repo/oups/store/writer.py` 49-164, 326-615) for data given as a pandas or as a vaex DataFrame.

Simplifications
* as in `Verif/Model/Writer.lean`; metadata excluded;
* a vaex DataFrame is the list of its rows, without lazy filter: `extract()` (writer.py 100) is the identity;
* vaex reads `df[start:stop]` as `start or 0` and `stop or len(df)`, negative bounds counting from the end: `[:0]` is all rows, not none.
-/
namespace Oups.Writer

variable {R : Type}

/-- Data given to `write`. -/
inductive Frame (R : Type)
  | pandas (rows : List R)
  | vaex (rows : List R)

def Frame.rows : Frame R → List R
  | .pandas l => l
  | .vaex l => l

/-- `len(data)`. -/
def Frame.len (f : Frame R) : Nat := f.rows.length

/-- Bound of a slice, as vaex reads it. -/
def vaexBound (n : Nat) (b : Option Int) (dflt : Int) : Int :=
  let x := if b.getD 0 = 0 then dflt else b.getD 0
  if x < 0 then n + x else x

/-- `df[start:stop]` (vaex). -/
def vaexSlice {α : Type} (l : List α) (start stop : Option Int) : List α :=
  (l.take (vaexBound l.length stop l.length).toNat).drop (vaexBound l.length start 0).toNat

/-- `ends = starts[1:] + [None]` (writer.py 141), with the starts. -/
def pairsOf : List Nat → List (Nat × Option Nat)
  | [] => []
  | [s] => [(s, none)]
  | s :: e :: r => (s, some e) :: pairsOf (e :: r)

/-- `iter_dataframe` for a vaex DataFrame (writer.py 96-159). -/
def iterVaex (T : Table R) (data : List R) (maxRg : Option Nat) (sharpOn : Option Col) (dupOn : Option DupOn) :
    Except Err (List (List R)) := do
  let maxRg := maxRg.getD defaultMaxRg
  if dupOn.isSome && sharpOn.isNone then throw .valueError
  if data.length ≠ 0 && maxRg = 0 then throw .zeroDivision
  let starts := partStarts data.length maxRg
  let starts ← match sharpOn with
    | none => pure starts
    | some on =>
      if data.length = 0 then throw .indexError
      -- `data.evaluate(sharp_on, idx, idx + 1)[0] for idx in starts`
      let valAtStart := starts.filterMap fun (i : Nat) => ((data.take (i + 1)).drop i).head?.map (T.get on)
      pure (npUnique (valAtStart.map (searchsortedLeft (data.map (T.get on)))))
  let pieces := (pairsOf starts).map fun se => vaexSlice data (some se.1) (se.2.map Int.ofNat)
  match sharpOn, dupOn with
  | some on, some d =>
    if (dupCols T.cols on d).all (fun c => decide (c ∈ T.cols)) then
      return pieces.map (dropDupLast (T.key (dupCols T.cols on d)))
    else throw .keyError
  | _, _ => return pieces

/-- `iter_dataframe`. -/
def iterFrame (T : Table R) (f : Frame R) (maxRg : Option Nat) (sharpOn : Option Col) (dupOn : Option DupOn) :
    Except Err (List (List R)) :=
  match f with
  | .pandas l => iterDataframe T l false maxRg sharpOn dupOn
  | .vaex l => iterVaex T l maxRg sharpOn dupOn

/-- `x.to_numpy()[0]`. -/
def firstOfArray (l : List Int) : Except Err Int :=
  match l with
  | v :: _ => .ok v
  | [] => .error .indexError

/-- `start` and `end` (writer.py 486-493): `iloc[0]` and `iloc[-1]`, or the first values of the slices `[:0]` and `[-1:]`. -/
def frameEnds (T : Table R) (on : Col) : Frame R → Except Err (Int × Int)
  | .pandas l =>
    match l.head?, l.getLast? with
    | some a, some b => .ok (T.get on a, T.get on b)
    | _, _ => .error .indexError
  | .vaex l => do
    let a ← firstOfArray (vaexSlice (l.map (T.get on)) none (some 0))
    let b ← firstOfArray (vaexSlice (l.map (T.get on)) (some (-1)) none)
    .ok (a, b)

/-- Window of recorded row groups (writer.py 484-507). -/
def frameWindow (T : Table R) (rgs : List (RG R)) (f : Frame R) : Option Col → Except Err (Option Nat × Option Nat)
  | none => .ok (none, none)
  | some on => do
    let se ← frameEnds T on f
    .ok (windowOf rgs.length (filterRowGroups T on se.1 se.2 rgs))

/-- Update case (writer.py 545-584): recorded rows are read with vaex, a pandas DataFrame is converted. -/
def frameUpdate (T : Table R) (p : Params) (rgs : List (RG R)) (f : Frame R) (on : Option Col) (start : Nat) (stop : Option Nat) :
    Except Err (List (RG R)) := do
  let e := stop.getD rgs.length
  let overlapping := (rgs.take e).drop start
  if overlapping.isEmpty then throw .noFiles
  let data := match f with
    | .pandas l => l
    | .vaex l => l
  let merged := readRows overlapping ++ data
  let merged := match on with
    | none => merged
    | some c => stableSort (T.get c) merged
  let chunks ← iterFrame T (.vaex merged) p.maxRg on p.dupOn
  let all := writeRowGroups rgs chunks
  let kept := all.take start ++ all.drop e
  let sorted := match stop, on with
    | some _, some c => sortRgs T c kept
    | _, _ => kept
  return renumber sorted

/-- `write` (writer.py 326-615), metadata excluded. -/
def writeFrame (T : Table R) (p : Params) (rgs : List (RG R)) (f : Frame R) : Except Err (List (RG R)) := do
  let on ← checkOrderedOn T p.orderedOn
  if rgs.isEmpty then
    let chunks ← iterFrame T f p.maxRg none none
    return numberFrom 0 chunks
  else
    if p.dupOn.isSome && on.isNone then throw .valueError
    let w ← frameWindow T rgs f on
    let start ← match p.maxNirgs, p.maxRg with
      | none, _ => pure w.1
      | some _, none => throw .typeError
      | some k, some m => pure (coalesce m k rgs f.len w.1 w.2)
    match start with
    | none =>
      let chunks ← iterFrame T f p.maxRg none none
      return writeRowGroups rgs chunks
    | some s => frameUpdate T p rgs f on s w.2

end Oups.Writer
