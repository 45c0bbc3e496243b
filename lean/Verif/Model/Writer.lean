import Mathlib.Data.List.Sort
/-
Model of `/repo/oups/store/writer.py`: `iter_dataframe` and `write`.

Simplifications
* A row is an element of any type `R`; `Table.get` gives, for a column, the value used to order and compare
  rows, as an integer.  `Table.cols` are the columns of the frame; new data and recorded data have the same columns.
* A dataset is the list of its row groups, one file each, with the number of the part file (`part.N.parquet`).
  The dataset "exists" (writer.py 456) iff it has at least one row group.
* An empty chunk gives no row group (fastparquet `make_row_group` returns without writing).
* `int(max_row_group_size * 0.9)` is `max_row_group_size * 9 / 10` (exact for row group sizes below 2^50: `C18_size_float`).
* `vaex` sort is stable; it is modelled by insertion sort.
* Column names are non-empty strings, modelled by numbers.  Column multi-index is not modelled.
-/
namespace Oups.Writer

abbrev Col := Nat

structure Table (R : Type) where
  cols : List Col
  get : Col → R → Int

inductive Err
  | typeError
  | valueError
  | indexError
  | zeroDivision
  /-- `open_many([])`: vaex cannot concatenate an empty list of files. -/
  | noFiles
  /-- `drop_duplicates` on a column that does not exist. -/
  | keyError
deriving DecidableEq, Repr

/-- Value of `ordered_on`: a column, or a tuple. -/
inductive OrdOn
  | col (c : Col)
  | tuple
deriving DecidableEq, Repr

/-- Value of `duplicates_on`: a column, or a list of columns. -/
inductive DupOn
  | one (c : Col)
  | many (cs : List Col)
deriving DecidableEq, Repr

/-- `MAX_ROW_GROUP_SIZE` (writer.py 31). -/
def defaultMaxRg : Nat := 6345000

/-! ### iter_dataframe -/

/-- `list(range(0, n, size))`, `size > 0`. -/
def rangeStep (n size : Nat) : List Nat := (List.range ((n + size - 1) / size)).map (· * size)

/-- Starts of the bins (writer.py 120-129). -/
def partStarts (n maxRg : Nat) : List Nat :=
  if n = 0 then [0]
  else
    let nParts := (n - 1) / maxRg + 1
    let rgSize := min ((n - 1) / nParts + 1) n
    rangeStep n rgSize

/-- `np_searchsorted(l, v)`, side left, on an ascending array. -/
def searchsortedLeft (l : List Int) (v : Int) : Nat := (l.takeWhile (· < v)).length

/-- Insertion in an ascending list without repetition. -/
def insertUnique (x : Nat) : List Nat → List Nat
  | [] => [x]
  | y :: ys => if x < y then x :: y :: ys else if x = y then y :: ys else y :: insertUnique x ys

/-- `np_unique(l)`. -/
def npUnique (l : List Nat) : List Nat := l.foldr insertUnique []

/-- Slices `data[start:end] for start, end in zip(starts, starts[1:] + [None])` (writer.py 143, 149, 163). -/
def slices {α : Type} (l : List α) : List Nat → List (List α)
  | [] => []
  | [s] => [l.drop s]
  | s :: e :: r => (l.drop s).take (e - s) :: slices l (e :: r)

/-- `drop_duplicates(cols, keep="last")`, rows being compared through `k`. -/
def dropDupLast {α κ : Type} [DecidableEq κ] (k : α → κ) : List α → List α
  | [] => []
  | x :: xs => if xs.any (fun y => k y == k x) then dropDupLast k xs else x :: dropDupLast k xs

/-- Columns identifying duplicates, once `sharp_on` / `ordered_on` is enforced in it (writer.py 106-119 and
463-483) and an empty list replaced by all columns (writer.py 146-148). -/
def dupCols (allCols : List Col) (on : Col) : DupOn → List Col
  | .one c => if c = on then [c] else [c, on]
  | .many [] => allCols
  | .many cs => if on ∈ cs then cs else cs ++ [on]

/-- Values of a row in some columns. -/
def Table.key {R : Type} (T : Table R) (cs : List Col) (r : R) : List Int := cs.map fun c => T.get c r

/-- `iter_dataframe` (writer.py 49-164). -/
def iterDataframe {R : Type} (T : Table R) (data : List R) (isVaex : Bool) (maxRg : Option Nat)
    (sharpOn : Option Col) (dupOn : Option DupOn) : Except Err (List (List R)) := do
  let maxRg := maxRg.getD defaultMaxRg
  let dupIsList := match dupOn with
    | some (.many _) => true
    | _ => false
  if !isVaex && (sharpOn.isSome || dupIsList) then throw .typeError
  if dupOn.isSome && sharpOn.isNone then throw .valueError
  if data.length ≠ 0 && maxRg = 0 then throw .zeroDivision
  let starts := partStarts data.length maxRg
  match sharpOn with
  | none => return slices data starts
  | some on =>
    if data.length = 0 then throw .indexError
    let values := data.map (T.get on)
    let valAtStart := starts.filterMap (fun i => values[i]?)
    let starts := npUnique (valAtStart.map (searchsortedLeft values))
    match dupOn with
    | none => return slices data starts
    | some d =>
      if (dupCols T.cols on d).all (fun c => decide (c ∈ T.cols)) then
        return (slices data starts).map (dropDupLast (T.key (dupCols T.cols on d)))
      else throw .keyError

/-! ### write -/

/-- A recorded row group: number of its part file, rows. -/
structure RG (R : Type) where
  id : Nat
  rows : List R
deriving DecidableEq, Repr

structure Params where
  maxRg : Option Nat := none
  orderedOn : Option OrdOn := none
  dupOn : Option DupOn := none
  maxNirgs : Option Nat := none

/-- Rows of the dataset, in order (`ParquetFile.to_pandas`). -/
def readRows {R : Type} (rgs : List (RG R)) : List R := (rgs.map RG.rows).flatten

/-- fastparquet `find_max_part`: 1 + largest part number, 0 if none. -/
def nextId {R : Type} (rgs : List (RG R)) : Nat := (rgs.map (fun g => g.id + 1)).foldr max 0

/-- Numbering of the frames of an iterator, empty ones giving no row group. -/
def numberFrom {R : Type} : Nat → List (List R) → List (RG R)
  | _, [] => []
  | i, c :: cs => if c.isEmpty then numberFrom (i + 1) cs else ⟨i, c⟩ :: numberFrom (i + 1) cs

/-- `pf.write_row_groups(data=iter_data, sort_pnames=False)` (writer.py 538, 566, 607). -/
def writeRowGroups {R : Type} (rgs : List (RG R)) (chunks : List (List R)) : List (RG R) :=
  rgs ++ numberFrom (nextId rgs) chunks

/-- `pf._sort_part_names()` (writer.py 584): part numbers become the positions. -/
def renumber {R : Type} (rgs : List (RG R)) : List (RG R) :=
  (rgs.zipIdx).map fun p => ⟨p.2, p.1.rows⟩

/-- Statistics of a row group. -/
def rgMin {R : Type} (T : Table R) (on : Col) (g : RG R) : Option Int := (g.rows.map (T.get on)).min?
def rgMax {R : Type} (T : Table R) (on : Col) (g : RG R) : Option Int := (g.rows.map (T.get on)).max?

/-- Does a row group pass `[[(on, ">=", start), (on, "<=", end)]]` (writer.py 494-498)? -/
def overlaps {R : Type} (T : Table R) (on : Col) (start stop : Int) (g : RG R) : Bool :=
  match rgMin T on g, rgMax T on g with
  | some m, some M => start ≤ M && m ≤ stop
  | _, _ => false

/-- `filter_row_groups(pf, ..., as_idx=True)`. -/
def filterRowGroups {R : Type} (T : Table R) (on : Col) (start stop : Int) (rgs : List (RG R)) : List Nat :=
  (rgs.zipIdx.filter (fun p => overlaps T on start stop p.1)).map Prod.snd

/-- `rrg_start_idx`, `rrg_end_idx` (writer.py 499-507). -/
def windowOf (nRgs : Nat) (idxs : List Nat) : Option Nat × Option Nat :=
  match idxs with
  | [] => (none, none)
  | [i] => (some i, none)
  | i :: j :: rest =>
    let last := (j :: rest).getLast (by simp)
    (some i, if last + 1 = nRgs then none else some (last + 1))

/-- Row groups at the end of the dataset with at most `minSize` rows (writer.py 511-517). -/
def trailing {R : Type} (minSize : Nat) (rgs : List (RG R)) : List (RG R) :=
  rgs.reverse.takeWhile (fun g => g.rows.length ≤ minSize)

/-- Coalescing decision (writer.py 508-532) for a given `max_row_group_size` and `max_nirgs`; Python's
truth value of an index: neither `None` nor 0. -/
def coalesce {R : Type} (maxRg maxNirgs : Nat) (rgs : List (RG R)) (nData : Nat)
    (start stop : Option Nat) : Option Nat :=
  let irgs := trailing (maxRg * 9 / 10) rgs
  let total := nData + (irgs.map (fun g => g.rows.length)).sum
  let tmp := rgs.length - irgs.length
  let nIrgs := rgs.length - tmp
  if total ≥ maxRg || nIrgs ≥ maxNirgs then
    match start, stop with
    | some (s + 1), none => some (min tmp (s + 1))
    | some (s + 1), some e => if tmp < e then some (min tmp (s + 1)) else some (s + 1)
    | some 0, none => some tmp
    | none, none => some tmp
    | s, some _ => s
  else start

/-- Stable sort on a column (`data.sort(by=ordered_on)`, writer.py 558; also the sort of line 579). -/
def stableSort {α : Type} (k : α → Int) (l : List α) : List α := l.insertionSort (fun a b => k a ≤ k b)

/-- Sort of row groups on 'max' (writer.py 579-582). -/
def sortRgs {R : Type} (T : Table R) (on : Col) (rgs : List (RG R)) : List (RG R) :=
  stableSort (fun g => (rgMax T on g).getD 0) rgs

/-- Validation of `ordered_on` (writer.py 444-455). -/
def checkOrderedOn {R : Type} (T : Table R) : Option OrdOn → Except Err (Option Col)
  | none => .ok none
  | some .tuple => .error .typeError
  | some (.col c) => if c ∈ T.cols then .ok (some c) else .error .valueError

/-- Window of recorded row groups overlapping with new data (writer.py 484-507). -/
def overlapWindow {R : Type} (T : Table R) (rgs : List (RG R)) (data : List R) :
    Option Col → Except Err (Option Nat × Option Nat)
  | none => .ok (none, none)
  | some on =>
    match data.head?, data.getLast? with
    | some a, some b =>
      .ok (windowOf rgs.length (filterRowGroups T on (T.get on a) (T.get on b) rgs))
    | _, _ => .error .indexError

/-- Update case (writer.py 545-584): row groups `start:stop` are merged with the data. -/
def writeUpdate {R : Type} (T : Table R) (p : Params) (rgs : List (RG R)) (data : List R)
    (on : Option Col) (start : Nat) (stop : Option Nat) : Except Err (List (RG R)) := do
  let e := stop.getD rgs.length
  let overlapping := (rgs.take e).drop start
  if overlapping.isEmpty then throw .noFiles
  let merged := readRows overlapping ++ data
  let merged := match on with
    | none => merged
    | some c => stableSort (T.get c) merged
  let chunks ← iterDataframe T merged true p.maxRg on p.dupOn
  let all := writeRowGroups rgs chunks
  -- removal of the overlapping row groups
  let kept := all.take start ++ all.drop e
  let sorted := match stop, on with
    | some _, some c => sortRgs T c kept
    | _, _ => kept
  return renumber sorted

/-- `write` (writer.py 326-615), metadata excluded. -/
def write {R : Type} (T : Table R) (p : Params) (rgs : List (RG R)) (data : List R) :
    Except Err (List (RG R)) := do
  let on ← checkOrderedOn T p.orderedOn
  if rgs.isEmpty then
    -- case initiating a new dataset (writer.py 585-613)
    let chunks ← iterDataframe T data false p.maxRg none none
    return numberFrom 0 chunks
  else
    if p.dupOn.isSome && on.isNone then throw .valueError
    let w ← overlapWindow T rgs data on
    let start ← match p.maxNirgs, p.maxRg with
      | none, _ => pure w.1
      | some _, none => throw .typeError
      | some k, some m => pure (coalesce m k rgs data.length w.1 w.2)
    match start with
    | none =>
      -- case 'appending' (writer.py 533-544)
      let chunks ← iterDataframe T data false p.maxRg none none
      return writeRowGroups rgs chunks
    | some s => writeUpdate T p rgs data on s w.2

/-- The list given by the caller as `duplicates_on`, after `write`: `ordered_on` is appended to it in place
(writer.py 476-479) when the dataset exists; the other branches bind a new list, or leave it as it is. -/
def listAfter {R : Type} (p : Params) (rgs : List (RG R)) : Option DupOn :=
  match p.dupOn, p.orderedOn with
  | some (.many (c :: cs)), some (.col on) =>
    if rgs.isEmpty then p.dupOn
    else if on ∈ c :: cs then p.dupOn else some (.many (c :: cs ++ [on]))
  | d, _ => d

end Oups.Writer
