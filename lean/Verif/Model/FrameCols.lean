import Verif.Model.Writer
/-!
Columns of the frames given to `write` (/repo/oups/store/writer.py 326-615) when they are not those of the dataset.

* `ordered_on` is looked for in the columns of the frame (444-455).
* Appending (533-544): fastparquet `make_row_group` writes the columns of the schema of the dataset, looked up by name in the frame: other
  columns of the frame are not written, and a column that the frame does not have raises `KeyError`. As the data is given as an iterator,
  fastparquet does not compare names of columns beforehand.
* Updating (545-584): `recorded.concat(data)` has the columns of both; rows are sorted and duplicates dropped with these columns; then
  the columns of the schema are written.
* First write (585-613): the schema is made from the frame.

Simplifications
* Values are integers. A value missing in a column of the concatenation is `none`; `drop_duplicates` takes missing values as equal.
* An update with a frame lacking a recorded column, and `ordered_on` being a column of the frame that is not recorded, are not modelled
  (`notModelled`): what is written then depends on the types of columns.
-/
namespace Oups.FrameCols
open Writer

/-- A frame: names of its columns, rows as the values in these columns. -/
structure Frame where
  cols : List Col
  rows : List (List Int)

/-- A dataset: columns of its schema, row groups. Without row group there is no dataset (456). -/
structure Data where
  cols : List Col := []
  rgs : List (RG (List Int)) := []
deriving DecidableEq, Repr

inductive Err
  | write (e : Writer.Err)
  /-- `KeyError` of fastparquet. -/
  | missing
  | notModelled
deriving DecidableEq, Repr

/-- Value of a row in a column, given the columns. -/
def cell (cols : List Col) (row : List Int) (c : Col) : Option Int := (cols.zip row).lookup c

/-- Row of the concatenation: its value in each column. -/
abbrev Wide := Col → Option Int

/-- Numbers standing for values, in the order of values, and for the missing value. -/
def code : Option Int → Int
  | none => 1
  | some v => 2 * v

/-- Columns of `recorded.concat(data)`. -/
def concatCols (recorded new : List Col) : List Col := recorded ++ new.filter fun c => decide (c ∉ recorded)

/-- Table of a frame with these columns. -/
def wideTable (cols : List Col) : Table Wide := ⟨cols, fun c w => code (w c)⟩

/-- What is written of a row: the columns of the schema. -/
def narrow (cols : List Col) (w : Wide) : List Int := cols.map fun c => (w c).getD 0

def mapRG {R R' : Type} (φ : R → R') (g : RG R) : RG R' := ⟨g.id, g.rows.map φ⟩

/-- Is the write an append? (484-544) -/
def appends {R : Type} (T : Table R) (p : Params) (rgs : List (RG R)) (data : List R) : Bool :=
  match checkOrderedOn T p.orderedOn with
  | .error _ => false
  | .ok on =>
    match overlapWindow T rgs data on with
    | .error _ => false
    | .ok w =>
      match p.maxNirgs, p.maxRg with
      | none, _ => w.1.isNone
      | some _, none => false
      | some k, some m => (coalesce m k rgs data.length w.1 w.2).isNone

/-- `write` of a frame on a dataset. -/
def writeFrame (p : Params) (d : Data) (f : Frame) : Except Err Data :=
  match checkOrderedOn (wideTable f.cols) p.orderedOn with
  | .error e => .error (.write e)
  | .ok on =>
    let new : List Wide := f.rows.map (cell f.cols)
    if d.rgs.isEmpty then
      match Writer.write (wideTable f.cols) p [] new with
      | .error e => .error (.write e)
      | .ok rgs => .ok ⟨f.cols, rgs.map (mapRG (narrow f.cols))⟩
    else if on.any (fun c => decide (c ∉ d.cols)) then .error .notModelled
    else
      let T := wideTable (concatCols d.cols f.cols)
      let old : List (RG Wide) := d.rgs.map (mapRG (cell d.cols))
      match Writer.write T p old new with
      | .error e => .error (.write e)
      | .ok rgs =>
        if d.cols.all (fun c => decide (c ∈ f.cols)) then .ok { d with rgs := rgs.map (mapRG (narrow d.cols)) }
        else if !appends T p old new then .error .notModelled
        else if new.isEmpty then .ok d
        else .error .missing

/-- Successive writes; a refused one leaves the dataset as it is. -/
def writeAll (d : Data) : List (Params × Frame) → Data
  | [] => d
  | (p, f) :: l =>
    match writeFrame p d f with
    | .ok d' => writeAll d' l
    | .error _ => writeAll d l

end Oups.FrameCols
