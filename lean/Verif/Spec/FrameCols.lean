import Verif.Model.FrameCols
/-! What frames and datasets with other columns mean, independently of how `write` goes about them. -/
namespace Oups.FrameCols
open Writer

/-- Names of columns are distinct, rows have a value in each. -/
def Frame.Ok (f : Frame) : Prop := f.cols.Nodup ∧ ∀ r ∈ f.rows, r.length = f.cols.length

/-- Same for a dataset; row groups are not empty. -/
def Data.Ok (d : Data) : Prop :=
  d.cols.Nodup ∧ ∀ g ∈ d.rgs, g.rows ≠ [] ∧ ∀ r ∈ g.rows, r.length = d.cols.length

/-- The frame restricted to some columns, in this order. -/
def Frame.restrict (f : Frame) (cols : List Col) : List (List Int) :=
  f.rows.map fun r => cols.map fun c => (cell f.cols r c).getD 0

/-- Rows of a dataset with these columns, as values. -/
def rowTable (cols : List Col) : Table (List Int) := ⟨cols, fun c r => (cell cols r c).getD 0⟩

/-- Columns that `write` compares. -/
def compared (p : Params) : List Col :=
  (match p.orderedOn with
    | some (.col c) => [c]
    | _ => []) ++
  (match p.dupOn with
    | some (.one c) => [c]
    | some (.many cs) => cs
    | none => [])

end Oups.FrameCols
