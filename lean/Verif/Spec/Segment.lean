import Mathlib.Data.List.Basic
/-! Specification vocabulary for segmentation: bins as plain lists of rows, no model helper. -/
namespace Oups.Segment.Spec

/-- A bin: its label, its end (`none`: not known yet), its rows. -/
structure Bin (R : Type) where
  label : Int
  stop : Option Int
  rows : List R
  deriving DecidableEq, Repr

/-- A position `v` is within a chunk ending at `e`. -/
def within (right : Bool) (e v : Int) : Bool := if right then decide (v ≤ e) else decide (v < e)

/-- Rows of a frame delimited by successive starts, the first chunk starting at row `from_`. -/
def cut {R : Type} (rows : List R) : Nat → List Nat → List (List R)
  | _, [] => []
  | s, t :: ts => (rows.drop s).take (t - s) :: cut rows t ts

/-- Cell of the fixed grid of step `f` anchored in `a` holding position `x`: `[a + f c, a + f (c+1))` when
left-closed, `(a + f c, a + f (c+1)]` when right-closed. -/
def InCell (right : Bool) (a f c x : Int) : Prop :=
  if right then a + f * c < x ∧ x ≤ a + f * (c + 1) else a + f * c ≤ x ∧ x < a + f * (c + 1)

instance (right : Bool) (a f c x : Int) : Decidable (InCell right a f c x) := by
  unfold InCell; split <;> infer_instance

/-- Bins of the fixed grid: all cells `c0, c0 + 1, .., c0 + n - 1`, each with the rows it holds. -/
def gridBins {R : Type} (right labelRight : Bool) (a f c0 : Int) (n : Nat) (pos : R → Int) (rows : List R) :
    List (Bin R) :=
  (List.range n).map fun (i : Nat) =>
    let c := c0 + i
    ⟨if labelRight then a + f * (c + 1) else a + f * c, some (a + f * (c + 1)),
      rows.filter (fun r => decide (InCell right a f c (pos r)))⟩

/-- `bins` are the bins of `rows` along the grid: the grid cells from that of the first row to that of the last
row, empty ones included. -/
def IsGrid {R : Type} (right labelRight : Bool) (a f : Int) (pos : R → Int) (rows : List R) (bins : List (Bin R)) :
    Prop :=
  match rows.head?, rows.getLast? with
  | some x, some y => ∃ c0 c1 : Int, InCell right a f c0 (pos x) ∧ InCell right a f c1 (pos y) ∧ c0 ≤ c1 ∧
      bins = gridBins right labelRight a f c0 (c1 - c0 + 1).toNat pos rows
  | _, _ => bins = []

/-- Bins of exactly `n` successive rows, a last shorter one apart; labelled with the position of their first row.
The end of a bin is the position of its last row (right-closed), known when the bin is complete, or the position
of the first row of the next bin (left-closed). -/
def IsRowBins {R : Type} (right : Bool) (n : Nat) (pos : R → Int) (rows : List R) (bins : List (Bin R)) : Prop :=
  (bins.map Bin.rows).flatten = rows ∧
  (∀ b ∈ bins, b.rows ≠ [] ∧ b.rows.length ≤ n ∧ b.rows.head?.map pos = some b.label) ∧
  (∀ b ∈ bins.dropLast, b.rows.length = n) ∧
  (∀ (i : Nat) (b : Bin R), bins[i]? = some b →
    b.stop = if right then (if b.rows.length = n then b.rows.getLast?.map pos else none)
      else bins[i + 1]?.bind fun b' => b'.rows.head?.map pos)

/-- Ends, the last one being `none` when it is not known. -/
def stops (ends : List Int) (unknownLast : Bool) : List (Option Int) :=
  if unknownLast then ends.dropLast.map some ++ [none] else ends.map some

/-- The bins described by the arrays a binning function returns. -/
def readBins {R : Type} (starts : List Nat) (labels ends : List Int) (unknownLast : Bool) (rows : List R) :
    List (Bin R) :=
  ((labels.zip (stops ends unknownLast)).zip (cut rows 0 starts)).map fun p => ⟨p.1.1, p.1.2, p.2⟩

/-- Accumulation of the bins of successive calls: the first bin of a call continues the last one so far. -/
def glue {R : Type} (a b : List (Bin R)) : List (Bin R) :=
  match a.getLast?, b with
  | none, b => b
  | some _, [] => a
  | some l, f :: b => a.dropLast ++ ⟨f.label, f.stop, l.rows ++ f.rows⟩ :: b

end Oups.Segment.Spec
