import Mathlib.Data.List.Basic
import Verif.Spec.Segment
/-! Specification vocabulary for aggregation: aggregates of a column, of bins and of snapshots. -/
namespace Oups.Agg

/-- Operations on the values of a column. -/
structure Ops (V : Type) where
  lt : V → V → Bool
  add : V → V → V
  zero : V

/-- Aggregation functions. -/
inductive Fn where
  | first | last | min | max | sum
  deriving DecidableEq, Repr

namespace Spec
open Oups.Segment.Spec

/-- Reduction of the values from left to right; `none` when there is none. -/
def reduce {V : Type} (op : V → V → V) : List V → Option V
  | [] => none
  | x :: xs => some (xs.foldl op x)

/-- Aggregate of a column; `none` when there is no row. -/
def aggCol {V : Type} (O : Ops V) : Fn → List V → Option V
  | .first, l => l.head?
  | .last, l => l.getLast?
  | .max, l => reduce (fun r v => if O.lt r v then v else r) l
  | .min, l => reduce (fun r v => if O.lt v r then v else r) l
  | .sum, l => reduce O.add l

/-- Rows a snapshot taken at `s` reports: those up to `s` in the bin in progress, i.e. the first bin which does not
end before `s`; none once all bins are over. -/
def snapRows {R : Type} (right : Bool) (pos : R → Int) (s : Int) : List (Bin R) → List R
  | [] => []
  | b :: bs =>
    match b.stop with
    | some e => if e < s then snapRows right pos s bs else b.rows.filter (fun r => within right s (pos r))
    | none => b.rows.filter (fun r => within right s (pos r))

/-- Expected column of bin results: the aggregate of each bin, with its label. -/
def colBins {R V : Type} (O : Ops V) (f : Fn) (col : R → V) (bins : List (Bin R)) : List (Int × Option V) :=
  bins.map fun b => (b.label, aggCol O f (b.rows.map col))

/-- Expected column of snapshot results; `pts`: labels and positions of snapshots. -/
def colSnaps {R V : Type} (O : Ops V) (f : Fn) (col : R → V) (right : Bool) (pos : R → Int) (bins : List (Bin R))
    (pts : List (Int × Int)) : List (Int × Option V) :=
  pts.map fun q => (q.1, aggCol O f ((snapRows right pos q.2 bins).map col))

/-- Bins whose ends separate their rows, as seen from positions: rows of a bin are not after its end, rows of the
next ones are not within it; only the last end may be unknown; ends are in order. -/
def Separated {R : Type} (right : Bool) (pos : R → Int) : List (Bin R) → Prop
  | [] => True
  | b :: bs =>
    (match b.stop with
      | none => bs = []
      | some e => (∀ r ∈ b.rows, pos r ≤ e) ∧
          ∀ b' ∈ bs, (∀ r ∈ b'.rows, within right e (pos r) = false) ∧ ∀ e', b'.stop = some e' → e ≤ e') ∧
    Separated right pos bs

/-- Bins whose rows are not after their ends; only the last end may be unknown; ends are in order. Unlike in
`Separated`, rows of next bins may share the position of the end. -/
def Ended {R : Type} (pos : R → Int) : List (Bin R) → Prop
  | [] => True
  | b :: bs =>
    (match b.stop with
      | none => bs = []
      | some e => (∀ r ∈ b.rows, pos r ≤ e) ∧ ∀ b' ∈ bs, ∀ e', b'.stop = some e' → e ≤ e') ∧
    Ended pos bs

end Spec
end Oups.Agg
