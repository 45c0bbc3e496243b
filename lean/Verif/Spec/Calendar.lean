import Verif.Spec.Segment
/-! Specification of bins along dates in order, whatever the time between them. No model helper. -/
namespace Oups.Segment.Spec

/-- Position `x` is between the edges `c` and `c + 1`. -/
def InSpan (right : Bool) (e : Int → Int) (c x : Int) : Prop :=
  if right then e c < x ∧ x ≤ e (c + 1) else e c ≤ x ∧ x < e (c + 1)

instance (right : Bool) (e : Int → Int) (c x : Int) : Decidable (InSpan right e c x) := by
  unfold InSpan; split <;> infer_instance

/-- Bins between the edges `c0, c0 + 1, .., c0 + n`, each with the rows it holds. -/
def spanBins {R : Type} (right labelRight : Bool) (e : Int → Int) (c0 : Int) (n : Nat) (pos : R → Int) (rows : List R) :
    List (Bin R) :=
  (List.range n).map fun (i : Nat) =>
    let c := c0 + i
    ⟨if labelRight then e (c + 1) else e c, some (e (c + 1)), rows.filter (fun r => decide (InSpan right e c (pos r)))⟩

/-- Edges taken every `n` dates, from date number `i`. -/
def everyDate (date : Int → Int) (n i c : Int) : Int := date (i + n * c)

/-- Number `i` of the date at which bins start, given the first row `x`: the last date not after it when left-closed; when
right-closed, the one such that date `i + n` is the first date not before the day of `x`. -/
def FirstDate (right : Bool) (date : Int → Int) (n day i x : Int) : Prop :=
  if right then date (i + n - 1) < x - x % day ∧ x - x % day ≤ date (i + n) else date i ≤ x ∧ x < date (i + 1)

/-- `bins` are the bins of `rows` every `n` dates: from the date given by the first row, to the bin of the last row, empty
ones included. -/
def IsCalendar {R : Type} (right labelRight : Bool) (date : Int → Int) (n day : Int) (pos : R → Int) (rows : List R)
    (bins : List (Bin R)) : Prop :=
  match rows.head?, rows.getLast? with
  | some x, some y => ∃ (i : Int) (m : Nat), FirstDate right date n day i (pos x) ∧
      InSpan right (everyDate date n i) m (pos y) ∧
      bins = spanBins right labelRight (everyDate date n i) 0 (m + 1) pos rows
  | _, _ => bins = []

/-- Leap years of the Gregorian calendar. -/
def Leap (y : Int) : Prop := y % 4 = 0 ∧ (y % 100 ≠ 0 ∨ y % 400 = 0)

instance (y : Int) : Decidable (Leap y) := by unfold Leap; infer_instance

/-- Days of month `k` (0 for January) of year `y`. -/
def daysIn (y k : Int) : Int :=
  if k = 1 then (if Leap y then 29 else 28) else if k = 3 ∨ k = 5 ∨ k = 8 ∨ k = 10 then 30 else 31

end Oups.Segment.Spec
