import Mathlib.Data.List.Basic
import Verif.Model.Writer
/-! Specification vocabulary for stored datasets: plain lists of rows, no model helper but data types. -/
namespace Oups.Writer

section
variable {R : Type}

/-- Rows in ascending order of `k`. -/
def SortedOn (k : R → Int) (l : List R) : Prop := l.Pairwise (fun a b => k a ≤ k b)

/-- Rows in strictly ascending order of `k`. -/
def StrictOn (k : R → Int) (l : List R) : Prop := l.Pairwise (fun a b => k a < k b)

/-- Every row of a piece is strictly before every row of a later piece: in particular no value of `k`
occurs in two pieces. -/
def Separated (k : R → Int) (ls : List (List R)) : Prop :=
  ls.Pairwise (fun a b => ∀ x ∈ a, ∀ y ∈ b, k x < k y)

instance (k : R → Int) (l : List R) : Decidable (SortedOn k l) := inferInstanceAs (Decidable (l.Pairwise _))
instance (k : R → Int) (l : List R) : Decidable (StrictOn k l) := inferInstanceAs (Decidable (l.Pairwise _))
instance (k : R → Int) (ls : List (List R)) : Decidable (Separated k ls) :=
  inferInstanceAs (Decidable (ls.Pairwise _))

/-- `after` is the ordered merge of the rows `before` with the new rows `data`: ascending, and for each value
of the ordering column, first the old rows then the new ones, each in their order. -/
def IsMerge (k : R → Int) (before data after : List R) : Prop :=
  SortedOn k after ∧
  ∀ v, after.filter (fun r => k r = v) = before.filter (fun r => k r = v) ++ data.filter (fun r => k r = v)

/-- `after` is `before` updated with `data`, rows being identified by `d`: ascending in `k`, one row per
identifier, the row of `data` if there is one, that of `before` otherwise. -/
def IsUpsert {D : Type} [DecidableEq D] (k : R → Int) (d : R → D) (before data after : List R) : Prop :=
  SortedOn k after ∧ (after.map d).Nodup ∧
  ∀ x, x ∈ after ↔ x ∈ data ∨ (x ∈ before ∧ ∀ y ∈ data, d y ≠ d x)

/-- Row groups that are non-empty, each ascending, and strictly one after the other. -/
def OrderedLayout (k : R → Int) (ls : List (List R)) : Prop :=
  (∀ l ∈ ls, l ≠ [] ∧ SortedOn k l) ∧ Separated k ls

/-- The new rows lie after all recorded row groups `ls`, or at least one row group has a row not before the
first new row and a row not after the last new row: the new rows do not fall in a gap between two row groups
nor before all of them. -/
def NoGap (k : R → Int) (ls : List (List R)) (data : List R) : Prop :=
  (∀ l ∈ ls, ∀ x ∈ l, ∀ y ∈ data, k x < k y) ∨
  ∃ l ∈ ls, (∃ x ∈ l, ∃ a, data.head? = some a ∧ k a ≤ k x) ∧ (∃ x ∈ l, ∃ b, data.getLast? = some b ∧ k x ≤ k b)

/-- The new rows lie after all recorded ones. -/
def AfterAll (k : R → Int) (ls : List (List R)) (data : List R) : Prop :=
  ∀ l ∈ ls, ∀ x ∈ l, ∀ y ∈ data, k x < k y

/-- Rows in ascending order; ties are allowed if the rows do not lie after all recorded ones, or if they number at most
`max_row_group_size`. -/
def TiesKept (k : R → Int) (maxRg : Option Nat) (ls : List (List R)) (data : List R) : Prop :=
  SortedOn k data ∧ (AfterAll k ls data → StrictOn k data ∨ data.length ≤ maxRg.getD 6345000)

/-- With `duplicates_on`, rows that lie after all recorded ones have distinct identifiers. -/
def IdsDistinct (T : Table R) (on : Col) (dup : Option DupOn) (ls : List (List R)) (data : List R) : Prop :=
  AfterAll (T.get on) ls data → ∀ d, dup = some d → (data.map (T.key (dupCols T.cols on d))).Nodup

/-- Conditions under which the coalescing option `max_nirgs` is harmless: the option is not used, or the new
rows are after the first row group, or no recorded row group is 'complete' (90% of the maximum size). -/
def CoalescingSafe (k : R → Int) (maxRg maxNirgs : Option Nat) (ls : List (List R)) (data : List R) : Prop :=
  maxNirgs = none ∨
  (∀ l, ls.head? = some l → ∀ x ∈ l, ∀ y ∈ data, k x < k y) ∨
  (∀ m, maxRg = some m → ∀ l ∈ ls, l.length ≤ m * 9 / 10)

/-- `max_nirgs` is not used, or there is nothing to coalesce: incomplete row groups at the end are fewer than `max_nirgs`, and have, with
the new rows, less than `max_row_group_size` rows. -/
def NotCoalesced (maxRg maxNirgs : Option Nat) (ls : List (List R)) (data : List R) : Prop :=
  ∀ k m, maxNirgs = some k → maxRg = some m →
    (ls.reverse.takeWhile fun l => l.length ≤ m * 9 / 10).length < k ∧
    data.length + ((ls.reverse.takeWhile fun l => l.length ≤ m * 9 / 10).map List.length).sum < m

/-- The columns given as `duplicates_on` exist. -/
def DupKnown (T : Table R) : Option DupOn → Prop
  | none => True
  | some (.one c) => c ∈ T.cols
  | some (.many cs) => ∀ c ∈ cs, c ∈ T.cols

instance (T : Table R) : (d : Option DupOn) → Decidable (DupKnown T d)
  | none => inferInstanceAs (Decidable True)
  | some (.one c) => inferInstanceAs (Decidable (c ∈ T.cols))
  | some (.many cs) => inferInstanceAs (Decidable (∀ c ∈ cs, c ∈ T.cols))

end
end Oups.Writer
