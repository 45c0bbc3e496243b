import Verif.Spec.Writer
/-! When a write with `max_nirgs` has nothing to merge the new rows with: plain lists of rows. -/
namespace Oups.Writer
variable {R : Type}

/-- Row group `l` has a row not before the first new row, and a row not after the last new row. -/
def Touches (k : R → Int) (data l : List R) : Prop :=
  (∃ x ∈ l, ∃ a, data.head? = some a ∧ k a ≤ k x) ∧ (∃ x ∈ l, ∃ b, data.getLast? = some b ∧ k x ≤ k b)

/-- The last row group is complete (more than 90% of `max_row_group_size`), and either the new rows are `max_row_group_size` or more,
or `max_nirgs` is 0. -/
def FullAtEnd (m k : Nat) (ls : List (List R)) (data : List R) : Prop :=
  (∃ l, ls.getLast? = some l ∧ m * 9 / 10 < l.length) ∧ (m ≤ data.length ∨ k = 0)

/-- No row group is touched, or the first one is, either alone, or with the last one. -/
def NoneOrFirst (touch : List R → Prop) (ls : List (List R)) : Prop :=
  (∀ l ∈ ls, ¬ touch l) ∨
  (∃ l, ls.head? = some l ∧ touch l) ∧ ((∀ l ∈ ls.tail, ¬ touch l) ∨ ∃ l, ls.getLast? = some l ∧ touch l)

end Oups.Writer
