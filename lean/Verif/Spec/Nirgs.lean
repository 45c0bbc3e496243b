import Verif.Spec.Writer
/-! Incomplete row groups, for property C88: plain lists of rows. -/
namespace Oups.Writer
variable {R : Type}

/-- Row groups of 90% of `max_row_group_size` or less. -/
def Incomplete (m : Nat) (l : List R) : Prop := l.length ≤ m * 9 / 10

/-- No more than `b` incomplete row groups in a row. -/
def AtMostInARow (b m : Nat) (ls : List (List R)) : Prop :=
  ∀ A W B, ls = A ++ W ++ B → (∀ l ∈ W, Incomplete m l) → W.length ≤ b

end Oups.Writer
