import Verif.Spec.AggStore
/-! A process in which a final write was stopped: items left in `OUPS_METADATA`. -/
namespace Oups.AggStream

section
variable {K A M : Type} [DecidableEq K]

/-- Datasets `w`, and items `pend` in `OUPS_METADATA`. -/
def pended (w : World K A M) (pend : K → Option M) : K → Cell A M := fun k => ⟨w k, pend k⟩

/-- Is a step a write of rows in the dataset of `k`? -/
def WritesTo (k : K) (x : K × Act A M) : Prop := ∃ T p rows, x = (k, .store T p rows)

end
end Oups.AggStream
