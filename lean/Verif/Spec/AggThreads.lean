import Verif.Model.AggThreads
import Verif.Spec.AggStream
/-! Vocabulary for keys processed by threads. -/
namespace Oups.AggStream

section
variable {K R A S P Q M F : Type} [DecidableEq K]

/-- No item in `OUPS_METADATA`. -/
def clean (w : World K A M) : K → Cell A M := fun k => ⟨w k, none⟩

/-- Steps of an operation. -/
def opActs (cfg : KeyCfg K R A S Q) (truthy : Int → Bool) (op : KOp R P) (st : KeyBuf A S Q) :
    List (K × Act A (Md S P Q)) :=
  match op with
  | .chunk _ => iterActs cfg truthy st
  | .final r pb => postActs cfg truthy true (r.map fun i => (i, pb)) st

/-- Steps of thread `i` in a schedule. -/
def stepsOf (i : Nat) (l : List (Nat × K × Act A M)) : List (K × Act A M) :=
  l.filterMap fun x => if x.1 = i then some x.2 else none

end
end Oups.AggStream
