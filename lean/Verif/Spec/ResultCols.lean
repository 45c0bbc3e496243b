import Verif.Spec.KeysConfig
/-! What columns of aggregation results are expected to be. -/
namespace Oups.ResultCols

/-- Column of labels: the second item of `bin_on`, or `bin_on`, or `ordered_on` of the stream. -/
def label (seedOn : Nat) (inp out : Option Nat) : Nat := out.getD (inp.getD seedOn)

end Oups.ResultCols
