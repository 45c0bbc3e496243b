import Verif.Model.KeysConfig
/-! What the configuration of a key is expected to be. -/
namespace Oups.KeysConfig
open Oups.Segment (BinBy SnapBy SegConfig setupSegmentby)

/-- Value that applies for parameter `p`: the one given for the key, or the one given for the stream. The size limit of
a key is in megabytes. -/
def effective (default conf : Dict) (p : String) : Option Val :=
  if p = "max_in_memory_size_b" then
    match conf.get "max_in_memory_size" with
    | some (.size n) => some (.size (n * 1048576))
    | _ => (conf.get p).or (default.get p)
  else (conf.get p).or (default.get p)

/-- Column names given by `bin_on`: of the seed, of results. -/
def BinOnIs (v : Option Val) (inp out : Option Nat) : Prop :=
  ((v = none ∨ v = some .none) ∧ inp = none ∧ out = none) ∨ (∃ c, v = some (.name c) ∧ inp = some c ∧ out = none) ∨
    ∃ c o, v = some (.pair (.name c) (.name o)) ∧ inp = some c ∧ out = some o

/-- What `snap_by` means. -/
def SnapIs (v : Option Val) (s : Option SnapBy) : Prop :=
  (v = some .none ∧ s = none) ∨ ∃ x, v = some (.snapBy x) ∧ s = some x

/-- `p` has a value other than `None`. -/
def Given (v : Option Val) : Prop := v ≠ none ∧ v ≠ some .none

end Oups.KeysConfig
