import Verif.Model.KeySet
/-! Vocabulary for keys of several classes. -/
namespace Oups.KeySet
open Oups.Collection (Op)

variable {K C W : Type}

/-- An operation with a key of class `t` having the same fields. -/
def asClass (t : Nat) : Op K W → Op (Nat × K) W
  | .set key isDf w => .set (key.map fun k => (t, k)) isDf w
  | .del k => .del (t, k)

/-- The same collection, its keys being of class `t`. -/
def Coll.asClass (t : Nat) (s : Coll K C) : Coll (Nat × K) C :=
  ⟨s.basepath, ⟨s.keys.set.map fun k => (t, k), s.keys.list.map fun k => (t, k)⟩, s.fs⟩

end Oups.KeySet
