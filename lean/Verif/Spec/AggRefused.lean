import Verif.Spec.AggBuffer
/-! Vocabulary for calls of `cumsegagg` whose exceptions are caught by the caller. -/
namespace Oups.Agg
open Oups.Segment

section
variable {D R B V : Type} (O : D → Ops V) (get : R → Nat → V)

/-- What a call gives: a result or an exception. -/
abbrev Outcome (V : Type) := Except AggErr (Option (Res (List (List V))))

/-- Successive calls, whatever they raise: what each one gives, and the dict at the end. -/
def dictTry (z : List (D × Group) → List (List V) → Bool) (b0 : B) (binBy : BinFn R B) (left : List R → B → B)
    (ordered : Option (R → Int)) : List (DCall D R) → DictBuf B V → List (Outcome V) × DictBuf B V
  | [], buf => ([], buf)
  | k :: ks, buf =>
    let o := k.call O get z b0 binBy left ordered buf
    let os := dictTry z b0 binBy left ordered ks o.2
    (o.1 :: os.1, os.2)

/-- Calls that returned, each one with its result. -/
def returned : List (DCall D R) → List (Outcome V) → List (DCall D R × Option (Res (List (List V))))
  | k :: ks, .ok r :: os => (k, r) :: returned ks os
  | _ :: ks, .error _ :: os => returned ks os
  | _, _ => []

end
end Oups.Agg
