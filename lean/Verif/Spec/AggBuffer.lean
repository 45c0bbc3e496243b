import Verif.Model.AggBuffer
/-! Vocabulary for successive calls of `cumsegagg` on one `buffer`, each one with its own parameters. -/
namespace Oups.Agg
open Oups.Segment

/-- Parameters of one call: rows, snapshots, aggregations with their configuration, check of zeros. -/
structure DCall (D R : Type) where
  rows : List R
  snapBy : Option Snaps := none
  agg : List (Nat × Nat × Option Fn)
  cfg : List (D × Group)
  check : Bool := false

section
variable {D R B V : Type} (O : D → Ops V) (get : R → Nat → V)

/-- One call. `z` tells that a row has a zero. -/
def DCall.call (k : DCall D R) (z : List (D × Group) → List (List V) → Bool) (b0 : B) (binBy : BinFn R B)
    (left : List R → B → B) (ordered : Option (R → Int)) (buf : DictBuf B V) :
    Except AggErr (Option (Res (List (List V)))) × DictBuf B V :=
  cumsegaggD O get k.cfg (z k.cfg) b0 binBy left ordered k.snapBy k.check k.rows buf

/-- Successive calls, all of which return. -/
def dictRun (z : List (D × Group) → List (List V) → Bool) (b0 : B) (binBy : BinFn R B) (left : List R → B → B)
    (ordered : Option (R → Int)) : List (DCall D R) → DictBuf B V →
    Except AggErr (List (Option (Res (List (List V)))) × DictBuf B V)
  | [], buf => .ok ([], buf)
  | k :: ks, buf =>
    match k.call O get z b0 binBy left ordered buf with
    | (.error e, _) => .error e
    | (.ok r, buf) =>
      match dictRun z b0 binBy left ordered ks buf with
      | .error e => .error e
      | .ok (rs, buf) => .ok (r :: rs, buf)

/-- All rows. -/
def callRows (ks : List (DCall D R)) : List R := ks.flatMap DCall.rows

/-- Column `out` of the bins over successive calls: the last row of a result is replaced by the next ones. `acc`: what precedes. -/
def glueCol (out : Nat) : List (DCall D R) → List (Option (Res (List (List V)))) → List (Int × Option V) →
    List (Int × Option V)
  | k :: ks, some r :: rs, acc =>
    glueCol out ks rs (acc.dropLast ++ r.bins.map fun x => (x.1, x.2.bind (readCol out k.cfg)))
  | _ :: ks, none :: rs, acc => glueCol out ks rs acc
  | _, _, acc => acc

/-- Names of the output columns. -/
def DCall.outs (k : DCall D R) : List Nat := k.agg.map Prod.fst

/-- Calls with rows. -/
def withRows (ks : List (DCall D R)) : List (DCall D R) := ks.filter fun k => !k.rows.isEmpty

/-- Snapshots that are never refused. -/
def Snaps.Free : Snaps → Prop
  | .values _ _ => False
  | _ => True

/-- Successive calls of one kind. -/
def sameRun {S X : Type} (call : List R → S → Except AggErr (X × S)) : List (List R) → S → Except AggErr (List X × S)
  | [], s => .ok ([], s)
  | p :: ps, s =>
    match call p s with
    | .error e => .error e
    | .ok (x, s) =>
      match sameRun call ps s with
      | .error e => .error e
      | .ok (xs, s) => .ok (x :: xs, s)

end
end Oups.Agg
