import Verif.Model.SeedIter
/-! Specification of seed iteration: which rows are to be delivered to the keys of a filter. -/
namespace Oups.AggStream
variable {F R P : Type}

/-- The frames delivered for a filter, concatenated. -/
def delivered [DecidableEq F] (id : F) (ys : List (Yield F R)) : List R :=
  (ys.filter fun y => decide (y.filt = id)).flatMap Yield.rows

/-- The index from which to start again, after the given yields. -/
def restartAfter (r : Option Int) (ys : List (Yield F R)) : Option Int :=
  match ys.getLast? with
  | some y => some y.last
  | none => r

/-- Ascending values of `ordered_on`. -/
def Ascending (ord : R → Int) (rows : List R) : Prop := rows.Pairwise fun a b => ord a ≤ ord b

/-- The chunks after `pre`. -/
def preprocessed (pre : Option (Pre R P)) : P → List (List R) → List (List R)
  | _, [] => []
  | pb, c :: cs =>
    match pre with
    | none => c :: preprocessed pre pb cs
    | some f => (f c pb).1 :: preprocessed pre (f c pb).2.1 cs

/-- `p` tells the rows a filter keeps, whenever the filter does not raise. -/
def RowFilter (f : Filt R) (p : R → Bool) : Prop :=
  match f with
  | none => ∀ r, p r = true
  | some g => ∀ l m, g l = .ok m → m = l.map p

/-- Row `r` of a seed is not before the restart index. -/
def notBefore (ord : R → Int) (restart : Option Int) (r : R) : Bool :=
  match restart with
  | some t => decide (t ≤ ord r)
  | none => true

/-- Row `r` is not in the last row group of `seed`: some row of `seed` has a greater value. -/
def notLast (ord : R → Int) (seed : List R) (r : R) : Bool := seed.any fun s => decide (ord r < ord s)

/-- The chunk is not in order, or `pre` raises. -/
def fails (ord : R → Int) (pre : Option (Pre R P)) (pb : P) (c : List R) : Bool :=
  !isAscending (c.map ord) || (runPre pre c pb).2.2

/-- The buffer as left by a failing chunk. -/
def failBuffer (ord : R → Int) (pre : Option (Pre R P)) (pb : P) (c : List R) : P :=
  if isAscending (c.map ord) then (runPre pre c pb).2.1 else pb

end Oups.AggStream
