import Verif.Model.Handle
import Verif.Spec.Writer
/-! Specification vocabulary for handles: the dataset as a value, which changes by writes only. -/
namespace Oups.Writer

variable {R M : Type}

/-- Row groups and metadata of a dataset; no metadata as long as it does not exist. -/
structure Snap (R M : Type) where
  rgs : List (RG R)
  kv : Option M

/-- The dataset after one event: handles and what they read have no effect. -/
def Snap.after (T : Table R) (kv0 : M) (s : Snap R M) : Ev R M → Snap R M
  | .write p data upd =>
    match write T p s.rgs data with
    | .error _ => s
    | .ok rgs => ⟨rgs, some (upd (if s.rgs.isEmpty then kv0 else s.kv.getD kv0))⟩
  | .mark upd => { s with kv := s.kv.map upd }
  | _ => s

/-- The dataset after the events, from nothing. -/
def dataset (T : Table R) (kv0 : M) (evs : List (Ev R M)) : Snap R M := evs.foldl (Snap.after T kv0) ⟨[], none⟩

/-- Metadata are not written through a handle kept by the user. -/
def NoMarkBy (evs : List (Ev R M)) : Prop := ∀ i upd, Ev.markBy i upd ∉ evs

/-- Handle `i` is not used for `pf` nor metadata. -/
def NotLooked (i : Nat) (evs : List (Ev R M)) : Prop := Ev.look i ∉ evs ∧ ∀ upd, Ev.markBy i upd ∉ evs

/-- The new rows are put after all recorded ones: not ordered, or after them. -/
def IsAppend (T : Table R) (rgs : List (RG R)) (p : Params) (data : List R) : Prop :=
  NotCoalesced p.maxRg p.maxNirgs (rgs.map RG.rows) data ∧ (p.orderedOn = none ∨ ∃ on, p.orderedOn = some (.col on) ∧
    ∀ g ∈ rgs, ∀ x ∈ g.rows, ∀ y ∈ data, T.get on x < T.get on y)

/-- Writes of `b`, made after `a`, are appends, or fail. -/
def AppendsAfter (T : Table R) (kv0 : M) (a b : List (Ev R M)) : Prop :=
  ∀ b1 p data upd b2, b = b1 ++ Ev.write p data upd :: b2 → IsAppend T (dataset T kv0 (a ++ b1)).rgs p data

end Oups.Writer
