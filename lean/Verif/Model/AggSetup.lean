import Verif.Model.AggStream
/-
Model of `/repo/oups/aggstream/aggstream.py`: `AggStream._init_agg_cs`, and its use in `AggStream.agg` (1466-1476).

Simplifications
* A frame is its rows, and the dtype of each of its columns. What `cumsegagg` does with frames of other dtypes than
  the first one is not described.
* `agg_cs` is filled in the order of `keys_config`: it is the list of the configurations of the first keys.
* After `ValueError` or `StopIteration`, the caller may go on with the same `AggStream`, and a new seed.
-/
namespace Oups.AggStream
open Oups.Agg (Res AggErr Fn Group SetupErr setupCumsegagg)

section
variable {K R A S P Q F D : Type} [DecidableEq K] [DecidableEq F] [DecidableEq D]

structure SeedFrame (R D : Type) where
  rows : List R
  dtype : Nat → Option D

/-- Parameter `seed` of `agg`. -/
inductive Seed (R D : Type) where
  | none
  | frame (f : SeedFrame R D)
  | list (l : List (SeedFrame R D))
  | generator (l : List (SeedFrame R D))

/-- Frames, in turn (1466-1468). -/
def Seed.frames : Seed R D → List (SeedFrame R D)
  | .none => []
  | .frame f => [f]
  | .list l => l
  | .generator l => l

/-- `if seed:` (1470). -/
def Seed.truthy : Seed R D → Bool
  | .none => false
  | .frame _ => true
  | .list l => !l.isEmpty
  | .generator _ => true

/-- Call to `agg`. -/
structure SeedCall (R D : Type) where
  seed : Seed R D
  trimStart : Bool := false
  discardLast : Bool := false
  finalWrite : Bool := true

/-- A key: `agg_pd[key]`, and `cumsegagg` for a configuration. `key.call` is not used. -/
structure KeySetup (K R A S Q D : Type) where
  key : KeyCfg K R A S Q
  aggPd : List (Nat × Nat × Option Fn)
  callOf : List (D × Group) → List R → S → Except AggErr (Option (Res A) × S)

/-- Attributes set by the constructor. -/
structure Setup (K R A S P Q F D : Type) where
  ord : R → Int
  pre : Option (Pre R P) := none
  filters : List (F × Filt R)
  keys : List (F × KeySetup K R A S Q D)
  truthy : Int → Bool

/-- `self.agg_cs[key]` for the first keys; the others raise `KeyError` (1491). -/
def withCs : List (F × KeySetup K R A S Q D) → List (List (D × Group)) → List (F × KeyCfg K R A S Q)
  | [], _ => []
  | (f, k) :: ks, [] => (f, { k.key with call := fun _ _ => .error .noConfig }) :: withCs ks []
  | (f, k) :: ks, g :: cs => (f, { k.key with call := k.callOf g }) :: withCs ks cs

def Setup.config (c : Setup K R A S P Q F D) (cs : List (List (D × Group))) : Config K R A S P Q F :=
  { ord := c.ord, pre := c.pre, filters := c.filters, keys := withCs c.keys cs, truthy := c.truthy }

/-- Loop of `_init_agg_cs` (1379-1383): `agg_cs`, and the exception that stops it. -/
def initCsLoop (dtype : Nat → Option D) :
    List (F × KeySetup K R A S Q D) → List (List (D × Group)) × Option SetupErr
  | [] => ([], none)
  | k :: ks =>
    match setupCumsegagg k.2.aggPd dtype with
    | .error e => ([], some e)
    | .ok g =>
      match initCsLoop dtype ks with
      | (cs, r) => (g :: cs, r)

inductive SetupExc where
  | stopIteration
  | value (e : SetupErr)
  deriving DecidableEq, Repr

/-- `_init_agg_cs` (1355-1384), `agg_cs` being empty: new `agg_cs`, and the seed repacked. -/
def initAggCs (keys : List (F × KeySetup K R A S Q D)) (seed : List (SeedFrame R D)) :
    List (List (D × Group)) × Except SetupExc (List (SeedFrame R D)) :=
  match seed with
  | [] => ([], .error .stopIteration)
  | first :: remainder =>
    match initCsLoop first.dtype keys with
    | (cs, none) => (cs, .ok (first :: remainder))
    | (cs, some e) => (cs, .error (.value e))

/-- Lines 1466-1475: new `agg_cs`, and the frames over which to iterate. -/
def setUp (keys : List (F × KeySetup K R A S Q D)) (seed : Seed R D) (cs : List (List (D × Group))) :
    List (List (D × Group)) × Except SetupExc (List (SeedFrame R D)) :=
  if seed.truthy then
    if cs.isEmpty then initAggCs keys seed.frames else (cs, .ok seed.frames)
  else (cs, .ok [])

inductive SetErr where
  | setup (e : SetupExc)
  | run (e : Err)
  deriving DecidableEq, Repr

/-- `agg`, with the set-up: new `agg_cs`, and result. -/
def aggWith (c : Setup K R A S P Q F D) (a : SeedCall R D) (cs : List (List (D × Group))) (s : State A S P Q)
    (w : World K A (Md S P Q)) : List (List (D × Group)) × Except SetErr (State A S P Q × World K A (Md S P Q) × Bool) :=
  match setUp c.keys a.seed cs with
  | (cs, .error e) => (cs, .error (.setup e))
  | (cs, .ok frames) =>
    match agg (c.config cs) ⟨frames.map SeedFrame.rows, a.trimStart, a.discardLast, a.finalWrite⟩ s w with
    | .error e => (cs, .error (.run e))
    | .ok r => (cs, .ok r)

/-- Successive calls; the caller goes on after an exception of the set-up or `SeedPreException`. -/
def aggsWith (c : Setup K R A S P Q F D) : List (SeedCall R D) → List (List (D × Group)) → State A S P Q →
    World K A (Md S P Q) → Except Err (List (List (D × Group)) × State A S P Q × World K A (Md S P Q))
  | [], cs, s, w => .ok (cs, s, w)
  | a :: as, cs, s, w =>
    match aggWith c a cs s w with
    | (cs, .error (.setup _)) => aggsWith c as cs s w
    | (_, .error (.run e)) => .error e
    | (cs, .ok (s, w, _)) => aggsWith c as cs s w

end
end Oups.AggStream
