import Verif.Spec.AggSettings
import Verif.Spec.AggTotal
/-! Life of a key in a store: sessions of streams with any settings, which end or are stopped at any point. -/
namespace Oups.AggStream

section
variable {K R A S P Q : Type} [DecidableEq K]

/-- What is in the store when the process stops in one of several calls to `agg` without final write. Each key may be
anywhere in its frames. -/
def Stopped {F : Type} [DecidableEq F] (c : Config K R A S P Q F) (as : List (Call R)) (s : State A S P Q)
    (w wc : World K A (Md S P Q)) : Prop :=
  ∀ (i : Nat) k b, c.keys[i]? = some k → s.bufs[i]? = some b →
    KeyCrash k.2 c.truthy ((frames c k.1 as s.restart s.pre).map KOp.chunk) b w wc

/-- Sessions of streams with key `k`, up to datasets `w`. Each one is created from the store, with any settings such that one of
its keys is `k` in the store, described by a `cfg` satisfying `L`. Its calls end with a final write, which records the restart
index; or it is stopped before, at any point. `rows`: the rows the recorded results are for, those received in sessions that were
not stopped. `front`: a list from the first row which goes at least as far as what any session has received. `last`: restart index and buffer of `pre` of the last
final write. `sure`: with `max_nirgs`, sessions may be stopped once the dataset has begun, after a final write, with a row group that
is complete for all settings, and is not its last one. -/
inductive Life (s0 : S) (p0 : P) (q0 : Q) (k : KeyCfg K R A S Q) (L : KeyCfg K R A S Q → Prop) :
    World K A (Md S P Q) → List R → List R → Option (Int × P) → Bool → Prop
  | new {w : World K A (Md S P Q)} (absent : (w k.main).inStore = false) (main : (w k.main).rgs = [])
      (snap : k.resType = .both → (w k.snap).rgs = []) : Life s0 p0 q0 k L w [] [] none false
  | session {F : Type} [DecidableEq F] {c : Config K R A S P Q F} {i : Nat} {f : F} {cfg : KeyCfg K R A S Q}
      {as : List (Call R)} {a : Call R} {s s' : State A S P Q} {w w' : World K A (Md S P Q)} {n : Int}
      {rows front front' : List R} {last : Option (Int × P)} {sure sure' : Bool}
      (before : Life s0 p0 q0 k L w rows front last sure)
      (apart : Apart c.keys) (key : c.keys[i]? = some (f, cfg)) (same : SameTarget k cfg) (law : L cfg)
      (start : initBuffers s0 p0 q0 c w = .ok s) (final : a.finalWrite = true)
      (calls : aggs c (as ++ [a]) s w = .ok (s', w')) (index : s'.restart = some n) (truthy : c.truthy n = true)
      (goes : front <+: front') (again : rows ++ received c f (as ++ [a]) s.restart s.pre <+: front')
      (keeps : sure = true → sure' = true) (safe : sure' = true → sure = true ∨ ∀ cfg, L cfg → SameTarget k cfg → KeySafe cfg w') :
      Life s0 p0 q0 k L w' (rows ++ received c f (as ++ [a]) s.restart s.pre) front' (some (n, s'.pre)) sure'
  | stop {F : Type} [DecidableEq F] {c : Config K R A S P Q F} {i : Nat} {f : F} {cfg : KeyCfg K R A S Q}
      {as : List (Call R)} {s : State A S P Q} {w w' : World K A (Md S P Q)}
      {rows front front' : List R} {last : Option (Int × P)}
      (before : Life s0 p0 q0 k L w rows front last true) (has : (w k.main).rgs ≠ [])
      (key : c.keys[i]? = some (f, cfg)) (same : SameTarget k cfg) (law : L cfg)
      (start : initBuffers s0 p0 q0 c w = .ok s) (stopped : Stopped c as s w w')
      (goes : front <+: front') (again : rows ++ received c f as s.restart s.pre <+: front') :
      Life s0 p0 q0 k L w' rows front' last true

end
end Oups.AggStream
