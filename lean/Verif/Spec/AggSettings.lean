import Verif.Spec.AggStream
/-! Sessions of a stream, each one with its own settings. -/
namespace Oups.AggStream

section
variable {K R A S P Q : Type} [DecidableEq K]

/-- Same store keys, same kind of results, same columns. -/
structure SameTarget (k1 k2 : KeyCfg K R A S Q) : Prop where
  main : k1.main = k2.main
  snap : k1.snap = k2.snap
  resType : k1.resType = k2.resType
  table : k1.table = k2.table

/-- Sessions one after the other, from datasets `w` to `w'`. Each one creates a stream from the store, with any settings such that
one of its keys is `k` in the store, described by a `cfg` satisfying `L`. It does calls, the last one with a final write
after which the restart index is recorded. `rows`: what this key receives over all sessions. -/
inductive SessionRuns (s0 : S) (p0 : P) (q0 : Q) (k : KeyCfg K R A S Q) (L : KeyCfg K R A S Q → Prop) :
    World K A (Md S P Q) → List R → World K A (Md S P Q) → Prop
  | nil (w) : SessionRuns s0 p0 q0 k L w [] w
  | session {F : Type} [DecidableEq F] {c : Config K R A S P Q F} {i : Nat} {f : F} {cfg : KeyCfg K R A S Q} {as : List (Call R)} {a : Call R}
      {s s' : State A S P Q} {w w' w'' : World K A (Md S P Q)} {n : Int} {rows : List R}
      (apart : Apart c.keys) (key : c.keys[i]? = some (f, cfg)) (same : SameTarget k cfg) (law : L cfg)
      (start : initBuffers s0 p0 q0 c w = .ok s) (final : a.finalWrite = true)
      (calls : aggs c (as ++ [a]) s w = .ok (s', w')) (index : s'.restart = some n) (truthy : c.truthy n = true)
      (next : SessionRuns s0 p0 q0 k L w' rows w'') :
      SessionRuns s0 p0 q0 k L w (received c f (as ++ [a]) s.restart s.pre ++ rows) w''

end
end Oups.AggStream
