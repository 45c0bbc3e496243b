import Verif.Spec.AggStream
/-! Results held in memory by a key of an aggregation stream. -/
namespace Oups.AggStream

section
variable {K R A S P Q : Type}

/-- Results of an iteration: bins, and snapshots if any. -/
abbrev Frame (A : Type) := List (Row A) × Option (List (Row A))

/-- Memory usage. -/
def frameMem (cfg : KeyCfg K R A S Q) (f : Frame A) : Nat :=
  cfg.mem f.1 + match f.2 with
    | none => 0
    | some s => cfg.mem s

def framesMem (cfg : KeyCfg K R A S Q) (fs : List (Frame A)) : Nat := (fs.map (frameMem cfg)).sum

/-- The key holds the results `fs` of successive iterations, without their last rows. -/
structure Held (cfg : KeyCfg K R A S Q) (st : KeyBuf A S Q) (fs : List (Frame A)) : Prop where
  bins : st.binBuf = fs.map fun f => f.1.dropLast
  snaps : st.snapBuf = fs.filterMap fun f => f.2.map List.dropLast
  size : st.size = framesMem cfg fs

/-- Adding to the memory usage of results its average (with a denominator one too large) does not exceed the limit. -/
def Within (cfg : KeyCfg K R A S Q) (fs : List (Frame A)) : Prop :=
  framesMem cfg fs + framesMem cfg fs / (fs.length + 1) ≤ cfg.maxSize

end
end Oups.AggStream
