import Verif.Spec.AggStream
/-! Vocabulary for exceptions raised by an aggregation stream. -/
namespace Oups.AggStream
open Oups.Agg (Res AggErr)

section
variable {K R A S P Q F : Type} [DecidableEq K] [DecidableEq F]

/-- `n` rows can be written at once, whatever is in the dataset: `max_row_group_size` is not 0, and `max_nirgs` is not used, or it is
not 0 and these rows are fewer than `max_row_group_size`. -/
def Roomy (p : Writer.Params) (n : Nat) : Prop :=
  p.maxRg ≠ some 0 ∧ (p.maxNirgs = none ∨ ∃ m k, p.maxRg = some m ∧ p.maxNirgs = some k ∧ 0 < k ∧ n < m)

/-- Some value is zero. -/
def ZeroIn (z : A → Bool) (rows : List (Row A)) : Prop := ∃ x ∈ rows, ∃ a, x.2 = some a ∧ z a = true

/-- With the check of zeros (`e0`), rows `p` after rows `h` change a result to zero: results are those from the last one of
`h` on. -/
def NewZero (z : A → Bool) (e0 : Bool) (FB : List R → List (Row A)) (FS : Option (List R → List (Row A))) (h p : List R) :
    Prop :=
  e0 = true ∧ (ZeroIn z ((FB (h ++ p)).drop ((FB h).length - 1)) ∨
    ∃ f, FS = some f ∧ ZeroIn z ((f (h ++ p)).drop ((f h).length - 1)))

/-- On rows `V`, from the states it reaches, `call` raises if and only if a result is zero (`Bad`). -/
def CallTotal (V : List R → Prop) (call : List R → S → Except AggErr (Option (Res A) × S)) (ok : List R → S → Prop)
    (Bad : List R → List R → Prop) : Prop :=
  ∀ h p s, ok h s → p ≠ [] → V (h ++ p) →
    (Bad h p → call p s = .error .zeroSnap ∨ call p s = .error .zeroBin) ∧ (¬ Bad h p → ∃ r, call p s = .ok r)

/-- The next frame makes the key write on the way, with no row to write into a dataset that has some: rows of results kept
since the last write are one row only, the last one, which is not definitive. -/
def EmptyFlush (cfg : KeyCfg K R A S Q) (st : KeyBuf A S Q) (w : World K A (Md S P Q)) : Prop :=
  ∃ b, st.bin = some b ∧ cfg.maxSize < st.size + st.size / (st.binBuf.length + 1) ∧
    ((cfg.resType ≠ .snaps ∧ (w cfg.main).rgs ≠ [] ∧ st.binBuf.flatten ++ b.dropLast = []) ∨
      (cfg.resType ≠ .bins ∧ (w (if cfg.resType = .both then cfg.snap else cfg.main)).rgs ≠ [] ∧
        ∃ s, st.snap = some s ∧ st.snapBuf.flatten ++ s.dropLast = []))

/-- Frames delivered for filter `f` by successive calls to `agg`. -/
def frames (c : Config K R A S P Q F) (f : F) : List (Call R) → Option Int → P → List (List R)
  | [], _, _ => []
  | a :: as, r, pb =>
    match iterData c.ord r c.pre pb c.filters a.trimStart a.discardLast a.seed with
    | (ys, pb', _) => ((ys.filter fun y => decide (y.filt = f)).map Yield.rows) ++ frames c f as (restartAfter r ys) pb'

/-- The iteration over the seeds of successive calls ends at their end, or with `SeedPreException`. -/
def IterOk (c : Config K R A S P Q F) : List (Call R) → Option Int → P → Prop
  | [], _, _ => True
  | a :: as, r, pb =>
    match iterData c.ord r c.pre pb c.filters a.trimStart a.discardLast a.seed with
    | (ys, pb', exc) => (exc = none ∨ exc = some .seedPre) ∧ IterOk c as (restartAfter r ys) pb'

/-- Each frame, but the first, adds a row to results. -/
def EachAdds {B : Type} (G : List R → List B) (fs : List (List R)) : Prop :=
  ∀ pre p post, fs = pre ++ p :: post → pre ≠ [] → (G pre.flatten).length < (G (pre.flatten ++ p)).length

end
end Oups.AggStream
