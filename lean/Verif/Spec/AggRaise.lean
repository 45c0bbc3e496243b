import Verif.Model.AggRaise
import Verif.Spec.AggStream
/-! What may be left when a job of `agg` raises, other jobs being anywhere. -/
namespace Oups.AggStream

section
variable {K R A S P Q F : Type} [DecidableEq K] [DecidableEq F]

/-- A key that got frames `chunks` in a call that raised: `done` of them were processed, and the next one may be the one that
raises. Its buffers are then `stc`, its datasets those of `wc`. -/
def KeyLeft (cfg : KeyCfg K R A S Q) (left : List R → S → S) (truthy : Int → Bool) (chunks : List (List R))
    (st : KeyBuf A S Q) (w : World K A (Md S P Q)) (done : List (List R)) (stc : KeyBuf A S Q)
    (wc : World K A (Md S P Q)) : Prop :=
  ∃ rest st1 w1, chunks = done ++ rest ∧ keyRun cfg truthy (done.map fun c => (.chunk c : KOp R P)) st w = .ok (st1, w1) ∧
    ((stc = st1 ∧ ∀ k, cfg.touches k → wc k = w1 k) ∨
      ∃ c rest' w2 e, rest = c :: rest' ∧ aggIterR cfg left truthy c st1 w1 = (stc, w2, some e) ∧
        ∀ k, cfg.touches k → wc k = w2 k)

/-- Frames that a call delivers to the keys of a filter. -/
def callFrames (c : Config K R A S P Q F) (a : Call R) (s : State A S P Q) (f : F) : List (List R) :=
  ((iterData c.ord s.restart c.pre s.pre c.filters a.trimStart a.discardLast a.seed).1.filter
    fun y => decide (y.filt = f)).map Yield.rows

/-- What is left, in the process (`bs`) and in the store (`wc`), by a call to `agg` in which jobs raised: each key has
processed `done i` of its frames. -/
def Left (c : Config K R A S P Q F) (left : List R → S → S) (a : Call R) (s : State A S P Q) (w : World K A (Md S P Q))
    (done : Nat → List (List R)) (bs : List (KeyBuf A S Q)) (wc : World K A (Md S P Q)) : Prop :=
  ∀ (i : Nat) k b, c.keys[i]? = some k → s.bufs[i]? = some b →
    ∃ b', bs[i]? = some b' ∧ KeyLeft k.2 left c.truthy (callFrames c a s k.1) b w (done i) b' wc

/-- A final write that was interrupted: each key is as before it or as after it. -/
def FinalPart (c : Config K R A S P Q F) (s s' : State A S P Q) (w w' : World K A (Md S P Q)) (bs : List (KeyBuf A S Q))
    (wm : World K A (Md S P Q)) : Prop :=
  bs.length = s.bufs.length ∧ (∀ x, (∀ k ∈ c.keys, ¬ k.2.touches x) → wm x = w x) ∧
  ∀ (i : Nat) k, c.keys[i]? = some k →
    (bs[i]? = s.bufs[i]? ∧ ∀ x, k.2.touches x → wm x = w x) ∨ (bs[i]? = s'.bufs[i]? ∧ ∀ x, k.2.touches x → wm x = w' x)

end
end Oups.AggStream
