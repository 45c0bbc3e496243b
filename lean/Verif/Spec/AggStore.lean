import Verif.Spec.AggThreads
/-! Steps of calls to `agg`, in the orders that threads allow. -/
namespace Oups.AggStream

section
variable {K R A S P Q F : Type} [DecidableEq K] [DecidableEq F]

/-- The steps of an operation on the selected keys, those of a key being in order, with those of other keys in between. -/
def RoundActs (sel : F → Bool) (truthy : Int → Bool) (op : KOp R P) (keys : List (F × KeyCfg K R A S Q))
    (bs : List (KeyBuf A S Q)) (acts : List (K × Act A (Md S P Q))) : Prop :=
  ∃ sched : List (Nat × K × Act A (Md S P Q)), acts = sched.map Prod.snd ∧
    ∀ i, stepsOf i sched = match keys[i]?, bs[i]? with
      | some k, some b => if sel k.1 then opActs k.2 truthy op b else []
      | _, _ => []

/-- Steps of the loop of `agg`: keys of the filter in parallel, for each frame yielded in turn. -/
def LoopActs (c : Config K R A S P Q F) : List (Yield F R) → List (KeyBuf A S Q) → World K A (Md S P Q) →
    List (K × Act A (Md S P Q)) → Prop
  | [], _, _, acts => acts = []
  | y :: ys, bs, w, acts => ∃ a1 a2 bs' w', acts = a1 ++ a2 ∧
    RoundActs (fun f => decide (f = y.filt)) c.truthy (.chunk y.rows) c.keys bs a1 ∧
    forKeys (fun f => decide (f = y.filt)) (fun cfg => aggIter cfg c.truthy y.rows) c.keys bs w = .ok (bs', w') ∧
    LoopActs c ys bs' w' a2

/-- Steps of a call. -/
def CallActs (c : Config K R A S P Q F) (a : Call R) (s : State A S P Q) (w : World K A (Md S P Q))
    (acts : List (K × Act A (Md S P Q))) : Prop :=
  ∃ ys pb exc r bs w' a1 a2, acts = a1 ++ a2 ∧
    iterData c.ord s.restart c.pre s.pre c.filters a.trimStart a.discardLast a.seed = (ys, pb, exc) ∧
    LoopActs c ys s.bufs w a1 ∧ aggLoop c ys s.restart s.bufs w = .ok (r, bs, w') ∧
    if a.finalWrite then RoundActs (fun _ => true) c.truthy (.final r pb) c.keys bs a2 else a2 = []

/-- Steps of successive calls. -/
def CallsActs (c : Config K R A S P Q F) : List (Call R) → State A S P Q → World K A (Md S P Q) →
    List (K × Act A (Md S P Q)) → Prop
  | [], _, _, acts => acts = []
  | a :: as, s, w, acts => ∃ a1 a2 s' w' e, acts = a1 ++ a2 ∧ CallActs c a s w a1 ∧ agg c a s w = .ok (s', w', e) ∧
    CallsActs c as s' w' a2

end
end Oups.AggStream
