import Verif.Model.AggStream
import Verif.Spec.Writer
import Verif.Spec.SeedIter
/-! Vocabulary for results stored by an aggregation stream. -/
namespace Oups.AggStream
open Oups.Writer (Table Params RG Col DupOn DupKnown dupCols readRows StrictOn)
open Oups.Agg (Res AggErr)

section
variable {K R A S P Q : Type} [DecidableEq K]

/-- Results `F h` as a function of the rows `h` aggregated so far, such that streaming replaces the last row only:
rows but the last are definitive, and the last one keeps its identifier. Restricted to the rows `V`. -/
structure StreamLaw (V : List R → Prop) (F : List R → List (Row A)) (g : Row A → Row A) (T : Table (Row A)) (on : Col)
    (d : DupOn) : Prop where
  nil : F [] = []
  keys : ∀ h p, V (h ++ p) → ((F h).map g).map (T.key (dupCols T.cols on d)) <+:
    ((F (h ++ p)).map g).map (T.key (dupCols T.cols on d))
  strict : ∀ h, V h → StrictOn (T.get on) ((F h).map g)

/-- `call` computes, over successive pieces, the rows of `FB` (and of `FS`) from the last previous one on; `ok h s`: `s` is
a state after rows `h`. -/
structure CallLaw (V : List R → Prop) (call : List R → S → Except Agg.AggErr (Option (Res A) × S))
    (FB : List R → List (Row A)) (FS : Option (List R → List (Row A))) (ok : List R → S → Prop) : Prop where
  step : ∀ {h p s res s'}, ok h s → p ≠ [] → V (h ++ p) → call p s = .ok (res, s') →
    ok (h ++ p) s' ∧ ∃ r : Res A, res = some r ∧ r.bins ≠ [] ∧ FB (h ++ p) = (FB h).dropLast ++ r.bins ∧
      match FS with
      | none => r.snaps = none
      | some f => ∃ sn, r.snaps = some sn ∧ sn ≠ [] ∧ f (h ++ p) = (f h).dropLast ++ sn

/-- `segagg_buffer` is modified in place. -/
def inPlace (call : List R → Option S → Except AggErr (Option (Res A) × Option S)) (p : List R) (s : S) :
    Except AggErr (Option (Res A) × S) :=
  match call p (some s) with
  | .error e => .error e
  | .ok (r, b) => .ok (r, b.getD s)

/-- `call` is `f` on the part of the buffer that belongs to it. -/
def Embeds {S' : Type} (emb : S' → S) (f : List R → S' → Except AggErr (Option (Res A) × S'))
    (call : List R → S → Except AggErr (Option (Res A) × S)) : Prop :=
  ∀ p b, call p (emb b) = (f p b).map fun o => (o.1, emb o.2)

/-- A store table for results: `ordered_on` is the label, and duplicates are rows of same label. -/
structure ByLabel (T : Table (Row A)) (on : Col) (d : DupOn) (g : Row A → Row A) : Prop where
  label : ∀ r, T.get on (g r) = r.1
  dup : ∀ r r', r.1 = r'.1 → T.key (dupCols T.cols on d) (g r) = T.key (dupCols T.cols on d) (g r')

/-- `post` works row by row: it maps `gB` over bins and `gS` over snapshots. -/
def PostRow (cfg : KeyCfg K R A S Q) (gB gS : Row A → Row A) : Prop :=
  match cfg.post with
  | none => gB = id ∧ gS = id
  | some f => ∀ q bins snaps, ∃ q', match cfg.resType with
    | .bins => f q bins none = (q', .one (bins.map gB))
    | .snaps => f q bins (some snaps) = (q', .one (snaps.map gS))
    | .both => f q bins (some snaps) = (q', .two (some (bins.map gB)) (some (snaps.map gS)))

/-- Parameters of a store key for writing results in order: `on` and `d` are `ordered_on` and `duplicates_on`. -/
structure WriteOk (T : Table (Row A)) (p : Params) (on : Col) (d : DupOn) : Prop where
  ordered : p.orderedOn = some (.col on)
  dup : p.dupOn = some d
  col : on ∈ T.cols
  dupCol : DupKnown T (some d)

/-- `max_nirgs` is not used. -/
def NoCoalescing {K R A S Q : Type} (cfg : KeyCfg K R A S Q) : Prop :=
  cfg.params.maxNirgs = none ∧ (cfg.resType = .both → cfg.snapParams.maxNirgs = none)

/-- `max_nirgs` is not used, or the dataset begins with a complete row group (more than 90% of the maximum size), which is not
the last one. -/
def ReplaySafe (p : Params) (rgs : List (RG (Row A))) : Prop :=
  p.maxNirgs = none ∨ ∃ m g g' gs, p.maxRg = some m ∧ rgs = g :: g' :: gs ∧ m * 9 / 10 < g.rows.length

/-- So are the datasets of a key. -/
def KeySafe {K R A S M Q : Type} (cfg : KeyCfg K R A S Q) (w : World K A M) : Prop :=
  ReplaySafe cfg.params (w cfg.main).rgs ∧ (cfg.resType = .both → ReplaySafe cfg.snapParams (w cfg.snap).rgs)

/-- What happens to one key: a frame is delivered, or results are written at the end of `agg`. -/
inductive KOp (R P : Type) where
  | chunk (rows : List R)
  | final (restart : Option Int) (pre : P)

/-- Rows delivered. -/
def opRows : List (KOp R P) → List R
  | [] => []
  | .chunk c :: ops => c ++ opRows ops
  | .final _ _ :: ops => opRows ops

/-- One operation on one key. -/
def keyStep (cfg : KeyCfg K R A S Q) (truthy : Int → Bool) (op : KOp R P) (st : KeyBuf A S Q)
    (w : World K A (Md S P Q)) : Except Err (KeyBuf A S Q × World K A (Md S P Q)) :=
  match op with
  | .chunk c => aggIter cfg truthy c st w
  | .final r pb => postNWrite cfg truthy true (r.map fun i => (i, pb)) st w

/-- Operations on one key. -/
def keyRun (cfg : KeyCfg K R A S Q) (truthy : Int → Bool) : List (KOp R P) → KeyBuf A S Q →
    World K A (Md S P Q) → Except Err (KeyBuf A S Q × World K A (Md S P Q))
  | [], st, w => .ok (st, w)
  | op :: ops, st, w =>
    match keyStep cfg truthy op st w with
    | .error e => .error e
    | .ok (st, w) => keyRun cfg truthy ops st w

/-- Store keys a key writes to. -/
def KeyCfg.touches (cfg : KeyCfg K R A S Q) (k : K) : Prop := k = cfg.main ∨ (cfg.resType = .both ∧ k = cfg.snap)

/-- Distinct keys do not write to the same dataset. -/
def Apart {F : Type} (keys : List (F × KeyCfg K R A S Q)) : Prop :=
  keys.Pairwise fun a b => ∀ k, a.2.touches k → ¬ b.2.touches k

/-- Operations on keys given by their numbers, one after the other. -/
def idxRun {F : Type} (keys : List (F × KeyCfg K R A S Q)) (truthy : Int → Bool) :
    List (Nat × KOp R P) → List (KeyBuf A S Q) → World K A (Md S P Q) →
    Except Err (List (KeyBuf A S Q) × World K A (Md S P Q))
  | [], bs, w => .ok (bs, w)
  | (i, op) :: l, bs, w =>
    match keys[i]?, bs[i]? with
    | some k, some b =>
      match keyStep k.2 truthy op b w with
      | .error e => .error e
      | .ok (b, w) => idxRun keys truthy l (bs.set i b) w
    | _, _ => idxRun keys truthy l bs w

/-- Operations on key `i`. -/
def opsOf (i : Nat) (l : List (Nat × KOp R P)) : List (KOp R P) := l.filterMap fun x => if x.1 = i then some x.2 else none

variable {F : Type} [DecidableEq F]

/-- Rows delivered for filter `f` by successive calls to `agg`, from restart index `r` and `pre` buffer `pb`. -/
def received (c : Config K R A S P Q F) (f : F) : List (Call R) → Option Int → P → List R
  | [], _, _ => []
  | a :: as, r, pb =>
    match iterData c.ord r c.pre pb c.filters a.trimStart a.discardLast a.seed with
    | (ys, pb', _) => delivered f ys ++ received c f as (restartAfter r ys) pb'

/-- `call` returns results for any rows. -/
def Answers (call : List R → S → Except AggErr (Option (Res A) × S)) : Prop :=
  ∀ p s r s', p ≠ [] → call p s = .ok (r, s') → r ≠ none

/-- Buffers without pending results. -/
def KeyBuf.Rest (b : KeyBuf A S Q) : Prop := b = { seg := b.seg, post := b.post }

/-- State of the iteration over seeds after calls: restart index and `pre` buffer. -/
def iterAfter (c : Config K R A S P Q F) : List (Call R) → Option Int → P → Option Int × P
  | [], r, pb => (r, pb)
  | a :: as, r, pb =>
    match iterData c.ord r c.pre pb c.filters a.trimStart a.discardLast a.seed with
    | (ys, pb', _) => iterAfter c as (restartAfter r ys) pb'

/-- Sessions one after the other: in each one an `AggStream` is created from the store, then runs calls. `s0`, `p0`, `q0` are
empty buffers. -/
def sessions (s0 : S) (p0 : P) (q0 : Q) (c : Config K R A S P Q F) : List (List (Call R)) → World K A (Md S P Q) →
    Except Err (World K A (Md S P Q))
  | [], w => .ok w
  | as :: rest, w =>
    match initBuffers s0 p0 q0 c w with
    | .error e => .error e
    | .ok s =>
      match aggs c as s w with
      | .error e => .error e
      | .ok (_, w) => sessions s0 p0 q0 c rest w

/-! ### Crashes -/

/-- What a key has on disk when the process stops, with some of the operations `ops` done and possibly one under way: a write
that goes to two datasets may have reached the first one only. -/
def KeyCrash (cfg : KeyCfg K R A S Q) (truthy : Int → Bool) (ops : List (KOp R P)) (st : KeyBuf A S Q)
    (w wc : World K A (Md S P Q)) : Prop :=
  ∃ done rest st1 w1, ops = done ++ rest ∧ keyRun cfg truthy done st w = .ok (st1, w1) ∧
    ((∀ k, cfg.touches k → wc k = w1 k) ∨
      ∃ op rest' st2 w2, rest = op :: rest' ∧ keyStep cfg truthy op st1 w1 = .ok (st2, w2) ∧
        wc cfg.main = w2 cfg.main ∧ ∀ k, cfg.touches k → k ≠ cfg.main → wc k = w1 k)

/-- What is in the store when the process stops in the loop of `agg`, with some chunks processed. Keys are processed
in parallel: each of them may be anywhere. -/
def Crash (c : Config K R A S P Q F) (a : Call R) (s : State A S P Q) (w wc : World K A (Md S P Q)) : Prop :=
  ∀ (i : Nat) k b, c.keys[i]? = some k → s.bufs[i]? = some b →
    KeyCrash k.2 c.truthy
      ((((iterData c.ord s.restart c.pre s.pre c.filters a.trimStart a.discardLast a.seed).1.filter
        fun y => decide (y.filt = k.1)).map fun y => (KOp.chunk y.rows : KOp R P))) b w wc

end
end Oups.AggStream
