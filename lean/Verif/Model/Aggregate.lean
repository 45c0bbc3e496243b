import Verif.Model.Segment
import Verif.Spec.Aggregate
/-!
Model of `oups/aggstream/jcumsegagg.py` and `oups/aggstream/cumsegagg.py`.

Simplifications:
* the `j*` functions work column by column: they are modelled on one column (`List V`); values and their
  operations are parameters (`Ops`), so that int64 wrap-around and IEEE floats are instances;
* a result row is `Option A`: `none` is a row recorded as null (its index in `null_bin_indices` or
  `null_snap_indices`), whose value is not read;
* `cumsegagg` calls `jcsagg` once per dtype with the same control arguments (`cumsegagg.py:459-514`): one call with
  the joined accumulator here (`jcsagg_proj` in `Verif/Proofs/Aggregate.lean`: the joined run projects on the separate
  ones);
* on exception, the mutations of `buffer` already made are not modelled.
-/
namespace Oups.Agg
open Oups.Segment

section
variable {V : Type} (O : Ops V)

/-- `jfirst` (`jcumsegagg.py:20-49`). -/
def jfirst (ar : List V) (initial : V) (useInit : Bool) : V :=
  if useInit then initial else match ar with
    | x :: _ => x
    | [] => O.zero

/-- `jlast` (52-82). -/
def jlast (ar : List V) (initial : V) (useInit : Bool) : V :=
  match ar.getLast? with
  | some x => x
  | none => if useInit then initial else O.zero

/-- Common shape of `jmax`, `jmin` and `jsum` (85-218): accumulation from `initial` or from the first value. -/
def jfold (step : V → V → V) (ar : List V) (initial : V) (useInit : Bool) : V :=
  match ar with
  | x :: xs => if useInit then (x :: xs).foldl step initial else xs.foldl step x
  | [] => if useInit then initial else O.zero

/-- `jmax` (85-128). -/
def jmax : List V → V → Bool → V := jfold O (fun res v => if O.lt res v then v else res)

/-- `jmin` (131-174). -/
def jmin : List V → V → Bool → V := jfold O (fun res v => if O.lt v res then v else res)

/-- `jsum` (177-218). -/
def jsum : List V → V → Bool → V := jfold O (fun res v => O.add res v)

/-- `AGG_FUNCS` (227). -/
def jagg : Fn → List V → V → Bool → V
  | .first => jfirst O
  | .last => jlast O
  | .min => jmin O
  | .max => jmax O
  | .sum => jsum O

/-- One entry of the dict returned by `setup_cumsegagg` (`cumsegagg.py:47-155`). -/
structure Group where
  colsIn : List Nat
  colsOut : List Nat
  aggs : List (Fn × List Nat × List Nat)
  nCols : Nat
  deriving DecidableEq, Repr

/-- `chunk_res[cols_res] = agg_func(chunk[:, cols_data], chunk_res[cols_res], preserve_res)`
(`jcumsegagg.py:395-401`). -/
def applyAgg (chunk : List (List V)) (preserve : Bool) (res : List V) (agg : Fn × List Nat × List Nat) : List V :=
  (agg.2.1.zip agg.2.2).foldl
    (fun acc p => acc.set p.2
      (jagg O agg.1 (chunk.map fun row => row.getD p.1 O.zero) (res.getD p.2 O.zero) preserve)) res

/-- Loop over `aggs` (383-401). -/
def updGroup (g : Group) (chunk : List (List V)) (res : List V) (preserve : Bool) : List V :=
  g.aggs.foldl (applyAgg O chunk preserve) res

end

/-! ### `jcsagg` (230-416) -/

section
variable {R A : Type} (upd : List R → A → Bool → A) (data : List R)

/-- Local variables of the loop. -/
structure St (A : Type) where
  binStart : Int
  chunkStart : Nat
  preserve : Bool
  res : A

/-- Body of the loop (366-416): the recorded row, and the new state. -/
def jstep (st : St A) (isUpdate : Bool) (next : Nat) : Option A × St A :=
  if st.binStart = (next : Int) then
    (none, { st with chunkStart := next, preserve := if isUpdate then st.preserve else false })
  else
    let chunk := (data.drop st.chunkStart).take (next - st.chunkStart)
    let res := if chunk.isEmpty then st.res else upd chunk st.res st.preserve
    (some res,
      if isUpdate then { st with chunkStart := next, preserve := true, res := res }
      else { binStart := next, chunkStart := next, preserve := false, res := res })

/-- Loop over the chunks, each with its kind (`true`: bin). -/
def jloop (st : St A) : List (Bool × Nat) → List (Bool × Option A) × A
  | [] => ([], st.res)
  | (isBin, next) :: es =>
    let (v, st') := jstep upd data st (!isBin) next
    let (vs, a) := jloop st' es
    ((isBin, v) :: vs, a)

/-- Kind of each chunk from the iterator over `bin_indices` (329-361): the pending index is that of a bin, the
iterator is not advanced past the last index. -/
def classify : Nat → List Nat → List Nat → List (Bool × Nat)
  | _, _, [] => []
  | idx, bins, s :: ss =>
    match bins with
    | [] => (false, s) :: classify (idx + 1) [] ss
    | b :: bs =>
      if idx = b then (true, s) :: classify (idx + 1) (if bs.isEmpty then [b] else bs) ss
      else (false, s) :: classify (idx + 1) (b :: bs) ss

/-- `jcsagg` (231-416): rows of `bin_res`, rows of `snap_res`, `chunk_res`. -/
def jcsagg (starts binIndices : List Nat) (someSnaps preserve : Bool) (res : A) :
    List (Option A) × List (Option A) × A :=
  let es := if someSnaps then classify 0 binIndices starts else starts.map fun s => (true, s)
  let (rs, a) := jloop upd data ⟨if preserve then -1 else 0, 0, preserve, res⟩ es
  ((rs.filter (fun r => r.1)).map Prod.snd, (rs.filter (fun r => !r.1)).map Prod.snd, a)

end

/-! ### `setup_cumsegagg` (`cumsegagg.py:47-155`) -/

inductive SetupErr where
  | unknownColumn (c : Nat)
  | unknownFunction
  deriving DecidableEq, Repr

/-- An entry while being built (101-111): functions with their columns. -/
structure Building where
  colsIn : List Nat := []
  colsOut : List Nat := []
  funcs : List Fn := []
  colsData : List (List Nat) := []
  colsRes : List (List Nat) := []
  deriving DecidableEq, Repr

/-- `l[i].append(v)`. -/
def appendAt (l : List (List Nat)) (i v : Nat) : List (List Nat) := l.set i (l.getD i [] ++ [v])

/-- Registration of one output column in the entry of its dtype (112-143). -/
def Building.add (t : Building) (out inCol : Nat) (f : Fn) : Building :=
  let inIdx := if inCol ∈ t.colsIn then t.colsIn.idxOf inCol else t.colsIn.length
  let colsIn := if inCol ∈ t.colsIn then t.colsIn else t.colsIn ++ [inCol]
  let outIdx := t.colsOut.length
  let fIdx := if f ∈ t.funcs then t.funcs.idxOf f else t.funcs.length
  let funcs := if f ∈ t.funcs then t.funcs else t.funcs ++ [f]
  if t.colsData.length ≤ fIdx then
    ⟨colsIn, t.colsOut ++ [out], funcs, t.colsData ++ [[inIdx]], t.colsRes ++ [[outIdx]]⟩
  else
    ⟨colsIn, t.colsOut ++ [out], funcs, appendAt t.colsData fIdx inIdx, appendAt t.colsRes fIdx outIdx⟩

/-- Step 2 (144-154). -/
def Building.finish (t : Building) : Group :=
  ⟨t.colsIn, t.colsOut, t.funcs.zip (t.colsData.zip t.colsRes), (t.colsRes.map List.length).sum⟩

/-- Update of the entry of a key, the key being added at the end when missing. -/
def upsert {D T : Type} [DecidableEq D] (d : D) (init : T) (f : T → T) : List (D × T) → List (D × T)
  | [] => [(d, f init)]
  | (d', t) :: l => if d' = d then (d', f t) :: l else (d', t) :: upsert d init f l

/-- Step 1 (94-143). `agg`: output column, input column, function (`none`: unknown name). -/
def setupLoop {D : Type} [DecidableEq D] (dtype : Nat → Option D) :
    List (Nat × Nat × Option Fn) → List (D × Building) → Except SetupErr (List (D × Building))
  | [], cfg => .ok cfg
  | (out, inCol, f) :: agg, cfg =>
    match dtype inCol with
    | none => .error (.unknownColumn inCol)
    | some d =>
      match f with
      | none => .error .unknownFunction
      | some f => setupLoop dtype agg (upsert d {} (fun t => t.add out inCol f) cfg)

/-- `setup_cumsegagg`. -/
def setupCumsegagg {D : Type} [DecidableEq D] (agg : List (Nat × Nat × Option Fn)) (dtype : Nat → Option D) :
    Except SetupErr (List (D × Group)) :=
  match setupLoop dtype agg [] with
  | .error e => .error e
  | .ok cfg => .ok (cfg.map fun p => (p.1, p.2.finish))

/-! ### The configuration applied to a frame -/

section
variable {D R V : Type} (O : D → Ops V) (get : R → Nat → V)

/-- The accumulators of all dtypes (`cumsegagg.py:459-514`): `data_single_dtype` is made of the columns `colsIn`. -/
def updCfg (cfg : List (D × Group)) (chunk : List R) (res : List (List V)) (preserve : Bool) : List (List V) :=
  (cfg.zip res).map fun p =>
    updGroup (O p.1.1) p.1.2 (chunk.map fun row => p.1.2.colsIn.map (get row)) p.2 preserve

/-- `setup_chunk_res` (158-173). -/
def chunkRes0 (cfg : List (D × Group)) : List (List V) :=
  cfg.map fun p => List.replicate p.2.nCols (O p.1).zero

/-- Value of an output column in a result row: `{name: res[:, i] for i, name in enumerate(cols_name_in_res)}`
(474-487). -/
def readCol (out : Nat) : List (D × Group) → List (List V) → Option V
  | (_, g) :: cfg, r :: res => if out ∈ g.colsOut then r[g.colsOut.idxOf out]? else readCol out cfg res
  | _, _ => none

end

/-! ### `cumsegagg` (`cumsegagg.py:176-582`) -/

/-- `buffer`: that of the segmentation and `last_chunk_res`. -/
structure Buf (B A : Type) where
  seg : MainBuf B
  chunk : Option A := none

inductive AggErr where
  | seg (e : Err)
  | zeroSnap
  | zeroBin
  /-- `KeyError` of `self.agg_cs[key]` (`aggstream.py:1491`). -/
  | noConfig
  deriving DecidableEq, Repr

/-- Result frames: labels and values. -/
structure Res (A : Type) where
  bins : List (Int × Option A)
  snaps : Option (List (Int × Option A))
  deriving DecidableEq, Repr

/-- `res.loc[null_labels, cols] = null` (531-541, 555-569): by label. -/
def setNulls {A : Type} (labels : List Int) (rows : List (Option A)) : List (Int × Option A) :=
  let nulls := ((labels.zip rows).filter (fun p => p.2.isNone)).map Prod.fst
  (labels.zip rows).map fun p => (p.1, if p.1 ∈ nulls then none else p.2)

/-- `res.eq(0).any().any()` (570-578) on non-null values. -/
def anyZero {A : Type} (isZero : A → Bool) (rows : List (Int × Option A)) : Bool :=
  rows.any fun p => match p.2 with
    | some a => isZero a
    | none => false

/-- `cumsegagg`. `a0` is the initial `chunk_res` (zeros); `isZero` tells that a column of a row equals 0. -/
def cumsegagg {R B A : Type} (upd : List R → A → Bool → A) (a0 : A) (isZero : A → Bool)
    (binBy : BinFn R B) (ordered : Option (R → Int)) (snapBy : Option Snaps) (errorOn0 : Bool)
    (data : List R) (buf : Option (Buf B A)) : Except AggErr (Option (Res A) × Option (Buf B A)) :=
  if data.isEmpty then .ok (none, buf)
  else match segmentby binBy ordered snapBy data (buf.map Buf.seg) with
  | .error e => .error (.seg e)
  | .ok (s, seg) =>
    let prev := (buf.map Buf.seg).bind MainBuf.lastBinLabel
    let preserve := buf.isSome && decide (prev.isSome ∧ prev = s.binLabels.head?)
    let res := (buf.bind Buf.chunk).getD a0
    let nSnaps := (s.snapLabels.map List.length).getD 0
    let (bins, snaps, a) := jcsagg upd data s.starts s.binIndices (decide (nSnaps ≠ 0)) preserve res
    let out : Res A := ⟨setNulls s.binLabels bins, s.snapLabels.map fun l => setNulls l snaps⟩
    if errorOn0 && (match out.snaps with
        | some l => anyZero isZero l
        | none => false) then .error .zeroSnap
    else if errorOn0 && anyZero isZero out.bins then .error .zeroBin
    else .ok (some out, seg.map fun m => ⟨m, some a⟩)

end Oups.Agg
