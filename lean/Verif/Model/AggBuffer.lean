import Verif.Model.Aggregate
/-!
The dict `buffer` of `cumsegagg`, with its entries present or not, and what it holds when an exception is raised
(`oups/aggstream/segmentby.py` 678-1027, `oups/aggstream/cumsegagg.py` 396-582).

Same functions as in `Model/Segment` and `Model/Aggregate`, which keep an entry for snapshots in all cases and the last
results by position. Simplifications:
* `buffer` is a dict (in `AggStream` always); `B` is the content of its entry `"bin"`, `b0` that of a new one;
* the frame `last_chunk_res` is the list of its columns (name, value of its single row), of a single type of values;
  `.loc[:, columns]` gives a copy;
* `left`: what a `bin_by` that raises leaves in its own dict (`by_x_rows` does not raise, `by_scale` raises before it modifies
  anything);
* every `KeyError` is `.seg .keyError`.
-/
namespace Oups.Agg
open Oups.Segment

/-- The dict `buffer`. `none`: no such entry. -/
structure DictBuf (B V : Type) where
  /-- `"bin"`. -/
  bin : Option B := none
  /-- `"snap"`. -/
  snap : Option ScaleBuf := none
  /-- `"last_bin_label"`. -/
  label : Option Int := none
  /-- `"last_chunk_res"`. -/
  chunk : Option (List (Nat × V)) := none
  deriving DecidableEq

section
variable {R B V : Type}

/-- `setup_mainbuffer` (segmentby.py 697-702): entries are added when there is none for bins. -/
def setupMainbuffer (b0 : B) (withSnap : Bool) (buf : DictBuf B V) : DictBuf B V :=
  match buf.bin with
  | some _ => buf
  | none => { buf with bin := some b0, snap := if withSnap then some {} else buf.snap }

/-- `segmentby` (711-1027), after `setup_segmentby`: result, and `buffer` in all cases. -/
def segmentbyD (b0 : B) (binBy : BinFn R B) (left : List R → B → B) (ordered : Option (R → Int)) (snapBy : Option Snaps)
    (data : List R) (buf : DictBuf B V) : Except Err SegRes × DictBuf B V :=
  let buf := setupMainbuffer b0 snapBy.isSome buf
  if snapBy.isSome && buf.snap.isNone then (.error .keyError, buf)
  else if unordered ordered data then (.error .notOrdered, buf)
  else match binBy data (some (buf.bin.getD b0)) with
  | .error e => (.error e, { buf with bin := some (left data (buf.bin.getD b0)) })
  | .ok (r, bin) =>
    let buf1 := { buf with bin := some (bin.getD (buf.bin.getD b0)) }
    match checkBins data.length true buf.label r with
    | .error e => (.error e, buf1)
    | .ok closed =>
      match snapBy with
      | none => (.ok ⟨r.starts, [], r.labels, r.nNull, none, 0⟩, { buf1 with label := r.labels.getLast? })
      | some s =>
        match ordered with
        | none => (.error .keyError, buf1)
        | some o =>
          match runSnaps s closed (data.map o) buf.snap with
          | .error e => (.error e, buf1)
          | .ok (ss, snap) =>
            let buf2 := { buf1 with snap := some (snap.getD (buf.snap.getD {})) }
            match mergesort (ss.starts, r.starts) (ss.ends, r.ends) r.unknownLast with
            | .error e => (.error e, buf2)
            | .ok (starts, binIdx) =>
              (.ok ⟨starts, binIdx, r.labels, r.nNull, some ss.labels, ss.nNull + binsFollowedBySnap starts binIdx⟩,
                { buf2 with label := r.labels.getLast? })

end

section
variable {D R B V : Type} (O : D → Ops V) (get : R → Nat → V)

/-- `chunk_res_prev.loc[:, cols_name_in_res]` (cumsegagg.py 471-473). -/
def readNames (chunk : List (Nat × V)) : List Nat → Option (List V)
  | [] => some []
  | n :: ns =>
    match chunk.lookup n, readNames chunk ns with
    | some v, some vs => some (v :: vs)
    | _, _ => none

/-- The same for all groups; `none`: a column is missing. -/
def readChunk (chunk : List (Nat × V)) : List (D × Group) → Option (List (List V))
  | [] => some []
  | (_, g) :: cfg =>
    match readNames chunk g.colsOut, readChunk chunk cfg with
    | some r, some rs => some (r :: rs)
    | _, _ => none

/-- `chunk_res` (474-476, 513): columns by name. -/
def nameCols : List (D × Group) → List (List V) → List (Nat × V)
  | (_, g) :: cfg, r :: res => g.colsOut.zip r ++ nameCols cfg res
  | _, _ => []

/-- `chunk_res_prev` (434-438): the last results, or those of `setup_chunk_res`. -/
def prevChunk (cfg : List (D × Group)) (buf : DictBuf B V) : Option (List (List V)) :=
  match buf.chunk with
  | some c => readChunk c cfg
  | none => some (chunkRes0 O cfg)

/-- `cumsegagg` (396-582) with the configuration `cfg`: result, and `buffer` in all cases. -/
def cumsegaggD (cfg : List (D × Group)) (isZero : List (List V) → Bool) (b0 : B) (binBy : BinFn R B)
    (left : List R → B → B) (ordered : Option (R → Int)) (snapBy : Option Snaps) (errorOn0 : Bool) (data : List R)
    (buf : DictBuf B V) : Except AggErr (Option (Res (List (List V)))) × DictBuf B V :=
  if data.isEmpty then (.ok none, buf)
  else match segmentbyD b0 binBy left ordered snapBy data buf with
  | (.error e, b) => (.error (.seg e), b)
  | (.ok s, b) =>
    let preserve := decide (buf.label.isSome ∧ buf.label = s.binLabels.head?)
    match prevChunk O cfg b with
    | none => (.error (.seg .keyError), b)
    | some res =>
      let nSnaps := (s.snapLabels.map List.length).getD 0
      let (bins, snaps, a) := jcsagg (updCfg O get cfg) data s.starts s.binIndices (decide (nSnaps ≠ 0)) preserve res
      let b' := { b with chunk := some (nameCols cfg a) }
      let out : Res (List (List V)) := ⟨setNulls s.binLabels bins, s.snapLabels.map fun l => setNulls l snaps⟩
      if errorOn0 && (match out.snaps with
          | some l => anyZero isZero l
          | none => false) then (.error .zeroSnap, b')
      else if errorOn0 && anyZero isZero out.bins then (.error .zeroBin, b')
      else (.ok (some out), b')

end
end Oups.Agg
