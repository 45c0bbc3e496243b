import Verif.Model.Segment
/-!
`by_scale` when `by` is a pandas `Series` (`segmentby.py:224-366`): `chunk_ends[0]`, `chunk_ends[1]`,
`chunk_ends[n_chunks - 1]` look the value up by index label, a boolean mask and a slice keep the index labels, a
slice by integers is positional. A `Series` is a list of pairs of an index label and a value; labels and ends are the
same object here (`chunk_labels = chunk_ends = by`). Then what `cumsegagg` does with these labels (`cumsegagg.py:543-569`).
-/
namespace Oups.Segment

abbrev Ser := List (Nat × Int)

/-- `series[i]`. -/
def Ser.get (s : Ser) (i : Nat) : Except Err Int :=
  match s.find? (fun p => p.1 == i) with
  | some p => .ok p.2
  | none => .error .keyError

/-- `Series` made of a list: index `0, 1, ..`. -/
def Ser.ofList (l : List Int) : Ser := l.zipIdx.map (fun p => (p.2, p.1))

/-- Restart (237-292). -/
def serRestart (s : Ser) (closed : Closed) (b : ScaleBuf) : Except Err (Ser × ScaleBuf) := do
  let s ← (match b.restart with
    | none => pure s
    | some k => do
      if (← s.get 0) = k then pure s
      else
        let t := s.filter (fun p => decide (k ≤ p.2))
        if (← Ser.get t 0) ≠ k then throw .restartKeyMissing else pure t)
  match b.lastOn with
  | none => pure (s, b)
  | some l =>
    if s.length > 1 then
      if endBefore closed l (← s.get 1) then throw .secondEnd
    let b := { b with lastOn := none }
    if endBefore closed l (← s.get 0) then pure (s.drop 1, b) else pure (s, b)

/-- End of `by_scale` (294-366). -/
def serFinish (s : Ser) (closed : Closed) (on : List Int) (b : ScaleBuf) : Except Err (List Nat × List Int × ScaleBuf) := do
  if s.isEmpty then return ([], [], { b with lastOn := some (on.getLastD 0) })
  let (starts, _, traversed) := nextChunkStarts on (s.map Prod.snd) (closed == .right)
  let n := starts.length
  if traversed then
    let s := s.take n
    return (starts, s.map Prod.snd, { b with restart := some (← Ser.get s (n - 1)) })
  else
    return (starts, s.map Prod.snd, { restart := some (← s.get (n - 1)), lastOn := some (on.getLastD 0) })

/-- `by_scale(on, by=series, closed, buffer)`: chunk starts, labels, new buffer. -/
def bySer (by_ : List Int) (closed : Closed) (on : List Int) (b : ScaleBuf) :
    Except Err (List Nat × List Int × ScaleBuf) := do
  let (s, b) ← if b.truthy then serRestart (Ser.ofList by_) closed b else pure (Ser.ofList by_, b)
  serFinish s closed on b

/-- `snap_labels[null_snap_indices]` (`cumsegagg.py:561`): labels of the snapshots without result, looked up by index label. -/
def nullLabels (s : Ser) : List Nat → Except Err (List Int)
  | [] => .ok []
  | i :: r =>
    match s.get i, nullLabels s r with
    | .ok v, .ok vs => .ok (v :: vs)
    | _, _ => .error .keyError

/-- Rows of snapshots (`cumsegagg.py:543-569`): `rows` has a result where `jcsagg` recorded one; the other rows are the zeros of the array,
till the labels found are set to null. -/
def serRows {A : Type} (zero : A) (s : Ser) (rows : List (Option A)) : Except Err (List (Int × Option A)) :=
  match nullLabels s ((rows.zipIdx.filter fun p => p.1.isNone).map Prod.snd) with
  | .error e => .error e
  | .ok nulls => .ok ((s.zip rows).map fun p => (p.1.2, if p.1.2 ∈ nulls then none else some (p.2.getD zero)))

end Oups.Segment
