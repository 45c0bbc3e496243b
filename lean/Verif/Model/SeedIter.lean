import Verif.Model.Filter
/-
Model of `_iter_data` (`/repo/oups/aggstream/aggstream.py:442-596`).

Simplifications
* A seed frame is a list of rows; `ord` gives the value of a row in `ordered_on`, as an integer.
* The generator is modelled by the list of what it yields, with the exception it then raises if any: the consumer
  handles each yield before the next one is computed, and does not act on what is computed next.
* `pre` modifies in place the frame and the buffer: it is a function to the new frame, the new buffer, and whether it
  raised. `pre_buffer` is one dict shared by all yields and by `AggStream.seed_config`: it is returned once.
* The index of frames is positional: boolean arrays have one value per row.
-/
namespace Oups.AggStream

/-- What `_iter_data` yields, the buffer apart: `last_seed_index`, `filter_id`, `filtered_chunk`. -/
structure Yield (F R : Type) where
  last : Int
  filt : F
  rows : List R
  deriving DecidableEq, Repr

/-- Exceptions: `SeedPreException`, `IndexError` of `iloc[-1]` on an empty frame, exception of `dataframe_filter`. -/
inductive IterExc where
  | seedPre
  | index
  | filter (e : Oups.Filter.Err)
  deriving DecidableEq, Repr

abbrev Pre (R P : Type) := List R → P → List R × P × Bool

/-- The boolean array of a filter; `none` for `NO_FILTER_ID`. -/
abbrev Filt (R : Type) := Option (List R → Except Oups.Filter.Err (List Bool))

/-- `Series.is_monotonic_increasing`. -/
def isAscending : List Int → Bool
  | a :: b :: l => decide (a ≤ b) && isAscending (b :: l)
  | _ => true

/-- `frame.loc[array]`. -/
def maskRows {R : Type} (mask : List Bool) (rows : List R) : List R :=
  ((rows.zip mask).filter Prod.snd).map Prod.fst

/-- `filter_array_loc` (575-579). -/
def filterArray {R : Type} (chunk : List R) (mask : List Bool) : Filt R → Except Oups.Filter.Err (List Bool)
  | none => .ok mask
  | some f =>
    match f chunk with
    | .error e => .error e
    | .ok m => .ok (List.zipWith (· && ·) m mask)

/-- Step 4 (573-596). -/
def filterLoop {F R : Type} (last : Int) (chunk : List R) (mask : List Bool) :
    List (F × Filt R) → List (Yield F R) × Option IterExc
  | [] => ([], none)
  | (id, f) :: fs =>
    match filterArray chunk mask f with
    | .error e => ([], some (.filter e))
    | .ok m =>
      let rest := filterLoop last chunk mask fs
      if m.any (fun b => b) then (⟨last, id, maskRows m chunk⟩ :: rest.1, rest.2) else rest

/-- Step 1 (541-549). -/
def runPre {R P : Type} (pre : Option (Pre R P)) (chunk : List R) (buffer : P) : List R × P × Bool :=
  match pre with
  | none => (chunk, buffer, false)
  | some f => f chunk buffer

/-- Body of the loop (528-596). `trim`: the restart index as long as the head is to be trimmed; `rem`:
`seed_remainder`, empty for `None`. -/
def iterLoop {F R P : Type} (ord : R → Int) (pre : Option (Pre R P)) (filters : List (F × Filt R)) (discard : Bool) :
    Option Int → List R → P → List (List R) → List (Yield F R) × P × Option IterExc
  | _, _, pb, [] => ([], pb, none)
  | trim, rem, pb, c :: cs =>
    if isAscending (c.map ord) = false then ([], pb, some .seedPre)
    else
      match runPre pre c pb with
      | (_, pb, true) => ([], pb, some .seedPre)
      | (c, pb, false) =>
        match (rem ++ c).getLast? with
        | none => ([], pb, some .index)
        | some x =>
          if trim.any (fun t => decide (ord x < t)) then iterLoop ord pre filters discard trim rem pb cs
          else
            let mask := (rem ++ c).map fun r => trim.all (fun t => decide (t ≤ ord r))
            let mainChunk := (rem ++ c).map fun r => decide (ord r < ord x)
            let mask := if discard then List.zipWith (· && ·) mask mainChunk else mask
            let rem' := if discard then maskRows (mainChunk.map (!·)) (rem ++ c) else rem
            match filterLoop (ord x) (rem ++ c) mask filters with
            | (ys, some e) => (ys, pb, some e)
            | (ys, none) =>
              match iterLoop ord pre filters discard none rem' pb cs with
              | (zs, pb, e) => (ys ++ zs, pb, e)

/-- `_iter_data` (442-596). -/
def iterData {F R P : Type} (ord : R → Int) (restart : Option Int) (pre : Option (Pre R P)) (buffer : P)
    (filters : List (F × Filt R)) (trimStart discard : Bool) (seed : List (List R)) :
    List (Yield F R) × P × Option IterExc :=
  iterLoop ord pre filters discard (if trimStart then restart else none) [] buffer seed

end Oups.AggStream
