import Verif.Model.AggStream
/-
Model of what threads share while keys are processed in parallel (`/repo/oups/aggstream/aggstream.py:1482-1494, 1511-1525`,
joblib): the datasets, and `OUPS_METADATA` (`/repo/oups/store/writer.py:43`), a dict common to all keys.

`_post_n_write_agg_chunks` is cut into the steps that read or modify these; threads may be interrupted between any two steps.
A step concerns one store key only: its dataset, and its item in the dict. Everything else is local to the thread: buffers
of the key, frames.

Simplifications
* Items of a dict are set, read and deleted atomically.
* `store[key] = ...` is one step: it only accesses the directory of `key`, the item of `key` in `OUPS_METADATA`, and adds
  `key` to the set of keys of the store.
-/
namespace Oups.AggStream
open Oups.Writer (Table Params)

section
variable {K R A S P Q M : Type} [DecidableEq K]

/-- Steps on what is shared. -/
inductive Act (A M : Type) where
  /-- `OUPS_METADATA[key] = ...` (804-811). -/
  | pend (m : M)
  /-- `store[key] = config, rows` (816-826). -/
  | store (T : Table (Row A)) (p : Params) (rows : List (Row A))
  /-- `write_metadata`, or creation of a dataset without rows (827-835). -/
  | writeMd
  /-- Exception. -/
  | raise (e : Err)

/-- What a store key has: its dataset and its item in `OUPS_METADATA`. -/
structure Cell (A M : Type) where
  data : Dataset (Row A) M := {}
  pending : Option M := none

def Act.run : Act A M → Cell A M → Except Err (Cell A M)
  | .pend m, c => .ok { c with pending := some m }
  | .store T p rows, c =>
    match storeSet T p c.data rows c.pending with
    | .error e => .error e
    | .ok d => .ok ⟨d, none⟩
  | .writeMd, c =>
    match c.pending with
    | none => .ok { c with data := if c.data.inStore then c.data else ⟨[], none, true⟩ }
    | some m => .ok ⟨if c.data.inStore then { c.data with md := some m } else ⟨[], some m, true⟩, none⟩
  | .raise e, _ => .error e

/-- Steps in a row. -/
def runActs : List (K × Act A M) → (K → Cell A M) → Except Err (K → Cell A M)
  | [], g => .ok g
  | (k, a) :: l, g =>
    match a.run (g k) with
    | .error e => .error e
    | .ok c => runActs l fun k' => if k' = k then c else g k'

/-- Metadata to be written (790-811). -/
def pendActs (cfg : KeyCfg K R A S Q) : Option (Md S P Q) → List (K × Act A (Md S P Q))
  | some m => [(cfg.main, .pend m)]
  | none => []

/-- Steps of the end of `_post_n_write_agg_chunks` (790-835). -/
def writeActs (cfg : KeyCfg K R A S Q) (md : Option (Md S P Q)) (main snap : Option (List (Row A))) :
    List (K × Act A (Md S P Q)) :=
  pendActs cfg md ++
  match main with
  | some rows => (cfg.main, .store cfg.table cfg.params rows) ::
    if cfg.resType = .both then
      match snap with
      | none => [(cfg.snap, .raise .type)]
      | some srows => [(cfg.snap, .store cfg.table cfg.snapParams srows)]
    else []
  | none =>
    match md with
    | some _ => [(cfg.main, .writeMd)]
    | none => []

/-- Steps of `_post_n_write_agg_chunks`. -/
def postActs (cfg : KeyCfg K R A S Q) (truthy : Int → Bool) (appendLast : Bool) (final : Option (Int × P))
    (st : KeyBuf A S Q) : List (K × Act A (Md S P Q)) :=
  match results cfg appendLast st with
  | .error e => [(cfg.main, .raise e)]
  | .ok (q, main, snap) => writeActs cfg (pendingMd truthy final st.seg q) main snap

/-- Steps of `agg_iter`. -/
def iterActs (cfg : KeyCfg K R A S Q) (truthy : Int → Bool) (st : KeyBuf A S Q) : List (K × Act A (Md S P Q)) :=
  match st.bin with
  | none => []
  | some b =>
    if b.isEmpty then []
    else if st.size + st.size / (st.binBuf.length + 1) > cfg.maxSize then
      postActs cfg truthy false (none : Option (Int × P)) (pushPrev cfg st b)
    else []

end
end Oups.AggStream
