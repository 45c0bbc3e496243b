import Verif.Model.KeysConfig
/-
Model of names of columns of aggregation results, and of what `write` is given for them.
* `/repo/oups/aggstream/cumsegagg.py:519-520, 543-544`: name of the index of results.
* `/repo/oups/aggstream/aggstream.py`: `_concat_agg_res` (599-637), and parameters of writes in `_post_n_write_agg_chunks`
  (811-822).

Simplifications
* Names of columns are numbers, none is the empty string. `idx` and `lvl` are the numbers of `index` and `level_0`, which
  `reset_index` of pandas uses for an index without name.
* Values of write parameters are those of `write` in the model: a column, a tuple (`ordered_on`), a column or a list
  (`duplicates_on`), a number or `None` (sizes). Others have no translation (`none`).
* There is no `post`.
-/
namespace Oups.ResultCols
open Oups.KeysConfig (Val Dict KeyConf)
open Oups.Segment (SegConfig)
open Oups.Writer (Col Table Params OrdOn DupOn RG)
open Oups.Agg (AggErr Res)
open Oups.AggStream (KeyCfg Row)

inductive Err where
  /-- `cannot insert ..., already exists` (pandas) -/
  | exists
  | write (e : Oups.Writer.Err)
  deriving DecidableEq, Repr

/-- Name of the index of bins (cumsegagg.py 520). -/
def binIndex (s : SegConfig) : Option Nat :=
  match s.orderedOn with
  | some o => some o
  | none => s.binOn

/-- Name of the index of snapshots (cumsegagg.py 544). -/
def snapIndex (s : SegConfig) : Option Nat := s.orderedOn

/-- `reset_index` of pandas: the index becomes the first column. -/
def resetIndex (idx lvl : Nat) (name : Option Nat) (cols : List Nat) : Except Err (List Nat) :=
  match name with
  | some c => if cols.contains c then .error .exists else .ok (c :: cols)
  | none =>
    if cols.contains idx then (if cols.contains lvl then .error .exists else .ok (lvl :: cols)) else .ok (idx :: cols)

/-- Columns made by `_concat_agg_res` (631-637). -/
def concatCols (idx lvl : Nat) (indexName name : Option Nat) (outs : List Nat) : Except Err (List Nat) :=
  match indexName with
  | some c => resetIndex idx lvl (some c) outs
  | none => resetIndex idx lvl name outs

/-- Columns of bins, of snapshots (743-757). -/
def binCols (idx lvl : Nat) (c : KeyConf) : Except Err (List Nat) := concatCols idx lvl c.binOnOut (binIndex c.seg) c.agg
def snapCols (idx lvl : Nat) (c : KeyConf) : Except Err (List Nat) := concatCols idx lvl c.binOnOut (snapIndex c.seg) c.agg

/-! ### Parameters of writes -/

def ordOf : Option Val → Option (Option OrdOn)
  | none | some .none => some none
  | some (.name c) => some (some (.col c))
  | some (.pair _ _) => some (some .tuple)
  | some _ => none

def dupOf : Option Val → Option (Option DupOn)
  | none | some .none => some none
  | some (.name c) => some (some (.one c))
  | some (.names l) => some (some (.many l))
  | some _ => none

def numOf : Option Val → Option (Option Nat)
  | none | some .none => some none
  | some (.size n) => some (some n)
  | some _ => none

/-- First, second item of `max_row_group_size` (814-821). -/
def firstOf : Option Val → Option Val
  | some (.pair a _) => some a
  | _ => none

def secondOf : Option Val → Option Val
  | some (.pair _ b) => some b
  | _ => none

/-- Parameters of `write`, `size` being the value of `max_row_group_size`. -/
def paramsOf (d : Dict) (size : Option Val) : Option Params :=
  match ordOf (d.get "ordered_on"), dupOf (d.get "duplicates_on"), numOf size, numOf (d.get "max_nirgs") with
  | some o, some p, some m, some n => some ⟨m, o, p, n⟩
  | _, _, _, _ => none

/-- Parameters for the first key, for the second one (811-824). -/
def mainParams (c : KeyConf) : Option Params :=
  if c.resType = .both then paramsOf c.write (firstOf (c.write.get "max_row_group_size"))
  else paramsOf c.write (c.write.get "max_row_group_size")

def snapParams (c : KeyConf) : Option Params :=
  if c.resType = .both then paramsOf c.write (secondOf (c.write.get "max_row_group_size"))
  else paramsOf c.write (c.write.get "max_row_group_size")

/-! ### Results as tables -/

/-- Values of a row of results: the first column has the label, the others are read in aggregated values. -/
def resTable {A : Type} (val : Col → Option A → Int) : List Nat → Table (Row A)
  | [] => ⟨[], fun c r => val c r.2⟩
  | l :: outs => ⟨l :: outs, fun c r => if c = l then r.1 else val c r.2⟩

/-- `_concat_agg_res`, then `store[key] = config, rows` (743-824), for a key with a single result and without `post`; `rgs` are
row groups of the dataset. -/
def writeRows {A : Type} (idx lvl : Nat) (c : KeyConf) (val : Col → Option A → Int) (p : Params) (rgs : List (RG (Row A)))
    (rows : List (Row A)) : Except Err (List (RG (Row A))) :=
  match if c.resType = .bins then binCols idx lvl c else snapCols idx lvl c with
  | .error e => .error e
  | .ok cols =>
    match Oups.Writer.write (resTable val cols) p rgs rows with
    | .error e => .error (.write e)
    | .ok rgs => .ok rgs

/-- Maximum size of results in memory, if it is a number. -/
def memOf : Val → Option Nat
  | .size n => some n
  | _ => none

/-- A key of the stream, as made by the constructor: `none` if some value has no translation, or if columns of results
cannot be made. `call` is `cumsegagg` with the configuration of the key, `mem` is `memory_usage().sum()`. -/
def keyCfg {K R A S Q : Type} (idx lvl : Nat) (c : KeyConf) (main snap : K) (call : List R → S → Except AggErr (Option (Res A) × S))
    (mem : List (Row A) → Nat) (val : Col → Option A → Int) : Option (KeyCfg K R A S Q) :=
  match binCols idx lvl c, mainParams c, snapParams c, memOf c.maxMem, c.post with
  | .ok cols, some p, some ps, some m, .none => some ⟨main, snap, c.resType, call, mem, m, resTable val cols, p, ps, none⟩
  | _, _, _, _, _ => none

end Oups.ResultCols
