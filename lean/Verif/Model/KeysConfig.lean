import Verif.Model.Segment
import Verif.Model.AggStream
/-
Model of `/repo/oups/aggstream/aggstream.py`: `_init_keys_config` (122-276), and of what the constructor of `AggStream`
does with `kwargs`, `filters` and `keys` (1246-1335).

Simplifications
* A dict of parameters is a list of names and values; a value is one of those the code distinguishes (`Val`). Names of
  columns are numbers, as in `setup_segmentby`.
* Sizes are natural numbers: `int(x * 1048576)` is the product.
* `write.__code__.co_varnames` is the list of parameters of `write` (`/repo/oups/store/writer.py:326-339`).
* Filters are lists of conditions (`C`), or lists of lists.
* All keys of `keys` are of the same kind as the first one: filter ids, or store keys. `keys` is not empty.
* The order of keys in `ChainMap` is not modelled: if several keys are refused, which one is reported may differ.
-/
namespace Oups.KeysConfig
open Oups.Segment (BinBy SnapBy SegConfig setupSegmentby)
open Oups.AggStream (ResType)

/-- Values of parameters. -/
inductive Val where
  | none
  | name (c : Nat)
  | names (l : List Nat)
  | pair (a b : Val)
  | size (n : Nat)
  | binBy (b : BinBy)
  | snapBy (s : SnapBy)
  | agg (outputs : List Nat)
  | other (n : Nat)
  deriving DecidableEq, Repr

abbrev Dict := List (String × Val)

/-- `d.get(k)`, `none` if there is no such key. -/
def Dict.get (d : Dict) (k : String) : Option Val := (d.find? fun x => x.1 == k).map Prod.snd

/-- `k in d`. -/
def Dict.has (d : Dict) (k : String) : Bool := d.any fun x => x.1 == k

/-- `d` without `k`, as left by `d.pop(k)`. -/
def Dict.drop (d : Dict) (k : String) : Dict := d.filter fun x => x.1 != k

/-- `d[k] = v`. -/
def Dict.set (d : Dict) (k : String) (v : Val) : Dict :=
  if d.has k then d.map fun x => if x.1 == k then (k, v) else x else d ++ [(k, v)]

/-- `a | b`: the items of `a`, with values of `b` if any, then the others of `b`. -/
def Dict.merge (a b : Dict) : Dict :=
  (a.map fun x => (x.1, (b.get x.1).getD x.2)) ++ b.filter fun x => !a.has x.1

inductive Err where
  /-- `'bin_by' parameter is missing` -/
  | missingBinBy
  /-- `not a valid parameters in aggregation config` -/
  | badParam (p : String)
  /-- `exception raised for key`: from `setup_segmentby`. -/
  | segment
  /-- `not possible to have ... as column name in aggregated results` -/
  | clash
  /-- `neither a valid parameter for AggStream initialization, nor for oups.write function` -/
  | badKwarg (p : String)
  /-- `not possible to use filter syntax without providing filters` -/
  | noFilters
  /-- `not possible to use '_' as key in filters with a value different than None` -/
  | reservedFilter
  /-- `not possible to have different lists of filter ids` -/
  | filterIds
  /-- `not possible to have key(s) used for different filter ids` -/
  | dupKeys
  | typeError
  | indexError
  | keyError
  deriving DecidableEq, Repr

/-- `WRITE_PARAMS` (78). -/
def writeParams : List String :=
  ["dirpath", "data", "max_row_group_size", "compression", "cmidx_expand", "cmidx_levels", "ordered_on", "duplicates_on",
    "max_nirgs", "metadata", "md_key"]

/-- `KEY_CONF_IN_PARAMS` (79-85). -/
def keyParams : List String := ["bin_on", "snap_by", "agg", "post", "max_in_memory_size_b"] ++ writeParams

def megabyte : Nat := 1048576

/-- `max_in_memory_size`, if present, replaced by `max_in_memory_size_b` (183-187). -/
def toBytes (d : Dict) : Except Err Dict :=
  match d.get "max_in_memory_size" with
  | .none => .ok d
  | some (.size n) => .ok ((d.drop "max_in_memory_size").set "max_in_memory_size_b" (.size (n * megabyte)))
  | some _ => .error .typeError

/-- `bin_on`, `bin_on_out` (195-206). -/
def splitBinOn : Option Val → Except Err (Option Nat × Option Nat)
  | some (.name c) => .ok (some c, .none)
  | some (.pair (.name c) (.name o)) => .ok (some c, some o)
  | some .none | .none => .ok (.none, .none)
  | some _ => .error .typeError

def toSnap : Option Val → Except Err (Option SnapBy)
  | some (.snapBy s) => .ok (some s)
  | some .none => .ok .none
  | some _ => .error .segment
  | .none => .error .segment

/-- `setup_segmentby` for a key (208-216); any exception is turned into `ValueError`. -/
def keySeg (seedOn : Option Nat) (binBy : Val) (binOn : Option Nat) (snap : Option Val) : Except Err SegConfig :=
  match toSnap snap with
  | .error e => .error e
  | .ok s =>
    match binBy with
    | .binBy b =>
      match setupSegmentby b binOn seedOn s with
      | .error _ => .error .segment
      | .ok c => .ok c
    | _ => .error .segment

/-- `duplicates_on` (240-248). -/
def setDuplicates (d : Dict) (binOnOut : Option Nat) : Except Err Dict :=
  match d.get "duplicates_on" with
  | .none | some .none =>
    match binOnOut with
    | some c => .ok (d.set "duplicates_on" (.name c))
    | .none =>
      match d.get "ordered_on" with
      | some v => .ok (d.set "duplicates_on" v)
      | .none => .error .keyError
  | some _ => .ok d

/-- `agg_res_type` (249-262). -/
def resTypeOf (snapGrouper pair : Bool) : ResType :=
  if snapGrouper = false then .bins else if pair then .both else .snaps

/-- `max_row_group_size` (263-273). -/
def setRowGroupSize (d : Dict) (t : ResType) : Dict :=
  if t = .both then
    match d.get "max_row_group_size" with
    | some (.pair _ _) => d
    | some v => d.set "max_row_group_size" (.pair v v)
    | .none => d.set "max_row_group_size" (.pair .none .none)
  else d

/-- Entry of `keys_config`, with that of `agg_pd`. -/
structure KeyConf where
  seg : SegConfig
  binOnOut : Option Nat
  maxMem : Val
  post : Val
  write : Dict
  resType : ResType
  agg : List Nat
  deriving DecidableEq, Repr

/-- What follows the checks (195-273); `d` has defaults. -/
def finishKey (seedOn : Option Nat) (pair : Bool) (binBy : Val) (d : Dict) : Except Err KeyConf :=
  match splitBinOn (d.get "bin_on") with
  | .error e => .error e
  | .ok (binOn, out) =>
    match keySeg seedOn binBy binOn (d.get "snap_by") with
    | .error e => .error e
    | .ok seg =>
      match d.get "agg" with
      | .none => .error .keyError
      | some (.agg outs) =>
        if (out.or seg.binOn).any (fun c => outs.contains c) then .error .clash
        else
          match setDuplicates (((d.drop "bin_on").drop "snap_by").drop "agg") (out.or seg.binOn) with
          | .error e => .error e
          | .ok d' =>
            match (setRowGroupSize d' (resTypeOf seg.snapGrouper pair)).get "max_in_memory_size_b",
                (setRowGroupSize d' (resTypeOf seg.snapGrouper pair)).get "post" with
            | some m, some p =>
              .ok ⟨seg, out.or seg.binOn, m, p,
                ((setRowGroupSize d' (resTypeOf seg.snapGrouper pair)).drop "max_in_memory_size_b").drop "post",
                resTypeOf seg.snapGrouper pair, outs⟩
            | _, _ => .error .keyError
      | some _ => .error .typeError

/-- `_init_keys_config` for one key (171-273), with the dict of the user as it is left. `pair`: the key is a tuple. -/
def initKey (seedOn : Option Nat) (default : Dict) (pair : Bool) (conf : Dict) : Except Err KeyConf × Dict :=
  match conf.get "bin_by" with
  | .none => (.error .missingBinBy, conf)
  | some binBy =>
    match toBytes (conf.drop "bin_by") with
    | .error e => (.error e, conf.drop "bin_by")
    | .ok conf' =>
      match (default.merge conf').find? fun x => !keyParams.contains x.1 with
      | some x => (.error (.badParam x.1), conf')
      | .none => (finishKey seedOn pair binBy (default.merge conf'), conf')

/-! ### Constructor of `AggStream` -/

section
variable {K F C : Type} [DecidableEq K] [DecidableEq F]

/-- `keys_default` (1261-1267); the first five are arguments with names. -/
def keysDefault (snap agg post : Val) (orderedOn : Nat) (maxMem : Nat) (kwargs : Dict) : Dict :=
  Dict.merge [("snap_by", snap), ("agg", agg), ("post", post), ("ordered_on", .name orderedOn),
    ("max_in_memory_size_b", .size (maxMem * megabyte))] kwargs

/-- Value of a filter given by the user. -/
inductive FiltIn (C : Type) where
  | null
  | flat (l : List C)
  | nested (l : List (List C))

/-- `[filters_] if isinstance(filters_[0], tuple) else filters_` (1255-1260). -/
def encloseFilter : FiltIn C → Except Err (List (List C))
  | .null => .error .typeError
  | .flat [] => .error .indexError
  | .flat l => .ok [l]
  | .nested [] => .error .indexError
  | .nested l => .ok l

def encloseFilters : List (F × FiltIn C) → Except Err (List (F × Option (List (List C))))
  | [] => .ok []
  | (f, x) :: l =>
    match encloseFilter x with
    | .error e => .error e
    | .ok y =>
      match encloseFilters l with
      | .error e => .error e
      | .ok r => .ok ((f, some y) :: r)

/-- Filters, if any (1255-1260). -/
def encloseAll : Option (List (F × FiltIn C)) → Except Err (Option (List (F × Option (List (List C)))))
  | none => .ok none
  | some l =>
    match encloseFilters l with
    | .error e => .error e
    | .ok r => .ok (some r)

/-- `keys`, as given by the user. -/
inductive KeysIn (K F : Type) where
  | single (k : K)
  | plain (l : List (K × Dict))
  | byFilter (l : List (F × List (K × Dict)))

/-- Same filter ids, `noId` apart (1290-1303). -/
def sameIds (noId : F) (a b : List F) : Bool :=
  (a.all fun f => decide (f = noId) || b.contains f) && b.all fun f => decide (f = noId) || a.contains f

/-- Filters and keys (1268-1308); `noId` is `NO_FILTER_ID`. -/
def pairFilters (noId : F) (filters : Option (List (F × Option (List (List C))))) (default : Dict) (binBy binOn : Val)
    (keys : KeysIn K F) : Except Err (List (F × Option (List (List C))) × List (F × List (K × Dict))) :=
  match keys with
  | .single k => .ok ([(noId, none)], [(noId, [(k, default.merge [("bin_by", binBy), ("bin_on", binOn)])])])
  | .plain l => .ok ([(noId, none)], [(noId, l)])
  | .byFilter l =>
    match filters with
    | none => .error .noFilters
    | some fs =>
      if fs.any (fun f => decide (f.1 = noId) && f.2.isSome) then .error .reservedFilter
      else if sameIds noId (fs.map Prod.fst) (l.map Prod.fst) = false then .error .filterIds
      else .ok (if (l.map Prod.fst).contains noId && !(fs.map Prod.fst).contains noId then fs ++ [(noId, none)] else fs, l)

/-- `_init_keys_config` (122-276), keys being with their filters. -/
def initKeys (seedOn : Nat) (default : Dict) (isPair : K → Bool) : List (F × K × Dict) →
    Except Err (List (F × K × KeyConf))
  | [] => .ok []
  | (f, k, d) :: l =>
    match (initKey (some seedOn) default (isPair k) d).1 with
    | .error e => .error e
    | .ok c =>
      match initKeys seedOn default isPair l with
      | .error e => .error e
      | .ok r => .ok ((f, k, c) :: r)

/-- The list has an item twice. -/
def hasDup : List K → Bool
  | [] => false
  | k :: l => l.contains k || hasDup l

/-- Arguments of `AggStream`, `store`, `pre` and `parallel` apart. -/
structure Args (K F C : Type) where
  orderedOn : Nat
  keys : KeysIn K F
  filters : Option (List (F × FiltIn C)) := none
  agg : Val := .none
  binBy : Val := .none
  binOn : Val := .none
  snapBy : Val := .none
  post : Val := .none
  maxMem : Nat := 140
  kwargs : Dict := []

/-- Constructor of `AggStream` (1246-1335): filters, and keys with their filter ids and configurations. -/
def initStream (noId : F) (isPair : K → Bool) (a : Args K F C) :
    Except Err (List (F × Option (List (List C))) × List (F × K × KeyConf)) :=
  match a.kwargs.find? fun x => !writeParams.contains x.1 with
  | some x => .error (.badKwarg x.1)
  | none =>
    match encloseAll a.filters with
    | .error e => .error e
    | .ok filters =>
      match pairFilters noId filters (keysDefault a.snapBy a.agg a.post a.orderedOn a.maxMem a.kwargs) a.binBy a.binOn
          a.keys with
      | .error e => .error e
      | .ok (fs, ks) =>
        if hasDup (ks.flatMap fun x => x.2.map Prod.fst) then .error .dupKeys
        else
          match initKeys a.orderedOn (keysDefault a.snapBy a.agg a.post a.orderedOn a.maxMem a.kwargs) isPair
              (ks.flatMap fun x => x.2.map fun y => (x.1, y.1, y.2)) with
          | .error e => .error e
          | .ok cs => .ok (fs, cs)

end
end Oups.KeysConfig
