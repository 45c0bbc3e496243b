import Verif.Model.SeedIter
import Verif.Model.Aggregate
import Verif.Model.Writer
/-
Model of `/repo/oups/aggstream/aggstream.py`: `_is_aggstream_result`, `_init_buffers`, `_reset_agg_buffers`,
`_concat_agg_res`, `_post_n_write_agg_chunks`, `agg_iter`, `AggStream.agg`.

Simplifications
* A result row is its label (the index of the frame, a column once written) with its values, `none` if null.
* `cumsegagg` is a parameter (`KeyCfg.call`), with the state kept in `segagg_buffer`; so are the memory usage of a
  frame and `post`, which modifies its buffer in place: it is a function to the new buffer and what it returns.
* A dataset is its row groups, the `aggstream` entry of its oups metadata, and its presence in the store.
  `write` is that of `Verif.Model.Writer`; writing in a directory without `.parquet` file creates the dataset again,
  without the metadata it had. Writing the pending metadata sets the entry (C21). Serialization by
  `pickle` is faithful.
* A key is given by the one or two store keys it writes to.
* After an exception other than `SeedPreException`, the state is not described.
-/
namespace Oups.AggStream
open Oups.Agg (Res AggErr)
open Oups.Writer (Table Params RG)

/-- What is recorded in metadata (810-817). -/
structure Md (S P Q : Type) where
  restart : Int
  pre : P
  seg : S
  post : Q
  deriving DecidableEq, Repr

structure Dataset (Row M : Type) where
  rgs : List (RG Row) := []
  md : Option M := none
  inStore : Bool := false
  deriving DecidableEq, Repr

inductive Err where
  | agg (e : AggErr)
  | write (e : Oups.Writer.Err)
  | iter (e : IterExc)
  | index
  | value
  | type
  /-- `provided data is not an AggStream result` (352-354). -/
  | notAggStream
  /-- `existing aggregation results not aggregated up to the same seed index` (365-369). -/
  | diverging
  deriving DecidableEq, Repr

/-- `AggResType`. -/
inductive ResType where
  | bins | snaps | both
  deriving DecidableEq, Repr

/-- What `post` returns. -/
inductive PostRes (Row : Type) where
  | nothing
  | one (rows : List Row)
  | two (main snap : Option (List Row))

abbrev Post (Row Q : Type) := Q → List Row → Option (List Row) → Q × PostRes Row

/-- Result row. -/
abbrev Row (A : Type) := Int × Option A

/-- Entry of `keys_config`, with `agg_cs`. -/
structure KeyCfg (K R A S Q : Type) where
  main : K
  snap : K
  resType : ResType := .bins
  call : List R → S → Except AggErr (Option (Res A) × S)
  mem : List (Row A) → Nat
  maxSize : Nat
  table : Table (Row A)
  params : Params
  snapParams : Params := params
  post : Option (Post (Row A) Q) := none

/-- Entry of `agg_buffers` (412-418). -/
structure KeyBuf (A S Q : Type) where
  size : Nat := 0
  bin : Option (List (Row A)) := none
  snap : Option (List (Row A)) := none
  binBuf : List (List (Row A)) := []
  snapBuf : List (List (Row A)) := []
  seg : S
  post : Q
  deriving DecidableEq, Repr

section
variable {K R A S P Q : Type} [DecidableEq K]

/-- The datasets of the store. -/
abbrev World (K A M : Type) := K → Dataset (Row A) M

def World.set {M : Type} (w : World K A M) (k : K) (d : Dataset (Row A) M) : World K A M :=
  fun k' => if k' = k then d else w k'

/-- `store[key] = config, rows`, with the metadata pending for the key. -/
def storeSet {M : Type} (T : Table (Row A)) (p : Params) (d : Dataset (Row A) M) (rows : List (Row A))
    (pending : Option M) : Except Err (Dataset (Row A) M) :=
  match Oups.Writer.write T p d.rgs rows with
  | .error e => .error (.write e)
  | .ok rgs => .ok ⟨rgs, match pending with
      | some m => some m
      | none => if d.rgs.isEmpty then none else d.md, true⟩

/-- `_concat_agg_res` (599-637). -/
def concatRes (buf : List (List (Row A))) (last : List (Row A)) (appendLast : Bool) :
    Except Err (List (Row A)) :=
  match if appendLast then buf ++ [last] else buf with
  | [] => .error .index
  | l => .ok l.flatten

/-- `snap_res` (751-757). -/
def concatSnap (st : KeyBuf A S Q) (appendLast : Bool) : Except Err (Option (List (Row A))) :=
  match st.snap with
  | none => .ok none
  | some s =>
    match concatRes st.snapBuf s appendLast with
    | .error e => .error e
    | .ok l => .ok (some l)

/-- Results to write (738-793): post buffer, `main_res`, `snap_res`. -/
def results (cfg : KeyCfg K R A S Q) (appendLast : Bool) (st : KeyBuf A S Q) :
    Except Err (Q × Option (List (Row A)) × Option (List (Row A))) :=
  match st.bin with
  | none => .ok (st.post, none, none)
  | some b =>
    match concatRes st.binBuf b appendLast with
    | .error e => .error e
    | .ok bins =>
      match concatSnap st appendLast with
      | .error e => .error e
      | .ok snaps =>
        match cfg.post with
        | none => .ok (st.post, if cfg.resType = .snaps then snaps else some bins, snaps)
        | some f =>
          match f st.post bins (if cfg.resType = .bins then none else snaps), cfg.resType with
          | (q, .two m s), .both => .ok (q, m, s)
          -- unpacking a frame gives its column names
          | (q, .one _), .both => if cfg.table.cols.length = 2 then .ok (q, none, none) else .error .value
          | (_, .nothing), .both => .error .type
          | (q, .one m), _ => .ok (q, some m, snaps)
          | (q, _), _ => .ok (q, none, snaps)

/-- Metadata to record (797-817): `if last_seed_index:`. -/
def pendingMd (truthy : Int → Bool) (final : Option (Int × P)) (seg : S) (q : Q) : Option (Md S P Q) :=
  match final with
  | some (i, pb) => if truthy i then some ⟨i, pb, seg, q⟩ else none
  | none => none

/-- Writes (818-834). -/
def writeResults (cfg : KeyCfg K R A S Q) (md : Option (Md S P Q)) (main snap : Option (List (Row A)))
    (w : World K A (Md S P Q)) : Except Err (World K A (Md S P Q)) :=
  match main with
  | some rows =>
    match storeSet cfg.table cfg.params (w cfg.main) rows md with
    | .error e => .error e
    | .ok d =>
      if cfg.resType = .both then
        match snap with
        | none => .error .type
        | some srows =>
          match storeSet cfg.table cfg.snapParams ((w.set cfg.main d) cfg.snap) srows none with
          | .error e => .error e
          | .ok d' => .ok ((w.set cfg.main d).set cfg.snap d')
      else .ok (w.set cfg.main d)
  | none =>
    match md with
    | none => .ok w
    | some m =>
      .ok (w.set cfg.main (if (w cfg.main).inStore then { w cfg.main with md := some m }
        else ⟨[], some m, true⟩))

/-- `_post_n_write_agg_chunks` (640-840). -/
def postNWrite (cfg : KeyCfg K R A S Q) (truthy : Int → Bool) (appendLast : Bool) (final : Option (Int × P))
    (st : KeyBuf A S Q) (w : World K A (Md S P Q)) : Except Err (KeyBuf A S Q × World K A (Md S P Q)) :=
  match results cfg appendLast st with
  | .error e => .error e
  | .ok (q, main, snap) =>
    match writeResults cfg (pendingMd truthy final st.seg q) main snap w with
    | .error e => .error e
    | .ok w' => .ok ((if st.bin.isSome then { seg := st.seg, post := q } else { st with post := q }), w')

/-- Results of the previous iteration are kept, last row excepted (875-892). -/
def pushPrev (cfg : KeyCfg K R A S Q) (st : KeyBuf A S Q) (b : List (Row A)) : KeyBuf A S Q :=
  { st with
    binBuf := st.binBuf ++ [b.dropLast]
    snapBuf := match st.snap with
      | none => st.snapBuf
      | some s => st.snapBuf ++ [s.dropLast]
    size := st.size + cfg.mem b + match st.snap with
      | none => 0
      | some s => cfg.mem s }

/-- First half of `agg_iter` (873-914). -/
def flushPrev (cfg : KeyCfg K R A S Q) (truthy : Int → Bool) (st : KeyBuf A S Q) (w : World K A (Md S P Q)) :
    Except Err (KeyBuf A S Q × World K A (Md S P Q)) :=
  match st.bin with
  | none => .ok (st, w)
  | some b =>
    if b.isEmpty then .ok (st, w)
    else if st.size + st.size / (st.binBuf.length + 1) > cfg.maxSize then
      postNWrite cfg truthy false none (pushPrev cfg st b) w
    else .ok (pushPrev cfg st b, w)

/-- `agg_iter` (843-928). -/
def aggIter (cfg : KeyCfg K R A S Q) (truthy : Int → Bool) (chunk : List R) (st : KeyBuf A S Q)
    (w : World K A (Md S P Q)) : Except Err (KeyBuf A S Q × World K A (Md S P Q)) :=
  match flushPrev cfg truthy st w with
  | .error e => .error e
  | .ok (st, w) =>
    match cfg.call chunk st.seg with
    | .error e => .error (.agg e)
    | .ok (res, seg) =>
      .ok ({ st with
        seg := seg
        bin := res.map Res.bins
        snap := res.bind Res.snaps }, w)

end

/-! ### `AggStream` -/

section
variable {K R A S P Q F : Type} [DecidableEq K] [DecidableEq F]

/-- Attributes set by the constructor. Keys are numbered. -/
structure Config (K R A S P Q F : Type) where
  ord : R → Int
  pre : Option (Pre R P) := none
  filters : List (F × Filt R)
  keys : List (F × KeyCfg K R A S Q)
  truthy : Int → Bool

/-- Attributes that change: `seed_config[restart_index]`, `seed_config[pre_buffer]`, `agg_buffers`. -/
structure State (A S P Q : Type) where
  restart : Option Int
  pre : P
  bufs : List (KeyBuf A S Q)
  deriving DecidableEq, Repr

/-- `f` on each key of the list that is selected, in turn. -/
def forKeys {M : Type} (sel : F → Bool)
    (f : KeyCfg K R A S Q → KeyBuf A S Q → World K A M → Except Err (KeyBuf A S Q × World K A M)) :
    List (F × KeyCfg K R A S Q) → List (KeyBuf A S Q) → World K A M →
    Except Err (List (KeyBuf A S Q) × World K A M)
  | k :: ks, b :: bs, w =>
    if sel k.1 then
      match f k.2 b w with
      | .error e => .error e
      | .ok (b, w) =>
        match forKeys sel f ks bs w with
        | .error e => .error e
        | .ok (bs, w) => .ok (b :: bs, w)
    else
      match forKeys sel f ks bs w with
      | .error e => .error e
      | .ok (bs, w) => .ok (b :: bs, w)
  | _, bs, w => .ok (bs, w)

/-- Loop of `agg` (1473-1503). -/
def aggLoop (c : Config K R A S P Q F) :
    List (Yield F R) → Option Int → List (KeyBuf A S Q) → World K A (Md S P Q) →
    Except Err (Option Int × List (KeyBuf A S Q) × World K A (Md S P Q))
  | [], r, bs, w => .ok (r, bs, w)
  | y :: ys, _, bs, w =>
    match forKeys (fun f => decide (f = y.filt)) (fun cfg => aggIter cfg c.truthy y.rows) c.keys bs w with
    | .error e => .error e
    | .ok (bs, w) => aggLoop c ys (some y.last) bs w

/-- Parameters of a call to `agg`; an empty seed stands also for `None`. -/
structure Call (R : Type) where
  seed : List (List R)
  trimStart : Bool := false
  discardLast : Bool := false
  finalWrite : Bool := true

/-- Final write (1507-1527). -/
def finalWrite (c : Config K R A S P Q F) (s : State A S P Q) (w : World K A (Md S P Q)) :
    Except Err (State A S P Q × World K A (Md S P Q)) :=
  match forKeys (fun _ => true)
      (fun cfg => postNWrite cfg c.truthy true (s.restart.map fun i => (i, s.pre))) c.keys s.bufs w with
  | .error e => .error e
  | .ok (bs, w) => .ok ({ s with bufs := bs }, w)

/-- `AggStream.agg` (1386-1531): new state, new store, and whether `SeedPreException` is raised at the end. -/
def agg (c : Config K R A S P Q F) (a : Call R) (s : State A S P Q) (w : World K A (Md S P Q)) :
    Except Err (State A S P Q × World K A (Md S P Q) × Bool) :=
  match iterData c.ord s.restart c.pre s.pre c.filters a.trimStart a.discardLast a.seed with
  | (ys, pb, exc) =>
    match aggLoop c ys s.restart s.bufs w with
    | .error e => .error e
    | .ok (r, bs, w) =>
      if exc = none ∨ exc = some .seedPre then
        if a.finalWrite then
          match finalWrite c ⟨r, pb, bs⟩ w with
          | .error e => .error e
          | .ok (s, w) => .ok (s, w, exc.isSome)
        else .ok (⟨r, pb, bs⟩, w, exc.isSome)
      else .error (.iter (exc.getD .index))

/-- Successive calls; a `SeedPreException` is caught by the caller, which goes on. -/
def aggs (c : Config K R A S P Q F) : List (Call R) → State A S P Q → World K A (Md S P Q) →
    Except Err (State A S P Q × World K A (Md S P Q))
  | [], s, w => .ok (s, w)
  | a :: as, s, w =>
    match agg c a s w with
    | .error e => .error e
    | .ok (s, w, _) => aggs c as s w

/-! ### `_init_buffers` (279-374) -/

/-- Buffers of one key (321-362), from its dataset. -/
def initKey (s0 : S) (q0 : Q) (d : Dataset (Row A) (Md S P Q)) :
    Except Err (Option (Int × P) × KeyBuf A S Q) :=
  if d.inStore then
    match d.md with
    | none => .error .notAggStream
    | some m => .ok (some (m.restart, m.pre), { seg := m.seg, post := m.post })
  else .ok (none, { seg := s0, post := q0 })

/-- Loop over keys: restart indices with pre buffers, and buffers. -/
def initLoop (s0 : S) (q0 : Q) (w : World K A (Md S P Q)) :
    List (F × KeyCfg K R A S Q) → Except Err (List (Int × P) × List (KeyBuf A S Q))
  | [] => .ok ([], [])
  | k :: ks =>
    match initKey s0 q0 (w k.2.main) with
    | .error e => .error e
    | .ok (r, b) =>
      match initLoop s0 q0 w ks with
      | .error e => .error e
      | .ok (rs, bs) => .ok (r.toList ++ rs, b :: bs)

/-- `_init_buffers`: the state of a new `AggStream`. `s0`, `p0`, `q0`: empty dicts. -/
def initBuffers (s0 : S) (p0 : P) (q0 : Q) (c : Config K R A S P Q F) (w : World K A (Md S P Q)) :
    Except Err (State A S P Q) :=
  match initLoop s0 q0 w c.keys with
  | .error e => .error e
  | .ok (rs, bs) =>
    match rs with
    | [] => .ok ⟨none, p0, bs⟩
    | (i, p) :: rest =>
      if rest.all (fun r => decide (r.1 = i)) then .ok ⟨some i, (rest.getLast?.map Prod.snd).getD p, bs⟩
      else .error .diverging

end
end Oups.AggStream
