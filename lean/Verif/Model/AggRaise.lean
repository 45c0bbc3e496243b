import Verif.Model.AggStream
/-!
What an exception leaves (`oups/aggstream/aggstream.py`): buffers are modified in place and datasets written stay written.

Same functions as in `Model/AggStream`, with the state when they raise. Simplifications:
* `left`: what a failing `cumsegagg` leaves in `segagg_buffer`, any function (zero in results: it is already that of a normal
  return, the check comes last, cumsegagg.py 502-504 and 565-576);
* `post` itself does not raise; what it returns may be refused;
* jobs of one filter run one after the other, and those after the one that raises are not run (`n_jobs = 1`; see
  `Spec/AggRaise` for jobs in parallel);
* the buffer of `pre` is not described when a job raises; the final write is not described when it raises, except by
  `FinalPart` (`Spec/AggRaise`).
-/
namespace Oups.AggStream
open Oups.Writer (Table Params RG)
open Oups.Agg (Res AggErr)

section
variable {K R A S P Q : Type} [DecidableEq K]

/-- `post_buffer` after `_post_n_write_agg_chunks` raised on what `post` returned (734-780). -/
def postLeft (cfg : KeyCfg K R A S Q) (appendLast : Bool) (st : KeyBuf A S Q) : Q :=
  match st.bin, cfg.post with
  | some b, some f =>
    match concatRes st.binBuf b appendLast, concatSnap st appendLast with
    | .ok bins, .ok snaps => (f st.post bins (if cfg.resType = .bins then none else snaps)).1
    | _, _ => st.post
  | _, _ => st.post

/-- Datasets after `writeResults` raised (818-834): for two keys, the first write may have been done. -/
def writeLeft (cfg : KeyCfg K R A S Q) (md : Option (Md S P Q)) (main : Option (List (Row A)))
    (w : World K A (Md S P Q)) : World K A (Md S P Q) :=
  match main with
  | none => w
  | some rows =>
    match storeSet cfg.table cfg.params (w cfg.main) rows md with
    | .error _ => w
    | .ok d => w.set cfg.main d

/-- `_post_n_write_agg_chunks` (640-840): buffers, datasets, and the exception if any. -/
def postNWriteR (cfg : KeyCfg K R A S Q) (truthy : Int → Bool) (appendLast : Bool) (final : Option (Int × P))
    (st : KeyBuf A S Q) (w : World K A (Md S P Q)) : KeyBuf A S Q × World K A (Md S P Q) × Option Err :=
  match results cfg appendLast st with
  | .error e => ({ st with post := postLeft cfg appendLast st }, w, some e)
  | .ok (q, main, snap) =>
    match writeResults cfg (pendingMd truthy final st.seg q) main snap w with
    | .error e => ({ st with post := q }, writeLeft cfg (pendingMd truthy final st.seg q) main w, some e)
    | .ok w' => ((if st.bin.isSome then { seg := st.seg, post := q } else { st with post := q }), w', none)

/-- First half of `agg_iter` (873-914): results are appended to the buffers before the write. -/
def flushPrevR (cfg : KeyCfg K R A S Q) (truthy : Int → Bool) (st : KeyBuf A S Q) (w : World K A (Md S P Q)) :
    KeyBuf A S Q × World K A (Md S P Q) × Option Err :=
  match st.bin with
  | none => (st, w, none)
  | some b =>
    if b.isEmpty then (st, w, none)
    else if st.size + st.size / (st.binBuf.length + 1) > cfg.maxSize then
      postNWriteR cfg truthy false none (pushPrev cfg st b) w
    else (pushPrev cfg st b, w, none)

/-- `agg_iter` (843-928): `bin_res` and `snap_res` are set after `cumsegagg` returned. -/
def aggIterR (cfg : KeyCfg K R A S Q) (left : List R → S → S) (truthy : Int → Bool) (chunk : List R) (st : KeyBuf A S Q)
    (w : World K A (Md S P Q)) : KeyBuf A S Q × World K A (Md S P Q) × Option Err :=
  match flushPrevR cfg truthy st w with
  | (st, w, some e) => (st, w, some e)
  | (st, w, none) =>
    match cfg.call chunk st.seg with
    | .error e => ({ st with seg := left chunk st.seg }, w, some (.agg e))
    | .ok (res, seg) =>
      ({ st with
        seg := seg
        bin := res.map Res.bins
        snap := res.bind Res.snaps }, w, none)
end

section
variable {K R A S P Q F : Type} [DecidableEq K] [DecidableEq F]

/-- Jobs of one filter, one after the other (1489-1499). -/
def forKeysR {M : Type} (sel : F → Bool)
    (f : KeyCfg K R A S Q → KeyBuf A S Q → World K A M → KeyBuf A S Q × World K A M × Option Err) :
    List (F × KeyCfg K R A S Q) → List (KeyBuf A S Q) → World K A M → List (KeyBuf A S Q) × World K A M × Option Err
  | k :: ks, b :: bs, w =>
    if sel k.1 then
      match f k.2 b w with
      | (b, w, some e) => (b :: bs, w, some e)
      | (b, w, none) =>
        match forKeysR sel f ks bs w with
        | (bs, w, e) => (b :: bs, w, e)
    else
      match forKeysR sel f ks bs w with
      | (bs, w, e) => (b :: bs, w, e)
  | _, bs, w => (bs, w, none)

/-- Loop of `agg` (1473-1506). The restart index is set after the jobs. -/
def aggLoopR (c : Config K R A S P Q F) (left : List R → S → S) :
    List (Yield F R) → Option Int → List (KeyBuf A S Q) → World K A (Md S P Q) →
    Option Int × List (KeyBuf A S Q) × World K A (Md S P Q) × Option Err
  | [], r, bs, w => (r, bs, w, none)
  | y :: ys, r, bs, w =>
    match forKeysR (fun f => decide (f = y.filt)) (fun cfg => aggIterR cfg left c.truthy y.rows) c.keys bs w with
    | (bs, w, some e) => (r, bs, w, some e)
    | (bs, w, none) => aggLoopR c left ys (some y.last) bs w

/-- How a call to `agg` ends. -/
inductive AggOut (K A S P Q : Type) where
  /-- It returns, or raises `SeedPreException` in the end (`true`). -/
  | done (s : State A S P Q) (w : World K A (Md S P Q)) (exc : Bool)
  /-- The iteration over the seed raises something else. -/
  | seed (s : State A S P Q) (w : World K A (Md S P Q)) (e : IterExc)
  /-- A job raises. -/
  | job (restart : Option Int) (bufs : List (KeyBuf A S Q)) (w : World K A (Md S P Q)) (e : Err)
  /-- The final write raises. -/
  | final (e : Err)

/-- `AggStream.agg` (1386-1531). -/
def aggR (c : Config K R A S P Q F) (left : List R → S → S) (a : Call R) (s : State A S P Q) (w : World K A (Md S P Q)) :
    AggOut K A S P Q :=
  match iterData c.ord s.restart c.pre s.pre c.filters a.trimStart a.discardLast a.seed with
  | (ys, pb, exc) =>
    match aggLoopR c left ys s.restart s.bufs w with
    | (r, bs, w, some e) => .job r bs w e
    | (r, bs, w, none) =>
      if exc = none ∨ exc = some .seedPre then
        if a.finalWrite then
          match finalWrite c ⟨r, pb, bs⟩ w with
          | .error e => .final e
          | .ok (s, w) => .done s w exc.isSome
        else .done ⟨r, pb, bs⟩ w exc.isSome
      else .seed ⟨r, pb, bs⟩ w (exc.getD .index)

end
end Oups.AggStream
