import Mathlib.Data.List.Sort
/-!
Model of `oups/aggstream/segmentby.py`.

Simplifications:
* values of `ordered_on` / `bin_on`, labels, edges: `Int` (timestamps in the unit of the column, or numbers);
  a column with `NaT`/`NaN` is not modelled;
* a pandas `TimeGrouper` has a fixed frequency (pandas `Tick`, `Grouper`) or a calendar one (any other offset, `Calendar`);
  `origin` is `epoch`, a timestamp, `start`, `start_day`, `end` or `end_day`; no time zone.  `gtre` (pandas
  `_get_timestamp_range_edges`, `_adjust_dates_anchored`) and `date_range` are written from their documented behaviour;
* an offset of calendar is known by the dates it lands on, in order (`date`, midnights): `rollback`, `+`, `-` of pandas are
  written from them (a step from a time which is not such a date lands on the next, or previous, one); pandas does not look
  at `origin` and `offset` for these frequencies;
* a `buffer` dict is a structure of optional entries; `None` (no buffer) is a separate case;
* `by` given as explicit values: positional access (`DatetimeIndex`) in `bySeries`; the label-based access of a
  pandas `Series` is in `Verif/Model/SeriesLabels.lean`.
-/
namespace Oups.Segment

/-- `LEFT`, `RIGHT` (`segmentby.py:30-31`). -/
inductive Closed where
  | left
  | right
  deriving DecidableEq, Repr

/-- Exceptions raised by the module. -/
inductive Err where
  | notOrdered | badClosed | sizeLabels | sizeEnds | notCovering | emptyTrailing | labelMismatch
  | closedUnset | tupleSizes | restartKeyMissing | secondEnd | mergeSizes
  | keyBinOn | noBinOn | orderedOnBinOn | noOn | badBinBy | snapKey | snapClosed | noOrderedOn
  | keyError
  deriving DecidableEq, Repr

/-- What a binning function returns (`segmentby.py:171-193`, `397-424`). -/
structure Seg where
  starts : List Nat
  labels : List Int
  nNull : Nat
  closed : Closed
  ends : List Int
  unknownLast : Bool
  deriving DecidableEq, Repr

/-! ### `_next_chunk_starts` (63-138) -/

/-- Inner loop (115-124): index, relative to the position of the scan, of the first value beyond the edge and
`False`; or of the last value and `True` (`prev_bin`) when no value is beyond the edge. -/
def scan (beyond : Int → Bool) : Nat → List Int → Nat × Bool
  | i, [] => (i - 1, true)
  | i, v :: vs => if beyond v then (i, false) else scan beyond (i + 1) vs

/-- "Value is beyond the edge" (116, 121): `val > bin_` right-closed, `val >= bin_` left-closed. -/
def beyond (right : Bool) (edge v : Int) : Bool := if right then decide (edge < v) else decide (edge ≤ v)

/-- Outer loop (111-137): starts, number of null chunks, data traversed. -/
def chunkLoop (right : Bool) (data : List Int) : List Int → Nat → Nat → List Nat × Nat × Bool
  | [], _, _ => ([], 0, false)
  | e :: edges, d, prev =>
    let (loc, prevBin) := scan (beyond right e) 0 (data.drop d)
    let d := d + loc
    if d = data.length - 1 && prevBin then ([d + 1], 0, true)
    else
      let (s, n, t) := chunkLoop right data edges d (if prev = d then prev else d)
      (d :: s, (if prev = d then n + 1 else n), t)

/-- `_next_chunk_starts` (63-138).  `data` is not empty (`cumsegagg` returns before for empty data). -/
def nextChunkStarts (data : List Int) (edges : List Int) (right : Bool) : List Nat × Nat × Bool :=
  chunkLoop right data edges 0 0

/-! ### `by_scale` (141-367) -/

/-- `origin` of a pandas `TimeGrouper`; `stop` and `stopDay` are `end` and `end_day`. -/
inductive Origin where
  | epoch
  | ts (t : Int)
  | start
  | startDay
  | stop
  | stopDay
  deriving DecidableEq, Repr

/-- pandas `TimeGrouper` of fixed frequency; `day` is the length of a day in the unit of the column. -/
structure Grouper where
  freq : Int
  closed : Closed := .left
  labelRight : Bool := false
  origin : Origin := .startDay
  offset : Int := 0
  day : Int := 86400000000000
  deriving Repr

/-- Anchor used by pandas `_adjust_dates_anchored`. -/
def Grouper.anchor (g : Grouper) (first : Int) : Int :=
  (match g.origin with
    | .epoch => 0
    | .ts t => t
    | .start => first
    | .startDay => first - first % g.day
    | .stop => first
    | .stopDay => first) + g.offset

/-- First timestamp as pandas `_adjust_dates_anchored` moves it: with origin `end` or `end_day`, a number of steps before the last one,
or before the end of its day. -/
def Grouper.moved (g : Grouper) (closed : Closed) (first last : Int) : Int :=
  let back := fun (o : Int) => o - ((o - first) / g.freq + (match closed with | .left => 1 | .right => 0)) * g.freq
  match g.origin with
    | .stop => back last
    | .stopDay => back (-((-last) / g.day) * g.day)
    | _ => first

/-- First edge returned by pandas `gtre`. -/
def gtreStart (f o : Int) (closed : Closed) (first : Int) : Int :=
  let m := (first - o) % f
  if m > 0 then first - m else match closed with
    | .right => first - f
    | .left => first

/-- Last edge returned by pandas `gtre`. -/
def gtreEnd (f o : Int) (closed : Closed) (last : Int) : Int :=
  let m := (last - o) % f
  if m > 0 then last + (f - m) else match closed with
    | .right => last
    | .left => last + f

/-- pandas `date_range(start, stop, freq=f)`. -/
def dateRange (start stop f : Int) : List Int :=
  (List.range ((stop - start) / f + 1).toNat).map (fun (i : Nat) => start + (i : Int) * f)

/-- Buffer of `by_scale`: `restart_key`, `last_on_value`; both `none` is the empty dict. -/
structure ScaleBuf where
  restart : Option Int := none
  lastOn : Option Int := none
  deriving DecidableEq, Repr

def ScaleBuf.truthy (b : ScaleBuf) : Bool := b.restart.isSome || b.lastOn.isSome

/-- Common end of `by_scale` (298-366): chunk starts, truncation to the data, restart key. -/
def scaleFinish (isGrouper : Bool) (on : List Int) (labels ends : List Int) (closed : Closed)
    (buf : Option ScaleBuf) : Seg × Option ScaleBuf :=
  let (starts, nNull, traversed) := nextChunkStarts on ends (closed == .right)
  let n := starts.length
  if traversed then
    let labels := labels.take n
    let ends := ends.take n
    let buf := buf.map fun b =>
      if closed == .left && isGrouper then
        if n > 1 then { b with restart := some (ends.getD (n - 2) 0) }
        else { b with restart := some (on.getD 0 0) }
      else { b with restart := some (ends.getD (n - 1) 0) }
    (⟨starts, labels, nNull, closed, ends, false⟩, buf)
  else
    let buf := buf.map fun _ => { restart := some (ends.getD (n - 1) 0), lastOn := some (on.getLastD 0) }
    (⟨starts, labels, nNull, closed, ends, false⟩, buf)

/-- `by_scale`, `by` a `TimeGrouper` (204-223, 298-366). -/
def byGrouper (g : Grouper) (closed : Option Closed) (on : List Int) (buf : Option ScaleBuf) :
    Seg × Option ScaleBuf :=
  let first := match buf.bind ScaleBuf.restart with
    | some k => k
    | none => on.getD 0 0
  let closed := closed.getD g.closed
  let first := g.moved closed first (on.getLastD 0)
  let start := gtreStart g.freq (g.anchor first) closed first
  let stop := gtreEnd g.freq (g.anchor first) closed (on.getLastD 0)
  let edges := dateRange start stop g.freq
  let ends := edges.tail
  let labels := if g.labelRight then ends else edges.dropLast
  scaleFinish true on labels ends closed buf

/-! #### Calendar frequencies (weeks, months, business days, ..) -/

/-- A pandas offset: its dates, and where to start looking for the one of a time. -/
structure Offset where
  date : Int → Int
  guess : Int → Int := fun _ => 0

/-- Search forward, from a date not after `x`. -/
def rankUp (date : Int → Int) (x : Int) : Nat → Int → Int
  | 0, i => i
  | k + 1, i => if date (i + 1) ≤ x then rankUp date x k (i + 1) else i

/-- Search backward, from a date after `x`. -/
def rankDown (date : Int → Int) (x : Int) : Nat → Int → Int
  | 0, i => i
  | k + 1, i => if date i ≤ x then i else rankDown date x k (i - 1)

/-- Number of the last date not after `x`. -/
def Offset.rank (o : Offset) (x : Int) : Int :=
  if o.date (o.guess x) ≤ x then rankUp o.date x (x - o.date (o.guess x)).toNat (o.guess x)
  else rankDown o.date x (o.date (o.guess x) - x).toNat (o.guess x)

/-- pandas `offset.rollback(x)`. -/
def Offset.rollback (o : Offset) (x : Int) : Int := o.date (o.rank x)

/-- pandas `x + n * offset`, `n` positive. -/
def Offset.plus (o : Offset) (n x : Int) : Int := o.date (o.rank x + n)

/-- pandas `x - n * offset`, `n` positive. -/
def Offset.minus (o : Offset) (n x : Int) : Int :=
  if o.rollback x = x then o.date (o.rank x - n) else o.date (o.rank x - n + 1)

/-- pandas `TimeGrouper` of calendar frequency `n * off`; `day` is the length of a day in the unit of the column. -/
structure Calendar where
  off : Offset
  n : Int := 1
  closed : Closed := .left
  labelRight : Bool := false
  day : Int := 86400000000000

/-- pandas `Timestamp.normalize`. -/
def midnight (day x : Int) : Int := x - x % day

/-- First edge returned by pandas `gtre`. -/
def calStart (c : Calendar) (closed : Closed) (first : Int) : Int :=
  match closed with
  | .left => c.off.rollback (midnight c.day first)
  | .right => c.off.minus c.n (midnight c.day first)

/-- Last edge returned by pandas `gtre`. -/
def calStop (c : Calendar) (last : Int) : Int := c.off.plus c.n (midnight c.day last)

/-- pandas `date_range(start, stop, freq)`, `start` being a date of the offset. -/
def calRange (o : Offset) (n stop : Int) : Nat → Int → List Int
  | 0, _ => []
  | k + 1, x => if x ≤ stop then x :: calRange o n stop k (o.plus n x) else []

/-- `by_scale`, `by` a `TimeGrouper` of calendar frequency (204-223, 298-366). -/
def byCalendar (c : Calendar) (closed : Option Closed) (on : List Int) (buf : Option ScaleBuf) :
    Seg × Option ScaleBuf :=
  let first := match buf.bind ScaleBuf.restart with
    | some k => k
    | none => on.getD 0 0
  let closed := closed.getD c.closed
  let start := calStart c closed first
  let stop := calStop c (on.getLastD 0)
  let edges := calRange c.off c.n stop ((stop - start).toNat + 1) start
  let ends := edges.tail
  let labels := if c.labelRight then ends else edges.dropLast
  scaleFinish true on labels ends closed buf

/-- Trimming of explicit values to the restart key (241-254). -/
def trimTo (labels ends : List Int) (restart : Option Int) : Except Err (List Int × List Int) :=
  match restart with
  | none => .ok (labels, ends)
  | some k =>
    if ends.isEmpty then .error .keyError  -- `chunk_ends[0]` of an empty array
    else if ends.getD 0 0 = k then .ok (labels, ends)
    else
      let trimmed := ends.filter (fun e => decide (k ≤ e))
      if trimmed.isEmpty then .error .keyError
      else if trimmed.getD 0 0 ≠ k then .error .restartKeyMissing
      else .ok (labels.drop (ends.length - trimmed.length), trimmed)

/-- Point `e` is before the last value `l` of the previous iteration (276-277, 283-285). -/
def endBefore (closed : Closed) (l e : Int) : Bool :=
  match closed with
  | .right => decide (e < l)
  | .left => decide (e ≤ l)

/-- Removal of the chunk completed at the previous iteration (255-292). -/
def dropDone (labels ends : List Int) (closed : Closed) (lastOn : Option Int) : Except Err (List Int × List Int) :=
  match lastOn with
  | none => .ok (labels, ends)
  | some l =>
    if ends.length > 1 && endBefore closed l (ends.getD 1 0) then .error .secondEnd
    else if ends.isEmpty then .error .keyError
    else if endBefore closed l (ends.getD 0 0) then .ok (labels.drop 1, ends.drop 1) else .ok (labels, ends)

/-- Restart of `by_scale` when `by` holds explicit values (237-292): trimmed labels and ends. -/
def seriesRestart (labels ends : List Int) (closed : Closed) (b : ScaleBuf) : Except Err (List Int × List Int) :=
  match trimTo labels ends b.restart with
  | .error e => .error e
  | .ok (labels, ends) => dropDone labels ends closed b.lastOn

/-- End of `by_scale` for explicit values (293-366). -/
def seriesFinish (labels ends : List Int) (closed : Closed) (on : List Int) (buf : Option ScaleBuf) :
    Seg × Option ScaleBuf :=
  if ends.isEmpty then
    (⟨[], labels, 0, closed, ends, false⟩, buf.map fun b => { b with lastOn := some (on.getLastD 0) })
  else scaleFinish false on labels ends closed buf

/-- `by_scale`, `by` explicit ends with their labels (224-366). -/
def bySeries (labels ends : List Int) (closed : Option Closed) (on : List Int) (buf : Option ScaleBuf) :
    Except Err (Seg × Option ScaleBuf) :=
  match closed with
  | none => .error .closedUnset
  | some closed =>
    if labels.length ≠ ends.length then .error .tupleSizes
    else match buf with
    | none => .ok (seriesFinish labels ends closed on none)
    | some b =>
      if b.truthy then
        match seriesRestart labels ends closed b with
        | .error e => .error e
        | .ok (l, e) => .ok (seriesFinish l e closed on (some { b with lastOn := none }))
      else .ok (seriesFinish labels ends closed on (some b))

/-! ### `by_x_rows` (370-519) -/

/-- Buffer of `by_x_rows` when it is not the empty dict. -/
structure RowsBuf where
  restart : Nat
  lastLabel : Int
  lastEnd : Option Int
  deriving DecidableEq, Repr

/-- numpy `arange(start, stop, step)`. -/
def arange (start stop step : Nat) : List Nat :=
  (List.range ((stop - start + step - 1) / step)).map (fun i => start + i * step)

/-- `x[-1] = v`. -/
def setLast (l : List Nat) (v : Nat) : List Nat := l.set (l.length - 1) v

/-- `by_x_rows` (370-519); `on` is its last column.  The outer `none` of the buffer is `None`, the inner one the
empty dict. `ceil(n / by)` is exact division rounded up. -/
def byXRows (by_ : Nat) (closed : Closed) (on : List Int) (buf : Option (Option RowsBuf)) :
    Seg × Option (Option RowsBuf) :=
  let len := on.length
  let rowsPrev := match buf with
    | some (some b) => b.restart
    | _ => 0
  let rowsCont := match buf with
    | some (some b) => if b.restart ≠ by_ then min len (by_ - b.restart) else 0
    | _ => 0
  let nNew := len - rowsCont
  let nBins := if rowsCont ≠ 0 then (nNew + by_ - 1) / by_ + 1 else (nNew + by_ - 1) / by_
  let firstNext := if rowsCont ≠ 0 then rowsCont else min by_ len
  let next := arange firstNext ((nBins - 1) * by_ + firstNext + 1) by_
  let chunkStarts := (next.map (fun s => s - by_)).set 0 0
  let labels := chunkStarts.map (fun i => on.getD i 0)
  let nLast := if nNew ≠ 0 then (if nNew ≤ by_ then nNew else (if nNew % by_ = 0 then by_ else nNew % by_))
    else rowsCont + rowsPrev
  let (ends, unknown) := match closed with
    | .left => ((setLast next (len - 1)).map (fun i => on.getD i 0), true)
    | .right => ((setLast next len).map (fun i => on.getD (i - 1) 0), decide (nLast ≠ by_))
  let next := setLast next len
  let (next, labels, ends, nNull) := match buf with
    | some (some b) =>
      if rowsCont ≠ 0 then (next, labels.set 0 b.lastLabel, ends, 0)
      else
        let firstEnd := match closed with
          | .right => b.lastEnd.getD 0
          | .left => on.getD 0 0
        (0 :: next, b.lastLabel :: labels, firstEnd :: ends, 1)
    | _ => (next, labels, ends, 0)
  (⟨next, labels, nNull, closed, ends, unknown⟩,
    buf.map fun _ => some ⟨nLast, labels.getLastD 0, match closed with
      | .right => some (ends.getLastD 0)
      | .left => none⟩)

/-! ### `mergesort` (522-576) -/

/-- Stable `argsort` of the keys. -/
def argsort (keys : List Int) : List Nat :=
  ((keys.zipIdx).insertionSort (fun a b => a.1 ≤ b.1)).map Prod.snd

/-- `mergesort` (522-576): merged labels, and positions of the labels of the second array. -/
def mergesort (labels : List Nat × List Nat) (keys : List Int × List Int) (forceLast : Bool) :
    Except Err (List Nat × List Nat) :=
  if keys.1.length ≠ labels.1.length then .error .mergeSizes
  else if keys.2.length ≠ labels.2.length then .error .mergeSizes
  else
    let sortIdx :=
      if forceLast then argsort (keys.1 ++ keys.2.dropLast) ++ [labels.1.length + labels.2.length - 1]
      else argsort (keys.1 ++ keys.2)
    let all := labels.1 ++ labels.2
    .ok (sortIdx.map (fun i => all.getD i 0),
      (sortIdx.zipIdx.filter (fun p => decide (labels.1.length ≤ p.1))).map Prod.snd)

/-! ### `setup_segmentby` (579-675) -/

/-- What `setup_segmentby` looks at in `bin_by`. Column names are numbers. -/
inductive BinBy where
  | grouper (key : Option Nat) (closed : Closed)
  | callable
  | other
  deriving DecidableEq, Repr

/-- What `setup_segmentby` looks at in `snap_by`. -/
inductive SnapBy where
  | grouper (key : Option Nat) (closed : Closed)
  | values
  deriving DecidableEq, Repr

/-- `ON_COLS`. -/
inductive OnCols where
  | one (c : Nat)
  | two (binOn orderedOn : Nat)
  deriving DecidableEq, Repr

structure SegConfig where
  onCols : OnCols
  orderedOn : Option Nat
  binOn : Option Nat
  snapGrouper : Bool
  deriving DecidableEq, Repr

/-- `bin_on` for a `TimeGrouper` (613-631). -/
def grouperOn (key binOn : Option Nat) : Except Err Nat :=
  match key, binOn with
  | some k, some b => if k ≠ b then .error .keyBinOn else .ok b
  | some k, none => .ok k
  | none, some b => .ok b
  | none, none => .error .noBinOn

/-- First half of `setup_segmentby` (612-646): `bin_on`, `ordered_on`, `bin_by_closed`. -/
def setupBin (binBy : BinBy) (binOn orderedOn : Option Nat) :
    Except Err (Option Nat × Option Nat × Option Closed) :=
  match binBy with
  | .grouper key closed =>
    match grouperOn key binOn with
    | .error e => .error e
    | .ok b =>
      match orderedOn with
      | some o => if o ≠ b then .error .orderedOnBinOn else .ok (some b, some o, some closed)
      | none => .ok (some b, some b, some closed)
  | .callable =>
    if binOn.isNone && orderedOn.isNone then .error .noOn else .ok (binOn, orderedOn, none)
  | .other => .error .badBinBy

/-- `ordered_on` and the key of snapshots (648-655). -/
def snapOn (key orderedOn : Option Nat) : Except Err (Option Nat) :=
  match key, orderedOn with
  | some k, none => .ok (some k)
  | some k, some o => if k ≠ o then .error .snapKey else .ok (some o)
  | none, o => .ok o

/-- Second half (647-664): `ordered_on`. -/
def setupSnap (snapBy : Option SnapBy) (orderedOn : Option Nat) (binClosed : Option Closed) :
    Except Err (Option Nat) :=
  match snapBy with
  | none => .ok orderedOn
  | some (.grouper key closed) =>
    match snapOn key orderedOn with
    | .error e => .error e
    | .ok o =>
      match binClosed with
      | some c => if closed ≠ c then .error .snapClosed else .ok o
      | none => .ok o
  | some .values => if orderedOn.isNone then .error .noOrderedOn else .ok orderedOn

/-- `on_cols` (665-668). The last case is not reachable: it is refused before. -/
def onColsOf : Option Nat → Option Nat → OnCols
  | some b, some o => if o ≠ b then .two b o else .one b
  | some b, none => .one b
  | none, some o => .one o
  | none, none => .one 0

def snapIsGrouper : Option SnapBy → Bool
  | some (.grouper _ _) => true
  | _ => false

/-- `setup_segmentby` (579-675). -/
def setupSegmentby (binBy : BinBy) (binOn orderedOn : Option Nat) (snapBy : Option SnapBy) :
    Except Err SegConfig :=
  match setupBin binBy binOn orderedOn with
  | .error e => .error e
  | .ok (b, o, closed) =>
    match setupSnap snapBy o closed with
    | .error e => .error e
    | .ok o => .ok ⟨onColsOf b o, o, b, snapIsGrouper snapBy⟩

/-! ### `segmentby` (711-1027) -/

/-- How snapshots are specified. -/
inductive Snaps where
  | grouper (g : Grouper)
  | calendar (c : Calendar)
  | values (labels ends : List Int)

/-- Main buffer (`setup_mainbuffer`, 678-708): the buffers of `bin_by` and of the snapshots, and the label of the
last bin. `B` is the content `bin_by` keeps in its own dict. -/
structure MainBuf (B : Type) where
  bin : B
  snap : ScaleBuf := {}
  lastBinLabel : Option Int := none

/-- What a `bin_by` callable returns; unlike `Seg`, nothing is guaranteed about it. `closed = none` is any other
string. -/
structure BinRes where
  starts : List Nat
  labels : List Int
  nNull : Nat
  closed : Option Closed
  ends : List Int
  unknownLast : Bool
  deriving DecidableEq, Repr

def Seg.toRes (s : Seg) : BinRes := ⟨s.starts, s.labels, s.nNull, some s.closed, s.ends, s.unknownLast⟩

/-- A `bin_by` callable: result and new content of its buffer. `none`: no buffer. -/
abbrev BinFn (R B : Type) := List R → Option B → Except Err (BinRes × Option B)

/-- What `segmentby` returns (819-840). -/
structure SegRes where
  starts : List Nat
  binIndices : List Nat
  binLabels : List Int
  nNullBins : Nat
  snapLabels : Option (List Int)
  nMaxNullSnaps : Nat
  deriving DecidableEq, Repr

/-- `(data[ordered_on].diff().iloc[1:] >= 0).all()` (896-909). -/
def isOrdered : List Int → Bool
  | a :: b :: l => decide (0 ≤ b - a) && isOrdered (b :: l)
  | _ => true

/-- Number of bins followed by a snapshot with the same chunk start (1003-1018): `bin_indices` whose successor in
the merged sequence is not the next entry of `bin_indices`, and with equal `next_chunk_starts`. -/
def binsFollowedBySnap (starts : List Nat) : List Nat → Nat
  | [] => 0
  | i :: is =>
    let next := match is with
      | j :: _ => j
      | [] => starts.length
    (if next - i ≠ 1 && decide (starts.getD i 0 = starts.getD (i + 1) 0) then 1 else 0)
      + binsFollowedBySnap starts is

/-- `by_scale` as called for snapshots (965-970). -/
def runSnaps (s : Snaps) (closed : Closed) (on : List Int) (buf : Option ScaleBuf) :
    Except Err (Seg × Option ScaleBuf) :=
  match s with
  | .grouper g => .ok (byGrouper g (some closed) on buf)
  | .calendar c => .ok (byCalendar c (some closed) on buf)
  | .values l e => bySeries l e (some closed) on buf

/-- Checks of the result of `bin_by` (928-972): closure of the bins, or the exception. -/
def checkBins (rows : Nat) (buffered : Bool) (prev : Option Int) (r : BinRes) : Except Err Closed :=
  match r.closed with
  | none => .error .badClosed
  | some c =>
    let n := r.starts.length
    if n ≠ r.labels.length then .error .sizeLabels
    else if n ≠ r.ends.length then .error .sizeEnds
    else if buffered && r.starts.getLast? ≠ some rows then .error .notCovering
    else if buffered && n > 1 && r.starts.getD (n - 2) 0 = rows then .error .emptyTrailing
    else if buffered && prev.isSome && prev ≠ r.labels.head? then .error .labelMismatch
    else .ok c

/-- `ordered_on` is not ordered (896-909). -/
def unordered {R : Type} (ordered : Option (R → Int)) (data : List R) : Bool :=
  match ordered with
  | some o => !isOrdered (data.map o)
  | none => false

/-- `segmentby` (711-1027), after `setup_segmentby`. `ordered` gives `data[ordered_on]`, `none` when `ordered_on` is
`None`. -/
def segmentby {R B : Type} (binBy : BinFn R B) (ordered : Option (R → Int)) (snapBy : Option Snaps)
    (data : List R) (buf : Option (MainBuf B)) : Except Err (SegRes × Option (MainBuf B)) :=
  if unordered ordered data then .error .notOrdered
  else match binBy data (buf.map MainBuf.bin) with
  | .error e => .error e
  | .ok (r, bin) =>
    match checkBins data.length buf.isSome (buf.bind MainBuf.lastBinLabel) r with
    | .error e => .error e
    | .ok closed =>
      let newBuf (snap : Option ScaleBuf) : Option (MainBuf B) :=
        buf.map fun b => ⟨bin.getD b.bin, snap.getD b.snap, r.labels.getLast?⟩
      match snapBy with
      | none => .ok (⟨r.starts, [], r.labels, r.nNull, none, 0⟩, newBuf none)
      | some s =>
        match ordered with
        | none => .error .keyError
        | some o =>
          match runSnaps s closed (data.map o) (buf.map MainBuf.snap) with
          | .error e => .error e
          | .ok (ss, snap) =>
            match mergesort (ss.starts, r.starts) (ss.ends, r.ends) r.unknownLast with
            | .error e => .error e
            | .ok (starts, binIdx) =>
              .ok (⟨starts, binIdx, r.labels, r.nNull, some ss.labels,
                ss.nNull + binsFollowedBySnap starts binIdx⟩, newBuf snap)

end Oups.Segment
