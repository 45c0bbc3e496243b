import Verif.Model.Segment
/-
Model of `by_scale` (`/repo/oups/aggstream/segmentby.py` 141-367) with a `TimeGrouper`, on a column of date-times which are not
recorded in nanoseconds (`datetime64[us]`, `[ms]`, `[s]`). A value of the column is a number of ticks of `k` nanoseconds.

* Edges are computed from times (205-218), and are in nanoseconds (`date_range` of pandas 2 without `unit`, 219): here, times are
  numbers of nanoseconds.
* Since the edges are `datetime64[ns]` (299), chunk starts are found by comparing the integers that represent the values of the column with
  those of edges (299-304): numbers of ticks with numbers of nanoseconds.
* Keys recorded in the buffer are times (342, 346, 353, 358).
-/
namespace Oups.Segment

/-- 299-366, `by` a `TimeGrouper`. -/
def resFinish (k : Int) (on : List Int) (labels ends : List Int) (closed : Closed) (buf : Option ScaleBuf) :
    Seg × Option ScaleBuf :=
  let (starts, nNull, traversed) := nextChunkStarts on ends (closed == .right)
  let n := starts.length
  if traversed then
    let labels := labels.take n
    let ends := ends.take n
    let buf := buf.map fun b =>
      if closed == .left then
        if n > 1 then { b with restart := some (ends.getD (n - 2) 0) }
        else { b with restart := some (k * on.getD 0 0) }
      else { b with restart := some (ends.getD (n - 1) 0) }
    (⟨starts, labels, nNull, closed, ends, false⟩, buf)
  else
    let buf := buf.map fun _ => { restart := some (ends.getD (n - 1) 0), lastOn := some (k * on.getLastD 0) }
    (⟨starts, labels, nNull, closed, ends, false⟩, buf)

/-- `by_scale`, `by` a `TimeGrouper` (204-223, 299-366), `on` being numbers of ticks. -/
def byGrouperRes (k : Int) (g : Grouper) (closed : Option Closed) (on : List Int) (buf : Option ScaleBuf) :
    Seg × Option ScaleBuf :=
  let first := (buf.bind ScaleBuf.restart).getD (k * on.getD 0 0)
  let closed := closed.getD g.closed
  let first := g.moved closed first (k * on.getLastD 0)
  let start := gtreStart g.freq (g.anchor first) closed first
  let stop := gtreEnd g.freq (g.anchor first) closed (k * on.getLastD 0)
  let edges := dateRange start stop g.freq
  let ends := edges.tail
  let labels := if g.labelRight then ends else edges.dropLast
  resFinish k on labels ends closed buf

/-- `bin_by` for a `TimeGrouper` (`partial(by_scale, by=bin_by)`, 639). -/
def grouperResFn {R : Type} (k : Int) (g : Grouper) (pos : R → Int) : BinFn R ScaleBuf := fun p buf =>
  .ok ((byGrouperRes k g none (p.map pos) buf).1.toRes, (byGrouperRes k g none (p.map pos) buf).2)

end Oups.Segment
