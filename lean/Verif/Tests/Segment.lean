import Verif.Model.Segment
/-!
The tests of `/repo/tests/test_aggstream/test_segmentby.py` and `test_segmentby_restart.py`, run on the model: same data,
same parameters and the results that the tests expect. Times are in minutes from 2020/01/01 00:00, a day is 1440. Columns
`dti`, `ordered_on`, `dti1`, `dti2` are 0, 1, 2, 3.
-/
namespace Oups.Tests.Segment
open Oups.Segment

/-- `by_scale(on, by, closed, buffer)`. -/
def byScale (s : Snaps) (closed : Option Closed) (on : List Int) (buf : Option ScaleBuf) :
    Except Err (Seg × Option ScaleBuf) :=
  match s with
  | .grouper g => .ok (byGrouper g closed on buf)
  | .calendar c => .ok (byCalendar c closed on buf)
  | .values l e => bySeries l e closed on buf

/-- Successive calls on slices of the data, with the same buffer. -/
def chain {A S B R : Type} (f : A → S → B → Except Err (R × Option B)) : List (A × S) → B → List (Except Err (R × B))
  | [], _ => []
  | (a, s) :: l, b =>
    match f a s b with
    | .ok (r, some b') => .ok (r, b') :: chain f l b'
    | .ok (r, none) => .ok (r, b) :: chain f l b
    | .error e => [.error e]

/-- Slices of a list at the given end indices. -/
def slices {A : Type} (l : List A) : Nat → List Nat → List (List A)
  | _, [] => []
  | i, e :: es => (l.take e).drop i :: slices l e es

/-- Rows: `dti`, `ordered_on`. -/
abbrev Row := Int × Int

def col (c : Nat) (r : Row) : Int := if c = 0 then r.1 else r.2

/-- `bin_by` a `TimeGrouper`. -/
def grouperBin (g : Grouper) (c : Nat) : BinFn Row ScaleBuf := fun rows buf =>
  let (s, b) := byGrouper g none (rows.map (col c)) buf
  .ok (s.toRes, b)

/-- `bin_by` is `by_x_rows`. -/
def rowsBin (n : Nat) (closed : Closed) (c : Nat) : BinFn Row (Option RowsBuf) := fun rows buf =>
  let (s, b) := byXRows n closed (rows.map (col c)) buf
  .ok (s.toRes, b)

/-- Result of `segmentby` without its buffer. -/
def res {B : Type} (r : Except Err (SegRes × Option (MainBuf B))) : Except Err SegRes := r.map Prod.fst

/-- Results of successive calls of `segmentby`, with the content of the buffer. -/
def resAll {B : Type} (l : List (Except Err (SegRes × MainBuf B))) :
    List (Except Err (SegRes × B × ScaleBuf × Option Int)) :=
  l.map fun r => r.map fun p => (p.1, p.2.bin, p.2.snap, p.2.lastBinLabel)

/-! test_next_chunk_starts (test_segmentby.py 40-118). -/
example : nextChunkStarts [1, 2, 3, 4, 7, 8, 9] [2, 5, 6, 7, 8] true =
    ([2, 4, 4, 5, 6], 1, false) := by decide
example : nextChunkStarts [1, 2, 3, 4, 7, 8, 9] [2, 5, 6, 7, 8] false =
    ([1, 4, 4, 4, 5], 2, false) := by decide
example : nextChunkStarts [1, 2, 3, 4, 7, 8, 9] [50, 60, 70, 88] false =
    ([7], 0, true) := by decide
example : nextChunkStarts [10, 22, 32] [5, 6, 7, 8] false =
    ([0, 0, 0, 0], 4, false) := by decide
example : nextChunkStarts [5, 5, 6] [5, 6, 7, 8] false =
    ([0, 2, 3], 1, true) := by decide
example : nextChunkStarts [5, 5, 6] [5, 6, 7, 8] true =
    ([2, 3], 0, true) := by decide
example : nextChunkStarts [5, 5, 7, 7, 7] [5, 6, 7, 8] false =
    ([0, 2, 2, 5], 2, true) := by decide

/-! test_by_scale (test_segmentby.py 121-337). -/
example : byScale (.grouper ⟨5, .left, false, .startDay, 0, 1440⟩) none [480, 484, 485] none =
    .ok (⟨[2, 3], [480, 485], 0, .left, [485, 490], false⟩, none) := by decide
example : byScale (.grouper ⟨5, .left, false, .startDay, 0, 1440⟩) none [480, 483, 484] none =
    .ok (⟨[3], [480], 0, .left, [485], false⟩, none) := by decide
example : byScale (.grouper ⟨5, .left, false, .startDay, 0, 1440⟩) none [481, 483, 485] none =
    .ok (⟨[2, 3], [480, 485], 0, .left, [485, 490], false⟩, none) := by decide
example : byScale (.grouper ⟨5, .left, true, .startDay, 0, 1440⟩) none [480, 483, 485] none =
    .ok (⟨[2, 3], [485, 490], 0, .left, [485, 490], false⟩, none) := by decide
example : byScale (.grouper ⟨5, .left, true, .startDay, 0, 1440⟩) none [480, 483, 484] none =
    .ok (⟨[3], [485], 0, .left, [485], false⟩, none) := by decide
example : byScale (.grouper ⟨5, .right, false, .startDay, 0, 1440⟩) none [480, 484, 485] none =
    .ok (⟨[1, 3], [475, 480], 0, .right, [480, 485], false⟩, none) := by decide
example : byScale (.grouper ⟨5, .right, false, .startDay, 0, 1440⟩) none [480, 483, 484] none =
    .ok (⟨[1, 3], [475, 480], 0, .right, [480, 485], false⟩, none) := by decide
example : byScale (.grouper ⟨5, .right, false, .startDay, 0, 1440⟩) none [481, 483, 484] none =
    .ok (⟨[3], [480], 0, .right, [485], false⟩, none) := by decide
example : byScale (.grouper ⟨5, .right, true, .startDay, 0, 1440⟩) none [480, 484, 485] none =
    .ok (⟨[1, 3], [480, 485], 0, .right, [480, 485], false⟩, none) := by decide
example : byScale (.grouper ⟨5, .right, true, .startDay, 0, 1440⟩) none [481, 483, 484] none =
    .ok (⟨[3], [485], 0, .right, [485], false⟩, none) := by decide

/-! test_by_scale_exceptions_if_datetimeindex (340-359): the data is empty (its last date is before the first one). -/
example : byScale (.values [480] [480]) none [] none = .error .closedUnset := by decide
example : byScale (.values [480] [480, 483]) (some .right) [] none = .error .tupleSizes := by decide

/-! test_by_x_rows (362-407): times in hours from 2022/01/01 08:00. -/
example : byXRows 4 .left [0, 1, 2] none =
    (⟨[3], [0], 0, .left, [2], true⟩, none) := by decide
example : byXRows 4 .left [0, 1, 2, 3, 4, 5, 6] none =
    (⟨[4, 7], [0, 4], 0, .left, [4, 6], true⟩, none) := by decide
example : byXRows 4 .right [0, 1, 2, 3, 4, 5, 6] none =
    (⟨[4, 7], [0, 4], 0, .right, [3, 6], true⟩, none) := by decide
example : byXRows 4 .left [0, 1, 2, 3, 4, 5, 6, 7] none =
    (⟨[4, 8], [0, 4], 0, .left, [4, 7], true⟩, none) := by decide
example : byXRows 4 .right [0, 1, 2, 3, 4, 5, 6, 7] none =
    (⟨[4, 8], [0, 4], 0, .right, [3, 7], false⟩, none) := by decide

/-! test_mergesort_labels_and_keys (410-422), test_mergesort_labels_and_keys_force_last (425-446),
test_mergesort_exceptions_array_length (449-468). -/
example : mergesort ([10, 5, 98, 12, 32, 2, 2], [20, 4, 16, 17, 18, 20]) ([1, 5, 9, 15, 19, 20, 20], [2, 4, 15, 15, 18, 20])
    false = .ok ([10, 20, 4, 5, 98, 12, 16, 17, 18, 32, 2, 2, 20], [1, 2, 6, 7, 8, 12]) := by decide
example : mergesort ([10, 5, 98, 12, 32, 2, 2], [20, 4, 16, 17, 18, 20]) ([1, 5, 9, 15, 19, 20, 20], [2, 4, 15, 15, 18, 19])
    false = .ok ([10, 20, 4, 5, 98, 12, 16, 17, 18, 32, 20, 2, 2], [1, 2, 6, 7, 8, 10]) := by decide
example : mergesort ([10, 5, 98, 12, 32, 2, 2], [20, 4, 16, 17, 18, 20]) ([1, 5, 9, 15, 19, 20, 20], [2, 4, 15, 15, 18, 19])
    true = .ok ([10, 20, 4, 5, 98, 12, 16, 17, 18, 32, 2, 2, 20], [1, 2, 6, 7, 8, 12]) := by decide
example : mergesort ([10, 5], [20]) ([1], [2]) false = .error .mergeSizes := by decide
example : mergesort ([10], [20, 5]) ([1], [2]) false = .error .mergeSizes := by decide

/-! test_setup_segmentby (471-547). -/
example : (setupSegmentby (.grouper (some 0) .left) none none none).map
    (fun c => (c.onCols, c.orderedOn)) = .ok (.one 0, some 0) := by decide
example : (byGrouper ⟨5, .left, false, .startDay, 0, 1440⟩ none [481, 484, 487] none).1.starts = [2, 3] := by decide
example : (setupSegmentby (.grouper (some 0) .left) (some 0) none none).map
    (fun c => (c.onCols, c.orderedOn)) = .ok (.one 0, some 0) := by decide
example : (byGrouper ⟨5, .left, false, .startDay, 0, 1440⟩ none [481, 484, 487] none).1.starts = [2, 3] := by decide
example : (setupSegmentby (.grouper (some 0) .left) none (some 0) none).map
    (fun c => (c.onCols, c.orderedOn)) = .ok (.one 0, some 0) := by decide
example : (byGrouper ⟨5, .left, false, .startDay, 0, 1440⟩ none [481, 484, 487] none).1.starts = [2, 3] := by decide
example : (setupSegmentby .callable (some 0) (some 1) none).map
    (fun c => (c.onCols, c.orderedOn)) = .ok (.two 0 1, some 1) := by decide
example : (byXRows 4 .left [481, 484, 487] none).1.starts = [3] := by decide
example : (setupSegmentby .callable (some 0) none none).map
    (fun c => (c.onCols, c.orderedOn)) = .ok (.one 0, none) := by decide
example : (byXRows 4 .left [481, 484, 487] none).1.starts = [3] := by decide
example : (setupSegmentby .callable (some 0) none (some (.grouper (some 3) .left))).map
    (fun c => (c.onCols, c.orderedOn)) = .ok (.two 0 3, some 3) := by decide
example : (byXRows 4 .left [481, 484, 487] none).1.starts = [3] := by decide

/-! test_setup_segmentby_exception (550-609). -/
example : setupSegmentby (.grouper none .left) none none none = .error .noBinOn := by decide
example : setupSegmentby (.grouper (some 2) .left) (some 3) none none = .error .keyBinOn := by decide
example : setupSegmentby (.grouper (some 2) .left) none (some 3) none = .error .orderedOnBinOn := by decide
example : setupSegmentby .callable none none none = .error .noOn := by decide
example : setupSegmentby (.grouper (some 2) .left) none none (some (.grouper (some 3) .left)) = .error .snapKey := by decide
example : setupSegmentby (.grouper (some 0) .left) none none (some (.grouper (some 0) .right)) = .error .snapClosed := by decide
example : setupSegmentby .callable (some 0) none (some .values) = .error .noOrderedOn := by decide

/-! test_segmentby (612-859). -/

def data : List Row := [(484, 0), (487, 1), (490, 2), (493, 3)]

example : res (segmentby (grouperBin ⟨5, .left, false, .startDay, 0, 1440⟩ 0) (some (col 0)) none data none) =
    .ok ⟨[1, 2, 4], [], [480, 485, 490], 0, none, 0⟩ := by decide
example : res (segmentby (grouperBin ⟨5, .left, true, .startDay, 0, 1440⟩ 0) (some (col 0)) (some (.grouper ⟨2, .left, true, .startDay, 0, 1440⟩)) data none) =
    .ok ⟨[1, 1, 2, 2, 2, 3, 4, 4], [0, 4, 7], [485, 490, 495], 0, some [486, 488, 490, 492, 494], 2⟩ := by decide
example : res (segmentby (grouperBin ⟨5, .right, true, .startDay, 0, 1440⟩ 0) (some (col 0)) (some (.grouper ⟨2, .right, true, .startDay, 0, 1440⟩)) data none) =
    .ok ⟨[1, 1, 1, 2, 3, 3, 3, 4, 4], [1, 5, 8], [485, 490, 495], 0, some [484, 486, 488, 490, 492, 494], 4⟩ := by decide
example : res (segmentby (grouperBin ⟨5, .left, true, .startDay, 0, 1440⟩ 0) (some (col 0)) (some (.values [486, 488, 490, 492, 494] [486, 488, 490, 492, 494])) data none) =
    .ok ⟨[1, 1, 2, 2, 2, 3, 4, 4], [0, 4, 7], [485, 490, 495], 0, some [486, 488, 490, 492, 494], 2⟩ := by decide
example : res (segmentby (grouperBin ⟨5, .right, true, .startDay, 0, 1440⟩ 0) (some (col 0)) (some (.values [484, 486, 488, 490, 492, 494] [484, 486, 488, 490, 492, 494])) data none) =
    .ok ⟨[1, 1, 1, 2, 3, 3, 3, 4, 4], [1, 5, 8], [485, 490, 495], 0, some [484, 486, 488, 490, 492, 494], 4⟩ := by decide
example : res (segmentby (rowsBin 3 .left 0) (some (col 0)) (some (.grouper ⟨2, .left, true, .startDay, 0, 1440⟩)) data none) =
    .ok ⟨[1, 2, 2, 3, 3, 4, 4], [4, 6], [484, 493], 0, some [486, 488, 490, 492, 494], 1⟩ := by decide
example : res (segmentby (rowsBin 3 .right 0) (some (col 0)) (some (.grouper ⟨2, .left, true, .startDay, 0, 1440⟩)) data none) =
    .ok ⟨[1, 1, 2, 3, 3, 3, 4, 4], [4, 7], [484, 493], 0, some [484, 486, 488, 490, 492, 494], 3⟩ := by decide
example : res (segmentby (rowsBin 3 .left 0) (some (col 0)) (some (.values [486, 488, 490, 492, 494] [486, 488, 490, 492, 494])) data none) =
    .ok ⟨[1, 2, 2, 3, 3, 4, 4], [4, 6], [484, 493], 0, some [486, 488, 490, 492, 494], 1⟩ := by decide
example : res (segmentby (rowsBin 3 .right 0) (some (col 0)) (some (.values [484, 486, 488, 490, 492, 494] [484, 486, 488, 490, 492, 494])) data none) =
    .ok ⟨[1, 1, 2, 3, 3, 3, 4, 4], [4, 7], [484, 493], 0, some [484, 486, 488, 490, 492, 494], 3⟩ := by decide

/-! test_segmentby_with_outer_setup (862-899) is the second case of test_segmentby with the set-up done before, which the
model always does. -/

/-! test_segmentby_binby_exceptions (902-932): labels are numbered, `closed = "invented"` is `none`. -/
def wrongBin (r : BinRes) : BinFn Row Unit := fun _ b => .ok (r, b)
example : res (segmentby (wrongBin ⟨[0], [0, 1], 0, some .left, [0, 1], true⟩) none none data none) = .error .sizeLabels := by
  decide
example : res (segmentby (wrongBin ⟨[0, 1, 2], [0, 1, 2], 0, some .left, [0], true⟩) none none data none) =
    .error .sizeEnds := by decide
example : res (segmentby (wrongBin ⟨[0, 1], [0, 1], 0, none, [0, 1], true⟩) none none data none) = .error .badClosed := by
  decide
example : setupSegmentby .other (some 0) none none = .error .badBinBy := by decide

/-! test_segmentby_orderedon_exceptions (935-951). -/
example : res (segmentby (grouperBin ⟨2, .left, false, .startDay, 0, 1440⟩ 0) (some (col 0)) none
    [(480, 0), (540, 0), (420, 0)] none) = .error .notOrdered := by decide
example : res (segmentby (grouperBin ⟨2, .left, false, .startDay, 0, 1440⟩ 0) (some (col 0)) none
    [(0, 0), (4, 0), (3, 0)] none) = .error .notOrdered := by decide

/-! test_by_scale (test_segmentby_restart.py 40-580): three slices of the data with the same buffer. -/

def on : List Int := [480, 483, 492, 495, 496, 501, 520, 521, 530]

example : chain (fun s on b => byScale s (some .left) on (some b)) (List.zip [(.grouper ⟨5, .left, false, .startDay, 0, 1440⟩), (.grouper ⟨5, .left, false, .startDay, 0, 1440⟩), (.grouper ⟨5, .left, false, .startDay, 0, 1440⟩)]
    (slices on 0 [3, 6, 9])) {} =
    [.ok (⟨[2, 2, 3], [480, 485, 490], 1, .left, [485, 490, 495], false⟩, ⟨some 490, none⟩),
     .ok (⟨[0, 2, 3], [490, 495, 500], 1, .left, [495, 500, 505], false⟩, ⟨some 500, none⟩),
     .ok (⟨[0, 0, 0, 0, 2, 2, 3], [500, 505, 510, 515, 520, 525, 530], 5, .left, [505, 510, 515, 520, 525, 530, 535], false⟩, ⟨some 530, none⟩)] := by decide
example : chain (fun s on b => byScale s (some .left) on (some b)) (List.zip [(.grouper ⟨5, .left, false, .startDay, 0, 1440⟩), (.grouper ⟨5, .left, false, .startDay, 0, 1440⟩), (.grouper ⟨5, .left, false, .startDay, 0, 1440⟩)]
    (slices on 0 [2, 7, 9])) {} =
    [.ok (⟨[2], [480], 0, .left, [485], false⟩, ⟨some 480, none⟩),
     .ok (⟨[0, 0, 1, 3, 4, 4, 4, 4, 5], [480, 485, 490, 495, 500, 505, 510, 515, 520], 5, .left, [485, 490, 495, 500, 505, 510, 515, 520, 525], false⟩, ⟨some 520, none⟩),
     .ok (⟨[1, 1, 2], [520, 525, 530], 1, .left, [525, 530, 535], false⟩, ⟨some 530, none⟩)] := by decide
example : chain (fun s on b => byScale s (some .right) on (some b)) (List.zip [(.grouper ⟨5, .left, false, .startDay, 0, 1440⟩), (.grouper ⟨5, .left, false, .startDay, 0, 1440⟩), (.grouper ⟨5, .left, false, .startDay, 0, 1440⟩)]
    (slices on 0 [1, 7, 9])) {} =
    [.ok (⟨[1], [475], 0, .right, [480], false⟩, ⟨some 480, none⟩),
     .ok (⟨[0, 1, 1, 3, 4, 5, 5, 5, 6], [475, 480, 485, 490, 495, 500, 505, 510, 515], 4, .right, [480, 485, 490, 495, 500, 505, 510, 515, 520], false⟩, ⟨some 520, none⟩),
     .ok (⟨[0, 1, 2], [515, 520, 525], 1, .right, [520, 525, 530], false⟩, ⟨some 530, none⟩)] := by decide
example : chain (fun s on b => byScale s (some .right) on (some b)) (List.zip [(.grouper ⟨5, .right, false, .startDay, 0, 1440⟩), (.grouper ⟨5, .right, false, .startDay, 0, 1440⟩), (.grouper ⟨5, .right, false, .startDay, 0, 1440⟩)]
    (slices on 0 [3, 6, 9])) {} =
    [.ok (⟨[1, 2, 2, 3], [475, 480, 485, 490], 1, .right, [480, 485, 490, 495], false⟩, ⟨some 495, none⟩),
     .ok (⟨[1, 2, 3], [490, 495, 500], 0, .right, [495, 500, 505], false⟩, ⟨some 505, none⟩),
     .ok (⟨[0, 0, 0, 1, 2, 3], [500, 505, 510, 515, 520, 525], 3, .right, [505, 510, 515, 520, 525, 530], false⟩, ⟨some 530, none⟩)] := by decide
example : chain (fun s on b => byScale s (some .left) on (some b)) (List.zip [(.values [480, 486] [480, 486]), (.values [486, 498] [486, 498]), (.values [498, 516, 530] [498, 516, 530])]
    (slices on 0 [3, 6, 9])) {} =
    [.ok (⟨[0, 2], [480, 486], 1, .left, [480, 486], false⟩, ⟨some 486, some 492⟩),
     .ok (⟨[2], [498], 0, .left, [498], false⟩, ⟨some 498, some 501⟩),
     .ok (⟨[0, 2], [516, 530], 1, .left, [516, 530], false⟩, ⟨some 530, some 530⟩)] := by decide
example : chain (fun s on b => byScale s (some .left) on (some b)) (List.zip [(.values [480, 496] [480, 496]), (.values [496, 522] [496, 522]), (.values [522, 532] [522, 532])]
    (slices on 0 [3, 6, 9])) {} =
    [.ok (⟨[0, 3], [480, 496], 1, .left, [480, 496], false⟩, ⟨some 496, none⟩),
     .ok (⟨[1, 3], [496, 522], 0, .left, [496, 522], false⟩, ⟨some 522, none⟩),
     .ok (⟨[2, 3], [522, 532], 0, .left, [522, 532], false⟩, ⟨some 532, none⟩)] := by decide
example : chain (fun s on b => byScale s (some .left) on (some b)) (List.zip [(.values [480, 492] [480, 492]), (.values [492, 496] [492, 496]), (.values [492, 496, 530] [492, 496, 530])]
    (slices on 0 [3, 6, 9])) {} =
    [.ok (⟨[0, 2], [480, 492], 1, .left, [480, 492], false⟩, ⟨some 492, some 492⟩),
     .ok (⟨[1], [496], 0, .left, [496], false⟩, ⟨some 496, some 501⟩),
     .ok (⟨[2], [530], 0, .left, [530], false⟩, ⟨some 530, some 530⟩)] := by decide
example : chain (fun s on b => byScale s (some .right) on (some b)) (List.zip [(.values [480, 486] [480, 486]), (.values [486, 492] [486, 492]), (.values [492, 516, 530] [492, 516, 530])]
    (slices on 0 [3, 6, 9])) {} =
    [.ok (⟨[1, 2], [480, 486], 0, .right, [480, 486], false⟩, ⟨some 486, some 492⟩),
     .ok (⟨[0], [492], 1, .right, [492], false⟩, ⟨some 492, some 501⟩),
     .ok (⟨[0, 3], [516, 530], 1, .right, [516, 530], false⟩, ⟨some 530, none⟩)] := by decide
example : chain (fun s on b => byScale s (some .right) on (some b)) (List.zip [(.values [480, 492] [480, 492]), (.values [492, 496] [492, 496]), (.values [492, 496, 530] [492, 496, 530])]
    (slices on 0 [3, 6, 9])) {} =
    [.ok (⟨[1, 3], [480, 492], 0, .right, [480, 492], false⟩, ⟨some 492, none⟩),
     .ok (⟨[0, 2], [492, 496], 1, .right, [492, 496], false⟩, ⟨some 496, some 501⟩),
     .ok (⟨[3], [530], 0, .right, [530], false⟩, ⟨some 530, none⟩)] := by decide
example : chain (fun s on b => byScale s (some .right) on (some b)) (List.zip [(.values [480, 496] [480, 496]), (.values [496, 522] [496, 522]), (.values [522, 532] [522, 532])]
    (slices on 0 [3, 6, 9])) {} =
    [.ok (⟨[1, 3], [480, 496], 0, .right, [480, 496], false⟩, ⟨some 496, none⟩),
     .ok (⟨[2, 3], [496, 522], 0, .right, [496, 522], false⟩, ⟨some 522, none⟩),
     .ok (⟨[2, 3], [522, 532], 0, .right, [522, 532], false⟩, ⟨some 532, none⟩)] := by decide
example : chain (fun s on b => byScale s (some .left) on (some b)) (List.zip [(.values [483] [483]), (.values [483] [483]), (.values [483, 516] [483, 516])]
    (slices on 0 [3, 6, 9])) {} =
    [.ok (⟨[1], [483], 0, .left, [483], false⟩, ⟨some 483, some 492⟩),
     .ok (⟨[], [], 0, .left, [], false⟩, ⟨some 483, some 501⟩),
     .ok (⟨[0], [516], 1, .left, [516], false⟩, ⟨some 516, some 530⟩)] := by decide
example : chain (fun s on b => byScale s (some .right) on (some b)) (List.zip [(.values [480, 496, 522, 532] [480, 496, 522, 532]), (.values [480, 496, 522, 532] [480, 496, 522, 532]), (.values [480, 496, 522, 532] [480, 496, 522, 532])]
    (slices on 0 [3, 6, 9])) {} =
    [.ok (⟨[1, 3], [480, 496], 0, .right, [480, 496], false⟩, ⟨some 496, none⟩),
     .ok (⟨[2, 3], [496, 522], 0, .right, [496, 522], false⟩, ⟨some 522, none⟩),
     .ok (⟨[2, 3], [522, 532], 0, .right, [522, 532], false⟩, ⟨some 532, none⟩)] := by decide

/-! test_by_scale_exceptions (583-646). -/
example : (chain (fun s on b => byScale s (some .left) on (some b)) (List.zip [(.values [483, 486] [483, 486]), (.values [487] [487])]
    (slices on 0 [3, 6])) {}).map (fun r => r.map fun _ => ()) = [.ok (), .error .restartKeyMissing] := by decide
example : (chain (fun s on b => byScale s (some .left) on (some b)) (List.zip [(.values [483] [483]), (.values [483, 492] [483, 492])]
    (slices on 0 [3, 6])) {}).map (fun r => r.map fun _ => ()) = [.ok (), .error .secondEnd] := by decide
example : (chain (fun s on b => byScale s (some .right) on (some b)) (List.zip [(.values [483] [483]), (.values [483, 491] [483, 491])]
    (slices on 0 [3, 6])) {}).map (fun r => r.map fun _ => ()) = [.ok (), .error .secondEnd] := by decide

/-! test_by_x_rows (649-796). -/
example : chain (fun (_ : Unit) on b => Except.ok (byXRows 4 .left on (some b))) (List.zip [(), (), ()]
    (slices on 0 [3, 6, 9])) none =
    [.ok (⟨[3], [480], 0, .left, [492], true⟩, some ⟨3, 480, none⟩),
     .ok (⟨[1, 3], [480, 496], 0, .left, [496, 501], true⟩, some ⟨2, 496, none⟩),
     .ok (⟨[2, 3], [496, 530], 0, .left, [530, 530], true⟩, some ⟨1, 530, none⟩)] := by decide
example : chain (fun (_ : Unit) on b => Except.ok (byXRows 4 .right on (some b))) (List.zip [(), (), ()]
    (slices on 0 [4, 6, 9])) none =
    [.ok (⟨[4], [480], 0, .right, [495], false⟩, some ⟨4, 480, some 495⟩),
     .ok (⟨[0, 2], [480, 496], 1, .right, [495, 501], true⟩, some ⟨2, 496, some 501⟩),
     .ok (⟨[2, 3], [496, 530], 0, .right, [521, 530], true⟩, some ⟨1, 530, some 530⟩)] := by decide
example : chain (fun (_ : Unit) on b => Except.ok (byXRows 4 .left on (some b))) (List.zip [(), (), ()]
    (slices on 0 [4, 6, 9])) none =
    [.ok (⟨[4], [480], 0, .left, [495], true⟩, some ⟨4, 480, none⟩),
     .ok (⟨[0, 2], [480, 496], 1, .left, [496, 501], true⟩, some ⟨2, 496, none⟩),
     .ok (⟨[2, 3], [496, 530], 0, .left, [530, 530], true⟩, some ⟨1, 530, none⟩)] := by decide

/-! test_by_x_rows_single_shot (799-900): times in minutes from 2022/01/01 00:00. -/
example : byXRows 4 .left [480, 540, 600] (some (some ⟨1, 470, none⟩)) =
    (⟨[3], [470], 0, .left, [600], true⟩, some (some ⟨4, 470, none⟩)) := by decide
example : byXRows 4 .left [480, 540, 600, 660, 720, 780, 840] (some (some ⟨1, 470, none⟩)) =
    (⟨[3, 7], [470, 660], 0, .left, [660, 840], true⟩, some (some ⟨4, 660, none⟩)) := by decide
example : byXRows 4 .left [480, 540, 600, 660, 720, 780, 840] (some (some ⟨4, 470, none⟩)) =
    (⟨[0, 4, 7], [470, 480, 720], 1, .left, [480, 720, 840], true⟩, some (some ⟨3, 720, none⟩)) := by decide
example : byXRows 4 .left [480, 540, 600, 660, 720, 780, 840, 900] (some (some ⟨1, 470, none⟩)) =
    (⟨[3, 7, 8], [470, 660, 900], 0, .left, [660, 900, 900], true⟩, some (some ⟨1, 900, none⟩)) := by decide
example : byXRows 4 .left [480, 540, 600, 660, 720, 780, 840, 900] (some (some ⟨4, 470, none⟩)) =
    (⟨[0, 4, 8], [470, 480, 720], 1, .left, [480, 720, 900], true⟩, some (some ⟨4, 720, none⟩)) := by decide

/-! test_segmentby_exceptions (903-966): labels are numbered. -/
def emptyBuf {B : Type} (b : B) : Option (MainBuf B) := some ⟨b, {}, none⟩
example : res (segmentby (wrongBin ⟨[1, 4, 4], [0, 1, 2], 1, some .left, [487, 493, 493], false⟩) none none data (emptyBuf ())) =
    .error .emptyTrailing := by decide
example : res (segmentby (wrongBin ⟨[1, 3], [0, 1], 0, some .left, [487, 490], false⟩) none none data (emptyBuf ())) =
    .error .notCovering := by decide
def sameLabels : BinFn Row Unit := fun rows b => .ok (⟨[1, rows.length], [0, 1], 0, some .left, [487, 487], false⟩, b)
example : (chain (fun (_ : Unit) d b => segmentby sameLabels (some (col 0)) (some (.grouper ⟨2, .left, false, .startDay, 0, 1440⟩))
    d (some b)) (List.zip [(), ()] (slices data 0 [2, 4])) ⟨(), {}, none⟩).map (fun r => r.map fun _ => ()) =
    [.ok (), .error .labelMismatch] := by decide

/-! test_segmentby (969-1649): successive slices of the data with the same buffer. -/

def data2 : List Row :=
  [(490, 0), (490, 1), (492, 2), (497, 3), (499, 4), (500, 5), (540, 6), (550, 7), (570, 8)]

example : resAll (chain (fun s d b => segmentby (rowsBin 4 .left 1) none s d (some b))
    (List.zip [none, none, none] (slices data2 0 [3, 6, 9])) ⟨none, {}, none⟩) =
    [.ok (⟨[3], [], [0], 0, none, 0⟩, some ⟨3, 0, none⟩, {}, some 0),
     .ok (⟨[1, 3], [], [0, 4], 0, none, 0⟩, some ⟨2, 4, none⟩, {}, some 4),
     .ok (⟨[2, 3], [], [4, 8], 0, none, 0⟩, some ⟨1, 8, none⟩, {}, some 8)] := by decide
example : resAll (chain (fun s d b => segmentby (grouperBin ⟨20, .left, false, .startDay, 0, 1440⟩ 0) (some (col 0)) s d (some b))
    (List.zip [(some (.grouper ⟨10, .left, true, .startDay, 0, 1440⟩)), (some (.grouper ⟨10, .left, true, .startDay, 0, 1440⟩)), (some (.grouper ⟨10, .left, true, .startDay, 0, 1440⟩))] (slices data2 0 [3, 6, 9])) ⟨{}, {}, none⟩) =
    [.ok (⟨[3, 3], [1], [480], 0, some [500], 0⟩, ⟨some 490, none⟩, ⟨some 490, none⟩, some 480),
     .ok (⟨[2, 2, 3, 3], [1, 3], [480, 500], 0, some [500, 510], 0⟩, ⟨some 500, none⟩, ⟨some 500, none⟩, some 500),
     .ok (⟨[0, 0, 0, 0, 0, 0, 1, 2, 2, 2, 3, 3], [2, 5, 8, 11], [500, 520, 540, 560], 2, some [510, 520, 530, 540, 550, 560, 570, 580], 7⟩, ⟨some 560, none⟩, ⟨some 570, none⟩, some 560)] := by decide
example : resAll (chain (fun s d b => segmentby (grouperBin ⟨20, .left, false, .startDay, 0, 1440⟩ 0) (some (col 0)) s d (some b))
    (List.zip [(some (.values [492, 495] [492, 495])), (some (.values [495, 500, 515] [495, 500, 515])), (some (.values [515, 520, 540, 551, 560, 580, 584] [515, 520, 540, 551, 560, 580, 584]))] (slices data2 0 [3, 6, 9])) ⟨{}, {}, none⟩) =
    [.ok (⟨[2, 3, 3], [2], [480], 0, some [492, 495], 0⟩, ⟨some 490, none⟩, ⟨some 495, none⟩, some 480),
     .ok (⟨[0, 2, 2, 3, 3], [2, 4], [480, 500], 0, some [495, 500, 515], 1⟩, ⟨some 500, none⟩, ⟨some 515, none⟩, some 500),
     .ok (⟨[0, 0, 0, 0, 0, 2, 2, 2, 3, 3], [2, 4, 7, 9], [500, 520, 540, 560], 2, some [515, 520, 540, 551, 560, 580], 5⟩, ⟨some 560, none⟩, ⟨some 580, none⟩, some 560)] := by decide
example : resAll (chain (fun s d b => segmentby (rowsBin 4 .left 0) (some (col 0)) s d (some b))
    (List.zip [(some (.grouper ⟨15, .left, true, .startDay, 0, 1440⟩)), (some (.grouper ⟨15, .left, true, .startDay, 0, 1440⟩)), (some (.grouper ⟨15, .left, true, .startDay, 0, 1440⟩))] (slices data2 0 [3, 6, 9])) ⟨none, {}, none⟩) =
    [.ok (⟨[3, 3], [1], [490], 0, some [495], 0⟩, some ⟨3, 490, none⟩, ⟨some 490, none⟩, some 490),
     .ok (⟨[0, 1, 3, 3], [1, 3], [490, 499], 0, some [495, 510], 1⟩, some ⟨2, 499, none⟩, ⟨some 495, none⟩, some 499),
     .ok (⟨[0, 0, 0, 2, 2, 2, 3, 3], [5, 7], [499, 570], 0, some [510, 525, 540, 555, 570, 585], 4⟩, some ⟨1, 570, none⟩, ⟨some 570, none⟩, some 570)] := by decide
example : resAll (chain (fun s d b => segmentby (rowsBin 4 .left 0) (some (col 0)) s d (some b))
    (List.zip [(some (.values [492, 495] [492, 495])), (some (.values [495, 500, 515] [495, 500, 515])), (some (.values [515, 520, 540, 551, 560, 580, 584] [515, 520, 540, 551, 560, 580, 584]))] (slices data2 0 [3, 6, 9])) ⟨none, {}, none⟩) =
    [.ok (⟨[2, 3, 3], [2], [490], 0, some [492, 495], 0⟩, some ⟨3, 490, none⟩, ⟨some 495, none⟩, some 490),
     .ok (⟨[0, 1, 2, 3, 3], [1, 4], [490, 499], 0, some [495, 500, 515], 1⟩, some ⟨2, 499, none⟩, ⟨some 515, none⟩, some 499),
     .ok (⟨[0, 0, 0, 2, 2, 2, 3, 3], [5, 7], [499, 570], 0, some [515, 520, 540, 551, 560, 580], 4⟩, some ⟨1, 570, none⟩, ⟨some 580, none⟩, some 570)] := by decide
example : resAll (chain (fun s d b => segmentby (rowsBin 4 .left 0) (some (col 0)) s d (some b))
    (List.zip [(some (.values [492, 495] [492, 495])), (some (.values [495, 500, 515, 520, 540, 551, 560, 580, 584] [495, 500, 515, 520, 540, 551, 560, 580, 584]))] (slices data2 0 [4, 9])) ⟨none, {}, none⟩) =
    [.ok (⟨[2, 3, 4], [2], [490], 0, some [492, 495], 0⟩, some ⟨4, 490, none⟩, ⟨some 495, some 497⟩, some 490),
     .ok (⟨[0, 1, 2, 2, 2, 4, 4, 4, 5, 5], [0, 7, 9], [490, 499, 570], 1, some [500, 515, 520, 540, 551, 560, 580], 3⟩, some ⟨1, 570, none⟩, ⟨some 580, none⟩, some 570)] := by decide
example : resAll (chain (fun s d b => segmentby (grouperBin ⟨60, .left, false, .startDay, 0, 1440⟩ 0) (some (col 0)) s d (some b))
    (List.zip [(some (.values [492] [492])), (some (.values [492] [492])), (some (.values [492, 550] [492, 550]))] (slices data2 0 [3, 6])) ⟨{}, {}, none⟩) =
    [.ok (⟨[2, 3], [1], [480], 0, some [492], 0⟩, ⟨some 490, none⟩, ⟨some 492, some 492⟩, some 480),
     .ok (⟨[3], [0], [480], 0, some [], 0⟩, ⟨some 497, none⟩, ⟨some 492, some 500⟩, some 480)] := by decide

end Oups.Tests.Segment
