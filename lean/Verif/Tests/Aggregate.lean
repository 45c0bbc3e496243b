import Verif.Props.Aggregate
/-!
The tests of `/repo/tests/test_aggstream/test_jcumsegagg.py`, `test_cumsegagg.py` and `test_cumsegagg_restart.py`, run on
the model: same data, same parameters and the results that the tests expect. Times are in minutes from 2020/01/01 00:00,
a day is 1440; floats are in tenths. A null value is `none`. Where the tests compare with `data.groupby(by).agg(..)`, its
result is written out. Not here: `test_cumsegagg_bin_snap_time_grouper`, which is on random data (its claim is property
C42, proved for all data).
-/
set_option maxRecDepth 20000
set_option synthInstance.maxHeartbeats 200000
set_option synthInstance.maxSize 1000
namespace Oups.Tests.Aggregate
open Oups.Segment Oups.Agg Oups.Agg.Spec

/-! ### test_jcumsegagg.py -/

/-- Aggregation of the columns of an array: same function on each column. -/
def each (f : Fn) (ar : List (List Int)) (res : List Int) (useInit : Bool) : List Int :=
  res.zipIdx.map fun p => jagg intOps f (ar.map fun r => r.getD p.2 0) p.1 useInit

/-! test_jfirst, test_jlast, test_jmax, test_jmin, test_jsum (28-207). -/
example : each .first [] [0, 0] false = [0, 0] := by decide
example : each .first [] [1, 3] true = [1, 3] := by decide
example : each .first [[1, 5, 9], [4, -2, 3]] [0, 0, 0] false = [1, 5, 9] := by decide
example : each .first [[4, 2]] [1, 3] true = [1, 3] := by decide
example : each .first [[1, 5, 9], [4, 2, 3]] [7, 3, -1] true = [7, 3, -1] := by decide
example : each .last [] [0, 0] false = [0, 0] := by decide
example : each .last [] [1, 3] true = [1, 3] := by decide
example : each .last [[1, 5, 9], [4, -2, 3]] [0, 0, 0] false = [4, -2, 3] := by decide
example : each .last [[4, 2]] [1, 3] true = [4, 2] := by decide
example : each .last [[1, 5, 9], [4, 2, 3]] [7, 3, -1] true = [4, 2, 3] := by decide
example : each .max [] [0, 0] false = [0, 0] := by decide
example : each .max [] [1, 3] true = [1, 3] := by decide
example : each .max [[1, 5, 9], [4, 2, 3]] [0, 0, 0] false = [4, 5, 9] := by decide
example : each .max [[4, 2]] [1, 3] true = [4, 3] := by decide
example : each .max [[1, 5, 9], [4, 2, 3]] [7, 3, -1] true = [7, 5, 9] := by decide
example : each .min [] [0, 0] false = [0, 0] := by decide
example : each .min [] [1, 3] true = [1, 3] := by decide
example : each .min [[1, 5, 9], [4, -2, 3]] [0, 0, 0] false = [1, -2, 3] := by decide
example : each .min [[4, 2]] [1, 3] true = [1, 2] := by decide
example : each .min [[1, 5, 9], [4, 2, 3]] [7, 3, -1] true = [1, 2, -1] := by decide
example : each .sum [] [0, 0] false = [0, 0] := by decide
example : each .sum [] [1, 3] true = [1, 3] := by decide
example : each .sum [[1, 5, 9], [4, -2, 3]] [0, 0, 0] false = [5, 3, 12] := by decide
example : each .sum [[4, 2]] [1, 3] true = [5, 5] := by decide
example : each .sum [[1, 5, 9], [4, 2, 3]] [7, 3, -1] true = [12, 10, 11] := by decide

/-- One column, one function. -/
def group1 (f : Fn) : Group := ⟨[0], [0], [(f, [0], [0])], 1⟩

/-- `jcsagg` on one column. -/
def jcs1 (f : Fn) (data : List Int) (starts bins : List Nat) (someSnaps preserve : Bool) (res : Int) :
    List (Option (List Int)) × List (Option (List Int)) × List Int :=
  jcsagg (updGroup intOps (group1 f)) (data.map fun v => [v]) starts bins someSnaps preserve [res]

/-! test_jcsagg_bin_1d_no_void (210-272). -/
example : jcs1 .first [1, 4, 3, 7, 2, 6] [3, 5, 6] [0, 1, 2] false false 0 =
    ([some [1], some [7], some [6]], [], [6]) := by decide
example : jcs1 .last [1, 4, 3, 7, 2, 6] [3, 5, 6] [0, 1, 2] false false 0 =
    ([some [3], some [2], some [6]], [], [6]) := by decide
example : jcs1 .min [1, 4, 3, 7, 2, 6] [3, 5, 6] [0, 1, 2] false false 0 =
    ([some [1], some [2], some [6]], [], [6]) := by decide
example : jcs1 .max [1, 4, 3, 7, 2, 6] [3, 5, 6] [0, 1, 2] false false 0 =
    ([some [4], some [7], some [6]], [], [6]) := by decide
example : jcs1 .sum [1, 4, 3, 7, 2, 6] [3, 5, 6] [0, 1, 2] false false 0 =
    ([some [8], some [9], some [6]], [], [6]) := by decide
/-! test_jcsagg_bin_1d_with_void (275-342). -/
example : jcs1 .first [1, 4, 3, 7, 2, 6] [0, 0, 3, 3, 5, 5, 6] [0, 1, 2, 3, 4, 5, 6] false false 0 =
    ([none, none, some [1], none, some [7], none, some [6]], [], [6]) := by decide
example : jcs1 .last [1, 4, 3, 7, 2, 6] [0, 0, 3, 3, 5, 5, 6] [0, 1, 2, 3, 4, 5, 6] false false 0 =
    ([none, none, some [3], none, some [2], none, some [6]], [], [6]) := by decide
example : jcs1 .min [1, 4, 3, 7, 2, 6] [0, 0, 3, 3, 5, 5, 6] [0, 1, 2, 3, 4, 5, 6] false false 0 =
    ([none, none, some [1], none, some [2], none, some [6]], [], [6]) := by decide
example : jcs1 .max [1, 4, 3, 7, 2, 6] [0, 0, 3, 3, 5, 5, 6] [0, 1, 2, 3, 4, 5, 6] false false 0 =
    ([none, none, some [4], none, some [7], none, some [6]], [], [6]) := by decide
example : jcs1 .sum [1, 4, 3, 7, 2, 6] [0, 0, 3, 3, 5, 5, 6] [0, 1, 2, 3, 4, 5, 6] false false 0 =
    ([none, none, some [8], none, some [9], none, some [6]], [], [6]) := by decide
/-! test_jcsagg_snap_1d_no_void (345-417). -/
example : jcs1 .first [1, 4, 3, 7, 2, 6] [3, 5, 6] [] true false 0 =
    ([], [some [1], some [1], some [1]], [1]) := by decide
example : jcs1 .last [1, 4, 3, 7, 2, 6] [3, 5, 6] [] true false 0 =
    ([], [some [3], some [2], some [6]], [6]) := by decide
example : jcs1 .min [1, 4, 3, 7, 2, 6] [3, 5, 6] [] true false 0 =
    ([], [some [1], some [1], some [1]], [1]) := by decide
example : jcs1 .max [1, 4, 3, 7, 2, 6] [3, 5, 6] [] true false 0 =
    ([], [some [4], some [7], some [7]], [7]) := by decide
example : jcs1 .sum [1, 4, 3, 7, 2, 6] [3, 5, 6] [] true false 0 =
    ([], [some [8], some [17], some [23]], [23]) := by decide
/-! test_jcsagg_snap_1d_with_void (420-497). -/
example : jcs1 .first [1, 4, 3, 7, 2, 6] [0, 0, 3, 3, 5, 5, 6] [] true false 0 =
    ([], [none, none, some [1], some [1], some [1], some [1], some [1]], [1]) := by decide
example : jcs1 .last [1, 4, 3, 7, 2, 6] [0, 0, 3, 3, 5, 5, 6] [] true false 0 =
    ([], [none, none, some [3], some [3], some [2], some [2], some [6]], [6]) := by decide
example : jcs1 .min [1, 4, 3, 7, 2, 6] [0, 0, 3, 3, 5, 5, 6] [] true false 0 =
    ([], [none, none, some [1], some [1], some [1], some [1], some [1]], [1]) := by decide
example : jcs1 .max [1, 4, 3, 7, 2, 6] [0, 0, 3, 3, 5, 5, 6] [] true false 0 =
    ([], [none, none, some [4], some [4], some [7], some [7], some [7]], [7]) := by decide
example : jcs1 .sum [1, 4, 3, 7, 2, 6] [0, 0, 3, 3, 5, 5, 6] [] true false 0 =
    ([], [none, none, some [8], some [8], some [17], some [17], some [23]], [23]) := by decide
/-! test_jcsagg_bin_snap_1d (500-803). -/
example : jcs1 .first [1, 4, 3, 7, 2, 6, 11, 5, 13, 9] [0, 0, 1, 3, 4, 4, 4, 4, 4, 5, 5, 7, 7, 8, 8, 10, 10, 10, 10]
    [1, 3, 5, 8, 11, 12, 16] true false 1 =
    ([none, some [1], some [7], none, some [2], none, some [5]],
     [none, some [1], some [7], none, none, some [2], some [2], some [5], some [5], some [5], none, none],
     [5]) := by decide
example : jcs1 .first [1, 4, 3, 7, 2, 6, 11, 5, 13, 9] [0, 0, 1, 3, 4, 4, 4, 4, 4, 5, 5, 7, 7, 8, 8, 10, 10, 10, 10]
    [1, 3, 5, 6, 11, 12, 17] true false 1 =
    ([none, some [1], some [7], none, some [2], none, some [5]],
     [none, some [1], some [7], none, none, some [2], some [2], some [5], some [5], some [5], some [5], none],
     [5]) := by decide
example : jcs1 .last [1, 4, 3, 7, 2, 6, 11, 5, 13, 9] [0, 0, 1, 3, 4, 4, 4, 4, 4, 5, 5, 7, 7, 8, 8, 10, 10, 10, 10]
    [1, 3, 5, 8, 11, 12, 16] true false 1 =
    ([none, some [3], some [7], none, some [11], none, some [9]],
     [none, some [1], some [7], none, none, some [2], some [2], some [5], some [5], some [9], none, none],
     [9]) := by decide
example : jcs1 .last [1, 4, 3, 7, 2, 6, 11, 5, 13, 9] [0, 0, 1, 3, 4, 4, 4, 4, 4, 5, 5, 7, 7, 8, 8, 10, 10, 10, 10]
    [1, 3, 5, 8, 11, 12, 17] true false 1 =
    ([none, some [3], some [7], none, some [11], none, some [9]],
     [none, some [1], some [7], none, none, some [2], some [2], some [5], some [5], some [9], some [9], none],
     [9]) := by decide
example : jcs1 .min [1, 4, 3, 7, 2, 6, 11, 5, 13, 9] [0, 0, 1, 3, 4, 4, 4, 4, 4, 5, 5, 7, 7, 8, 8, 10, 10, 10, 10]
    [1, 3, 5, 8, 11, 12, 16] true false 1 =
    ([none, some [1], some [7], none, some [2], none, some [5]],
     [none, some [1], some [7], none, none, some [2], some [2], some [5], some [5], some [5], none, none],
     [5]) := by decide
example : jcs1 .min [1, 4, 3, 7, 2, 6, 11, 5, 13, 9] [0, 0, 1, 3, 4, 4, 4, 4, 4, 5, 5, 7, 7, 8, 8, 10, 10, 10, 10]
    [1, 3, 5, 8, 11, 12, 17] true false 1 =
    ([none, some [1], some [7], none, some [2], none, some [5]],
     [none, some [1], some [7], none, none, some [2], some [2], some [5], some [5], some [5], some [5], none],
     [5]) := by decide
example : jcs1 .max [1, 4, 3, 7, 2, 6, 11, 5, 13, 9] [0, 0, 1, 3, 4, 4, 4, 4, 4, 5, 5, 7, 7, 8, 8, 10, 10, 10, 10]
    [1, 3, 5, 8, 11, 12, 16] true false 1 =
    ([none, some [4], some [7], none, some [11], none, some [13]],
     [none, some [1], some [7], none, none, some [2], some [2], some [5], some [5], some [13], none, none],
     [13]) := by decide
example : jcs1 .max [1, 4, 3, 7, 2, 6, 11, 5, 13, 9] [0, 0, 1, 3, 4, 4, 4, 4, 4, 5, 5, 7, 7, 8, 8, 10, 10, 10, 10]
    [1, 3, 5, 8, 11, 12, 17] true false 1 =
    ([none, some [4], some [7], none, some [11], none, some [13]],
     [none, some [1], some [7], none, none, some [2], some [2], some [5], some [5], some [13], some [13], none],
     [13]) := by decide
example : jcs1 .sum [1, 4, 3, 7, 2, 6, 11, 5, 13, 9] [0, 0, 1, 3, 4, 4, 4, 4, 4, 5, 5, 7, 7, 8, 8, 10, 10, 10, 10]
    [1, 3, 5, 8, 11, 12, 16] true false 1 =
    ([none, some [8], some [7], none, some [19], none, some [27]],
     [none, some [1], some [7], none, none, some [2], some [2], some [5], some [5], some [27], none, none],
     [27]) := by decide
example : jcs1 .sum [1, 4, 3, 7, 2, 6, 11, 5, 13, 9] [0, 0, 1, 3, 4, 4, 4, 4, 4, 5, 5, 7, 7, 8, 8, 10, 10, 10, 10]
    [1, 3, 5, 8, 11, 12, 17] true false 1 =
    ([none, some [8], some [7], none, some [19], none, some [27]],
     [none, some [1], some [7], none, none, some [2], some [2], some [5], some [5], some [27], some [27], none],
     [27]) := by decide
example : jcs1 .first [1, 4, 3, 7, 2, 6, 11, 5, 13, 9] [0, 0, 1, 3, 4, 4, 4, 4, 4, 5, 5, 7, 7, 8, 8, 10, 10, 10, 10]
    [1, 3, 5, 8, 11, 12, 16] true true 1 =
    ([some [1], some [1], some [7], none, some [2], none, some [5]],
     [some [1], some [1], some [7], none, none, some [2], some [2], some [5], some [5], some [5], none, none],
     [5]) := by decide
example : jcs1 .first [1, 4, 3, 7, 2, 6, 11, 5, 13, 9] [0, 0, 1, 3, 4, 4, 4, 4, 4, 5, 5, 7, 7, 8, 8, 10, 10, 10, 10]
    [1, 3, 5, 6, 11, 12, 17] true true 1 =
    ([some [1], some [1], some [7], none, some [2], none, some [5]],
     [some [1], some [1], some [7], none, none, some [2], some [2], some [5], some [5], some [5], some [5], none],
     [5]) := by decide
example : jcs1 .last [1, 4, 3, 7, 2, 6, 11, 5, 13, 9] [0, 0, 1, 3, 4, 4, 4, 4, 4, 5, 5, 7, 7, 8, 8, 10, 10, 10, 10]
    [1, 3, 5, 8, 11, 12, 16] true true 1 =
    ([some [1], some [3], some [7], none, some [11], none, some [9]],
     [some [1], some [1], some [7], none, none, some [2], some [2], some [5], some [5], some [9], none, none],
     [9]) := by decide
example : jcs1 .last [1, 4, 3, 7, 2, 6, 11, 5, 13, 9] [0, 0, 1, 3, 4, 4, 4, 4, 4, 5, 5, 7, 7, 8, 8, 10, 10, 10, 10]
    [1, 3, 5, 8, 11, 12, 17] true true 1 =
    ([some [1], some [3], some [7], none, some [11], none, some [9]],
     [some [1], some [1], some [7], none, none, some [2], some [2], some [5], some [5], some [9], some [9], none],
     [9]) := by decide
example : jcs1 .min [1, 4, 3, 7, 2, 6, 11, 5, 13, 9] [0, 0, 1, 3, 4, 4, 4, 4, 4, 5, 5, 7, 7, 8, 8, 10, 10, 10, 10]
    [1, 3, 5, 8, 11, 12, 16] true true 1 =
    ([some [1], some [1], some [7], none, some [2], none, some [5]],
     [some [1], some [1], some [7], none, none, some [2], some [2], some [5], some [5], some [5], none, none],
     [5]) := by decide
example : jcs1 .min [1, 4, 3, 7, 2, 6, 11, 5, 13, 9] [0, 0, 1, 3, 4, 4, 4, 4, 4, 5, 5, 7, 7, 8, 8, 10, 10, 10, 10]
    [1, 3, 5, 8, 11, 12, 17] true true 1 =
    ([some [1], some [1], some [7], none, some [2], none, some [5]],
     [some [1], some [1], some [7], none, none, some [2], some [2], some [5], some [5], some [5], some [5], none],
     [5]) := by decide
example : jcs1 .max [1, 4, 3, 7, 2, 6, 11, 5, 13, 9] [0, 0, 1, 3, 4, 4, 4, 4, 4, 5, 5, 7, 7, 8, 8, 10, 10, 10, 10]
    [1, 3, 5, 8, 11, 12, 16] true true 1 =
    ([some [1], some [4], some [7], none, some [11], none, some [13]],
     [some [1], some [1], some [7], none, none, some [2], some [2], some [5], some [5], some [13], none, none],
     [13]) := by decide
example : jcs1 .max [1, 4, 3, 7, 2, 6, 11, 5, 13, 9] [0, 0, 1, 3, 4, 4, 4, 4, 4, 5, 5, 7, 7, 8, 8, 10, 10, 10, 10]
    [1, 3, 5, 8, 11, 12, 17] true true 1 =
    ([some [1], some [4], some [7], none, some [11], none, some [13]],
     [some [1], some [1], some [7], none, none, some [2], some [2], some [5], some [5], some [13], some [13], none],
     [13]) := by decide
example : jcs1 .sum [1, 4, 3, 7, 2, 6, 11, 5, 13, 9] [0, 0, 1, 3, 4, 4, 4, 4, 4, 5, 5, 7, 7, 8, 8, 10, 10, 10, 10]
    [1, 3, 5, 8, 11, 12, 16] true true 1 =
    ([some [1], some [8], some [7], none, some [19], none, some [27]],
     [some [1], some [1], some [7], none, none, some [2], some [2], some [5], some [5], some [27], none, none],
     [27]) := by decide
example : jcs1 .sum [1, 4, 3, 7, 2, 6, 11, 5, 13, 9] [0, 0, 1, 3, 4, 4, 4, 4, 4, 5, 5, 7, 7, 8, 8, 10, 10, 10, 10]
    [1, 3, 5, 8, 11, 12, 17] true true 1 =
    ([some [1], some [8], some [7], none, some [19], none, some [27]],
     [some [1], some [1], some [7], none, none, some [2], some [2], some [5], some [5], some [27], some [27], none],
     [27]) := by decide
/-! test_jcsagg_bin_snap_2d (806-961). -/
example : jcsagg (updGroup intOps ⟨[0, 1, 2], [0, 1, 2, 3, 4, 5, 6, 7, 8, 9],
      [(.first, [0, 2], [0, 1]), (.last, [1, 2], [2, 3]), (.min, [0, 2], [4, 5]), (.max, [0, 1], [6, 7]), (.sum, [1, 2], [8, 9])], 10⟩)
    [[1, 9, 5], [4, 7, 11], [3, 3, 17], [7, 12, 19], [8, 5, 6], [2, 17, 7], [11, 8, 13], [5, 20, 4], [13, 4, 10], [9, 2, 9]]
    [0, 0, 1, 4, 4, 4, 4, 5, 5, 7, 8, 8, 8, 10, 10, 10, 10] [1, 4, 5, 6, 12, 15] true false (List.replicate 10 0) =
    ([none, some [1, 5, 12, 19, 1, 5, 7, 12, 31, 52], none, none, some [8, 6, 20, 4, 2, 4, 11, 20, 50, 30],
      some [13, 10, 2, 9, 9, 9, 13, 4, 6, 19]],
     [none, some [1, 5, 9, 5, 1, 5, 1, 9, 9, 5], some [1, 5, 12, 19, 1, 5, 7, 12, 31, 52], some [8, 6, 5, 6, 8, 6, 8, 5, 5, 6],
      some [8, 6, 5, 6, 8, 6, 8, 5, 5, 6], some [8, 6, 8, 13, 2, 6, 11, 17, 30, 26], some [8, 6, 20, 4, 2, 4, 11, 20, 50, 30],
      some [8, 6, 20, 4, 2, 4, 11, 20, 50, 30], some [13, 10, 2, 9, 9, 9, 13, 4, 6, 19], some [13, 10, 2, 9, 9, 9, 13, 4, 6, 19],
      none],
     [13, 10, 2, 9, 9, 9, 13, 4, 6, 19]) := by decide

/-! ### test_cumsegagg.py -/

/-- Types of columns. -/
inductive Ty | float | int | date
  deriving DecidableEq

/-! test_setup_csagg (43-127): `val1_float`, `val2_float`, `val3_int`, `val4_datetime` are 0 to 3, outputs are in order. -/
example : setupCumsegagg [(0, 0, some .first), (1, 1, some .first), (2, 1, some .sum), (3, 3, some .first), (4, 2, some .last),
      (5, 2, some .min), (6, 2, some .max)] (fun c => [Ty.float, .float, .int, .date][c]?) =
    .ok [(.float, ⟨[0, 1], [0, 1, 2], [(.first, [0, 1], [0, 1]), (.sum, [1], [2])], 3⟩),
      (.date, ⟨[3], [3], [(.first, [0], [0])], 1⟩),
      (.int, ⟨[2], [4, 5, 6], [(.last, [0], [0]), (.min, [0], [1]), (.max, [0], [2])], 3⟩)] := by decide

abbrev Row := List Int

/-- Aggregation: input column and function of each output column. -/
abbrev Aggs := List (Nat × Fn)

def cfgOf (a : Aggs) (tys : List Ty) : List (Ty × Group) :=
  (setupCumsegagg (a.zipIdx.map fun p => (p.2, p.1.1, some p.1.2)) fun c => tys[c]?).toOption.getD []

def get (r : Row) (i : Nat) : Int := r.getD i 0

/-- Frame: labels and columns. -/
def frame (a : Aggs) (tys : List Ty) (rows : List (Int × Option (List (List Int)))) : List Int × List (List (Option Int)) :=
  (rows.map Prod.fst, (List.range a.length).map fun out => (column (cfgOf a tys) out rows).map Prod.snd)

/-- `cumsegagg(data, agg, bin_by, ordered_on, snap_by, buffer)`; `error_on_0` is true. -/
def run {B : Type} (a : Aggs) (tys : List Ty) (fn : BinFn Row B) (dti : Nat) (snap : Option Snaps) (data : List Row)
    (buf : Option (Buf B (List (List Int)))) :=
  frameCall (fun _ => intOps) get (cfgOf a tys) (fun r => r.any fun l => l.any (· == 0)) fn (some fun r => get r dti) snap true
    data buf

/-- Result without buffer: frame of bins and frame of snapshots. -/
def once {B : Type} (a : Aggs) (tys : List Ty) (fn : BinFn Row B) (dti : Nat) (snap : Option Snaps) (data : List Row) :
    Except AggErr (Option ((List Int × List (List (Option Int))) × Option (List Int × List (List (Option Int))))) :=
  (run a tys fn dti snap data none).map fun r =>
    r.1.map fun x => (frame a tys x.bins, x.snaps.map (frame a tys))

/-- Rows from columns. -/
def rowsOf (cols : List (List Int)) : List Row :=
  (List.range (cols.headD []).length).map fun i => cols.map fun c => c.getD i 0

/-! test_cumsegagg_bin_single_dtype (130-211). -/
example : once [(0, .first), (0, .last), (1, .last)] [.float, .float, .date] (grouperFn ⟨5, .left, false, .startDay, 0, 1440⟩ fun r => get r 2) 2 none (rowsOf [[20, 40, 50, 80, 90], [200, 400, 500, 800, 900], [480, 485, 488, 492, 494]]) =
    .ok (some (([480, 485, 490], [[some 20, some 40, some 80], [some 20, some 50, some 90], [some 200, some 500, some 900]]), none)) := by decide
example : once [(0, .first), (0, .last), (1, .last)] [.int, .int, .date] (grouperFn ⟨5, .left, false, .startDay, 0, 1440⟩ fun r => get r 2) 2 none (rowsOf [[2, 4, 5, 8, 9], [20, 40, 50, 80, 90], [480, 485, 488, 492, 494]]) =
    .ok (some (([480, 485, 490], [[some 2, some 4, some 8], [some 2, some 5, some 9], [some 20, some 50, some 90]]), none)) := by decide
example : once [(0, .first), (0, .last), (1, .last)] [.date, .date, .date] (grouperFn ⟨5, .left, false, .startDay, 0, 1440⟩ fun r => get r 2) 2 none (rowsOf [[540, 545, 548, 552, 554], [2040, 2045, 2048, 2052, 2280], [480, 485, 488, 492, 494]]) =
    .ok (some (([480, 485, 490], [[some 540, some 545, some 552], [some 540, some 548, some 554], [some 2040, some 2048, some 2280]]), none)) := by decide
example : once [(0, .first), (0, .last)] [.float, .date] (grouperFn ⟨5, .left, false, .startDay, 0, 1440⟩ fun r => get r 1) 1 none (rowsOf [[20, 40, 50, 80, 90], [480, 485, 488, 492, 494]]) =
    .ok (some (([480, 485, 490], [[some 20, some 40, some 80], [some 20, some 50, some 90]]), none)) := by decide
example : once [(0, .first), (0, .last)] [.int, .date] (grouperFn ⟨5, .left, false, .startDay, 0, 1440⟩ fun r => get r 1) 1 none (rowsOf [[20, 40, 50, 80, 90], [480, 485, 488, 492, 494]]) =
    .ok (some (([480, 485, 490], [[some 20, some 40, some 80], [some 20, some 50, some 90]]), none)) := by decide
example : once [(0, .first), (0, .last)] [.date, .date] (grouperFn ⟨5, .left, false, .startDay, 0, 1440⟩ fun r => get r 1) 1 none (rowsOf [[540, 545, 548, 552, 554], [480, 485, 488, 492, 494]]) =
    .ok (some (([480, 485, 490], [[some 540, some 545, some 552], [some 540, some 548, some 554]]), none)) := by decide
/-! test_cumsegagg_bin_mixed_dtype (214-256). -/
example : once [(0, .first), (0, .sum), (1, .last), (2, .min), (3, .max), (4, .first)] [.float, .float, .int, .int, .date] (grouperFn ⟨5, .left, false, .startDay, 0, 1440⟩ fun r => get r 4) 4 none
    (rowsOf [[20, 40, 50, 80, 90], [200, 400, 500, 800, 900], [1, 3, 6, 7, 9], [10, 30, 60, 70, 90], [480, 485, 488, 492, 494]]) =
    .ok (some (([480, 485, 490], [[some 20, some 40, some 80], [some 20, some 90, some 170], [some 200, some 500, some 900], [some 1, some 3, some 7], [some 10, some 60, some 90], [some 480, some 485, some 492]]), none)) := by decide
/-! test_cumsegagg_bin_snap_with_null_chunks (259-434). -/
example : once [(0, .first), (0, .max), (0, .min), (0, .last), (1, .sum), (2, .first)] [.float, .int, .date] (grouperFn ⟨30, .left, true, .startDay, 0, 1440⟩ fun r => get r 2) 2
    (some (.grouper ⟨5, .left, true, .startDay, 0, 1440⟩)) (rowsOf [[40, 42, 39, 56, 60, 98, 45, 11, 32], [4, 3, 1, 7, 2, 6, 2, 8, 1], [490, 490, 492, 497, 499, 500, 540, 550, 570]]) =
    .ok (some (([510, 540, 570, 600], [[some 40, none, some 45, some 32], [some 98, none, some 45, some 32], [some 39, none, some 11, some 32], [some 98, none, some 11, some 32], [some 23, none, some 10, some 1], [some 490, none, some 540, some 570]]),
      some ([495, 500, 505, 510, 515, 520, 525, 530, 535, 540, 545, 550, 555, 560, 565, 570, 575], [[some 40, some 40, some 40, some 40, none, none, none, none, none, none, some 45, some 45, some 45, some 45, some 45, some 45, some 32], [some 42, some 60, some 98, some 98, none, none, none, none, none, none, some 45, some 45, some 45, some 45, some 45, some 45, some 32], [some 39, some 39, some 39, some 39, none, none, none, none, none, none, some 45, some 45, some 11, some 11, some 11, some 11, some 32], [some 39, some 60, some 98, some 98, none, none, none, none, none, none, some 45, some 45, some 11, some 11, some 11, some 11, some 32], [some 8, some 17, some 23, some 23, none, none, none, none, none, none, some 2, some 2, some 10, some 10, some 10, some 10, some 1], [some 490, some 490, some 490, some 490, none, none, none, none, none, none, some 540, some 540, some 540, some 540, some 540, some 540, some 570]]))) := by decide
example : once [(0, .first), (0, .max), (0, .min), (0, .last), (1, .sum), (2, .first)] [.float, .int, .date] (grouperFn ⟨30, .right, false, .startDay, 0, 1440⟩ fun r => get r 2) 2
    (some (.grouper ⟨5, .right, true, .startDay, 0, 1440⟩)) (rowsOf [[40, 42, 39, 56, 60, 98, 45, 11, 32], [4, 3, 1, 7, 2, 6, 2, 8, 1], [490, 490, 492, 497, 499, 500, 540, 550, 570]]) =
    .ok (some (([480, 510, 540], [[some 40, some 45, some 11], [some 98, some 45, some 32], [some 39, some 45, some 11], [some 98, some 45, some 32], [some 23, some 2, some 9], [some 490, some 540, some 550]]),
      some ([490, 495, 500, 505, 510, 515, 520, 525, 530, 535, 540, 545, 550, 555, 560, 565, 570], [[some 40, some 40, some 40, some 40, some 40, none, none, none, none, none, some 45, none, some 11, some 11, some 11, some 11, some 11], [some 42, some 42, some 98, some 98, some 98, none, none, none, none, none, some 45, none, some 11, some 11, some 11, some 11, some 32], [some 40, some 39, some 39, some 39, some 39, none, none, none, none, none, some 45, none, some 11, some 11, some 11, some 11, some 11], [some 42, some 39, some 98, some 98, some 98, none, none, none, none, none, some 45, none, some 11, some 11, some 11, some 11, some 32], [some 7, some 8, some 23, some 23, some 23, none, none, none, none, none, some 2, none, some 8, some 8, some 8, some 8, some 9], [some 490, some 490, some 490, some 490, some 490, none, none, none, none, none, some 540, none, some 550, some 550, some 550, some 550, some 550]]))) := by decide
/-! test_cumsegagg_bin_snap_with_null_chunks_other (437-597). -/
example : once [(0, .first), (0, .max), (0, .min), (0, .last), (1, .sum), (2, .first)] [.float, .int, .date] (grouperFn ⟨30, .left, true, .startDay, 0, 1440⟩ fun r => get r 2) 2
    (some (.grouper ⟨5, .left, true, .startDay, 0, 1440⟩)) (rowsOf [[40, 42, 39, 56, 60, 98, 11], [4, 3, 1, 7, 2, 6, 8], [480, 490, 492, 497, 499, 500, 550]]) =
    .ok (some (([510, 540, 570], [[some 40, none, some 11], [some 98, none, some 11], [some 39, none, some 11], [some 98, none, some 11], [some 23, none, some 8], [some 480, none, some 550]]),
      some ([485, 490, 495, 500, 505, 510, 515, 520, 525, 530, 535, 540, 545, 550, 555], [[some 40, some 40, some 40, some 40, some 40, some 40, none, none, none, none, none, none, none, none, some 11], [some 40, some 40, some 42, some 60, some 98, some 98, none, none, none, none, none, none, none, none, some 11], [some 40, some 40, some 39, some 39, some 39, some 39, none, none, none, none, none, none, none, none, some 11], [some 40, some 40, some 39, some 60, some 98, some 98, none, none, none, none, none, none, none, none, some 11], [some 4, some 4, some 8, some 17, some 23, some 23, none, none, none, none, none, none, none, none, some 8], [some 480, some 480, some 480, some 480, some 480, some 480, none, none, none, none, none, none, none, none, some 550]]))) := by decide
example : once [(0, .first), (0, .max), (0, .min), (0, .last), (1, .sum), (2, .first)] [.float, .int, .date] (grouperFn ⟨30, .right, false, .startDay, 0, 1440⟩ fun r => get r 2) 2
    (some (.grouper ⟨5, .right, true, .startDay, 0, 1440⟩)) (rowsOf [[40, 42, 39, 56, 60, 98, 11], [4, 3, 1, 7, 2, 6, 8], [480, 490, 492, 497, 499, 500, 550]]) =
    .ok (some (([450, 480, 510, 540], [[some 40, some 42, none, some 11], [some 40, some 98, none, some 11], [some 40, some 39, none, some 11], [some 40, some 98, none, some 11], [some 4, some 19, none, some 8], [some 480, some 490, none, some 550]]),
      some ([480, 485, 490, 495, 500, 505, 510, 515, 520, 525, 530, 535, 540, 545, 550], [[some 40, none, some 42, some 42, some 42, some 42, some 42, none, none, none, none, none, none, none, some 11], [some 40, none, some 42, some 42, some 98, some 98, some 98, none, none, none, none, none, none, none, some 11], [some 40, none, some 42, some 39, some 39, some 39, some 39, none, none, none, none, none, none, none, some 11], [some 40, none, some 42, some 39, some 98, some 98, some 98, none, none, none, none, none, none, none, some 11], [some 4, none, some 3, some 4, some 19, some 19, some 19, none, none, none, none, none, none, none, some 8], [some 480, none, some 490, some 490, some 490, some 490, some 490, none, none, none, none, none, none, none, some 550]]))) := by decide
/-! test_cumsegagg_single_bin_several_snaps (600-707). -/
example : once [(0, .first), (0, .max), (0, .min), (0, .last)] [.float, .date] (grouperFn ⟨30, .left, false, .startDay, 0, 1440⟩ fun r => get r 1) 1
    (some (.grouper ⟨5, .left, true, .startDay, 0, 1440⟩)) (rowsOf [[40, 42, 39, 56, 60, 98], [482, 490, 492, 497, 499, 500]]) =
    .ok (some (([480], [[some 40], [some 98], [some 39], [some 98]]),
      some ([485, 490, 495, 500, 505], [[some 40, some 40, some 40, some 40, some 40], [some 40, some 40, some 42, some 60, some 98], [some 40, some 40, some 39, some 39, some 39], [some 40, some 40, some 39, some 60, some 98]]))) := by decide
example : once [(0, .first), (0, .max), (0, .min), (0, .last)] [.float, .date] (grouperFn ⟨30, .right, true, .startDay, 0, 1440⟩ fun r => get r 1) 1
    (some (.grouper ⟨5, .right, true, .startDay, 0, 1440⟩)) (rowsOf [[40, 42, 39, 56, 60, 98], [482, 490, 492, 497, 499, 500]]) =
    .ok (some (([510], [[some 40], [some 98], [some 39], [some 98]]),
      some ([485, 490, 495, 500], [[some 40, some 40, some 40, some 40], [some 40, some 42, some 42, some 98], [some 40, some 40, some 39, some 39], [some 40, some 42, some 39, some 98]]))) := by decide
/-! test_cumsegagg_several_null_snaps_at_start_of_bins (710-809). -/
example : once [(0, .first), (0, .max), (0, .min), (0, .last)] [.float, .date] (grouperFn ⟨30, .left, true, .startDay, 0, 1440⟩ fun r => get r 1) 1 (some (.values [480, 485, 486, 490, 524, 528, 532, 535, 546, 549, 556] [480, 485, 486, 490, 524, 528, 532, 535, 546, 549, 556])) (rowsOf [[42, 32], [490, 535]]) =
    .ok (some (([510, 540], [[some 42, some 32], [some 42, some 32], [some 42, some 32], [some 42, some 32]]),
      some ([480, 485, 486, 490, 524, 528, 532, 535, 546], [[none, none, none, none, none, none, none, none, none], [none, none, none, none, none, none, none, none, none], [none, none, none, none, none, none, none, none, none], [none, none, none, none, none, none, none, none, none]]))) := by decide
example : once [(0, .first), (0, .max), (0, .min), (0, .last)] [.float, .date] (grouperFn ⟨30, .right, true, .startDay, 0, 1440⟩ fun r => get r 1) 1 (some (.values [480, 485, 486, 490, 524, 528, 532, 535, 546, 549, 556] [480, 485, 486, 490, 524, 528, 532, 535, 546, 549, 556])) (rowsOf [[42, 32], [490, 535]]) =
    .ok (some (([510, 540], [[some 42, some 32], [some 42, some 32], [some 42, some 32], [some 42, some 32]]),
      some ([480, 485, 486, 490, 524, 528, 532, 535], [[none, none, none, some 42, none, none, none, some 32], [none, none, none, some 42, none, none, none, some 32], [none, none, none, some 42, none, none, none, some 32], [none, none, none, some 42, none, none, none, some 32]]))) := by decide
/-! test_cumsegagg_binby_grouper_snapby_intervalindex (812-928). -/
example : once [(0, .first), (0, .max), (0, .min), (0, .last)] [.float, .date] (grouperFn ⟨30, .left, true, .startDay, 0, 1440⟩ fun r => get r 1) 1 (some (.values [478, 480, 493, 500, 530, 546] [478, 480, 493, 500, 530, 546])) (rowsOf [[40, 42, 39, 56, 60, 98, 11], [480, 490, 492, 497, 499, 500, 550]]) =
    .ok (some (([510, 540, 570], [[some 40, none, some 11], [some 98, none, some 11], [some 39, none, some 11], [some 98, none, some 11]]),
      some ([478, 480, 493, 500, 530, 546], [[none, none, some 40, some 40, none, none], [none, none, some 42, some 60, none, none], [none, none, some 39, some 39, none, none], [none, none, some 39, some 60, none, none]]))) := by decide
example : once [(0, .first), (0, .max), (0, .min), (0, .last)] [.float, .date] (grouperFn ⟨30, .right, false, .startDay, 0, 1440⟩ fun r => get r 1) 1 (some (.values [478, 480, 493, 500, 530, 546] [478, 480, 493, 500, 530, 546])) (rowsOf [[40, 42, 39, 56, 60, 98, 11], [480, 490, 492, 497, 499, 500, 550]]) =
    .ok (some (([450, 480, 510, 540], [[some 40, some 42, none, some 11], [some 40, some 98, none, some 11], [some 40, some 39, none, some 11], [some 40, some 98, none, some 11]]),
      some ([478, 480, 493, 500, 530, 546], [[none, some 40, some 42, some 42, none, none], [none, some 40, some 42, some 98, none, none], [none, some 40, some 39, some 39, none, none], [none, some 40, some 39, some 98, none, none]]))) := by decide
/-! test_cumsegagg_binby_callable_snapby_intervalindex (931-1058). -/
example : once [(0, .first), (0, .max), (0, .min), (0, .last)] [.float, .date] (rowsFn 4 .left fun r => get r 1) 1 (some (.values [478, 480, 493, 500, 530, 546] [478, 480, 493, 500, 530, 546])) (rowsOf [[40, 42, 39, 56, 60, 98, 11], [480, 490, 492, 497, 499, 500, 550]]) =
    .ok (some (([480, 499], [[some 40, some 60], [some 56, some 98], [some 39, some 11], [some 56, some 11]]),
      some ([478, 480, 493, 500, 530, 546], [[none, none, some 40, some 60, some 60, some 60], [none, none, some 42, some 60, some 98, some 98], [none, none, some 39, some 60, some 60, some 60], [none, none, some 39, some 60, some 98, some 98]]))) := by decide
example : once [(0, .first), (0, .max), (0, .min), (0, .last)] [.float, .date] (rowsFn 4 .right fun r => get r 1) 1 (some (.values [478, 480, 493, 500, 530, 546] [478, 480, 493, 500, 530, 546])) (rowsOf [[40, 42, 39, 56, 60, 98, 11], [480, 490, 492, 497, 499, 500, 550]]) =
    .ok (some (([480, 499], [[some 40, some 60], [some 56, some 98], [some 39, some 11], [some 56, some 11]]),
      some ([478, 480, 493, 500, 530, 546], [[none, some 40, some 40, some 60, some 60, some 60], [none, some 40, some 42, some 98, some 98, some 98], [none, some 40, some 39, some 60, some 60, some 60], [none, some 40, some 39, some 98, some 98, some 98]]))) := by decide
/-! test_exit_on_null_data (1061-1073), test_exception_col_not_existing (1076-1094), test_exception_error_on_0 (1097-1115),
test_exception_unknown_agg_function (1118-1144). -/
example : once [(0, .first)] [.float] (grouperFn ⟨10, .left, true, .startDay, 0, 1440⟩ fun r => get r 0) 0 (some (.grouper ⟨5, .left, false, .startDay, 0, 1440⟩)) [] =
    .ok none := by decide
example : setupCumsegagg [(0, 2, some .first)] (fun c => [Ty.float, .date][c]?) = .error (.unknownColumn 2) := by decide
example : once [(0, .first)] [.float, .date] (grouperFn ⟨10, .left, true, .startDay, 0, 1440⟩ fun r => get r 1) 1 (some (.grouper ⟨5, .left, true, .startDay, 0, 1440⟩)) [[0, 480]] =
    .error .zeroSnap := by decide
example : setupCumsegagg [(0, 0, none)] (fun c => [Ty.float, .date][c]?) = .error .unknownFunction := by decide

/-! ### test_cumsegagg_restart.py -/

/-- Successive calls with the same buffer: frames of bins and of snapshots, and `last_chunk_res` after each call. -/
def calls {B : Type} (a : Aggs) (tys : List Ty) (fn : BinFn Row B) (dti : Nat) :
    List (Option Snaps × List Row) → Buf B (List (List Int)) →
    Option (List ((List (Int × List (Option Int)) × List (Int × List (Option Int))) × List Int))
  | [], _ => some []
  | (s, d) :: l, buf =>
    match run a tys fn dti s d (some buf) with
    | .ok (some r, some buf') =>
      (calls a tys fn dti l buf').map fun rest =>
        (((r.bins.map fun p => (p.1, (List.range a.length).map fun o => p.2.bind (readCol o (cfgOf a tys)))),
          ((r.snaps.getD []).map fun p => (p.1, (List.range a.length).map fun o => p.2.bind (readCol o (cfgOf a tys))))),
          (List.range a.length).map fun o => (readCol o (cfgOf a tys) (buf'.chunk.getD [])).getD 0) :: rest
    | _ => none

/-- `res[~res.index.duplicated(keep="last")]`. -/
def keepLast {V : Type} : List (Int × V) → List (Int × V)
  | [] => []
  | p :: l => if l.any fun q => q.1 = p.1 then keepLast l else p :: keepLast l

/-- The frames of the calls one after the other, without duplicates. -/
def joined {B : Type} (a : Aggs) (tys : List Ty) (fn : BinFn Row B) (b : B) (dti : Nat) (l : List (Option Snaps × List Row)) :
    Option (List (Int × List (Option Int)) × List (Int × List (Option Int)) × List (List Int)) :=
  (calls a tys fn dti l ⟨⟨b, {}, none⟩, none⟩).map fun r =>
    (keepLast (r.flatMap fun x => x.1.1), keepLast (r.flatMap fun x => x.1.2), r.map Prod.snd)

/-- Slices of a list at the given end indices. -/
def slices {A : Type} (l : List A) : Nat → List Nat → List (List A)
  | _, [] => []
  | i, e :: es => (l.take e).drop i :: slices l e es

/-! test_cumsegagg_bin_only (39-223). -/
example : joined [(0, .first), (1, .sum)] [.float, .int, .date] (grouperFn ⟨15, .left, true, .startDay, 0, 1440⟩ fun r => get r 2) {} 2
    (List.zip [none, none] (slices (rowsOf [[40, 42, 39, 56, 60, 98, 45, 11, 32], [4, 3, 1, 7, 2, 6, 2, 8, 1], [490, 490, 492, 497, 499, 500, 540, 550, 570]]) 0 [6, 11])) =
    some ([(495, [some 40, some 8]), (510, [some 56, some 15]), (525, [none, none]), (540, [none, none]), (555, [some 45, some 10]), (570, [none, none]), (585, [some 32, some 1])], [],
      [[56, 15], [32, 1]]) := by decide
example : joined [(0, .first), (1, .sum)] [.float, .int, .date] (grouperFn ⟨15, .left, true, .startDay, 0, 1440⟩ fun r => get r 2) {} 2
    (List.zip [none, none] (slices (rowsOf [[40, 42, 39, 56, 60, 98, 45, 11, 32], [4, 3, 1, 7, 2, 6, 2, 8, 1], [490, 490, 492, 497, 499, 500, 540, 550, 570]]) 0 [5, 11])) =
    some ([(495, [some 40, some 8]), (510, [some 56, some 15]), (525, [none, none]), (540, [none, none]), (555, [some 45, some 10]), (570, [none, none]), (585, [some 32, some 1])], [],
      [[56, 9], [32, 1]]) := by decide
example : joined [(0, .first), (1, .sum)] [.float, .int, .date] (rowsFn 6 .left fun r => get r 2) none 2
    (List.zip [none, none] (slices (rowsOf [[40, 42, 39, 56, 60, 98, 45, 11, 32], [4, 3, 1, 7, 2, 6, 2, 8, 1], [490, 490, 492, 497, 499, 500, 540, 550, 570]]) 0 [6, 11])) =
    some ([(490, [some 40, some 23]), (540, [some 45, some 11])], [],
      [[40, 23], [45, 11]]) := by decide
example : joined [(0, .first), (1, .sum)] [.float, .int, .date] (rowsFn 6 .left fun r => get r 2) none 2
    (List.zip [none, none] (slices (rowsOf [[40, 42, 39, 56, 60, 98, 45, 11, 32], [4, 3, 1, 7, 2, 6, 2, 8, 1], [490, 490, 492, 497, 499, 500, 540, 550, 570]]) 0 [5, 11])) =
    some ([(490, [some 40, some 23]), (540, [some 45, some 11])], [],
      [[40, 17], [45, 11]]) := by decide
/-! test_cumsegagg_bin_snap (226-585). -/
example : joined [(0, .min), (0, .last)] [.int, .date] (rowsFn 4 .left fun r => get r 1) none 1
    (List.zip [some (.values [492, 495] [492, 495]), some (.values [495, 500, 515, 520, 540, 551, 560, 580, 584] [495, 500, 515, 520, 540, 551, 560, 580, 584])] (slices (rowsOf [[1, 4, 6, 2, 3, 1, 9, 3, 2], [490, 490, 492, 497, 499, 500, 540, 550, 570]]) 0 [4, 9])) =
    some ([(490, [some 1, some 2]), (499, [some 1, some 3]), (570, [some 2, some 2])],
      [(492, [some 1, some 4]), (495, [some 1, some 6]), (500, [some 3, some 3]), (515, [some 1, some 1]), (520, [some 1, some 1]), (540, [some 1, some 1]), (551, [some 1, some 3]), (560, [some 1, some 3]), (580, [some 2, some 2])],
      [[1, 2], [2, 2]]) := by decide
example : joined [(0, .min), (0, .last)] [.int, .date] (grouperFn ⟨60, .left, false, .startDay, 0, 1440⟩ fun r => get r 1) {} 1
    (List.zip [some (.values [492] [492]), some (.values [492] [492]), some (.values [492, 550] [492, 550])] (slices (rowsOf [[1, 4, 6, 2, 3, 1, 9, 3, 2], [490, 490, 492, 497, 499, 500, 540, 550, 570]]) 0 [3, 6, 9])) =
    some ([(480, [some 1, some 1]), (540, [some 2, some 2])],
      [(492, [some 1, some 4]), (550, [some 9, some 9])],
      [[1, 6], [1, 1], [2, 2]]) := by decide
example : joined [(0, .min), (0, .last)] [.int, .date] (grouperFn ⟨30, .left, false, .startDay, 0, 1440⟩ fun r => get r 1) {} 1
    (List.zip [some (.values [492] [492]), some (.values [492, 513, 540, 550] [492, 513, 540, 550])] (slices (rowsOf [[1, 4, 6, 2, 3, 1, 9, 3, 2], [490, 490, 492, 497, 499, 500, 540, 550, 570]]) 0 [6, 9])) =
    some ([(480, [some 1, some 1]), (510, [none, none]), (540, [some 3, some 3]), (570, [some 2, some 2])],
      [(492, [some 1, some 4]), (513, [none, none]), (540, [none, none]), (550, [some 9, some 9])],
      [[1, 1], [2, 2]]) := by decide
example : joined [(0, .min), (0, .last)] [.int, .date] (grouperFn ⟨30, .left, false, .startDay, 0, 1440⟩ fun r => get r 1) {} 1
    (List.zip [some (.values [492] [492]), some (.values [492, 502, 503, 550] [492, 502, 503, 550])] (slices (rowsOf [[1, 4, 6, 2, 3, 1, 9, 3, 2], [490, 490, 492, 497, 499, 500, 540, 550, 570]]) 0 [6, 9])) =
    some ([(480, [some 1, some 1]), (510, [none, none]), (540, [some 3, some 3]), (570, [some 2, some 2])],
      [(492, [some 1, some 4]), (502, [some 1, some 1]), (503, [some 1, some 1]), (550, [some 9, some 9])],
      [[1, 1], [2, 2]]) := by decide
example : joined [(0, .min), (0, .last)] [.int, .date] (grouperFn ⟨30, .left, false, .startDay, 0, 1440⟩ fun r => get r 1) {} 1
    (List.zip [some (.values [] []), some (.values [513, 540, 550] [513, 540, 550])] (slices (rowsOf [[1, 4, 6, 2, 3, 1, 9, 3, 2], [490, 490, 492, 497, 499, 500, 540, 550, 570]]) 0 [6, 9])) =
    some ([(480, [some 1, some 1]), (510, [none, none]), (540, [some 3, some 3]), (570, [some 2, some 2])],
      [(513, [none, none]), (540, [none, none]), (550, [some 9, some 9])],
      [[1, 1], [2, 2]]) := by decide

end Oups.Tests.Aggregate
