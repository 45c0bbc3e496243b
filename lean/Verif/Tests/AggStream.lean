import Verif.Props.AggStream
import Verif.Tests.Aggregate
/-!
The tests of `/repo/tests/test_aggstream/test_aggstream_simple.py`, run on the model: same data, same parameters and the
results that the tests expect. Times are in minutes from 2020/01/01 00:00. Seed rows are lists, `ts` first. Where the tests
compare with `seed.groupby(by).agg(..)`, its result is written out; so are the integers of `numpy.random.default_rng`. The
memory of a frame is that of its index and of its columns: 8 bytes per row, 9 for a column of nullable integers.
-/
set_option maxRecDepth 20000
set_option synthInstance.maxHeartbeats 200000
set_option synthInstance.maxSize 1000
namespace Oups.Tests.AggStream
open Oups.Segment Oups.Agg Oups.Agg.Spec Oups.AggStream Oups.Tests.Aggregate
open Oups.Writer (Params OrdOn DupOn RG readRows)

abbrev V := List (List Int)

/-- Columns of results: 0 is the label, then the values. -/
def resTable (n : Nat) : Writer.Table (AggStream.Row V) :=
  ⟨List.range (n + 1), fun c r => if c = 0 then r.1 else ((r.2.map List.flatten).getD []).getD (c - 1) (-1)⟩

/-- Key `k`. `width`: bytes per result row. The snapshots of key `k` alone are at `k`, with bins at `k` they are at `k + 100`. -/
def key {B Q : Type} (k : Nat) (a : Aggs) (tys : List Ty) (fn : BinFn Aggregate.Row B) (width maxSize : Nat) (p : Params)
    (snap : Option Snaps := none) (post : Option (Post (AggStream.Row V) Q) := none) :
    KeyCfg Nat Aggregate.Row V (Buf B V) Q where
  main := k
  snap := k + 100
  resType := if snap.isSome then .snaps else .bins
  call := inPlace (run a tys fn 0 snap)
  mem := fun rows => rows.length * width
  maxSize := maxSize
  table := resTable a.length
  params := p
  post := post

/-- Results ordered on the label, without duplicates of it. -/
def byLabel (maxRg : Option Nat) : Params := { maxRg := maxRg, orderedOn := some (.col 0), dupOn := some (.one 0) }

/-- `TimeGrouper(key=ordered_on, freq, closed="left", label)`. -/
def bins (freq : Int) (right : Bool := false) : Grouper := ⟨freq, .left, right, .startDay, 0, 1440⟩

def onTs (r : Aggregate.Row) : Int := get r 0

/-- A stream with one key, without filter. -/
def alone {S Q : Type} (k : KeyCfg Nat Aggregate.Row V S Q) : Config Nat Aggregate.Row V S Unit Q Nat where
  ord := onTs
  filters := [(0, none)]
  keys := [(0, k)]
  truthy := fun _ => true

abbrev Store (S P Q : Type) := World Nat V (Md S P Q)

def empty {S P Q : Type} : Store S P Q := fun _ => {}

/-- New stream, then calls to `agg`. -/
def session {B P Q F : Type} [DecidableEq F] (b0 : B) (p0 : P) (q0 : Q) (c : Config Nat Aggregate.Row V (Buf B V) P Q F)
    (w : Store (Buf B V) P Q) (calls : List (Call Aggregate.Row)) : Except AggStream.Err (State V (Buf B V) P Q × Store (Buf B V) P Q) :=
  match initBuffers ⟨⟨b0, {}, none⟩, none⟩ p0 q0 c w with
  | .error e => .error e
  | .ok s => aggs c calls s w

/-- `store[key].pdf`, and the restart index of the metadata. -/
def recorded {S P Q T : Type} (k : Nat) (r : Except AggStream.Err (T × Store S P Q)) :
    Option (List (Int × Option (List Int)) × Option Int) :=
  r.toOption.map fun x => ((readRows (x.2 k).rgs).map fun y => (y.1, y.2.map List.flatten), (x.2 k).md.map Md.restart)

/-- Numbers of rows of the row groups. -/
def sizes {S P Q T : Type} (k : Nat) (r : Except AggStream.Err (T × Store S P Q)) : Option (List Nat) :=
  r.toOption.map fun x => (x.2 k).rgs.map fun g => g.rows.length

/-! ### test_time_grouper_sum_agg (73-224) -/

def sumKey : KeyCfg Nat Aggregate.Row V (Buf ScaleBuf V) Unit :=
  key 0 [(1, .sum)] [.date, .int] (grouperFn (bins 60) onTs) 17 209 (byLabel (some 6))

def sumSeed : List (List Aggregate.Row) :=
    [[[480, 1], [510, 2], [540, 3], [570, 4]],
      [[600, 5], [620, 6]],
      [[640, 7], [660, 8], [690, 9], [720, 10]],
      [[740, 11], [760, 12]],
      [[780, 13]],
      [[800, 14], [820, 15]],
      [[840, 16], [860, 17]]]

def sumSeed2 : List Aggregate.Row := [[910, 1], [911, 2]]

def sumSeed3 : List Aggregate.Row := [[920, 11], [921, 12]]

example : sizes 0 (session {} () () (alone sumKey) empty [⟨sumSeed, true, true, true⟩]) = some [4, 3] := by decide +kernel
example : recorded 0 (session {} () () (alone sumKey) empty [⟨sumSeed, true, true, true⟩]) =
    some ([(480, some [3]), (540, some [7]), (600, some [18]), (660, some [17]), (720, some [33]), (780, some [42]), (840, some [16])], some 860) := by decide +kernel
example : sizes 0 (session {} () () (alone sumKey) empty [⟨sumSeed, true, true, true⟩, ⟨sumSeed ++ [sumSeed2], true, true, true⟩]) = some [4, 4] := by decide +kernel
example : recorded 0 (session {} () () (alone sumKey) empty [⟨sumSeed, true, true, true⟩, ⟨sumSeed ++ [sumSeed2], true, true, true⟩]) =
    some ([(480, some [3]), (540, some [7]), (600, some [18]), (660, some [17]), (720, some [33]), (780, some [42]), (840, some [33]), (900, some [1])], some 911) := by decide +kernel
example : recorded 0 (session {} () () (alone sumKey) empty [⟨sumSeed, true, true, true⟩, ⟨sumSeed ++ [sumSeed2], true, true, true⟩, ⟨sumSeed ++ [sumSeed2, sumSeed3], true, false, true⟩]) =
    some ([(480, some [3]), (540, some [7]), (600, some [18]), (660, some [17]), (720, some [33]), (780, some [42]), (840, some [33]), (900, some [26])], some 921) := by decide +kernel

/-! ### test_time_grouper_first_last_min_max_agg (227-321) -/

def flmmKey : KeyCfg Nat Aggregate.Row V (Buf ScaleBuf V) Unit :=
  key 0 [(1, .first), (1, .last), (1, .min), (1, .max)] [.date, .int] (grouperFn (bins 5) onTs) 44 10 (byLabel (some 6))

def flmmSeed1 : List (List Aggregate.Row) :=
    [[[2, 2], [2, 3], [3, 3], [3, 4], [8, 8], [8, 9]],
      [[14, 14], [14, 15], [24, 24], [24, 25], [25, 25], [25, 26]],
      [[27, 27], [27, 28], [31, 31], [31, 32], [40, 40], [40, 41]],
      [[42, 42], [42, 43], [47, 47], [47, 48], [51, 51], [51, 52]],
      [[54, 54], [54, 55], [64, 64], [64, 65], [75, 75], [75, 76]],
      [[82, 82], [82, 82], [82, 83], [82, 83], [86, 86], [86, 87]],
      [[94, 94], [94, 95], [95, 95], [95, 96]]]

def flmmSeed2 : List (List Aggregate.Row) :=
    [[[97, 102], [98, 103], [103, 108], [109, 114], [119, 124]],
      [[120, 125], [122, 127], [126, 131], [135, 140], [137, 142]],
      [[142, 147], [146, 151], [149, 154], [159, 164], [170, 175]],
      [[177, 182], [177, 182], [181, 186], [189, 194], [190, 195]]]

def flmmSeed3 : List (List Aggregate.Row) :=
    [[[192, 402], [193, 403], [198, 408], [204, 414], [214, 424]],
      [[215, 425], [217, 427], [221, 431], [230, 440], [232, 442]],
      [[237, 447], [241, 451], [244, 454], [254, 464], [265, 475]],
      [[272, 482], [272, 482], [276, 486], [284, 494], [285, 495]]]

example : recorded 0 (session {} () () (alone flmmKey) empty [⟨flmmSeed1, true, true, true⟩]) =
    some ([(0, some [2, 4, 2, 4]), (5, some [8, 9, 8, 9]), (10, some [14, 15, 14, 15]), (15, none), (20, some [24, 25, 24, 25]), (25, some [25, 28, 25, 28]), (30, some [31, 32, 31, 32]), (35, none), (40, some [40, 43, 40, 43]), (45, some [47, 48, 47, 48]), (50, some [51, 55, 51, 55]), (55, none), (60, some [64, 65, 64, 65]), (65, none), (70, none), (75, some [75, 76, 75, 76]), (80, some [82, 83, 82, 83]), (85, some [86, 87, 86, 87]), (90, some [94, 95, 94, 95])],
      some 95) := by decide +kernel
example : recorded 0 (session {} () () (alone flmmKey) empty [⟨flmmSeed1, true, true, true⟩, ⟨flmmSeed1 ++ flmmSeed2, true, true, true⟩]) =
    some ([(0, some [2, 4, 2, 4]), (5, some [8, 9, 8, 9]), (10, some [14, 15, 14, 15]), (15, none), (20, some [24, 25, 24, 25]), (25, some [25, 28, 25, 28]), (30, some [31, 32, 31, 32]), (35, none), (40, some [40, 43, 40, 43]), (45, some [47, 48, 47, 48]), (50, some [51, 55, 51, 55]), (55, none), (60, some [64, 65, 64, 65]), (65, none), (70, none), (75, some [75, 76, 75, 76]), (80, some [82, 83, 82, 83]), (85, some [86, 87, 86, 87]), (90, some [94, 95, 94, 95]), (95, some [95, 103, 95, 103]), (100, some [108, 108, 108, 108]), (105, some [114, 114, 114, 114]), (110, none), (115, some [124, 124, 124, 124]), (120, some [125, 127, 125, 127]), (125, some [131, 131, 131, 131]), (130, none), (135, some [140, 142, 140, 142]), (140, some [147, 147, 147, 147]), (145, some [151, 154, 151, 154]), (150, none), (155, some [164, 164, 164, 164]), (160, none), (165, none), (170, some [175, 175, 175, 175]), (175, some [182, 182, 182, 182]), (180, some [186, 186, 186, 186]), (185, some [194, 194, 194, 194])],
      some 190) := by decide +kernel
example : recorded 0 (session {} () () (alone flmmKey) empty [⟨flmmSeed1, true, true, true⟩, ⟨flmmSeed1 ++ flmmSeed2, true, true, true⟩, ⟨flmmSeed1 ++ flmmSeed2 ++ flmmSeed3, true, true, true⟩]) =
    some ([(0, some [2, 4, 2, 4]), (5, some [8, 9, 8, 9]), (10, some [14, 15, 14, 15]), (15, none), (20, some [24, 25, 24, 25]), (25, some [25, 28, 25, 28]), (30, some [31, 32, 31, 32]), (35, none), (40, some [40, 43, 40, 43]), (45, some [47, 48, 47, 48]), (50, some [51, 55, 51, 55]), (55, none), (60, some [64, 65, 64, 65]), (65, none), (70, none), (75, some [75, 76, 75, 76]), (80, some [82, 83, 82, 83]), (85, some [86, 87, 86, 87]), (90, some [94, 95, 94, 95]), (95, some [95, 103, 95, 103]), (100, some [108, 108, 108, 108]), (105, some [114, 114, 114, 114]), (110, none), (115, some [124, 124, 124, 124]), (120, some [125, 127, 125, 127]), (125, some [131, 131, 131, 131]), (130, none), (135, some [140, 142, 140, 142]), (140, some [147, 147, 147, 147]), (145, some [151, 154, 151, 154]), (150, none), (155, some [164, 164, 164, 164]), (160, none), (165, none), (170, some [175, 175, 175, 175]), (175, some [182, 182, 182, 182]), (180, some [186, 186, 186, 186]), (185, some [194, 194, 194, 194]), (190, some [195, 403, 195, 403]), (195, some [408, 408, 408, 408]), (200, some [414, 414, 414, 414]), (205, none), (210, some [424, 424, 424, 424]), (215, some [425, 427, 425, 427]), (220, some [431, 431, 431, 431]), (225, none), (230, some [440, 442, 440, 442]), (235, some [447, 447, 447, 447]), (240, some [451, 454, 451, 454]), (245, none), (250, some [464, 464, 464, 464]), (255, none), (260, none), (265, some [475, 475, 475, 475]), (270, some [482, 482, 482, 482]), (275, some [486, 486, 486, 486]), (280, some [494, 494, 494, 494])],
      some 285) := by decide +kernel
example : sizes 0 (session {} () () (alone flmmKey) empty [⟨flmmSeed1, true, true, true⟩, ⟨flmmSeed1 ++ flmmSeed2, true, true, true⟩, ⟨flmmSeed1 ++ flmmSeed2 ++ flmmSeed3, true, true, true⟩]) = some [4, 5, 4, 3, 5, 6, 6, 4, 5, 4, 6, 5] := by decide +kernel

/-! ### test_duration_weighted_mean_from_post (324-483) -/

/-- `post`: duration, weighted mean (a reduced fraction); it counts its calls. -/
def meanPost : Post (AggStream.Row V) Nat := fun n rows _ =>
  (n + 1, .one (rows.map fun r => (r.1, r.2.map fun v =>
    [[v.flatten.getD 1 0 - v.flatten.getD 0 0, v.flatten.getD 3 0 / Int.gcd (v.flatten.getD 2 0) (v.flatten.getD 3 0),
      v.flatten.getD 2 0 / Int.gcd (v.flatten.getD 2 0) (v.flatten.getD 3 0)]])))

def meanKey : KeyCfg Nat Aggregate.Row V (Buf ScaleBuf V) Nat :=
  key 0 [(0, .first), (0, .last), (2, .sum), (3, .sum)] [.date, .int, .int, .int] (grouperFn (bins 60) onTs) 42 167 (byLabel (some 6)) none (some meanPost)

def meanSeed1 : List (List Aggregate.Row) :=
    [[[480, 1, 1, 1], [510, 2, 2, 4], [540, 3, 1, 3], [570, 4, 0, 0]],
      [[600, 5, 2, 10], [620, 6, 1, 6]],
      [[640, 7, 2, 14], [660, 8, 1, 8], [690, 9, 0, 0], [720, 10, 3, 30]],
      [[740, 11, 2, 22], [760, 12, 1, 12]],
      [[780, 13, 3, 39]],
      [[800, 14, 0, 0], [820, 15, 1, 15]],
      [[840, 16, 2, 32], [860, 17, 1, 17]]]

def meanSeed2 : List (List Aggregate.Row) :=
    [[[879, 119, 19, 2261], [883, 123, 23, 2829], [911, 151, 51, 7701], [916, 156, 56, 8736]],
      [[928, 168, 68, 11424], [955, 195, 95, 18525]],
      [[963, 203, 103, 20909], [967, 207, 107, 22149], [968, 208, 108, 22464], [1002, 242, 142, 34364]],
      [[1018, 258, 158, 40764], [1059, 299, 199, 59501]],
      [[1094, 334, 234, 78156]],
      [[1112, 352, 252, 88704], [1118, 358, 258, 92364]],
      [[1119, 359, 259, 92981], [1131, 371, 271, 100541], [1147, 387, 287, 111069], [1170, 410, 310, 127100], [1209, 449, 349, 156701], [1212, 452, 352, 159104], [1232, 472, 372, 175584], [1259, 499, 399, 199101], [1274, 514, 414, 212796], [1300, 540, 440, 237600], [1302, 542, 442, 239564], [1340, 580, 480, 278400], [1346, 586, 486, 284796], [1381, 621, 521, 323541], [1392, 632, 532, 336224]]]

/-- `post_buffer` of the metadata. -/
def postBuffer {S P Q T : Type} (k : Nat) (r : Except AggStream.Err (T × Store S P Q)) : Option Q :=
  r.toOption.bind fun x => (x.2 k).md.map Md.post

example : recorded 0 (session {} () 0 (alone meanKey) empty [⟨meanSeed1, true, true, true⟩]) =
    some ([(480, some [30, 5, 3]), (540, some [30, 3, 1]), (600, some [40, 6, 1]), (660, some [30, 8, 1]), (720, some [40, 32, 3]), (780, some [40, 27, 2]), (840, some [0, 16, 1])],
      some 860) := by decide +kernel
example : sizes 0 (session {} () 0 (alone meanKey) empty [⟨meanSeed1, true, true, true⟩]) =
    some [3, 2, 2] := by decide +kernel
example : postBuffer 0 (session {} () 0 (alone meanKey) empty [⟨meanSeed1, true, true, true⟩]) =
    some 3 := by decide +kernel
example : recorded 0 (session {} () 0 (alone meanKey) empty [⟨meanSeed1, true, true, true⟩, ⟨meanSeed1 ++ meanSeed2, true, true, true⟩]) =
    some ([(480, some [30, 5, 3]), (540, some [30, 3, 1]), (600, some [40, 6, 1]), (660, some [30, 8, 1]), (720, some [40, 32, 3]), (780, some [40, 27, 2]), (840, some [43, 571, 5]), (900, some [44, 859, 5]), (960, some [55, 70325, 309]), (1020, some [0, 299, 1]), (1080, some [37, 32339, 91]), (1140, some [23, 238169, 597]), (1200, some [50, 345245, 736]), (1260, some [28, 86245, 162]), (1320, some [6, 93866, 161]), (1380, some [0, 621, 1])],
      some 1392) := by decide +kernel
example : postBuffer 0 (session {} () 0 (alone meanKey) empty [⟨meanSeed1, true, true, true⟩, ⟨meanSeed1 ++ meanSeed2, true, true, true⟩]) =
    some 6 := by decide +kernel

/-! ### test_seed_time_grouper_bin_on_as_tuple (486-553) -/

def tupleKey : KeyCfg Nat Aggregate.Row V (Buf ScaleBuf V) Unit :=
  key 0 [(0, .last), (2, .sum)] [.date, .date, .int] (grouperFn (bins 60) onTs) 25 10
    { maxRg := some 4, orderedOn := some (.col 1), dupOn := some (.one 0) }

def tupleSeed1 : List (List Aggregate.Row) :=
    [[[480, 480, 1], [510, 510, 2], [540, 540, 3], [570, 570, 4]],
      [[600, 600, 5], [620, 620, 6]],
      [[640, 640, 7], [660, 660, 8], [690, 690, 9], [720, 720, 10]]]

def tupleSeed2 : List (List Aggregate.Row) :=
    [[[750, 750, 11], [780, 780, 12], [810, 810, 13], [840, 840, 14]]]

example : recorded 0 (session {} () () (alone tupleKey) empty [⟨tupleSeed1, true, true, true⟩]) =
    some ([(480, some [510, 3]), (540, some [570, 7]), (600, some [640, 18]), (660, some [690, 17])],
      some 720) := by decide +kernel
example : recorded 0 (session {} () () (alone tupleKey) empty [⟨tupleSeed1, true, true, true⟩, ⟨tupleSeed1 ++ tupleSeed2, true, true, true⟩]) =
    some ([(480, some [510, 3]), (540, some [570, 7]), (600, some [640, 18]), (660, some [690, 17]), (720, some [750, 21]), (780, some [810, 25])],
      some 840) := by decide +kernel

/-! ### test_by_callable_wo_bin_on (556-697) -/

def rowsKey : KeyCfg Nat Aggregate.Row V (Buf (Option RowsBuf) V) Unit :=
  key 0 [(1, .first), (1, .max)] [.date, .float] (rowsFn 4 .left onTs) 24 10 (byLabel (some 4))

def rowsSeed1 : List (List Aggregate.Row) :=
    [[[480, 1], [510, 2], [540, 3], [570, 4], [600, 5], [620, 6], [640, 7], [660, 8], [690, 9]],
      [[720, 10], [740, 11], [760, 12], [780, 13], [800, 14], [820, 15], [840, 16], [860, 17], [860, 18]]]

def rowsSeed2 : List (List Aggregate.Row) :=
    [[[480, 1], [510, 2], [540, 3], [570, 4], [600, 5], [620, 6], [640, 7], [660, 8], [690, 9], [720, 10], [740, 11], [760, 12], [780, 13]],
      [[800, 14], [820, 15], [840, 16], [860, 17], [860, 18], [860, 1], [870, 2], [900, 3], [930, 4], [960, 5], [1000, 6], [1000, 7]]]

example : recorded 0 (session none () () (alone rowsKey) empty [⟨rowsSeed1, true, true, true⟩]) =
    some ([(480, some [1, 4]), (600, some [5, 8]), (690, some [9, 12]), (780, some [13, 16])],
      some 860) := by decide +kernel
example : recorded 0 (session none () () (alone rowsKey) empty [⟨rowsSeed1, true, true, true⟩, ⟨rowsSeed2, true, true, true⟩]) =
    some ([(480, some [1, 4]), (600, some [5, 8]), (690, some [9, 12]), (780, some [13, 16]), (860, some [17, 18]), (900, some [3, 5])],
      some 1000) := by decide +kernel

/-! ### test_by_callable_with_bin_on (700-908) -/

/-- `by_1val`: a new bin at each 1 in column `val`; the buffer is `last_key`. -/
def by1val : BinFn Aggregate.Row (Option Int) := fun p buf =>
  let ones := (p.zipIdx.filter fun x => get x.1 1 == 1).map Prod.snd
  let keys := ones.map fun i => onTs (p.getD i [])
  let start := p.findIdx fun r => get r 1 != 1
  let first := buf.join.getD (onTs (p.getD (start - 1) []))
  let skip := if buf.join.isSome then 0 else start
  let keys := first :: keys.drop skip
  let ncs := ones.drop skip ++ [p.length]
  .ok (⟨ncs, keys, 0, some .left, ncs.map fun n => (n : Int), true⟩, buf.map fun _ => keys.getLast?)

def onesKey : KeyCfg Nat Aggregate.Row V (Buf (Option Int) V) Unit :=
  key 0 [(0, .first), (1, .max)] [.date, .int] by1val 25 7
    { maxRg := some 4, orderedOn := some (.col 1), dupOn := some (.many [1, 2]) }

def onesSeed1 : List (List Aggregate.Row) :=
    [[[480, 1], [510, 2], [540, 3], [570, 1], [600, 5], [620, 6], [640, 7], [660, 8], [690, 1], [720, 10], [740, 11], [760, 12], [780, 1]],
      [[800, 14], [820, 15], [840, 16], [860, 1], [860, 18]]]

def onesSeed2 : List (List Aggregate.Row) :=
    [[[480, 1], [510, 2], [540, 3], [570, 1], [600, 5], [620, 6], [640, 7], [660, 8], [690, 1], [720, 10], [740, 11], [760, 12], [780, 1]],
      [[800, 14], [820, 15], [840, 16], [860, 1], [860, 18], [860, 1], [870, 2], [900, 3], [930, 1], [960, 5], [1000, 6], [1000, 7]]]

example : recorded 0 (session none () () (alone onesKey) empty [⟨onesSeed1, true, true, true⟩]) =
    some ([(480, some [480, 3]), (570, some [570, 8]), (690, some [690, 12]), (780, some [780, 16])],
      some 860) := by decide +kernel
example : recorded 0 (session none () () (alone onesKey) empty [⟨onesSeed1, true, true, true⟩, ⟨onesSeed2, true, true, true⟩]) =
    some ([(480, some [480, 3]), (570, some [570, 8]), (690, some [690, 12]), (780, some [780, 16]), (860, some [860, 18]), (860, some [860, 3]), (930, some [930, 5])],
      some 1000) := by decide +kernel

/-! ### test_time_grouper_trim_start (911-961) -/

def hourKey : KeyCfg Nat Aggregate.Row V (Buf ScaleBuf V) Unit :=
  key 0 [(1, .sum)] [.date, .int] (grouperFn (bins 60) onTs) 17 146800640 (byLabel none)

example : recorded 0 (session {} () () (alone hourKey) empty [⟨[[[480, 1], [510, 2], [540, 3], [570, 4]]], true, true, true⟩]) =
    some ([(480, some [3]), (540, some [3])],
      some 570) := by decide +kernel
example : recorded 0 (session {} () () (alone hourKey) empty [⟨[[[480, 1], [510, 2], [540, 3], [570, 4]]], true, true, true⟩, ⟨[[[540, 1], [570, 2], [600, 3], [630, 4]]], false, true, true⟩]) =
    some ([(480, some [3]), (540, some [6]), (600, some [3])],
      some 630) := by decide +kernel

/-! ### test_time_grouper_agg_sum (964-1005) -/

example : recorded 0 (session {} () () (alone hourKey) empty [⟨[[[480, 1], [510, 2], [540, 3], [600, 4]]], true, true, true⟩]) =
    some ([(480, some [3]), (540, some [3])],
      some 600) := by decide +kernel
example : recorded 0 (session {} () () (alone hourKey) empty [⟨[[[480, 1], [510, 2], [540, 3], [600, 4]]], true, true, true⟩, ⟨[[[480, 1], [510, 2], [540, 3], [600, 4], [620, 1], [640, 2], [660, 3], [690, 4]]], true, true, true⟩]) =
    some ([(480, some [3]), (540, some [3]), (600, some [7]), (660, some [3])],
      some 690) := by decide +kernel

/-! ### test_single_row (1008-1033) -/

example : (session {} () () (alone hourKey) empty [⟨[[[480, 1]]], true, true, true⟩]).toOption.map (fun x => (x.2 0).inStore) =
    some false := by decide +kernel

/-! ### test_single_row_within_seed (1036-1104) -/

example : recorded 0 (session {} () () (alone hourKey) empty [⟨[[[480, 1], [510, 2], [540, 3], [570, 4], [600, 5]],
      [[620, 6]],
      [[640, 7], [660, 8], [690, 9], [720, 10], [740, 11], [760, 12], [780, 13], [800, 14], [820, 15], [840, 16], [860, 17], [860, 18]]], true, true, true⟩]) =
    some ([(480, some [3]), (540, some [7]), (600, some [18]), (660, some [17]), (720, some [33]), (780, some [42]), (840, some [16])],
      some 860) := by decide +kernel

/-! ### test_time_grouper_duplicates_on_wo_bin_on (1107-1160) -/

/-! Columns are `ts_order`, `ts_bin`, `val`; `post` returns the results as they are. -/
example : recorded 0 (session none () () (alone (key 0 [(2, .sum)] [.date, .date, .int] (rowsFn 4 .left onTs) 17 146800640
    { orderedOn := some (.col 0), dupOn := some (.many []) } none (some fun q rows _ => (q, .one rows)))) empty
    [⟨[[[480, 520, 1], [510, 550, 2], [540, 580, 3], [570, 610, 4]]], true, true, true⟩]) =
    some ([(480, some [6])], some 570) := by decide +kernel

/-! ### test_bin_on_col_sum_agg (1163-1277) -/

def colKey : KeyCfg Nat Aggregate.Row V (Buf ScaleBuf V) Unit :=
  key 0 [(1, .sum)] [.date, .int] (grouperFn (bins 60) onTs) 17 10 (byLabel (some 6))

def colSeed : List Aggregate.Row :=
    [[490, 1], [490, 2], [550, 3], [550, 4], [610, 5], [610, 6], [610, 7], [670, 8], [670, 9], [730, 10], [730, 11], [730, 12], [790, 13], [790, 14], [790, 15], [850, 16], [850, 17]]

example : sizes 0 (session {} () () (alone colKey) empty [⟨[colSeed], true, true, true⟩]) =
    some [6] := by decide +kernel
example : recorded 0 (session {} () () (alone colKey) empty [⟨[colSeed], true, true, true⟩]) =
    some ([(480, some [3]), (540, some [7]), (600, some [18]), (660, some [17]), (720, some [33]), (780, some [42])],
      some 850) := by decide +kernel
example : recorded 0 (session {} () () (alone colKey) empty [⟨[colSeed], true, true, true⟩, ⟨[colSeed ++ [[910, 1], [910, 2]]], true, false, true⟩]) =
    some ([(480, some [3]), (540, some [7]), (600, some [18]), (660, some [17]), (720, some [33]), (780, some [42]), (840, some [33]), (900, some [3])],
      some 910) := by decide +kernel

/-! ### test_time_grouper_agg_sum_filters_and_no_filter (1280-1342) -/

/-- `[[(column i, op, v)]]`. -/
def cond (i : Nat) (op : String) (v : Int) : Filt Aggregate.Row :=
  some fun rows => Filter.dataframeFilter ⟨(· == ·), (· < ·), (· ≤ ·), (· == ·), (· != 0)⟩
    ⟨rows.length, fun _ => some (rows.map fun r => get r i)⟩ (.nested [[⟨"c", op, .one v⟩]])

def filtStream : Config Nat Aggregate.Row V (Buf ScaleBuf V) Unit Unit Nat where
  ord := onTs
  filters := [(1, cond 1 ">=" 2), (2, cond 1 ">=" 3), (0, none)]
  keys := [(0, hourKey), (1, { hourKey with main := 1 }), (2, { hourKey with main := 2 })]
  truthy := fun _ => true

def filtCalls : List (Call Aggregate.Row) :=
  [⟨[[[480, 1], [510, 2], [540, 3], [600, 4]]], true, true, true⟩,
   ⟨[[[480, 1], [510, 2], [540, 3], [600, 4], [620, 1], [640, 2], [660, 3], [690, 4]]], true, true, true⟩]

example : recorded 0 (session {} () () filtStream empty filtCalls) =
    some ([(480, some [3]), (540, some [3]), (600, some [7]), (660, some [3])],
      some 690) := by decide +kernel
example : recorded 1 (session {} () () filtStream empty filtCalls) =
    some ([(480, some [2]), (540, some [3]), (600, some [6]), (660, some [3])],
      some 690) := by decide +kernel
example : recorded 2 (session {} () () filtStream empty filtCalls) =
    some ([(540, some [3]), (600, some [4]), (660, some [3])],
      some 690) := by decide +kernel

/-! ### test_different_ordered_on (1345-1427) -/

/-- `post` drops the label: the columns are those of the values. -/
def otherKey : KeyCfg Nat Aggregate.Row V (Buf ScaleBuf V) Unit :=
  { key 0 [(1, .first)] [.date, .int] (grouperFn (bins 60) onTs) 17 5
      { maxRg := some 3, orderedOn := some (.col 1), dupOn := some (.one 0) } none (some fun q rows _ => (q, .one rows)) with
    table := { resTable 1 with cols := [1] } }

example : (recorded 0 (session {} () () (alone otherKey) empty [⟨[colSeed], true, false, true⟩])).map (fun x => x.1.map Prod.snd) =
    some [some [1], some [3], some [5], some [8], some [10], some [13], some [16]] := by decide +kernel

/-! ### test_exception_unordered_seed (1430-1476) -/

/-! `NaT` is 100000: greater than all others, not in ascending order. -/
def natKey : KeyCfg Nat Aggregate.Row V (Buf ScaleBuf V) Unit :=
  key 0 [(1, .first), (1, .last)] [.date, .int] (grouperFn (bins 2) onTs) 26 10 (byLabel (some 6))

example : (agg (alone natKey) ⟨[[[2, 2], [3, 3], [8, 8], [14, 14], [24, 24], [25, 25], [27, 27], [31, 31], [40, 40], [42, 42]],
      [[100000, 47], [51, 51], [54, 54], [64, 64], [75, 75], [82, 82], [82, 82], [86, 86], [94, 94], [95, 95]]], false, false, true⟩
    ⟨none, (), [{ seg := ⟨⟨{}, {}, none⟩, none⟩, post := () }]⟩ empty).toOption.map (fun x => (x.2.2, (x.2.1 0).md.map Md.restart)) =
    some (true, some 42) := by decide +kernel

/-! ### test_post_with_warm_up (1479-1557) -/

/-- `post`: rolling sum of ten values; the buffer holds the last ten rows. -/
def rollPost : Post (AggStream.Row V) (List (Int × Int)) := fun prev rows _ =>
  let new := rows.map fun r => (r.1, (r.2.getD []).flatten.getD 0 0)
  let all := (if prev.getLast?.map Prod.fst = new.head?.map Prod.fst then prev.dropLast else prev) ++ new
  (all.drop (all.length - 10),
    if 10 ≤ all.length then
      .one ((List.range (all.length - 9)).map fun i =>
        ((all.getD (i + 9) (0, 0)).1, some [[(((all.drop i).take 10).map Prod.snd).sum]]))
    else .nothing)

def rollKey : KeyCfg Nat Aggregate.Row V (Buf ScaleBuf V) (List (Int × Int)) :=
  key 0 [(1, .first)] [.date, .int] (grouperFn (bins 2) onTs) 17 15 (byLabel (some 10)) none (some rollPost)

/-- `seed.iloc[a:b]`. -/
def rollSeed (a b : Nat) : List Aggregate.Row :=
  (List.range (b - a)).map fun i => [480 + 2 * ((a : Int) + i), (a : Int) + i + 1]

def rollCalls : List (Call Aggregate.Row) :=
  [⟨[rollSeed 0 5], true, false, true⟩, ⟨[rollSeed 5 8, rollSeed 8 14], true, false, true⟩]

/-- Third call, with a new stream. -/
def rollCold : Except AggStream.Err (State V (Buf ScaleBuf V) Unit (List (Int × Int)) × Store (Buf ScaleBuf V) Unit (List (Int × Int))) :=
  match session {} () [] (alone rollKey) empty rollCalls with
  | .error e => .error e
  | .ok (_, w) => session {} () [] (alone rollKey) w [⟨[rollSeed 14 20], true, false, true⟩]

example : postBuffer 0 (session {} () [] (alone rollKey) empty (rollCalls.take 1)) =
    some [(480, 1), (482, 2), (484, 3), (486, 4), (488, 5)] := by decide +kernel
example : recorded 0 (session {} () [] (alone rollKey) empty rollCalls) =
    some ([(498, some [55]), (500, some [65]), (502, some [75]), (504, some [85]), (506, some [95])],
      some 506) := by decide +kernel
example : postBuffer 0 (session {} () [] (alone rollKey) empty rollCalls) =
    some [(488, 5), (490, 6), (492, 7), (494, 8), (496, 9), (498, 10), (500, 11), (502, 12), (504, 13), (506, 14)] := by decide +kernel
example : recorded 0 rollCold =
    some ([(498, some [55]), (500, some [65]), (502, some [75]), (504, some [85]), (506, some [95]), (508, some [105]), (510, some [115]), (512, some [125]), (514, some [135]), (516, some [145]), (518, some [155])],
      some 518) := by decide +kernel
example : postBuffer 0 rollCold =
    some [(500, 11), (502, 12), (504, 13), (506, 14), (508, 15), (510, 16), (512, 17), (514, 18), (516, 19), (518, 20)] := by decide +kernel

end Oups.Tests.AggStream
