import Verif.Tests.AggStream
/-!
The tests of `/repo/tests/test_aggstream/test_aggstream_advanced.py`, run on the model as those of `Verif.Tests.AggStream`.
`parallel=True` is run as one key after the other (`Verif.Props.AggParallel`).
-/
set_option maxRecDepth 20000
set_option synthInstance.maxHeartbeats 200000
set_option synthInstance.maxSize 1000
namespace Oups.Tests.AggStreamAdvanced
open Oups.Segment Oups.Agg Oups.Agg.Spec Oups.AggStream Oups.Tests.Aggregate Oups.Tests.AggStream
open Oups.Writer (Params OrdOn DupOn RG readRows)

/-! ### test_3_keys_only_bins (72-216) -/

/-- Buffers of a key binned by time, of a key binned by rows. -/
abbrev Two := Buf ScaleBuf V × Buf (Option RowsBuf) V

/-- A key with its buffer in a pair. -/
def inTwo {S T Q : Type} (k : KeyCfg Nat Aggregate.Row V S Q) (get : T → S) (put : T → S → T) : KeyCfg Nat Aggregate.Row V T Q :=
  { main := k.main, snap := k.snap, resType := k.resType, mem := k.mem, maxSize := k.maxSize, table := k.table,
    params := k.params, post := k.post
    call := fun p t => match k.call p (get t) with
      | .error e => .error e
      | .ok (r, s) => .ok (r, put t s) }

def threeKeys : Config Nat Aggregate.Row V Two Unit Unit Nat where
  ord := onTs
  filters := [(0, none)]
  keys := [
    (0, inTwo (key 1 [(1, .first), (1, .last)] [.date, .int] (grouperFn (bins 2) onTs) 26 419 (byLabel (some 6))) Prod.fst
      fun t s => (s, t.2)),
    (0, inTwo (key 2 [(1, .first), (1, .max)] [.date, .int] (grouperFn (bins 13) onTs) 26 419 (byLabel (some 6))) Prod.fst
      fun t s => (s, t.2)),
    (0, inTwo (key 3 [(1, .min), (1, .max)] [.date, .int] (rowsFn 4 .left onTs) 26 419 (byLabel (some 6))) Prod.snd
      fun t s => (t.1, s))]
  truthy := fun _ => true

def threeRun (calls : List (Call Aggregate.Row)) : Except AggStream.Err (State V Two Unit Unit × Store Two Unit Unit) :=
  match initBuffers (⟨⟨{}, {}, none⟩, none⟩, ⟨⟨none, {}, none⟩, none⟩) () () threeKeys empty with
  | .error e => .error e
  | .ok s => aggs threeKeys calls s empty

def threeSeed1 : List (List Aggregate.Row) :=
    [[[2, 2], [3, 3], [8, 8], [14, 14], [24, 24], [25, 25]],
      [[27, 27], [31, 31], [40, 40], [42, 42], [47, 47], [51, 51]],
      [[53, 53], [54, 54], [64, 64], [75, 75], [75, 75], [82, 82]],
      [[82, 82], [83, 83], [86, 86], [86, 86], [94, 94], [95, 95]]]

def threeSeed2 : List (List Aggregate.Row) :=
    [[[97, 102], [98, 103], [103, 108], [109, 114], [119, 124], [120, 125]],
      [[122, 127], [126, 131], [135, 140], [137, 142], [142, 147], [146, 151]],
      [[148, 153], [149, 154], [159, 164], [170, 175], [170, 175], [177, 182]],
      [[177, 182], [178, 183], [181, 186], [181, 186], [189, 194], [190, 195]]]

def threeSeed3 : List (List Aggregate.Row) :=
    [[[192, 402], [193, 403], [198, 408], [204, 414], [214, 424], [215, 425]],
      [[217, 427], [221, 431], [230, 440], [232, 442], [237, 447], [241, 451]],
      [[243, 453], [244, 454], [254, 464], [265, 475], [265, 475], [272, 482]],
      [[272, 482], [273, 483], [276, 486], [276, 486], [284, 494], [285, 495]]]

example : recorded 1 (threeRun [⟨threeSeed1, true, true, true⟩]) =
    some ([(2, some [2, 3]), (4, none), (6, none), (8, some [8, 8]), (10, none), (12, none), (14, some [14, 14]), (16, none), (18, none), (20, none), (22, none), (24, some [24, 25]), (26, some [27, 27]), (28, none), (30, some [31, 31]), (32, none), (34, none), (36, none), (38, none), (40, some [40, 40]), (42, some [42, 42]), (44, none), (46, some [47, 47]), (48, none), (50, some [51, 51]), (52, some [53, 53]), (54, some [54, 54]), (56, none), (58, none), (60, none), (62, none), (64, some [64, 64]), (66, none), (68, none), (70, none), (72, none), (74, some [75, 75]), (76, none), (78, none), (80, none), (82, some [82, 83]), (84, none), (86, some [86, 86]), (88, none), (90, none), (92, none), (94, some [94, 94])],
      some 95) := by decide +kernel
example : recorded 2 (threeRun [⟨threeSeed1, true, true, true⟩]) =
    some ([(0, some [2, 8]), (13, some [14, 25]), (26, some [27, 31]), (39, some [40, 51]), (52, some [53, 64]), (65, some [75, 75]), (78, some [82, 86]), (91, some [94, 94])],
      some 95) := by decide +kernel
example : recorded 3 (threeRun [⟨threeSeed1, true, true, true⟩]) =
    some ([(2, some [2, 14]), (24, some [24, 31]), (40, some [40, 51]), (53, some [53, 75]), (75, some [75, 83]), (86, some [86, 94])],
      some 95) := by decide +kernel
example : recorded 1 (threeRun [⟨threeSeed1, true, true, true⟩, ⟨threeSeed1 ++ threeSeed2, true, true, true⟩]) =
    some ([(2, some [2, 3]), (4, none), (6, none), (8, some [8, 8]), (10, none), (12, none), (14, some [14, 14]), (16, none), (18, none), (20, none), (22, none), (24, some [24, 25]), (26, some [27, 27]), (28, none), (30, some [31, 31]), (32, none), (34, none), (36, none), (38, none), (40, some [40, 40]), (42, some [42, 42]), (44, none), (46, some [47, 47]), (48, none), (50, some [51, 51]), (52, some [53, 53]), (54, some [54, 54]), (56, none), (58, none), (60, none), (62, none), (64, some [64, 64]), (66, none), (68, none), (70, none), (72, none), (74, some [75, 75]), (76, none), (78, none), (80, none), (82, some [82, 83]), (84, none), (86, some [86, 86]), (88, none), (90, none), (92, none), (94, some [94, 95]), (96, some [102, 102]), (98, some [103, 103]), (100, none), (102, some [108, 108]), (104, none), (106, none), (108, some [114, 114]), (110, none), (112, none), (114, none), (116, none), (118, some [124, 124]), (120, some [125, 125]), (122, some [127, 127]), (124, none), (126, some [131, 131]), (128, none), (130, none), (132, none), (134, some [140, 140]), (136, some [142, 142]), (138, none), (140, none), (142, some [147, 147]), (144, none), (146, some [151, 151]), (148, some [153, 154]), (150, none), (152, none), (154, none), (156, none), (158, some [164, 164]), (160, none), (162, none), (164, none), (166, none), (168, none), (170, some [175, 175]), (172, none), (174, none), (176, some [182, 182]), (178, some [183, 183]), (180, some [186, 186]), (182, none), (184, none), (186, none), (188, some [194, 194])],
      some 190) := by decide +kernel
example : recorded 2 (threeRun [⟨threeSeed1, true, true, true⟩, ⟨threeSeed1 ++ threeSeed2, true, true, true⟩]) =
    some ([(0, some [2, 8]), (13, some [14, 25]), (26, some [27, 31]), (39, some [40, 51]), (52, some [53, 64]), (65, some [75, 75]), (78, some [82, 86]), (91, some [94, 108]), (104, some [114, 114]), (117, some [124, 131]), (130, some [140, 147]), (143, some [151, 154]), (156, some [164, 164]), (169, some [175, 186]), (182, some [194, 194])],
      some 190) := by decide +kernel
example : recorded 3 (threeRun [⟨threeSeed1, true, true, true⟩, ⟨threeSeed1 ++ threeSeed2, true, true, true⟩]) =
    some ([(2, some [2, 14]), (24, some [24, 31]), (40, some [40, 51]), (53, some [53, 75]), (75, some [75, 83]), (86, some [86, 95]), (97, some [102, 114]), (119, some [124, 131]), (135, some [140, 151]), (148, some [153, 175]), (170, some [175, 183]), (181, some [186, 194])],
      some 190) := by decide +kernel
example : recorded 1 (threeRun [⟨threeSeed1, true, true, true⟩, ⟨threeSeed1 ++ threeSeed2, true, true, true⟩, ⟨threeSeed1 ++ threeSeed2 ++ threeSeed3, true, true, true⟩]) =
    some ([(2, some [2, 3]), (4, none), (6, none), (8, some [8, 8]), (10, none), (12, none), (14, some [14, 14]), (16, none), (18, none), (20, none), (22, none), (24, some [24, 25]), (26, some [27, 27]), (28, none), (30, some [31, 31]), (32, none), (34, none), (36, none), (38, none), (40, some [40, 40]), (42, some [42, 42]), (44, none), (46, some [47, 47]), (48, none), (50, some [51, 51]), (52, some [53, 53]), (54, some [54, 54]), (56, none), (58, none), (60, none), (62, none), (64, some [64, 64]), (66, none), (68, none), (70, none), (72, none), (74, some [75, 75]), (76, none), (78, none), (80, none), (82, some [82, 83]), (84, none), (86, some [86, 86]), (88, none), (90, none), (92, none), (94, some [94, 95]), (96, some [102, 102]), (98, some [103, 103]), (100, none), (102, some [108, 108]), (104, none), (106, none), (108, some [114, 114]), (110, none), (112, none), (114, none), (116, none), (118, some [124, 124]), (120, some [125, 125]), (122, some [127, 127]), (124, none), (126, some [131, 131]), (128, none), (130, none), (132, none), (134, some [140, 140]), (136, some [142, 142]), (138, none), (140, none), (142, some [147, 147]), (144, none), (146, some [151, 151]), (148, some [153, 154]), (150, none), (152, none), (154, none), (156, none), (158, some [164, 164]), (160, none), (162, none), (164, none), (166, none), (168, none), (170, some [175, 175]), (172, none), (174, none), (176, some [182, 182]), (178, some [183, 183]), (180, some [186, 186]), (182, none), (184, none), (186, none), (188, some [194, 194]), (190, some [195, 195]), (192, some [402, 403]), (194, none), (196, none), (198, some [408, 408]), (200, none), (202, none), (204, some [414, 414]), (206, none), (208, none), (210, none), (212, none), (214, some [424, 425]), (216, some [427, 427]), (218, none), (220, some [431, 431]), (222, none), (224, none), (226, none), (228, none), (230, some [440, 440]), (232, some [442, 442]), (234, none), (236, some [447, 447]), (238, none), (240, some [451, 451]), (242, some [453, 453]), (244, some [454, 454]), (246, none), (248, none), (250, none), (252, none), (254, some [464, 464]), (256, none), (258, none), (260, none), (262, none), (264, some [475, 475]), (266, none), (268, none), (270, none), (272, some [482, 483]), (274, none), (276, some [486, 486]), (278, none), (280, none), (282, none), (284, some [494, 494])],
      some 285) := by decide +kernel
example : recorded 2 (threeRun [⟨threeSeed1, true, true, true⟩, ⟨threeSeed1 ++ threeSeed2, true, true, true⟩, ⟨threeSeed1 ++ threeSeed2 ++ threeSeed3, true, true, true⟩]) =
    some ([(0, some [2, 8]), (13, some [14, 25]), (26, some [27, 31]), (39, some [40, 51]), (52, some [53, 64]), (65, some [75, 75]), (78, some [82, 86]), (91, some [94, 108]), (104, some [114, 114]), (117, some [124, 131]), (130, some [140, 147]), (143, some [151, 154]), (156, some [164, 164]), (169, some [175, 186]), (182, some [194, 403]), (195, some [408, 414]), (208, some [424, 427]), (221, some [431, 442]), (234, some [447, 454]), (247, some [464, 464]), (260, some [475, 482]), (273, some [483, 494])],
      some 285) := by decide +kernel
example : recorded 3 (threeRun [⟨threeSeed1, true, true, true⟩, ⟨threeSeed1 ++ threeSeed2, true, true, true⟩, ⟨threeSeed1 ++ threeSeed2 ++ threeSeed3, true, true, true⟩]) =
    some ([(2, some [2, 14]), (24, some [24, 31]), (40, some [40, 51]), (53, some [53, 75]), (75, some [75, 83]), (86, some [86, 95]), (97, some [102, 114]), (119, some [124, 131]), (135, some [140, 151]), (148, some [153, 175]), (170, some [175, 183]), (181, some [186, 195]), (192, some [402, 414]), (214, some [424, 431]), (230, some [440, 451]), (243, some [453, 475]), (265, some [475, 483]), (276, some [486, 494])],
      some 285) := by decide +kernel

/-! ### test_exception_different_indexes_at_restart (219-284) -/

def divKey1 : KeyCfg Nat Aggregate.Row V (Buf ScaleBuf V) Unit :=
  key 1 [(1, .first), (1, .last)] [.date, .int] (grouperFn (bins 2) onTs) 26 419 (byLabel (some 6))

def divKey2 : KeyCfg Nat Aggregate.Row V (Buf ScaleBuf V) Unit :=
  key 2 [(1, .first), (1, .max)] [.date, .int] (grouperFn (bins 13) onTs) 26 146800640 (byLabel (some 6))

/-- A stream for each key, then a stream for both. -/
def divRun : Except AggStream.Err (State V (Buf ScaleBuf V) Unit Unit × Store (Buf ScaleBuf V) Unit Unit) :=
  match session {} () () (alone divKey1) empty [⟨[[[3, 3], [14, 14], [24, 24], [31, 31], [47, 47]],
      [[51, 51], [75, 75], [82, 82], [94, 94], [95, 95]]], true, true, true⟩] with
  | .error e => .error e
  | .ok (_, w) =>
    match session {} () () (alone divKey2) w [⟨[[[3, 3], [14, 14], [24, 24], [31, 31], [47, 47]],
      [[51, 51], [75, 75], [82, 82], [94, 94], [95, 95]],
      [[98, 103], [109, 114], [119, 124], [126, 131], [142, 147]],
      [[146, 151], [170, 175], [177, 182], [189, 194], [190, 195]]], true, true, true⟩] with
    | .error e => .error e
    | .ok (_, w) => session {} () () { alone divKey1 with keys := [(0, divKey1), (0, divKey2)] } w []

example : (match divRun with
    | .error e => decide (e = .diverging)
    | .ok _ => false) = true := by decide +kernel

/-! ### test_exception_seed_check_and_restart (287-405) -/

/-! Times are in seconds. -/
/-- `check`: raises if the first time is `ts[10]`; the buffer is `seed_val`. -/
def check : Pre Aggregate.Row (Option Int) := fun rows b =>
  if rows.head?.map onTs = some 2820 then (rows, b, true)
  else (rows, some ((rows.getLast?.map fun r => get r 1).getD 0 + if b.isSome then 10 else 0), false)

def checkKey (k : Nat) (freq : Int) (f : Fn) : KeyCfg Nat Aggregate.Row V (Buf ScaleBuf V) Unit :=
  key k [(1, .first), (1, f)] [.date, .int] (grouperFn ⟨freq, .left, false, .startDay, 0, 86400⟩ onTs) 26 419 (byLabel (some 6))

def checkStream : Config Nat Aggregate.Row V (Buf ScaleBuf V) (Option Int) Unit Nat where
  ord := onTs
  pre := some check
  filters := [(1, cond 2 "==" 1), (2, cond 2 "==" 0)]
  keys := [(1, checkKey 1 120 .last), (2, checkKey 2 3600 .max)]
  truthy := fun _ => true

def checkSeed1 : List (List Aggregate.Row) :=
    [[[120, 2, 0], [180, 3, 1], [480, 8, 0], [840, 14, 1], [1440, 24, 0], [1500, 25, 1], [1620, 27, 0], [1860, 31, 1], [2400, 40, 0], [2520, 42, 1]],
      [[2820, 47, 0], [3060, 51, 1], [3240, 54, 0], [3840, 64, 1], [4500, 75, 0], [4920, 82, 1], [4920, 82, 0], [5160, 86, 1], [5640, 94, 0], [5700, 95, 1]]]

def checkSeed2 : List (List Aggregate.Row) :=
    [[[2821, 47, 0], [3060, 51, 1], [3240, 54, 0], [3840, 64, 1], [4500, 75, 0], [4920, 82, 1], [4920, 82, 0], [5160, 86, 1], [5640, 94, 0], [5700, 95, 1]]]

/-- Restart index, and `pre_buffer`. -/
def seedMd {S P Q T : Type} (k : Nat) (r : Except AggStream.Err (T × Store S P Q)) : Option (Int × P) :=
  r.toOption.bind fun x => (x.2 k).md.map fun m => (m.restart, m.pre)

example : (match initBuffers ⟨⟨{}, {}, none⟩, none⟩ none () checkStream empty with
    | .error _ => none
    | .ok s => (agg checkStream ⟨checkSeed1, false, false, true⟩ s empty).toOption.map fun x => x.2.2) = some true := by decide +kernel
example : seedMd 1 (session {} none () checkStream empty [⟨checkSeed1, false, false, true⟩]) =
    some (2520, some 42) := by decide +kernel
example : seedMd 2 (session {} none () checkStream empty [⟨checkSeed1, false, false, true⟩]) =
    some (2520, some 42) := by decide +kernel
example : recorded 1 (session {} none () checkStream empty [⟨checkSeed1, false, false, true⟩, ⟨checkSeed2, false, false, true⟩]) =
    some ([(120, some [3, 3]), (240, none), (360, none), (480, none), (600, none), (720, none), (840, some [14, 14]), (960, none), (1080, none), (1200, none), (1320, none), (1440, some [25, 25]), (1560, none), (1680, none), (1800, some [31, 31]), (1920, none), (2040, none), (2160, none), (2280, none), (2400, none), (2520, some [42, 42]), (2640, none), (2760, none), (2880, none), (3000, some [51, 51]), (3120, none), (3240, none), (3360, none), (3480, none), (3600, none), (3720, none), (3840, some [64, 64]), (3960, none), (4080, none), (4200, none), (4320, none), (4440, none), (4560, none), (4680, none), (4800, none), (4920, some [82, 82]), (5040, none), (5160, some [86, 86]), (5280, none), (5400, none), (5520, none), (5640, some [95, 95])],
      some 5700) := by decide +kernel
example : seedMd 1 (session {} none () checkStream empty [⟨checkSeed1, false, false, true⟩, ⟨checkSeed2, false, false, true⟩]) =
    some (5700, some 105) := by decide +kernel
example : recorded 2 (session {} none () checkStream empty [⟨checkSeed1, false, false, true⟩, ⟨checkSeed2, false, false, true⟩]) =
    some ([(0, some [2, 54]), (3600, some [75, 94])],
      some 5700) := by decide +kernel
example : seedMd 2 (session {} none () checkStream empty [⟨checkSeed1, false, false, true⟩, ⟨checkSeed2, false, false, true⟩]) =
    some (5700, some 105) := by decide +kernel
/-! A new stream has the buffer. -/
example : (match session {} none () checkStream empty [⟨checkSeed1, false, false, true⟩, ⟨checkSeed2, false, false, true⟩] with
    | .error _ => none
    | .ok (_, w) => (session {} none () checkStream w []).toOption.map fun x => x.1.pre) = some (some 105) := by decide +kernel

/-! ### test_3_keys_bins_snaps_filters (521-915) -/

/-- `post` (408-505): values of the previous bin, and of the snapshot. The buffer holds the last two bins. Null is -1. -/
def prevPost : Post (AggStream.Row V) (List (Int × List Int)) := fun buf rows snaps =>
  let vals := fun (r : AggStream.Row V) => (r.1, (r.2.map List.flatten).getD [-1, -1])
  let new := rows.map vals
  let prev := if buf.isEmpty then [(0, [-1, -1])]
    else if buf.getLast?.map Prod.fst = new.head?.map Prod.fst then buf.dropLast else buf
  let all := prev ++ new
  let pairs := (new.map Prod.fst).zip ((all.drop (prev.length - 1)).map Prod.snd)
  let last := ((new.getLast?.map Prod.snd).getD [])
  (all.drop (all.length - 2), .one ((snaps.getD []).map fun r =>
    let p := ((pairs.find? fun x => decide (r.1 ≤ x.1)).map Prod.snd).getD last
    let v := (vals r).2
    (r.1, some [[p.getD 0 0, v.getD 0 0, p.getD 1 0, v.getD 1 0]])))

def snapKey {Q : Type} (k : Nat) (freq : Int) (maxSize : Nat) (post : Option (Post (AggStream.Row V) Q)) :
    KeyCfg Nat Aggregate.Row V (Buf ScaleBuf V) Q :=
  key k [(1, .first), (1, .last)] [.date, .int] (grouperFn (bins freq true) onTs) 26 maxSize (byLabel (some 5))
    (some (.grouper (bins 5 true))) post

def snapStream (maxSize : Nat) : Config Nat Aggregate.Row V (Buf ScaleBuf V) Unit (List (Int × List Int)) Nat where
  ord := onTs
  filters := [(1, cond 2 "==" 1), (2, cond 2 "==" 0)]
  keys := [(1, snapKey 1 10 maxSize (some prevPost)), (1, snapKey 3 2 maxSize (some prevPost)),
    (2, snapKey 2 20 maxSize (some prevPost))]
  truthy := fun _ => true

def snapSeed : List Aggregate.Row :=
    [[2, 2, 0], [3, 3, 1], [4, 4, 0], [7, 7, 1], [10, 10, 0], [14, 14, 1], [14, 14, 0], [14, 14, 1], [16, 16, 0], [17, 17, 1], [24, 24, 0], [29, 29, 1], [30, 30, 0], [31, 31, 1], [32, 32, 0], [33, 33, 1], [36, 36, 0], [37, 37, 1], [39, 39, 0], [45, 45, 1], [48, 48, 0], [49, 49, 1], [50, 50, 0], [54, 54, 1], [54, 54, 0], [56, 56, 1], [58, 58, 0], [59, 59, 1], [60, 60, 0], [61, 61, 1], [64, 64, 0], [65, 65, 1], [77, 77, 0], [89, 89, 1], [90, 90, 0], [90, 90, 1], [90, 90, 0], [94, 94, 1], [98, 98, 0], [98, 98, 1], [99, 99, 0], [100, 100, 1], [103, 103, 0], [104, 104, 1], [108, 108, 0], [113, 113, 1], [114, 114, 0], [115, 115, 1], [117, 117, 0], [117, 117, 1]]

def snapCalls : List (Call Aggregate.Row) :=
  [⟨[snapSeed.take 28, snapSeed.drop 27], false, false, true⟩,
   ⟨[[[117, 118, 1], [122, 127, 1]]], false, false, false⟩,
   ⟨[], true, true, true⟩,
   ⟨[[[122, 167, 1]]], false, false, true⟩,
   ⟨[[[122, 167, 0]], [[172, 217, 0]]], false, false, true⟩,
   ⟨[[[172, 227, 1]], [[172, 237, 1]], [[172, 247, 1]]], false, false, true⟩,
   ⟨[[[180, 1, 1], [183, 3, 1], [184, 4, 1], [187, 7, 1]], [[190, 10, 1], [194, 14, 1], [194, 14, 1], [194, 14, 1], [196, 16, 1], [197, 17, 1]]], false, false, true⟩]

/-- Data streams 1 to `n`. -/
def snapRun (n : Nat) : Except AggStream.Err (State V (Buf ScaleBuf V) Unit (List (Int × List Int)) ×
    Store (Buf ScaleBuf V) Unit (List (Int × List Int))) :=
  session {} () [] (snapStream 419) empty (snapCalls.take n)

example : recorded 1 (snapRun 1) =
    some ([(5, some [-1, 3, -1, 3]), (10, some [-1, 3, -1, 7]), (15, some [3, 14, 7, 14]), (20, some [3, 14, 7, 17]), (25, some [14, -1, 17, -1]), (30, some [14, 29, 17, 29]), (35, some [29, 31, 29, 33]), (40, some [29, 31, 29, 37]), (45, some [31, -1, 37, -1]), (50, some [31, 45, 37, 49]), (55, some [45, 54, 49, 54]), (60, some [45, 54, 49, 59]), (65, some [54, 61, 59, 61]), (70, some [54, 61, 59, 65]), (75, some [61, -1, 65, -1]), (80, some [61, -1, 65, -1]), (85, some [-1, -1, -1, -1]), (90, some [-1, 89, -1, 89]), (95, some [89, 90, 89, 94]), (100, some [89, 90, 89, 98]), (105, some [90, 100, 98, 104]), (110, some [90, 100, 98, 104]), (115, some [100, 113, 104, 113]), (120, some [100, 113, 104, 117])],
      some 117) := by decide +kernel
example : recorded 2 (snapRun 1) =
    some ([(5, some [-1, 2, -1, 4]), (10, some [-1, 2, -1, 4]), (15, some [-1, 2, -1, 14]), (20, some [-1, 2, -1, 16]), (25, some [2, 24, 16, 24]), (30, some [2, 24, 16, 24]), (35, some [2, 24, 16, 32]), (40, some [2, 24, 16, 39]), (45, some [24, -1, 39, -1]), (50, some [24, 48, 39, 48]), (55, some [24, 48, 39, 54]), (60, some [24, 48, 39, 58]), (65, some [48, 60, 58, 64]), (70, some [48, 60, 58, 64]), (75, some [48, 60, 58, 64]), (80, some [48, 60, 58, 77]), (85, some [60, -1, 77, -1]), (90, some [60, -1, 77, -1]), (95, some [60, 90, 77, 90]), (100, some [60, 90, 77, 99]), (105, some [90, 103, 99, 103]), (110, some [90, 103, 99, 108]), (115, some [90, 103, 99, 114]), (120, some [90, 103, 99, 117])],
      some 117) := by decide +kernel
example : recorded 3 (snapRun 1) =
    some ([(5, some [3, -1, 3, -1]), (10, some [7, -1, 7, -1]), (15, some [-1, 14, -1, 14]), (20, some [17, -1, 17, -1]), (25, some [-1, -1, -1, -1]), (30, some [-1, 29, -1, 29]), (35, some [33, -1, 33, -1]), (40, some [37, -1, 37, -1]), (45, some [-1, -1, -1, -1]), (50, some [-1, 49, -1, 49]), (55, some [-1, 54, -1, 54]), (60, some [56, 59, 56, 59]), (65, some [-1, -1, -1, -1]), (70, some [-1, -1, -1, -1]), (75, some [-1, -1, -1, -1]), (80, some [-1, -1, -1, -1]), (85, some [-1, -1, -1, -1]), (90, some [-1, 89, -1, 89]), (95, some [-1, 94, -1, 94]), (100, some [-1, 98, -1, 98]), (105, some [-1, 104, -1, 104]), (110, some [-1, -1, -1, -1]), (115, some [113, -1, 113, -1]), (120, some [117, -1, 117, -1])],
      some 117) := by decide +kernel
example : recorded 1 (snapRun 2) =
    some ([(5, some [-1, 3, -1, 3]), (10, some [-1, 3, -1, 7]), (15, some [3, 14, 7, 14]), (20, some [3, 14, 7, 17]), (25, some [14, -1, 17, -1]), (30, some [14, 29, 17, 29]), (35, some [29, 31, 29, 33]), (40, some [29, 31, 29, 37]), (45, some [31, -1, 37, -1]), (50, some [31, 45, 37, 49]), (55, some [45, 54, 49, 54]), (60, some [45, 54, 49, 59]), (65, some [54, 61, 59, 61]), (70, some [54, 61, 59, 65]), (75, some [61, -1, 65, -1]), (80, some [61, -1, 65, -1]), (85, some [-1, -1, -1, -1]), (90, some [-1, 89, -1, 89]), (95, some [89, 90, 89, 94]), (100, some [89, 90, 89, 98]), (105, some [90, 100, 98, 104]), (110, some [90, 100, 98, 104]), (115, some [100, 113, 104, 113]), (120, some [100, 113, 104, 117])],
      some 117) := by decide +kernel
example : recorded 2 (snapRun 2) =
    some ([(5, some [-1, 2, -1, 4]), (10, some [-1, 2, -1, 4]), (15, some [-1, 2, -1, 14]), (20, some [-1, 2, -1, 16]), (25, some [2, 24, 16, 24]), (30, some [2, 24, 16, 24]), (35, some [2, 24, 16, 32]), (40, some [2, 24, 16, 39]), (45, some [24, -1, 39, -1]), (50, some [24, 48, 39, 48]), (55, some [24, 48, 39, 54]), (60, some [24, 48, 39, 58]), (65, some [48, 60, 58, 64]), (70, some [48, 60, 58, 64]), (75, some [48, 60, 58, 64]), (80, some [48, 60, 58, 77]), (85, some [60, -1, 77, -1]), (90, some [60, -1, 77, -1]), (95, some [60, 90, 77, 90]), (100, some [60, 90, 77, 99]), (105, some [90, 103, 99, 103]), (110, some [90, 103, 99, 108]), (115, some [90, 103, 99, 114]), (120, some [90, 103, 99, 117])],
      some 117) := by decide +kernel
example : recorded 3 (snapRun 2) =
    some ([(5, some [3, -1, 3, -1]), (10, some [7, -1, 7, -1]), (15, some [-1, 14, -1, 14]), (20, some [17, -1, 17, -1]), (25, some [-1, -1, -1, -1]), (30, some [-1, 29, -1, 29]), (35, some [33, -1, 33, -1]), (40, some [37, -1, 37, -1]), (45, some [-1, -1, -1, -1]), (50, some [-1, 49, -1, 49]), (55, some [-1, 54, -1, 54]), (60, some [56, 59, 56, 59]), (65, some [-1, -1, -1, -1]), (70, some [-1, -1, -1, -1]), (75, some [-1, -1, -1, -1]), (80, some [-1, -1, -1, -1]), (85, some [-1, -1, -1, -1]), (90, some [-1, 89, -1, 89]), (95, some [-1, 94, -1, 94]), (100, some [-1, 98, -1, 98]), (105, some [-1, 104, -1, 104]), (110, some [-1, -1, -1, -1]), (115, some [113, -1, 113, -1]), (120, some [117, -1, 117, -1])],
      some 117) := by decide +kernel
example : recorded 1 (snapRun 3) =
    some ([(5, some [-1, 3, -1, 3]), (10, some [-1, 3, -1, 7]), (15, some [3, 14, 7, 14]), (20, some [3, 14, 7, 17]), (25, some [14, -1, 17, -1]), (30, some [14, 29, 17, 29]), (35, some [29, 31, 29, 33]), (40, some [29, 31, 29, 37]), (45, some [31, -1, 37, -1]), (50, some [31, 45, 37, 49]), (55, some [45, 54, 49, 54]), (60, some [45, 54, 49, 59]), (65, some [54, 61, 59, 61]), (70, some [54, 61, 59, 65]), (75, some [61, -1, 65, -1]), (80, some [61, -1, 65, -1]), (85, some [-1, -1, -1, -1]), (90, some [-1, 89, -1, 89]), (95, some [89, 90, 89, 94]), (100, some [89, 90, 89, 98]), (105, some [90, 100, 98, 104]), (110, some [90, 100, 98, 104]), (115, some [100, 113, 104, 113]), (120, some [100, 113, 104, 118]), (125, some [113, 127, 118, 127])],
      some 122) := by decide +kernel
example : recorded 2 (snapRun 3) =
    some ([(5, some [-1, 2, -1, 4]), (10, some [-1, 2, -1, 4]), (15, some [-1, 2, -1, 14]), (20, some [-1, 2, -1, 16]), (25, some [2, 24, 16, 24]), (30, some [2, 24, 16, 24]), (35, some [2, 24, 16, 32]), (40, some [2, 24, 16, 39]), (45, some [24, -1, 39, -1]), (50, some [24, 48, 39, 48]), (55, some [24, 48, 39, 54]), (60, some [24, 48, 39, 58]), (65, some [48, 60, 58, 64]), (70, some [48, 60, 58, 64]), (75, some [48, 60, 58, 64]), (80, some [48, 60, 58, 77]), (85, some [60, -1, 77, -1]), (90, some [60, -1, 77, -1]), (95, some [60, 90, 77, 90]), (100, some [60, 90, 77, 99]), (105, some [90, 103, 99, 103]), (110, some [90, 103, 99, 108]), (115, some [90, 103, 99, 114]), (120, some [90, 103, 99, 117])],
      some 122) := by decide +kernel
example : recorded 3 (snapRun 3) =
    some ([(5, some [3, -1, 3, -1]), (10, some [7, -1, 7, -1]), (15, some [-1, 14, -1, 14]), (20, some [17, -1, 17, -1]), (25, some [-1, -1, -1, -1]), (30, some [-1, 29, -1, 29]), (35, some [33, -1, 33, -1]), (40, some [37, -1, 37, -1]), (45, some [-1, -1, -1, -1]), (50, some [-1, 49, -1, 49]), (55, some [-1, 54, -1, 54]), (60, some [56, 59, 56, 59]), (65, some [-1, -1, -1, -1]), (70, some [-1, -1, -1, -1]), (75, some [-1, -1, -1, -1]), (80, some [-1, -1, -1, -1]), (85, some [-1, -1, -1, -1]), (90, some [-1, 89, -1, 89]), (95, some [-1, 94, -1, 94]), (100, some [-1, 98, -1, 98]), (105, some [-1, 104, -1, 104]), (110, some [-1, -1, -1, -1]), (115, some [113, -1, 113, -1]), (120, some [117, -1, 118, -1]), (125, some [127, -1, 127, -1])],
      some 122) := by decide +kernel
example : recorded 1 (snapRun 4) =
    some ([(5, some [-1, 3, -1, 3]), (10, some [-1, 3, -1, 7]), (15, some [3, 14, 7, 14]), (20, some [3, 14, 7, 17]), (25, some [14, -1, 17, -1]), (30, some [14, 29, 17, 29]), (35, some [29, 31, 29, 33]), (40, some [29, 31, 29, 37]), (45, some [31, -1, 37, -1]), (50, some [31, 45, 37, 49]), (55, some [45, 54, 49, 54]), (60, some [45, 54, 49, 59]), (65, some [54, 61, 59, 61]), (70, some [54, 61, 59, 65]), (75, some [61, -1, 65, -1]), (80, some [61, -1, 65, -1]), (85, some [-1, -1, -1, -1]), (90, some [-1, 89, -1, 89]), (95, some [89, 90, 89, 94]), (100, some [89, 90, 89, 98]), (105, some [90, 100, 98, 104]), (110, some [90, 100, 98, 104]), (115, some [100, 113, 104, 113]), (120, some [100, 113, 104, 118]), (125, some [113, 127, 118, 167])],
      some 122) := by decide +kernel
example : recorded 2 (snapRun 4) =
    some ([(5, some [-1, 2, -1, 4]), (10, some [-1, 2, -1, 4]), (15, some [-1, 2, -1, 14]), (20, some [-1, 2, -1, 16]), (25, some [2, 24, 16, 24]), (30, some [2, 24, 16, 24]), (35, some [2, 24, 16, 32]), (40, some [2, 24, 16, 39]), (45, some [24, -1, 39, -1]), (50, some [24, 48, 39, 48]), (55, some [24, 48, 39, 54]), (60, some [24, 48, 39, 58]), (65, some [48, 60, 58, 64]), (70, some [48, 60, 58, 64]), (75, some [48, 60, 58, 64]), (80, some [48, 60, 58, 77]), (85, some [60, -1, 77, -1]), (90, some [60, -1, 77, -1]), (95, some [60, 90, 77, 90]), (100, some [60, 90, 77, 99]), (105, some [90, 103, 99, 103]), (110, some [90, 103, 99, 108]), (115, some [90, 103, 99, 114]), (120, some [90, 103, 99, 117])],
      some 122) := by decide +kernel
example : recorded 3 (snapRun 4) =
    some ([(5, some [3, -1, 3, -1]), (10, some [7, -1, 7, -1]), (15, some [-1, 14, -1, 14]), (20, some [17, -1, 17, -1]), (25, some [-1, -1, -1, -1]), (30, some [-1, 29, -1, 29]), (35, some [33, -1, 33, -1]), (40, some [37, -1, 37, -1]), (45, some [-1, -1, -1, -1]), (50, some [-1, 49, -1, 49]), (55, some [-1, 54, -1, 54]), (60, some [56, 59, 56, 59]), (65, some [-1, -1, -1, -1]), (70, some [-1, -1, -1, -1]), (75, some [-1, -1, -1, -1]), (80, some [-1, -1, -1, -1]), (85, some [-1, -1, -1, -1]), (90, some [-1, 89, -1, 89]), (95, some [-1, 94, -1, 94]), (100, some [-1, 98, -1, 98]), (105, some [-1, 104, -1, 104]), (110, some [-1, -1, -1, -1]), (115, some [113, -1, 113, -1]), (120, some [117, -1, 118, -1]), (125, some [127, -1, 167, -1])],
      some 122) := by decide +kernel
example : recorded 1 (snapRun 5) =
    some ([(5, some [-1, 3, -1, 3]), (10, some [-1, 3, -1, 7]), (15, some [3, 14, 7, 14]), (20, some [3, 14, 7, 17]), (25, some [14, -1, 17, -1]), (30, some [14, 29, 17, 29]), (35, some [29, 31, 29, 33]), (40, some [29, 31, 29, 37]), (45, some [31, -1, 37, -1]), (50, some [31, 45, 37, 49]), (55, some [45, 54, 49, 54]), (60, some [45, 54, 49, 59]), (65, some [54, 61, 59, 61]), (70, some [54, 61, 59, 65]), (75, some [61, -1, 65, -1]), (80, some [61, -1, 65, -1]), (85, some [-1, -1, -1, -1]), (90, some [-1, 89, -1, 89]), (95, some [89, 90, 89, 94]), (100, some [89, 90, 89, 98]), (105, some [90, 100, 98, 104]), (110, some [90, 100, 98, 104]), (115, some [100, 113, 104, 113]), (120, some [100, 113, 104, 118]), (125, some [113, 127, 118, 167])],
      some 172) := by decide +kernel
example : recorded 2 (snapRun 5) =
    some ([(5, some [-1, 2, -1, 4]), (10, some [-1, 2, -1, 4]), (15, some [-1, 2, -1, 14]), (20, some [-1, 2, -1, 16]), (25, some [2, 24, 16, 24]), (30, some [2, 24, 16, 24]), (35, some [2, 24, 16, 32]), (40, some [2, 24, 16, 39]), (45, some [24, -1, 39, -1]), (50, some [24, 48, 39, 48]), (55, some [24, 48, 39, 54]), (60, some [24, 48, 39, 58]), (65, some [48, 60, 58, 64]), (70, some [48, 60, 58, 64]), (75, some [48, 60, 58, 64]), (80, some [48, 60, 58, 77]), (85, some [60, -1, 77, -1]), (90, some [60, -1, 77, -1]), (95, some [60, 90, 77, 90]), (100, some [60, 90, 77, 99]), (105, some [90, 103, 99, 103]), (110, some [90, 103, 99, 108]), (115, some [90, 103, 99, 114]), (120, some [90, 103, 99, 117]), (125, some [103, 167, 117, 167]), (130, some [103, 167, 117, 167]), (135, some [103, 167, 117, 167]), (140, some [103, 167, 117, 167]), (145, some [167, -1, 167, -1]), (150, some [167, -1, 167, -1]), (155, some [167, -1, 167, -1]), (160, some [167, -1, 167, -1]), (165, some [-1, -1, -1, -1]), (170, some [-1, -1, -1, -1]), (175, some [-1, 217, -1, 217])],
      some 172) := by decide +kernel
example : recorded 3 (snapRun 5) =
    some ([(5, some [3, -1, 3, -1]), (10, some [7, -1, 7, -1]), (15, some [-1, 14, -1, 14]), (20, some [17, -1, 17, -1]), (25, some [-1, -1, -1, -1]), (30, some [-1, 29, -1, 29]), (35, some [33, -1, 33, -1]), (40, some [37, -1, 37, -1]), (45, some [-1, -1, -1, -1]), (50, some [-1, 49, -1, 49]), (55, some [-1, 54, -1, 54]), (60, some [56, 59, 56, 59]), (65, some [-1, -1, -1, -1]), (70, some [-1, -1, -1, -1]), (75, some [-1, -1, -1, -1]), (80, some [-1, -1, -1, -1]), (85, some [-1, -1, -1, -1]), (90, some [-1, 89, -1, 89]), (95, some [-1, 94, -1, 94]), (100, some [-1, 98, -1, 98]), (105, some [-1, 104, -1, 104]), (110, some [-1, -1, -1, -1]), (115, some [113, -1, 113, -1]), (120, some [117, -1, 118, -1]), (125, some [127, -1, 167, -1])],
      some 172) := by decide +kernel
example : recorded 1 (snapRun 6) =
    some ([(5, some [-1, 3, -1, 3]), (10, some [-1, 3, -1, 7]), (15, some [3, 14, 7, 14]), (20, some [3, 14, 7, 17]), (25, some [14, -1, 17, -1]), (30, some [14, 29, 17, 29]), (35, some [29, 31, 29, 33]), (40, some [29, 31, 29, 37]), (45, some [31, -1, 37, -1]), (50, some [31, 45, 37, 49]), (55, some [45, 54, 49, 54]), (60, some [45, 54, 49, 59]), (65, some [54, 61, 59, 61]), (70, some [54, 61, 59, 65]), (75, some [61, -1, 65, -1]), (80, some [61, -1, 65, -1]), (85, some [-1, -1, -1, -1]), (90, some [-1, 89, -1, 89]), (95, some [89, 90, 89, 94]), (100, some [89, 90, 89, 98]), (105, some [90, 100, 98, 104]), (110, some [90, 100, 98, 104]), (115, some [100, 113, 104, 113]), (120, some [100, 113, 104, 118]), (125, some [113, 127, 118, 167]), (130, some [113, 127, 118, 167]), (135, some [127, -1, 167, -1]), (140, some [127, -1, 167, -1]), (145, some [-1, -1, -1, -1]), (150, some [-1, -1, -1, -1]), (155, some [-1, -1, -1, -1]), (160, some [-1, -1, -1, -1]), (165, some [-1, -1, -1, -1]), (170, some [-1, -1, -1, -1]), (175, some [-1, 227, -1, 247])],
      some 172) := by decide +kernel
example : recorded 2 (snapRun 6) =
    some ([(5, some [-1, 2, -1, 4]), (10, some [-1, 2, -1, 4]), (15, some [-1, 2, -1, 14]), (20, some [-1, 2, -1, 16]), (25, some [2, 24, 16, 24]), (30, some [2, 24, 16, 24]), (35, some [2, 24, 16, 32]), (40, some [2, 24, 16, 39]), (45, some [24, -1, 39, -1]), (50, some [24, 48, 39, 48]), (55, some [24, 48, 39, 54]), (60, some [24, 48, 39, 58]), (65, some [48, 60, 58, 64]), (70, some [48, 60, 58, 64]), (75, some [48, 60, 58, 64]), (80, some [48, 60, 58, 77]), (85, some [60, -1, 77, -1]), (90, some [60, -1, 77, -1]), (95, some [60, 90, 77, 90]), (100, some [60, 90, 77, 99]), (105, some [90, 103, 99, 103]), (110, some [90, 103, 99, 108]), (115, some [90, 103, 99, 114]), (120, some [90, 103, 99, 117]), (125, some [103, 167, 117, 167]), (130, some [103, 167, 117, 167]), (135, some [103, 167, 117, 167]), (140, some [103, 167, 117, 167]), (145, some [167, -1, 167, -1]), (150, some [167, -1, 167, -1]), (155, some [167, -1, 167, -1]), (160, some [167, -1, 167, -1]), (165, some [-1, -1, -1, -1]), (170, some [-1, -1, -1, -1]), (175, some [-1, 217, -1, 217])],
      some 172) := by decide +kernel
example : recorded 3 (snapRun 6) =
    some ([(5, some [3, -1, 3, -1]), (10, some [7, -1, 7, -1]), (15, some [-1, 14, -1, 14]), (20, some [17, -1, 17, -1]), (25, some [-1, -1, -1, -1]), (30, some [-1, 29, -1, 29]), (35, some [33, -1, 33, -1]), (40, some [37, -1, 37, -1]), (45, some [-1, -1, -1, -1]), (50, some [-1, 49, -1, 49]), (55, some [-1, 54, -1, 54]), (60, some [56, 59, 56, 59]), (65, some [-1, -1, -1, -1]), (70, some [-1, -1, -1, -1]), (75, some [-1, -1, -1, -1]), (80, some [-1, -1, -1, -1]), (85, some [-1, -1, -1, -1]), (90, some [-1, 89, -1, 89]), (95, some [-1, 94, -1, 94]), (100, some [-1, 98, -1, 98]), (105, some [-1, 104, -1, 104]), (110, some [-1, -1, -1, -1]), (115, some [113, -1, 113, -1]), (120, some [117, -1, 118, -1]), (125, some [127, -1, 167, -1]), (130, some [-1, -1, -1, -1]), (135, some [-1, -1, -1, -1]), (140, some [-1, -1, -1, -1]), (145, some [-1, -1, -1, -1]), (150, some [-1, -1, -1, -1]), (155, some [-1, -1, -1, -1]), (160, some [-1, -1, -1, -1]), (165, some [-1, -1, -1, -1]), (170, some [-1, -1, -1, -1]), (175, some [227, -1, 247, -1])],
      some 172) := by decide +kernel
example : recorded 1 (snapRun 7) =
    some ([(5, some [-1, 3, -1, 3]), (10, some [-1, 3, -1, 7]), (15, some [3, 14, 7, 14]), (20, some [3, 14, 7, 17]), (25, some [14, -1, 17, -1]), (30, some [14, 29, 17, 29]), (35, some [29, 31, 29, 33]), (40, some [29, 31, 29, 37]), (45, some [31, -1, 37, -1]), (50, some [31, 45, 37, 49]), (55, some [45, 54, 49, 54]), (60, some [45, 54, 49, 59]), (65, some [54, 61, 59, 61]), (70, some [54, 61, 59, 65]), (75, some [61, -1, 65, -1]), (80, some [61, -1, 65, -1]), (85, some [-1, -1, -1, -1]), (90, some [-1, 89, -1, 89]), (95, some [89, 90, 89, 94]), (100, some [89, 90, 89, 98]), (105, some [90, 100, 98, 104]), (110, some [90, 100, 98, 104]), (115, some [100, 113, 104, 113]), (120, some [100, 113, 104, 118]), (125, some [113, 127, 118, 167]), (130, some [113, 127, 118, 167]), (135, some [127, -1, 167, -1]), (140, some [127, -1, 167, -1]), (145, some [-1, -1, -1, -1]), (150, some [-1, -1, -1, -1]), (155, some [-1, -1, -1, -1]), (160, some [-1, -1, -1, -1]), (165, some [-1, -1, -1, -1]), (170, some [-1, -1, -1, -1]), (175, some [-1, 227, -1, 247]), (180, some [-1, 227, -1, 247]), (185, some [227, 1, 247, 4]), (190, some [227, 1, 247, 7]), (195, some [1, 10, 7, 14]), (200, some [1, 10, 7, 17])],
      some 197) := by decide +kernel
example : recorded 2 (snapRun 7) =
    some ([(5, some [-1, 2, -1, 4]), (10, some [-1, 2, -1, 4]), (15, some [-1, 2, -1, 14]), (20, some [-1, 2, -1, 16]), (25, some [2, 24, 16, 24]), (30, some [2, 24, 16, 24]), (35, some [2, 24, 16, 32]), (40, some [2, 24, 16, 39]), (45, some [24, -1, 39, -1]), (50, some [24, 48, 39, 48]), (55, some [24, 48, 39, 54]), (60, some [24, 48, 39, 58]), (65, some [48, 60, 58, 64]), (70, some [48, 60, 58, 64]), (75, some [48, 60, 58, 64]), (80, some [48, 60, 58, 77]), (85, some [60, -1, 77, -1]), (90, some [60, -1, 77, -1]), (95, some [60, 90, 77, 90]), (100, some [60, 90, 77, 99]), (105, some [90, 103, 99, 103]), (110, some [90, 103, 99, 108]), (115, some [90, 103, 99, 114]), (120, some [90, 103, 99, 117]), (125, some [103, 167, 117, 167]), (130, some [103, 167, 117, 167]), (135, some [103, 167, 117, 167]), (140, some [103, 167, 117, 167]), (145, some [167, -1, 167, -1]), (150, some [167, -1, 167, -1]), (155, some [167, -1, 167, -1]), (160, some [167, -1, 167, -1]), (165, some [-1, -1, -1, -1]), (170, some [-1, -1, -1, -1]), (175, some [-1, 217, -1, 217])],
      some 197) := by decide +kernel
example : recorded 3 (snapRun 7) =
    some ([(5, some [3, -1, 3, -1]), (10, some [7, -1, 7, -1]), (15, some [-1, 14, -1, 14]), (20, some [17, -1, 17, -1]), (25, some [-1, -1, -1, -1]), (30, some [-1, 29, -1, 29]), (35, some [33, -1, 33, -1]), (40, some [37, -1, 37, -1]), (45, some [-1, -1, -1, -1]), (50, some [-1, 49, -1, 49]), (55, some [-1, 54, -1, 54]), (60, some [56, 59, 56, 59]), (65, some [-1, -1, -1, -1]), (70, some [-1, -1, -1, -1]), (75, some [-1, -1, -1, -1]), (80, some [-1, -1, -1, -1]), (85, some [-1, -1, -1, -1]), (90, some [-1, 89, -1, 89]), (95, some [-1, 94, -1, 94]), (100, some [-1, 98, -1, 98]), (105, some [-1, 104, -1, 104]), (110, some [-1, -1, -1, -1]), (115, some [113, -1, 113, -1]), (120, some [117, -1, 118, -1]), (125, some [127, -1, 167, -1]), (130, some [-1, -1, -1, -1]), (135, some [-1, -1, -1, -1]), (140, some [-1, -1, -1, -1]), (145, some [-1, -1, -1, -1]), (150, some [-1, -1, -1, -1]), (155, some [-1, -1, -1, -1]), (160, some [-1, -1, -1, -1]), (165, some [-1, -1, -1, -1]), (170, some [-1, -1, -1, -1]), (175, some [227, -1, 247, -1]), (180, some [-1, -1, -1, -1]), (185, some [3, 4, 3, 4]), (190, some [7, -1, 7, -1]), (195, some [-1, 14, -1, 14]), (200, some [16, -1, 17, -1])],
      some 197) := by decide +kernel

/-! ### test_3_keys_bins_snaps_filters_restart (918-1035) -/

/-- A stream, then a new one. -/
def snapRestart : Except AggStream.Err (State V (Buf ScaleBuf V) Unit (List (Int × List Int)) ×
    Store (Buf ScaleBuf V) Unit (List (Int × List Int))) :=
  match session {} () [] (snapStream 419) empty [⟨[snapSeed.take 17, (snapSeed.take 31).drop 17], false, false, true⟩] with
  | .error e => .error e
  | .ok (_, w) => session {} () [] (snapStream 146800640) w [⟨[snapSeed.drop 31], false, false, true⟩]

example : recorded 1 snapRestart =
    some ([(5, some [-1, 3, -1, 3]), (10, some [-1, 3, -1, 7]), (15, some [3, 14, 7, 14]), (20, some [3, 14, 7, 17]), (25, some [14, -1, 17, -1]), (30, some [14, 29, 17, 29]), (35, some [29, 31, 29, 33]), (40, some [29, 31, 29, 37]), (45, some [31, -1, 37, -1]), (50, some [31, 45, 37, 49]), (55, some [45, 54, 49, 54]), (60, some [45, 54, 49, 59]), (65, some [54, 61, 59, 61]), (70, some [54, 61, 59, 65]), (75, some [61, -1, 65, -1]), (80, some [61, -1, 65, -1]), (85, some [-1, -1, -1, -1]), (90, some [-1, 89, -1, 89]), (95, some [89, 90, 89, 94]), (100, some [89, 90, 89, 98]), (105, some [90, 100, 98, 104]), (110, some [90, 100, 98, 104]), (115, some [100, 113, 104, 113]), (120, some [100, 113, 104, 117])],
      some 117) := by decide +kernel
example : recorded 2 snapRestart =
    some ([(5, some [-1, 2, -1, 4]), (10, some [-1, 2, -1, 4]), (15, some [-1, 2, -1, 14]), (20, some [-1, 2, -1, 16]), (25, some [2, 24, 16, 24]), (30, some [2, 24, 16, 24]), (35, some [2, 24, 16, 32]), (40, some [2, 24, 16, 39]), (45, some [24, -1, 39, -1]), (50, some [24, 48, 39, 48]), (55, some [24, 48, 39, 54]), (60, some [24, 48, 39, 58]), (65, some [48, 60, 58, 64]), (70, some [48, 60, 58, 64]), (75, some [48, 60, 58, 64]), (80, some [48, 60, 58, 77]), (85, some [60, -1, 77, -1]), (90, some [60, -1, 77, -1]), (95, some [60, 90, 77, 90]), (100, some [60, 90, 77, 99]), (105, some [90, 103, 99, 103]), (110, some [90, 103, 99, 108]), (115, some [90, 103, 99, 114]), (120, some [90, 103, 99, 117])],
      some 117) := by decide +kernel
example : recorded 3 snapRestart =
    some ([(5, some [3, -1, 3, -1]), (10, some [7, -1, 7, -1]), (15, some [-1, 14, -1, 14]), (20, some [17, -1, 17, -1]), (25, some [-1, -1, -1, -1]), (30, some [-1, 29, -1, 29]), (35, some [33, -1, 33, -1]), (40, some [37, -1, 37, -1]), (45, some [-1, -1, -1, -1]), (50, some [-1, 49, -1, 49]), (55, some [-1, 54, -1, 54]), (60, some [56, 59, 56, 59]), (65, some [-1, -1, -1, -1]), (70, some [-1, -1, -1, -1]), (75, some [-1, -1, -1, -1]), (80, some [-1, -1, -1, -1]), (85, some [-1, -1, -1, -1]), (90, some [-1, 89, -1, 89]), (95, some [-1, 94, -1, 94]), (100, some [-1, 98, -1, 98]), (105, some [-1, 104, -1, 104]), (110, some [-1, -1, -1, -1]), (115, some [113, -1, 113, -1]), (120, some [117, -1, 117, -1])],
      some 117) := by decide +kernel

/-! ### test_3_keys_recording_bins_snaps_filters_restart (1038-1238) -/

/-- Values increased by one. -/
def plus1 (rows : List (AggStream.Row V)) : List (AggStream.Row V) := rows.map fun r => (r.1, r.2.map fun v => v.map fun l => l.map (· + 1))

def postBinSnap : Post (AggStream.Row V) Unit := fun q rows snaps =>
  (q, match snaps with
    | none => .one (plus1 rows)
    | some s => .two (some (plus1 rows)) (some (plus1 s)))

def postOnlySnap : Post (AggStream.Row V) Unit := fun q _ snaps => (q, .one (plus1 (snaps.getD [])))

/-- Bins of key 1 are at 1, its snapshots at 101. -/
def recStream (withPost : Bool) (maxSize : Nat) : Config Nat Aggregate.Row V (Buf ScaleBuf V) Unit Unit Nat where
  ord := onTs
  filters := [(1, cond 2 "==" 1), (2, cond 2 "==" 0)]
  keys := [
    (1, { snapKey 1 10 maxSize (if withPost then some postBinSnap else none) with
      resType := .both, params := byLabel (some 8), snapParams := byLabel (some 5) }),
    (1, key 3 [(1, .first), (1, .last)] [.date, .int] (grouperFn (bins 2 true) onTs) 26 maxSize (byLabel (some 5)) none
      (if withPost then some postBinSnap else none)),
    (2, snapKey 2 20 maxSize (if withPost then some postOnlySnap else none))]
  truthy := fun _ => true

def recFirst (withPost : Bool) : Except AggStream.Err (State V (Buf ScaleBuf V) Unit Unit × Store (Buf ScaleBuf V) Unit Unit) :=
  session {} () () (recStream withPost 419) empty [⟨[snapSeed.take 17, (snapSeed.take 31).drop 17], false, false, true⟩]

def recSecond (withPost : Bool) : Except AggStream.Err (State V (Buf ScaleBuf V) Unit Unit × Store (Buf ScaleBuf V) Unit Unit) :=
  match recFirst withPost with
  | .error e => .error e
  | .ok (_, w) => session {} () () (recStream withPost 146800640) w [⟨[snapSeed.drop 31], false, false, true⟩]

def justRows {S P Q T : Type} (k : Nat) (r : Except AggStream.Err (T × Store S P Q)) : Option (List (Int × Option (List Int))) :=
  (recorded k r).map Prod.fst

example : sizes 101 (recFirst false) =
    some [5, 5, 3] := by decide +kernel
example : sizes 1 (recFirst false) =
    some [7] := by decide +kernel
example : justRows 1 (recSecond false) =
    some [(10, some [3, 7]), (20, some [14, 17]), (30, some [29, 29]), (40, some [31, 37]), (50, some [45, 49]), (60, some [54, 59]), (70, some [61, 65]), (80, none), (90, some [89, 89]), (100, some [90, 98]), (110, some [100, 104]), (120, some [113, 117])] := by decide +kernel
example : justRows 101 (recSecond false) =
    some [(5, some [3, 3]), (10, some [3, 7]), (15, some [14, 14]), (20, some [14, 17]), (25, none), (30, some [29, 29]), (35, some [31, 33]), (40, some [31, 37]), (45, none), (50, some [45, 49]), (55, some [54, 54]), (60, some [54, 59]), (65, some [61, 61]), (70, some [61, 65]), (75, none), (80, none), (85, none), (90, some [89, 89]), (95, some [90, 94]), (100, some [90, 98]), (105, some [100, 104]), (110, some [100, 104]), (115, some [113, 113]), (120, some [113, 117])] := by decide +kernel
example : justRows 2 (recSecond false) =
    some [(5, some [2, 4]), (10, some [2, 4]), (15, some [2, 14]), (20, some [2, 16]), (25, some [24, 24]), (30, some [24, 24]), (35, some [24, 32]), (40, some [24, 39]), (45, none), (50, some [48, 48]), (55, some [48, 54]), (60, some [48, 58]), (65, some [60, 64]), (70, some [60, 64]), (75, some [60, 64]), (80, some [60, 77]), (85, none), (90, none), (95, some [90, 90]), (100, some [90, 99]), (105, some [103, 103]), (110, some [103, 108]), (115, some [103, 114]), (120, some [103, 117])] := by decide +kernel
example : justRows 3 (recSecond false) =
    some [(4, some [3, 3]), (6, none), (8, some [7, 7]), (10, none), (12, none), (14, none), (16, some [14, 14]), (18, some [17, 17]), (20, none), (22, none), (24, none), (26, none), (28, none), (30, some [29, 29]), (32, some [31, 31]), (34, some [33, 33]), (36, none), (38, some [37, 37]), (40, none), (42, none), (44, none), (46, some [45, 45]), (48, none), (50, some [49, 49]), (52, none), (54, none), (56, some [54, 54]), (58, some [56, 56]), (60, some [59, 59]), (62, some [61, 61]), (64, none), (66, some [65, 65]), (68, none), (70, none), (72, none), (74, none), (76, none), (78, none), (80, none), (82, none), (84, none), (86, none), (88, none), (90, some [89, 89]), (92, some [90, 90]), (94, none), (96, some [94, 94]), (98, none), (100, some [98, 98]), (102, some [100, 100]), (104, none), (106, some [104, 104]), (108, none), (110, none), (112, none), (114, some [113, 113]), (116, some [115, 115]), (118, some [117, 117])] := by decide +kernel
example : sizes 101 (recFirst true) =
    some [5, 5, 3] := by decide +kernel
example : sizes 1 (recFirst true) =
    some [7] := by decide +kernel
example : justRows 1 (recSecond true) =
    some [(10, some [4, 8]), (20, some [15, 18]), (30, some [30, 30]), (40, some [32, 38]), (50, some [46, 50]), (60, some [55, 60]), (70, some [62, 66]), (80, none), (90, some [90, 90]), (100, some [91, 99]), (110, some [101, 105]), (120, some [114, 118])] := by decide +kernel
example : justRows 101 (recSecond true) =
    some [(5, some [4, 4]), (10, some [4, 8]), (15, some [15, 15]), (20, some [15, 18]), (25, none), (30, some [30, 30]), (35, some [32, 34]), (40, some [32, 38]), (45, none), (50, some [46, 50]), (55, some [55, 55]), (60, some [55, 60]), (65, some [62, 62]), (70, some [62, 66]), (75, none), (80, none), (85, none), (90, some [90, 90]), (95, some [91, 95]), (100, some [91, 99]), (105, some [101, 105]), (110, some [101, 105]), (115, some [114, 114]), (120, some [114, 118])] := by decide +kernel
example : justRows 2 (recSecond true) =
    some [(5, some [3, 5]), (10, some [3, 5]), (15, some [3, 15]), (20, some [3, 17]), (25, some [25, 25]), (30, some [25, 25]), (35, some [25, 33]), (40, some [25, 40]), (45, none), (50, some [49, 49]), (55, some [49, 55]), (60, some [49, 59]), (65, some [61, 65]), (70, some [61, 65]), (75, some [61, 65]), (80, some [61, 78]), (85, none), (90, none), (95, some [91, 91]), (100, some [91, 100]), (105, some [104, 104]), (110, some [104, 109]), (115, some [104, 115]), (120, some [104, 118])] := by decide +kernel
example : justRows 3 (recSecond true) =
    some [(4, some [4, 4]), (6, none), (8, some [8, 8]), (10, none), (12, none), (14, none), (16, some [15, 15]), (18, some [18, 18]), (20, none), (22, none), (24, none), (26, none), (28, none), (30, some [30, 30]), (32, some [32, 32]), (34, some [34, 34]), (36, none), (38, some [38, 38]), (40, none), (42, none), (44, none), (46, some [46, 46]), (48, none), (50, some [50, 50]), (52, none), (54, none), (56, some [55, 55]), (58, some [57, 57]), (60, some [60, 60]), (62, some [62, 62]), (64, none), (66, some [66, 66]), (68, none), (70, none), (72, none), (74, none), (76, none), (78, none), (80, none), (82, none), (84, none), (86, none), (88, none), (90, some [90, 90]), (92, some [91, 91]), (94, none), (96, some [95, 95]), (98, none), (100, some [99, 99]), (102, some [101, 101]), (104, none), (106, some [105, 105]), (108, none), (110, none), (112, none), (114, some [114, 114]), (116, some [116, 116]), (118, some [118, 118])] := by decide +kernel

/-! ### test_exception_two_keys_but_single_result_from_post (1241-1286) -/

example : (match session {} () () (alone { snapKey 1 10 419 (some fun q rows _ => (q, .one rows)) with resType := .both }) empty
      [⟨[snapSeed], false, false, true⟩] with
    | .error e => decide (e = .value)
    | .ok _ => false) = true := by decide +kernel

end Oups.Tests.AggStreamAdvanced
