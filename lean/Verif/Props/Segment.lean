import Verif.Proofs.SegmentFacts
import Mathlib.Tactic.Ring
/-! Properties C27 to C34: segmentation. -/
set_option linter.unusedSimpArgs false
namespace Oups.Segment
open Spec
variable {R B : Type}

/-! ### C27: `_next_chunk_starts` -/

/-- The returned starts are the ranks of the first edges; only the last one may cover all rows, and only then are
edges dropped; the flag tells whether all rows are covered; null chunks are counted exactly. -/
theorem C27_ranks (data edges : List Int) (right : Bool) (hs : Asc data) (he : Asc edges) (hne : data ≠ []) :
    ∃ k starts nNull traversed, nextChunkStarts data edges right = (starts, nNull, traversed) ∧
      starts = (edges.take k).map (fun e => data.countP (within right e)) ∧
      (∀ s ∈ starts.dropLast, s < data.length) ∧
      (traversed = true → starts.getLast? = some data.length) ∧
      (traversed = false → k = edges.length ∧ ∀ e ∈ edges, data.countP (within right e) < data.length) ∧
      nNull = (cut data 0 starts).countP List.isEmpty := by
  rw [nextChunkStarts_eq data edges right hs he hne]
  set ranks := edges.map fun e => data.countP (within right e) with hr
  have hpre : upTo data.length ranks = (edges.take (upTo data.length ranks).length).map
      (fun e => data.countP (within right e)) := by
    rw [List.map_take, ← hr]
    exact List.prefix_iff_eq_take.1 (upTo_prefix _ _)
  have hle : ∀ s ∈ ranks, s ≤ data.length := by
    intro s hs'
    rw [hr, List.mem_map] at hs'
    obtain ⟨e, -, rfl⟩ := hs'
    exact List.countP_le_length
  have hmem : ∀ s ∈ upTo data.length ranks, s ∈ ranks := fun s h => (upTo_prefix _ _).subset h
  have hasc : (0 :: upTo data.length ranks).Pairwise (· ≤ ·) := by
    rw [List.pairwise_cons]
    refine ⟨fun _ _ => Nat.zero_le _, ?_⟩
    refine List.Pairwise.sublist (upTo_prefix _ _).sublist ?_
    rw [hr, List.pairwise_map]
    exact he.imp (fun h => countP_mono_edge right h data)
  by_cases hin : data.length ∈ ranks
  · refine ⟨_, _, _, _, rfl, hpre, ?_, fun _ => upTo_getLast hin, ?_, ?_⟩
    · intro s h
      exact Nat.lt_of_le_of_ne (hle s (hmem s (List.dropLast_subset _ h))) (upTo_dropLast_ne s h)
    · intro h; simp [hin] at h
    · exact repeats_eq_countP data 0 _ hasc (fun t h => hle t (hmem t h))
  · have hup := upTo_of_not_mem hin
    refine ⟨edges.length, _, _, _, rfl, by rw [hup, List.take_length], ?_, ?_, ?_, ?_⟩
    · intro s h
      exact Nat.lt_of_le_of_ne (hle s (hmem s (List.dropLast_subset _ h))) (upTo_dropLast_ne s h)
    · intro h; simp [hin] at h
    · intro _
      refine ⟨rfl, fun e h => ?_⟩
      have hm : data.countP (within right e) ∈ ranks := List.mem_map.2 ⟨e, h, rfl⟩
      exact Nat.lt_of_le_of_ne (hle _ hm) (fun hx => hin (hx ▸ hm))
    · exact repeats_eq_countP data 0 _ hasc (fun t h => hle t (hmem t h))

example : nextChunkStarts [1, 1, 3, 8] [1, 3, 5, 9, 12] false = ([0, 2, 3, 4], 1, true) ∧
    nextChunkStarts [1, 1, 3, 8] [1, 3, 5, 7] true = ([2, 3, 3, 3], 2, false) ∧
    Asc [1, 1, 3, 8] ∧ Asc [1, 3, 5, 9, 12] := by decide

/-! ### C28, C29: `by_x_rows` -/

/-- One call: the bins are runs of exactly `n` rows, the last one possibly shorter. -/
theorem C28_exact (n : Nat) (hn : 0 < n) (closed : Closed) (pos : R → Int) (rows : List R) (hne : rows ≠ []) :
    ∃ r, rowsFn n closed pos rows none = .ok (r, none) ∧
      IsRowBins (closed == .right) n pos rows (readBins r.starts r.labels r.ends r.unknownLast rows) := by
  obtain ⟨r, h1, h2, _⟩ := oneShot_lawful (rows_lawful n hn closed pos (fun _ => 0)) rows hne
    (List.pairwise_of_forall (fun _ _ => Int.le_refl _))
  exact ⟨r, h1, h2 ▸ xBins_spec _ n pos rows hn⟩

/-- `IsRowBins` determines the bins. -/
theorem C28_unique (n : Nat) (hn : 0 < n) (right : Bool) (pos : R → Int) (rows : List R) (a b : List (Bin R))
    (ha : IsRowBins right n pos rows a) (hb : IsRowBins right n pos rows b) : a = b := by
  rw [isRowBins_unique right n pos rows hn a ha, isRowBins_unique right n pos rows hn b hb]

/-- The bins read off one call over five rows. -/
example : (byXRows 2 .left [1, 2, 4, 4, 7] none).1 = ⟨[2, 4, 5], [1, 4, 7], 0, .left, [4, 7, 7], true⟩ ∧
    readBins [2, 4, 5] [1, 4, 7] [4, 7, 7] true [1, 2, 4, 4, 7] =
      [⟨1, some 4, [1, 2]⟩, ⟨4, some 7, [4, 4]⟩, ⟨7, none, [7]⟩] ∧
    (byXRows 2 .right [1, 2, 4, 5] none).1 = ⟨[2, 4], [1, 4], 0, .right, [2, 5], false⟩ := by decide

/-- Any succession of non-empty pieces through one buffer: the same bins as for the concatenation, no call being
refused. -/
theorem C29_restart (n : Nat) (hn : 0 < n) (closed : Closed) (pos : R → Int) (pieces : List (List R))
    (hne : ∀ p ∈ pieces, p ≠ []) :
    ∃ bins b, streamBins (rowsFn n closed pos) none [] pieces = .ok (bins, b) ∧
      IsRowBins (closed == .right) n pos pieces.flatten bins := by
  have L := rows_lawful n hn closed pos (fun _ => 0)
  obtain ⟨b, h, _⟩ := stream_lawful L [] pieces none hne
    (List.pairwise_of_forall (fun _ _ => Int.le_refl _)) L.init
  rw [L.spec_nil, List.nil_append] at h
  exact ⟨_, b, h, xBins_spec _ n pos _ hn⟩

/-- In particular the bins of a single call. -/
theorem C29_restart_eq_oneshot (n : Nat) (hn : 0 < n) (closed : Closed) (pos : R → Int) (pieces : List (List R))
    (hne : ∀ p ∈ pieces, p ≠ []) (h0 : pieces ≠ []) :
    ∃ r b, rowsFn n closed pos pieces.flatten none = .ok (r, none) ∧
      streamBins (rowsFn n closed pos) none [] pieces =
        .ok (readBins r.starts r.labels r.ends r.unknownLast pieces.flatten, b) := by
  obtain ⟨bins, b, h1, h2⟩ := C29_restart n hn closed pos pieces hne
  obtain ⟨r, h3, h4⟩ := C28_exact n hn closed pos pieces.flatten (by
    intro hf
    cases pieces with
    | nil => exact h0 rfl
    | cons p ps => simp at hf; exact hne p (by simp) hf.1)
  exact ⟨r, b, h3, by rw [h1, C28_unique n hn _ pos _ _ _ h2 h4]⟩

example : (streamBins (rowsFn 3 .left id) none [] [[1], [2, 4], [5, 6, 9, 9], [9]]).toOption.map Prod.fst =
    some [⟨1, some 5, [1, 2, 4]⟩, ⟨5, some 9, [5, 6, 9]⟩, ⟨9, none, [9, 9]⟩] := by decide

/-! ### C30: `TimeGrouper` -/

/-- Groupers whose grid does not depend on the first timestamp seen: origin `epoch` or a timestamp, or `start_day`
(the default of pandas) with a frequency that divides a day. -/
def Fixed (g : Grouper) : Prop :=
  0 < g.freq ∧ (g.origin = .epoch ∨ (∃ t, g.origin = .ts t) ∨ (g.origin = .startDay ∧ g.freq ∣ g.day))

/-- Anchor of the grid. -/
def Grouper.origin0 (g : Grouper) : Int := (match g.origin with | .ts t => t | _ => 0) + g.offset

theorem Fixed.anchored {g : Grouper} (h : Fixed g) : Anchored g g.origin0 := by
  refine ⟨h.1, fun x => ?_, fun c x y => by rcases h.2 with h | ⟨t, h⟩ | ⟨h, -⟩ <;> simp [Grouper.moved, h]⟩
  rcases h.2 with h | ⟨t, h⟩ | ⟨h, d, hd⟩
  · exact ⟨0, by simp [Grouper.anchor, Grouper.origin0, h]⟩
  · exact ⟨0, by simp [Grouper.anchor, Grouper.origin0, h]⟩
  · refine ⟨d * (x / g.day), ?_⟩
    have := Int.emod_add_mul_ediv x g.day
    have h2 : x - x % g.day = g.freq * (d * (x / g.day)) := by rw [← Int.mul_assoc, ← hd]; omega
    simp only [Grouper.anchor, Grouper.origin0, h]
    omega

/-- Any succession of non-empty pieces of ordered rows through one buffer: the bins of the grid, empty ones
included, no call being refused. -/
theorem C30_restart (g : Grouper) (hg : Fixed g) (pos : R → Int) (pieces : List (List R))
    (hne : ∀ p ∈ pieces, p ≠ []) (hs : AscOn pos pieces.flatten) :
    ∃ bins b, streamBins (grouperFn g pos) {} [] pieces = .ok (bins, b) ∧
      IsGrid (g.closed == .right) g.labelRight g.origin0 g.freq pos pieces.flatten bins := by
  have L := grouper_lawful g g.origin0 hg.anchored pos
  obtain ⟨b, h, _⟩ := stream_lawful L [] pieces {} hne (by simpa using hs) L.init
  rw [L.spec_nil, List.nil_append] at h
  exact ⟨_, b, h, gridSpec_isGrid _ _ _ _ _ _ hg.1 hs⟩

/-- In particular the bins of a single call. -/
theorem C30_restart_eq_oneshot (g : Grouper) (hg : Fixed g) (pos : R → Int) (pieces : List (List R))
    (hne : ∀ p ∈ pieces, p ≠ []) (h0 : pieces ≠ []) (hs : AscOn pos pieces.flatten) :
    ∃ r b, grouperFn g pos pieces.flatten none = .ok (r, none) ∧
      streamBins (grouperFn g pos) {} [] pieces =
        .ok (readBins r.starts r.labels r.ends r.unknownLast pieces.flatten, b) := by
  have L := grouper_lawful g g.origin0 hg.anchored pos
  obtain ⟨b, h, _⟩ := stream_lawful L [] pieces {} hne (by simpa using hs) L.init
  rw [L.spec_nil, List.nil_append] at h
  obtain ⟨r, h1, h2, _⟩ := oneShot_lawful L pieces.flatten (by
    intro hf
    cases pieces with
    | nil => exact h0 rfl
    | cons p ps => simp at hf; exact hne p (by simp) hf.1) hs
  exact ⟨r, b, h1, by rw [h2]; exact h⟩

/-- A grid of step 5 over a day of 20: pieces with an empty bin in between. -/
example : Fixed { freq := 5, day := 20 } ∧
    (streamBins (grouperFn { freq := 5, day := 20 } id) {} [] [[3], [4, 6], [17, 21]]).toOption.map Prod.fst =
      some [⟨0, some 5, [3, 4]⟩, ⟨5, some 10, [6]⟩, ⟨10, some 15, []⟩, ⟨15, some 20, [17]⟩, ⟨20, some 25, [21]⟩] :=
  ⟨⟨by decide, Or.inr (Or.inr ⟨rfl, by decide⟩)⟩, by decide⟩

/-- With pandas' default origin (`start_day`) and a frequency that does not divide a day (7 h), a restart on
another day changes the grid: the second call is refused whereas a single call is not. -/
theorem C30_start_day_fails : ∃ (g : Grouper) (p q : List Int), g.origin = .startDay ∧ 0 < g.freq ∧
    AscOn id (p ++ q) ∧ (∃ r, grouperFn g id (p ++ q) none = .ok (r, none)) ∧
    streamBins (grouperFn g id) {} [] [p, q] = .error .labelMismatch :=
  ⟨{ freq := 7, day := 24 }, [1, 30], [31], rfl, by decide, by decide, ⟨_, rfl⟩, by decide⟩

/-- Origin `start`: likewise, the grid of a restart is anchored in the restart key. -/
theorem C30_start_fails : ∃ (g : Grouper) (p q : List Int), g.origin = .start ∧ g.closed = .left ∧ 0 < g.freq ∧
    AscOn id (p ++ q) ∧
    (streamBins (grouperFn g id) {} [] [p, q]).toOption.map Prod.fst ≠
      (streamBins (grouperFn g id) {} [] [p ++ q]).toOption.map Prod.fst :=
  ⟨{ freq := 10, origin := .start, offset := 3 }, [20, 24], [26], rfl, rfl, by decide, by decide, by decide⟩

/-- Origin `end`: the grid of a call is anchored in its last row. A second call is refused, whereas a single call is not. -/
theorem C30_end_fails : ∃ (g : Grouper) (p q : List Int), g.origin = .stop ∧ g.closed = .right ∧ 0 < g.freq ∧ g.offset = 0 ∧
    AscOn id (p ++ q) ∧ (∃ r, grouperFn g id (p ++ q) none = .ok (r, none)) ∧
    streamBins (grouperFn g id) {} [] [p, q] = .error .labelMismatch :=
  ⟨{ freq := 10, closed := .right, origin := .stop }, [10, 16], [17], rfl, rfl, by decide, rfl, by decide, ⟨_, rfl⟩, by decide⟩

/-- The first timestamp moved to a number of steps before `o` gives the edges of the grid of `o`. -/
theorem moved_grid {f : Int} (hf : 0 < f) (o first last : Int) :
    let m := o - ((o - first) / f) * f
    gtreStart f m .right m = gtreStart f o .right first ∧ gtreEnd f m .right last = gtreEnd f o .right last := by
  intro m
  obtain ⟨x, rfl⟩ : ∃ x, first = x + o := ⟨first - o, by omega⟩
  have hm : m = o - f * (-x / f) := by
    simp only [m]
    rw [show o - (x + o) = -x by omega, Int.mul_comm]
  have h1 := Int.emod_add_mul_ediv x f
  have h2 := Int.emod_nonneg x (by omega : f ≠ 0)
  have h3 := Int.emod_lt_of_pos x hf
  have h4 := Int.emod_add_mul_ediv (-x) f
  have h5 := Int.emod_nonneg (-x) (by omega : f ≠ 0)
  have h6 := Int.emod_lt_of_pos (-x) hf
  constructor
  · unfold gtreStart
    simp only [Int.sub_self, Int.zero_emod, Int.add_sub_cancel]
    rw [hm, if_neg (by omega)]
    generalize hq : x / f = q at *
    generalize hq' : -x / f = q' at *
    have hsum : f * (q + q') = -(x % f + -x % f) := by rw [Int.mul_add]; omega
    have hlo : -2 < q + q' := by
      by_contra h
      have := Int.mul_le_mul_of_nonneg_left (show q + q' ≤ -2 by omega) (show 0 ≤ f by omega)
      omega
    have hhi : q + q' ≤ 0 := by
      by_contra h
      have := Int.mul_le_mul_of_nonneg_left (show 1 ≤ q + q' by omega) (show 0 ≤ f by omega)
      omega
    rcases (show q + q' = 0 ∨ q + q' = -1 by omega) with h | h <;> rw [h] at hsum
    · rw [if_neg (by omega)]
      omega
    · rw [if_pos (by omega)]
      omega
  · unfold gtreEnd
    rw [hm, show last - (o - f * (-x / f)) = (last - o) + f * (-x / f) by omega, Int.add_mul_emod_self_left]

/-- The first timestamp moved by origin `end_day` gives the edges of the grid of the epoch. -/
theorem end_day_grid {f day : Int} (hf : 0 < f) (hd : f ∣ day) (first last : Int) :
    let m := -(-last / day) * day - ((-(-last / day) * day - first) / f) * f
    gtreStart f m .right m = gtreStart f 0 .right first ∧ gtreEnd f m .right last = gtreEnd f 0 .right last := by
  obtain ⟨t, rfl⟩ := hd
  intro m
  obtain ⟨h1, h2⟩ := moved_grid hf (-(-last / (f * t)) * (f * t)) first last
  have hs : ∀ y : Int, (y - -(-last / (f * t)) * (f * t)) % f = (y - 0) % f := fun y => by
    rw [show y - -(-last / (f * t)) * (f * t) = (y - 0) + f * ((-last / (f * t)) * t) by ring, Int.add_mul_emod_self_left]
  refine ⟨h1.trans ?_, h2.trans ?_⟩
  · simp only [gtreStart, hs]
  · simp only [gtreEnd, hs]

/-- Origin `end`, right-closed bins (what pandas has by default with this origin) and no offset: one call gives the bins of the grid
anchored in its last row. -/
theorem C30_end_once (g : Grouper) (ho : g.origin = .stop) (hc : g.closed = .right) (hf : 0 < g.freq) (h0 : g.offset = 0)
    (pos : R → Int) (p : List R) (x : R) (hs : AscOn pos (p ++ [x])) :
    ∃ bins b, streamBins (grouperFn g pos) {} [] [p ++ [x]] = .ok (bins, b) ∧
      IsGrid true g.labelRight (pos x) g.freq pos (p ++ [x]) bins := by
  have hsame : grouperFn g pos (p ++ [x]) (some {}) = grouperFn { g with origin := .ts (pos x) } pos (p ++ [x]) (some {}) := by
    have : byGrouper g none ((p ++ [x]).map pos) (some {}) =
        byGrouper { g with origin := .ts (pos x) } none ((p ++ [x]).map pos) (some {}) := by
      unfold byGrouper
      have hl : ((p ++ [x]).map pos).getLastD 0 = pos x := by simp
      simp only [Option.getD_none, Grouper.moved, Grouper.anchor, ho, hc, h0, Int.add_zero, hl, Option.bind_some]
      obtain ⟨h1, h2⟩ := moved_grid hf (pos x) (((p ++ [x]).map pos).getD 0 0) (pos x)
      simp only [h1, h2]
    simp only [grouperFn, this]
  obtain ⟨bins, b, h1, h2⟩ := C30_restart { g with origin := .ts (pos x) } ⟨hf, Or.inr (Or.inl ⟨_, rfl⟩)⟩ pos [p ++ [x]] (by simp)
    (by simpa using hs)
  refine ⟨bins, b, ?_, ?_⟩
  · rw [← h1]
    simp only [streamBins, hsame]
  · simpa [Grouper.origin0, h0, hc] using h2

example : (streamBins (grouperFn { freq := 10, closed := .right, origin := .stop } id) {} [] [[5, 7, 10, 27]]).toOption.map Prod.fst =
    some [⟨-3, some 7, [5, 7]⟩, ⟨7, some 17, [10]⟩, ⟨17, some 27, [27]⟩] := by decide

/-- Origin `end_day`, right-closed bins (what pandas has by default with this origin), a frequency that divides a day, and no offset:
the grid does not depend on the rows, and any succession of pieces gives its bins. -/
theorem C30_end_day (g : Grouper) (ho : g.origin = .stopDay) (hc : g.closed = .right) (hf : 0 < g.freq) (hd : g.freq ∣ g.day)
    (h0 : g.offset = 0) (pos : R → Int) (pieces : List (List R)) (hne : ∀ p ∈ pieces, p ≠ []) (hs : AscOn pos pieces.flatten) :
    ∃ bins b, streamBins (grouperFn g pos) {} [] pieces = .ok (bins, b) ∧
      IsGrid true g.labelRight 0 g.freq pos pieces.flatten bins := by
  have hsame : grouperFn g pos = grouperFn { g with origin := .epoch } pos := by
    funext p buf
    have : byGrouper g none (p.map pos) buf = byGrouper { g with origin := .epoch } none (p.map pos) buf := by
      unfold byGrouper
      simp only [Option.getD_none, Grouper.moved, Grouper.anchor, ho, hc, h0, Int.add_zero]
      cases buf.bind ScaleBuf.restart with
      | none =>
        obtain ⟨h1, h2⟩ := end_day_grid hf hd ((p.map pos).getD 0 0) ((p.map pos).getLastD 0)
        simp only [h1, h2]
      | some k =>
        obtain ⟨h1, h2⟩ := end_day_grid hf hd k ((p.map pos).getLastD 0)
        simp only [h1, h2]
    simp only [grouperFn, this]
  obtain ⟨bins, b, h1, h2⟩ := C30_restart { g with origin := .epoch } ⟨hf, Or.inl rfl⟩ pos pieces hne hs
  refine ⟨bins, b, by rw [hsame, h1], ?_⟩
  simpa [Grouper.origin0, h0, hc] using h2

example : (streamBins (grouperFn { freq := 10, closed := .right, origin := .stopDay, day := 20 } id) {} [] [[5, 10], [13], [45]]).toOption.map
    Prod.fst = some [⟨0, some 10, [5, 10]⟩, ⟨10, some 20, [13]⟩, ⟨20, some 30, []⟩, ⟨30, some 40, []⟩, ⟨40, some 50, [45]⟩] := by decide

/-- With left-closed bins, origin `end_day` puts an empty bin before a first row that is on the grid, and a restart, which starts at
the beginning of the last bin, is refused. -/
theorem C30_end_day_left_fails : ∃ (g : Grouper) (p q : List Int), g.origin = .stopDay ∧ g.closed = .left ∧ 0 < g.freq ∧
    g.freq ∣ g.day ∧ g.offset = 0 ∧ AscOn id (p ++ q) ∧
    (streamBins (grouperFn g id) {} [] [p ++ q]).toOption.map Prod.fst =
      some [⟨0, some 10, []⟩, ⟨10, some 20, [10]⟩, ⟨20, some 30, [20, 21]⟩] ∧
    streamBins (grouperFn g id) {} [] [p, q] = .error .labelMismatch :=
  ⟨{ freq := 10, origin := .stopDay, day := 20 }, [10, 20], [21], rfl, rfl, by decide, by decide, rfl, by decide, by decide, by decide⟩

/-! ### C31: every row in exactly one bin -/

/-- Partition of the rows, as returned by one call. -/
def Partitions (r : BinRes) (p : List R) : Prop :=
  r.starts.Pairwise (· ≤ ·) ∧ r.starts.getLast? = some p.length ∧ (cut p 0 r.starts).flatten = p ∧
    r.labels.length = r.starts.length ∧ r.nNull = (cut p 0 r.starts).countP List.isEmpty

theorem StepOk.partitions {spec : List R → List (Bin R)} {h p : List R} {r : BinRes} (s : StepOk spec h p r) :
    Partitions r p := by
  refine ⟨s.mono, s.last, ?_, s.labels_len, s.null⟩
  have := cut_flatten p 0 r.starts (List.pairwise_cons.2 ⟨fun _ _ => Nat.zero_le _, s.mono⟩)
    (by rw [List.getLast?_cons, s.last]; rfl)
  simpa using this

/-- `by_x_rows`, at any call of any succession of calls. -/
theorem C31_rows (n : Nat) (hn : 0 < n) (closed : Closed) (pos : R → Int) (pieces : List (List R)) (p : List R)
    (hne : ∀ q ∈ pieces, q ≠ []) (hp : p ≠ []) (bins : List (Bin R)) (b : Option RowsBuf)
    (h : streamBins (rowsFn n closed pos) none [] pieces = .ok (bins, b)) :
    ∃ r b', rowsFn n closed pos p (some b) = .ok (r, some b') ∧ Partitions r p := by
  have L := rows_lawful n hn closed pos (fun _ => 0)
  obtain ⟨b', h', hok⟩ := stream_lawful L [] pieces none hne
    (List.pairwise_of_forall (fun _ _ => Int.le_refl _)) L.init
  rw [L.spec_nil, h] at h'
  simp only [Except.ok.injEq, Prod.mk.injEq] at h'
  obtain ⟨-, rfl⟩ := h'
  obtain ⟨r, b'', h1, _, _, h4⟩ := L.step _ p b hp (List.pairwise_of_forall (fun _ _ => Int.le_refl _)) hok
  exact ⟨r, b'', h1, h4.partitions⟩

/-- `TimeGrouper`, at any call of any succession of calls on ordered rows. -/
theorem C31_grouper (g : Grouper) (hg : Fixed g) (pos : R → Int) (pieces : List (List R)) (p : List R)
    (hne : ∀ q ∈ pieces, q ≠ []) (hp : p ≠ []) (hs : AscOn pos (pieces.flatten ++ p)) (bins : List (Bin R))
    (b : ScaleBuf) (h : streamBins (grouperFn g pos) {} [] pieces = .ok (bins, b)) :
    ∃ r b', grouperFn g pos p (some b) = .ok (r, some b') ∧ Partitions r p := by
  have L := grouper_lawful g g.origin0 hg.anchored pos
  obtain ⟨b', h', hok⟩ := stream_lawful L [] pieces {} hne
    (by simpa using hs.sublist (List.sublist_append_left _ _)) L.init
  rw [L.spec_nil, h] at h'
  simp only [Except.ok.injEq, Prod.mk.injEq] at h'
  obtain ⟨-, rfl⟩ := h'
  obtain ⟨r, b'', h1, _, _, h4⟩ := L.step _ p b hp (by simpa using hs) hok
  exact ⟨r, b'', h1, h4.partitions⟩

/-- One call without buffer, any grid. -/
theorem C31_oneshot (g : Grouper) (hg : Fixed g) (n : Nat) (hn : 0 < n) (closed : Closed) (pos : R → Int)
    (p : List R) (hp : p ≠ []) :
    (∃ r, rowsFn n closed pos p none = .ok (r, none) ∧ Partitions r p) ∧
    (AscOn pos p → ∃ r, grouperFn g pos p none = .ok (r, none) ∧ Partitions r p) := by
  constructor
  · obtain ⟨r, h1, _, h3⟩ := oneShot_lawful (rows_lawful n hn closed pos (fun _ => 0)) p hp
      (List.pairwise_of_forall (fun _ _ => Int.le_refl _))
    exact ⟨r, h1, h3.partitions⟩
  · intro hs
    obtain ⟨r, h1, _, h3⟩ := oneShot_lawful (grouper_lawful g g.origin0 hg.anchored pos) p hp hs
    exact ⟨r, h1, h3.partitions⟩

example : (byGrouper { freq := 10 } none [3, 27, 28] none).1.starts = [1, 1, 3] ∧
    cut [3, 27, 28] 0 [1, 1, 3] = [[3], [], [27, 28]] := by decide

/-! ### C32: merging bins and snapshots -/

/-- Both sequences keep their order, positions are ascending, a snapshot precedes a bin end at the same position,
and the returned indices are exactly the positions of the bins. Bin ends all known. -/
theorem C32_merge (snapStarts binStarts : List Nat) (snapEnds binEnds : List Int)
    (h1 : snapEnds.length = snapStarts.length) (h2 : binEnds.length = binStarts.length)
    (a1 : Asc snapEnds) (a2 : Asc binEnds) (hne : binStarts ≠ []) :
    ∃ es : List (Int × Bool × Nat),
      mergesort (snapStarts, binStarts) (snapEnds, binEnds) false =
        .ok (es.map (fun e => e.2.2), (es.zipIdx.filter (fun p => p.1.2.1)).map Prod.snd) ∧
      (es.filter (fun e => !e.2.1)).map (fun e => (e.1, e.2.2)) = snapEnds.zip snapStarts ∧
      (es.filter (fun e => e.2.1)).map (fun e => (e.1, e.2.2)) = binEnds.zip binStarts ∧
      es.Pairwise Precedes := by
  have hm := mergesort_eq snapStarts binStarts snapEnds binEnds false h1 h2 a1 (by simpa using a2) hne
  refine ⟨_, hm, ?_, ?_, ?_⟩
  · rw [events, if_neg (by simp), filter_mergeEv' _ _ _ (fun x h => by simp [(mem_evs h).1])
      (fun x h => by simp [(mem_evs h).1]), evs, List.map_map]
    simp [Function.comp_def]
  · rw [events, if_neg (by simp), filter_mergeEv _ _ _ (fun x h => by simp [(mem_evs h).1])
      (fun x h => by simp [(mem_evs h).1]), evs, List.map_map]
    simp [Function.comp_def]
  · rw [events, if_neg (by simp)]
    exact mergeEv_precedes _ _ (evs_keyAsc _ _ _ a1) (evs_keyAsc _ _ _ a2) (fun x h => (mem_evs h).1)
      (fun x h => (mem_evs h).1)

/-- The same when the end of the last bin is unknown: it comes last, whatever value stands for it. -/
theorem C32_merge_unknown_last (snapStarts binStarts : List Nat) (snapEnds binEnds : List Int) (s : Nat) (e : Int)
    (h1 : snapEnds.length = snapStarts.length) (h2 : binEnds.length = binStarts.length)
    (a1 : Asc snapEnds) (a2 : Asc binEnds) :
    ∃ es : List (Int × Bool × Nat),
      mergesort (snapStarts, binStarts ++ [s]) (snapEnds, binEnds ++ [e]) true =
        .ok ((es ++ [(e, true, s)]).map (fun e => e.2.2),
          ((es ++ [(e, true, s)]).zipIdx.filter (fun p => p.1.2.1)).map Prod.snd) ∧
      (es.filter (fun e => !e.2.1)).map (fun e => (e.1, e.2.2)) = snapEnds.zip snapStarts ∧
      (es.filter (fun e => e.2.1)).map (fun e => (e.1, e.2.2)) = binEnds.zip binStarts ∧
      es.Pairwise Precedes := by
  have hm := mergesort_eq snapStarts (binStarts ++ [s]) snapEnds (binEnds ++ [e]) true h1 (by simp [h2]) a1
    (by simpa using a2) (by simp)
  have hev : evs true (binEnds ++ [e]) (binStarts ++ [s]) = evs true binEnds binStarts ++ [(e, true, s)] := by
    rw [evs, List.zip_append h2, List.map_append]; rfl
  rw [events, if_pos rfl, hev, List.dropLast_concat, List.getLast?_concat, Option.toList_some] at hm
  refine ⟨_, hm, ?_, ?_, ?_⟩
  · rw [filter_mergeEv' _ _ _ (fun x h => by simp [(mem_evs h).1])
      (fun x h => by simp [(mem_evs h).1]), evs, List.map_map]
    simp [Function.comp_def]
  · rw [filter_mergeEv _ _ _ (fun x h => by simp [(mem_evs h).1])
      (fun x h => by simp [(mem_evs h).1]), evs, List.map_map]
    simp [Function.comp_def]
  · exact mergeEv_precedes _ _ (evs_keyAsc _ _ _ a1) (evs_keyAsc _ _ _ a2) (fun x h => (mem_evs h).1)
      (fun x h => (mem_evs h).1)

example : mergesort ([1, 2, 4], [2, 4]) ([5, 10, 15], [10, 20]) false = .ok ([1, 2, 2, 4, 4], [2, 4]) ∧
    mergesort ([1, 2, 4], [2, 4]) ([5, 10, 15], [10, 12]) true = .ok ([1, 2, 2, 4, 4], [2, 4]) ∧
    mergesort ([1, 2, 4], [2, 4]) ([5, 10, 15], [10, 12]) false = .ok ([1, 2, 2, 4, 4], [2, 3]) := by decide

/-- Arrays of different sizes are refused. -/
theorem C32_sizes (l1 l2 : List Nat) (k1 k2 : List Int) (force : Bool)
    (h : k1.length ≠ l1.length ∨ k2.length ≠ l2.length) :
    mergesort (l1, l2) (k1, k2) force = .error .mergeSizes := by
  unfold mergesort
  rcases h with h | h
  · simp [h]
  · by_cases h' : k1.length = l1.length <;> simp [h, h']

/-! ### C33: `segmentby` rejects inconsistent binnings -/

/-- Without snapshots: accepted exactly when `ordered_on` is ordered and the binning is consistent; the result is
then that of the binning. -/
theorem C33_accepts_iff (fn : BinFn R B) (ordered : Option (R → Int)) (data : List R) (buf : Option (MainBuf B))
    (out : SegRes × Option (MainBuf B)) :
    segmentby fn ordered none data buf = .ok out ↔
      ∃ r b', fn data (buf.map MainBuf.bin) = .ok (r, b') ∧ (∀ o, ordered = some o → AscOn o data) ∧
        Consistent data.length buf.isSome (buf.bind MainBuf.lastBinLabel) r ∧
        out = (⟨r.starts, [], r.labels, r.nNull, none, 0⟩,
          buf.map fun b => ⟨b'.getD b.bin, b.snap, r.labels.getLast?⟩) :=
  segmentby_noSnap_iff fn ordered data buf out

/-- With snapshots: whatever is returned comes from an ordered column and a consistent binning, and has its
labels. -/
theorem C33_snapshots (fn : BinFn R B) (ordered : Option (R → Int)) (s : Snaps) (data : List R)
    (buf : Option (MainBuf B)) (res : SegRes) (buf' : Option (MainBuf B))
    (h : segmentby fn ordered (some s) data buf = .ok (res, buf')) :
    ∃ r b' o, fn data (buf.map MainBuf.bin) = .ok (r, b') ∧ ordered = some o ∧ AscOn o data ∧
      Consistent data.length buf.isSome (buf.bind MainBuf.lastBinLabel) r ∧
      res.binLabels = r.labels ∧ res.nNullBins = r.nNull := by
  obtain ⟨r, b', o, c, ss, sb, h1, h2, h3, h4, h5, h6, h7, h8⟩ := segmentby_snap_ok fn ordered s data buf _ h
  refine ⟨r, b', o, h1, h2, h3, h5, ?_, ?_⟩
  · have := congrArg (fun x => x.1.binLabels) h8; exact this
  · have := congrArg (fun x => x.1.nNullBins) h8; exact this

/-- The first label of a call is the last label of the previous call (user-provided `bin_by` included). -/
theorem C33_labels_continue (fn : BinFn R B) (ordered : Option (R → Int)) (p q : List R) (b : MainBuf B)
    (res res' : SegRes) (b' b'' : MainBuf B)
    (h : segmentby fn ordered none p (some b) = .ok (res, some b'))
    (h' : segmentby fn ordered none q (some b') = .ok (res', some b''))
    (hne : res.binLabels ≠ []) : res'.binLabels.head? = res.binLabels.getLast? := by
  obtain ⟨r, c, h1, h2, h3, h4⟩ := (segmentby_noSnap_iff _ _ _ _ _).1 h
  obtain ⟨r', c', h1', h2', h3', h4'⟩ := (segmentby_noSnap_iff _ _ _ _ _).1 h'
  simp only [Option.map_some, Prod.mk.injEq, Option.some.injEq] at h4 h4'
  obtain ⟨rfl, rfl⟩ := h4
  obtain ⟨rfl, -⟩ := h4'
  obtain ⟨l, hl⟩ := Option.ne_none_iff_exists'.1 (by simpa using hne : r.labels.getLast? ≠ none)
  simp only [hl]
  exact h3'.label rfl l (by simp [hl])

/-- Rejections: unordered column, bad closure, sizes, incomplete cover, empty trailing bin, other first label. -/
example :
    let fn (r : BinRes) : BinFn Int Unit := fun _ b => .ok (r, b)
    let good : BinRes := ⟨[1, 3], [10, 20], 0, some .left, [2, 9], false⟩
    let run (r : BinRes) (d : List Int) (prev : Option Int) :=
      (segmentby (fn r) (some id) none d (some ⟨(), {}, prev⟩)).map (fun o => o.1.starts)
    run good [1, 2, 3] (some 10) = .ok [1, 3] ∧
    run good [1, 3, 2] (some 10) = .error .notOrdered ∧
    run { good with closed := none } [1, 2, 3] none = .error .badClosed ∧
    run { good with labels := [1] } [1, 2, 3] none = .error .sizeLabels ∧
    run { good with ends := [1] } [1, 2, 3] none = .error .sizeEnds ∧
    run good [1, 2, 3, 4] none = .error .notCovering ∧
    run { good with starts := [3, 3] } [1, 2, 3] none = .error .emptyTrailing ∧
    run good [1, 2, 3] (some 20) = .error .labelMismatch := by decide

/-! ### C34: `setup_segmentby` -/

/-- Acceptable combinations, and the resulting columns: `b` to bin on, `o` ordered. -/
def AcceptableBin (binBy : BinBy) (binOn orderedOn : Option Nat) (b o : Option Nat) : Prop :=
  match binBy with
  | .grouper key _ => ∃ c, (key = some c ∨ binOn = some c) ∧ (∀ k, key = some k → k = c) ∧
      (∀ k, binOn = some k → k = c) ∧ (∀ k, orderedOn = some k → k = c) ∧ b = some c ∧ o = some c
  | .callable => (binOn ≠ none ∨ orderedOn ≠ none) ∧ b = binOn ∧ o = orderedOn
  | .other => False

/-- Agreement of the snapshots with the ordered column `o` so far and the closure of bins; `o'` is the final
ordered column. -/
def AcceptableSnap (binBy : BinBy) (snapBy : Option SnapBy) (o o' : Option Nat) : Prop :=
  match snapBy with
  | none => o' = o
  | some .values => o ≠ none ∧ o' = o
  | some (.grouper key closed) =>
    (∀ k, key = some k → ∀ c, o = some c → k = c) ∧ (∀ k c, binBy = .grouper k c → closed = c) ∧
    o' = if o = none then key else o

/-- Columns given to `bin_by`. -/
def Columns (b o : Option Nat) (cols : OnCols) : Prop :=
  match b, o with
  | some b, some o => cols = if o = b then .one b else .two b o
  | some b, none => cols = .one b
  | none, some o => cols = .one o
  | none, none => False

/-- Closure of bins known at set-up. -/
def closedOf : BinBy → Option Closed
  | .grouper _ c => some c
  | _ => none

theorem grouperOn_iff (key binOn : Option Nat) (c : Nat) :
    grouperOn key binOn = .ok c ↔
      (key = some c ∨ binOn = some c) ∧ (∀ k, key = some k → k = c) ∧ (∀ k, binOn = some k → k = c) := by
  unfold grouperOn
  cases key with
  | none => cases binOn <;> simp [eq_comm]
  | some k =>
    cases binOn with
    | none => simp
    | some b =>
      by_cases h : k = b
      · subst h; simp
      · simp only [ne_eq, h, not_false_eq_true, if_true, reduceCtorEq, Option.some.injEq, forall_eq', false_iff]
        rintro ⟨_, rfl, rfl⟩; exact h rfl

theorem setupBin_iff (binBy : BinBy) (binOn orderedOn b o : Option Nat) (c : Option Closed) :
    setupBin binBy binOn orderedOn = .ok (b, o, c) ↔
      AcceptableBin binBy binOn orderedOn b o ∧ c = closedOf binBy := by
  unfold setupBin AcceptableBin closedOf
  cases binBy with
  | other => simp
  | callable =>
    by_cases h : (binOn.isNone && orderedOn.isNone) = true
    · simp only [h, if_true, reduceCtorEq, false_iff]
      rintro ⟨⟨h', _⟩, _⟩
      simp_all
    · rw [if_neg h]
      simp only [Except.ok.injEq, Prod.mk.injEq]
      have : binOn ≠ none ∨ orderedOn ≠ none := by
        cases binOn <;> cases orderedOn <;> simp_all
      constructor
      · rintro ⟨rfl, rfl, rfl⟩; exact ⟨⟨this, rfl, rfl⟩, rfl⟩
      · rintro ⟨⟨_, rfl, rfl⟩, rfl⟩; exact ⟨rfl, rfl, rfl⟩
  | grouper key cl =>
    cases hg : grouperOn key binOn with
    | error e =>
      simp only [hg, reduceCtorEq, false_iff]
      rintro ⟨⟨d, h1, h2, h3, _⟩, _⟩
      rw [(grouperOn_iff key binOn d).2 ⟨h1, h2, h3⟩] at hg
      cases hg
    | ok d =>
      have hd := (grouperOn_iff key binOn d).1 hg
      have huniq : ∀ e, (key = some e ∨ binOn = some e) → e = d := by
        rintro e (h | h)
        · exact hd.2.1 e h
        · exact hd.2.2 e h
      cases orderedOn with
      | none =>
        simp only [hg, Except.ok.injEq, Prod.mk.injEq]
        constructor
        · rintro ⟨rfl, rfl, rfl⟩
          exact ⟨⟨d, hd.1, hd.2.1, hd.2.2, by simp, rfl, rfl⟩, rfl⟩
        · rintro ⟨⟨e, h1, _, _, _, rfl, rfl⟩, rfl⟩
          rw [huniq e h1]; exact ⟨rfl, rfl, rfl⟩
      | some o' =>
        by_cases ho : o' = d
        · subst ho
          simp only [hg, ne_eq, not_true_eq_false, if_false, Except.ok.injEq, Prod.mk.injEq]
          constructor
          · rintro ⟨rfl, rfl, rfl⟩
            exact ⟨⟨o', hd.1, hd.2.1, hd.2.2, by simp, rfl, rfl⟩, rfl⟩
          · rintro ⟨⟨e, h1, _, _, _, rfl, rfl⟩, rfl⟩
            rw [huniq e h1]; exact ⟨rfl, rfl, rfl⟩
        · simp only [hg, ne_eq, ho, not_false_eq_true, if_true, reduceCtorEq, false_iff]
          rintro ⟨⟨e, h1, _, _, h4, _⟩, _⟩
          exact ho ((h4 o' rfl).trans (huniq e h1))

theorem snapOn_iff (key o o' : Option Nat) : snapOn key o = .ok o' ↔
    (∀ k, key = some k → ∀ c, o = some c → k = c) ∧ o' = if o = none then key else o := by
  unfold snapOn
  cases key with
  | none => cases o <;> simp [eq_comm]
  | some k =>
    cases o with
    | none => simp [eq_comm]
    | some c =>
      by_cases h : k = c
      · subst h; simp [eq_comm]
      · simp [h]

theorem setupSnap_iff (binBy : BinBy) (snapBy : Option SnapBy) (o o' : Option Nat) :
    setupSnap snapBy o (closedOf binBy) = .ok o' ↔ AcceptableSnap binBy snapBy o o' := by
  unfold setupSnap AcceptableSnap
  rcases snapBy with _ | (⟨key, cl⟩ | _)
  · simp [eq_comm]
  · have hcl : (∀ k c, binBy = .grouper k c → cl = c) ↔ (∀ c, closedOf binBy = some c → cl = c) := by
      cases binBy <;> simp [closedOf]
    simp only [hcl]
    cases hs : snapOn key o with
    | error e =>
      simp only [reduceCtorEq, false_iff]
      rintro ⟨h1, _, h3⟩
      rw [(snapOn_iff key o o').2 ⟨h1, h3⟩] at hs
      cases hs
    | ok d =>
      have hd := (snapOn_iff key o d).1 hs
      rw [hd.2.symm]
      cases hc : closedOf binBy with
      | none =>
        simp only [Except.ok.injEq, reduceCtorEq, false_implies, implies_true, true_and]
        exact ⟨fun h => ⟨hd.1, h.symm⟩, fun h => h.2.symm⟩
      | some c =>
        simp only [Option.some.injEq, forall_eq']
        by_cases h : cl = c
        · simp only [h, ne_eq, not_true_eq_false, if_false, Except.ok.injEq, true_and]
          exact ⟨fun h => ⟨hd.1, h.symm⟩, fun h => h.2.symm⟩
        · simp [h]
  · cases o <;> simp [eq_comm]

theorem C34_setup (binBy : BinBy) (binOn orderedOn : Option Nat) (snapBy : Option SnapBy) (cfg : SegConfig) :
    setupSegmentby binBy binOn orderedOn snapBy = .ok cfg ↔
      ∃ o, AcceptableBin binBy binOn orderedOn cfg.binOn o ∧ AcceptableSnap binBy snapBy o cfg.orderedOn ∧
        Columns cfg.binOn cfg.orderedOn cfg.onCols ∧
        (cfg.snapGrouper = true ↔ ∃ k c, snapBy = some (.grouper k c)) := by
  have hsg : ∀ b, b = snapIsGrouper snapBy ↔ (b = true ↔ ∃ k c, snapBy = some (.grouper k c)) := by
    intro b
    rcases snapBy with _ | (⟨key, cl⟩ | _) <;> cases b <;> simp [snapIsGrouper]
  have hne : ∀ b o o', AcceptableBin binBy binOn orderedOn b o → AcceptableSnap binBy snapBy o o' →
      b ≠ none ∨ o' ≠ none := by
    intro b o o' hB hS
    have : b ≠ none ∨ o ≠ none := by
      cases binBy with
      | other => cases hB
      | callable => obtain ⟨h, rfl, rfl⟩ := hB; exact h
      | grouper k c => obtain ⟨c, _, _, _, _, rfl, _⟩ := hB; simp
    rcases this with h | h
    · exact Or.inl h
    · right
      rcases snapBy with _ | (⟨key, cl⟩ | _)
      · rw [show o' = o from hS]; exact h
      · rw [hS.2.2, if_neg h]; exact h
      · rw [hS.2]; exact h
  have hcol : ∀ b o c, (b ≠ none ∨ o ≠ none) → (c = onColsOf b o ↔ Columns b o c) := by
    intro b o c h
    cases b <;> cases o <;> simp_all [onColsOf, Columns]
  obtain ⟨cols, o', b', sg⟩ := cfg
  unfold setupSegmentby
  constructor
  · intro h
    split at h; · cases h
    rename_i b o c hb
    split at h; · cases h
    rename_i o'' hs
    simp only [Except.ok.injEq, SegConfig.mk.injEq] at h
    obtain ⟨rfl, rfl, rfl, rfl⟩ := h
    obtain ⟨hB, rfl⟩ := (setupBin_iff _ _ _ _ _ _).1 hb
    have hS := (setupSnap_iff binBy _ _ _).1 hs
    exact ⟨o, hB, hS, (hcol _ _ _ (hne _ _ _ hB hS)).1 rfl, (hsg _).1 rfl⟩
  · rintro ⟨o, hB, hS, hC, hg⟩
    rw [(setupBin_iff _ _ _ _ _ _).2 ⟨hB, rfl⟩]
    simp only
    rw [(setupSnap_iff _ _ _ _).2 hS]
    simp only at hC hg ⊢
    rw [(hcol _ _ _ (hne _ _ _ hB hS)).2 hC, (hsg _).2 hg]

example : setupSegmentby (.grouper (some 1) .left) none none (some (.grouper none .left)) =
      .ok ⟨.one 1, some 1, some 1, true⟩ ∧
    setupSegmentby .callable (some 1) (some 2) (some .values) = .ok ⟨.two 1 2, some 2, some 1, false⟩ ∧
    setupSegmentby .callable (some 1) none (some (.grouper (some 3) .right)) = .ok ⟨.two 1 3, some 3, some 1, true⟩ ∧
    setupSegmentby (.grouper (some 1) .left) none (some 2) none = .error .orderedOnBinOn ∧
    setupSegmentby (.grouper (some 1) .left) none none (some (.grouper none .right)) = .error .snapClosed ∧
    setupSegmentby .callable (some 1) none (some .values) = .error .noOrderedOn := by decide

/-- One combination is not refused although no ordered column is known for the snapshots: a callable binning,
no `ordered_on`, and a `TimeGrouper` without key as `snap_by`. The failure comes later, in `segmentby`, whatever
the binning returns. -/
theorem C34_snapshots_without_column_fails :
    setupSegmentby .callable (some 1) none (some (.grouper none .left)) = .ok ⟨.one 1, none, some 1, true⟩ ∧
    ∀ (R B : Type) (fn : BinFn R B) (g : Grouper) (data : List R) (buf : Option (MainBuf B)) (out : _),
      segmentby fn none (some (.grouper g)) data buf ≠ .ok out := by
  refine ⟨by decide, ?_⟩
  intro R B fn g data buf out h
  obtain ⟨_, _, o, _, _, _, _, h2, _⟩ := segmentby_snap_ok fn none _ data buf _ h
  cases h2

end Oups.Segment
