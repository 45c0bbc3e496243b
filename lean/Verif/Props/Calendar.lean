import Verif.Proofs.CalendarLaws
import Verif.Props.AggRestart
/-! `TimeGrouper`s of calendar frequency: C67. -/
set_option linter.unusedSimpArgs false

namespace Oups.Segment
open Spec Oups.Agg
variable {R : Type}

/-! ### Segmentation -/

/-- **C67** One call without buffer, for any calendar frequency: the bins between the dates, from the one given by the first
row to that of the last row. -/
theorem C67_oneshot (c : Calendar) (hc : c.Ok) (pos : R → Int) (p : List R) (hp : p ≠ []) (hs : AscOn pos p) :
    ∃ r, calendarFn c pos p none = .ok (r, none) ∧ r.closed = some c.closed ∧
      IsCalendar (c.closed == .right) c.labelRight c.off.date c.n c.day pos p
        (readBins r.starts r.labels r.ends r.unknownLast p) ∧ Partitions r p := by
  obtain ⟨x, hx⟩ : ∃ x, p.head? = some x := by
    cases p with
    | nil => exact absurd rfl hp
    | cons x l => exact ⟨x, rfl⟩
  obtain ⟨y, hy⟩ : ∃ y, p.getLast? = some y := by
    cases h' : p.getLast? with
    | none => rw [List.getLast?_eq_none_iff] at h'; exact absurd h' hp
    | some y => exact ⟨y, rfl⟩
  have hxm : (p.map pos).head? = some (pos x) := by rw [List.head?_map, hx]; rfl
  have hym : (p.map pos).getLast? = some (pos y) := by rw [List.getLast?_map, hy]; rfl
  have hfirst : firstOf (p.map pos) none = pos x := by
    cases p with
    | nil => exact absurd rfl hp
    | cons z l => simp at hx; simp [firstOf, hx]
  set G := c.off.every hc.off c.n hc.n (c.startIdx c.closed (pos x)) with hG
  have h0 := start_cell_le hc c.closed (pos x)
  have hge : ∀ r ∈ p, 0 ≤ G.cell (c.closed == .right) (pos r) := fun r hr =>
    le_trans h0 (G.cell_mono (ascOn_head_le hs hx r hr))
  obtain ⟨m, hm⟩ : ∃ m : Nat, G.cell (c.closed == .right) (pos y) = 0 + m :=
    ⟨(G.cell (c.closed == .right) (pos y)).toNat, by have := hge y (List.mem_of_getLast? hy); omega⟩
  have heq := byCalendar_eq hc none (p.map pos) none (ascOn_map hs) (pos x) (pos y) (c.startIdx c.closed (pos x)) 0 m hxm hym
    (by rw [hfirst]; simp) hm
  have hstep := G.step_ok c.closed c.labelRight pos [] p (by simpa using hs) 0 m y hy (le_refl _) (fun _ => rfl)
    (by intro z hz; simp at hz) hge hm
  have hspec : calSpec c hc c.closed pos p = G.bins (c.closed == .right) c.labelRight pos p := by rw [calSpec, hx]
  refine ⟨_, by rw [calendarFn, heq]; rfl, rfl, ?_, hstep.partitions⟩
  have := hstep.glue
  rw [List.nil_append, ← hspec] at this
  have e : glue (G.bins (c.closed == .right) c.labelRight pos ([] : List R)) = fun b => b := by
    funext b; rfl
  rw [e] at this
  simp only at this
  rw [this]
  exact calSpec_isCalendar c hc c.closed pos p hs

/-- **C67** Bins along dates are unique. -/
theorem C67_unique (right lr : Bool) (date : Int → Int) (hd : ∀ i, date i < date (i + 1)) (n day : Int) (hn : 0 < n)
    (pos : R → Int) (rows : List R) (bins bins' : List (Bin R)) (h : IsCalendar right lr date n day pos rows bins)
    (h' : IsCalendar right lr date n day pos rows bins') : bins = bins' :=
  isCalendar_unique hd hn h h'

/-- **C67** Any succession of non-empty pieces of ordered rows through one buffer, with one date per bin or right-closed bins:
the bins along the dates, no call being refused. -/
theorem C67_restart (c : Calendar) (hc : c.Ok) (hr : c.n = 1 ∨ c.closed = .right) (pos : R → Int) (pieces : List (List R))
    (hne : ∀ p ∈ pieces, p ≠ []) (hs : AscOn pos pieces.flatten) :
    ∃ bins b, streamBins (calendarFn c pos) {} [] pieces = .ok (bins, b) ∧
      IsCalendar (c.closed == .right) c.labelRight c.off.date c.n c.day pos pieces.flatten bins := by
  have L := calendar_lawful c hc hr pos
  obtain ⟨b, h, _⟩ := stream_lawful L [] pieces {} hne (by simpa using hs) L.init
  rw [L.spec_nil, List.nil_append] at h
  exact ⟨_, b, h, calSpec_isCalendar c hc c.closed pos _ hs⟩

/-- **C67** In particular the bins of a single call. -/
theorem C67_restart_eq_oneshot (c : Calendar) (hc : c.Ok) (hr : c.n = 1 ∨ c.closed = .right) (pos : R → Int)
    (pieces : List (List R)) (hne : ∀ p ∈ pieces, p ≠ []) (h0 : pieces ≠ []) (hs : AscOn pos pieces.flatten) :
    ∃ r b, calendarFn c pos pieces.flatten none = .ok (r, none) ∧
      streamBins (calendarFn c pos) {} [] pieces =
        .ok (readBins r.starts r.labels r.ends r.unknownLast pieces.flatten, b) := by
  have hf : pieces.flatten ≠ [] := by
    intro hf
    cases pieces with
    | nil => exact h0 rfl
    | cons p ps => simp at hf; exact hne p (by simp) hf.1
  obtain ⟨bins, b, h1, h2⟩ := C67_restart c hc hr pos pieces hne hs
  obtain ⟨r, h3, _, h4, _⟩ := C67_oneshot c hc pos pieces.flatten hf hs
  exact ⟨r, b, h3, by rw [h1, C67_unique _ _ _ hc.off _ _ hc.n pos _ _ _ h2 h4]⟩

/-- **C67** Offsets of pandas for which this holds: first and last days of months, first days of quarters, weeks, business
days. -/
theorem C67_offsets (day : Int) (hd : 0 < day) (n : Int) (hn : 0 < n) (cl : Closed) (lr : Bool) (w : Int) :
    Calendar.Ok ⟨monthBegin day, n, cl, lr, day⟩ ∧ Calendar.Ok ⟨monthEnd day, n, cl, lr, day⟩ ∧
    Calendar.Ok ⟨quarterBegin day, n, cl, lr, day⟩ ∧ Calendar.Ok ⟨week day w, n, cl, lr, day⟩ ∧
    Calendar.Ok ⟨businessDay day, n, cl, lr, day⟩ :=
  ⟨⟨monthBegin_ok hd, fun _ => ⟨_, rfl⟩, hd, hn⟩, ⟨monthEnd_ok hd, fun _ => ⟨_, rfl⟩, hd, hn⟩,
    ⟨quarterBegin_ok hd, fun _ => ⟨_, rfl⟩, hd, hn⟩, ⟨week_ok hd w, fun _ => ⟨_, rfl⟩, hd, hn⟩,
    ⟨businessDay_ok hd, fun _ => ⟨_, rfl⟩, hd, hn⟩⟩

/-- **C67** Their dates are those of the Gregorian calendar: months begin at the midnights `day * monthDays m`, the day 0 being
1970-01-01; month ends are the last days of months; quarters begin with January, April, July, October; weeks have one date every
7 days; business days are Mondays (1970-01-05) to Fridays. -/
theorem C67_dates (day : Int) :
    monthDays 0 = 0 ∧ (∀ m, monthDays (m + 1) = monthDays m + daysIn (1970 + m / 12) (m % 12)) ∧
    (∀ m, (monthBegin day).date m = day * monthDays m) ∧
    (∀ m, (monthEnd day).date m = (monthBegin day).date (m + 1) - day) ∧
    (∀ x, (∃ q, (quarterBegin day).date q = x) ↔ ∃ m, m % 3 = 0 ∧ (monthBegin day).date m = x) ∧
    (∀ w x, (∃ i, (week day w).date i = x) ↔ ∃ d, d % 7 = w % 7 ∧ day * d = x) ∧
    (∀ x, (∃ i, (businessDay day).date i = x) ↔ ∃ d, (d - 4) % 7 < 5 ∧ day * d = x) := by
  refine ⟨by decide, monthDays_gregorian, fun m => rfl, fun m => ?_, fun x => ⟨?_, ?_⟩, fun w x => ⟨?_, ?_⟩, fun x => ⟨?_, ?_⟩⟩
  · simp only [monthEnd, monthBegin]; rw [Int.mul_sub, Int.mul_one]
  · rintro ⟨q, rfl⟩; exact ⟨3 * q, by omega, rfl⟩
  · rintro ⟨m, hm, rfl⟩
    refine ⟨m / 3, ?_⟩
    show day * monthDays (3 * (m / 3)) = _
    rw [show 3 * (m / 3) = m by omega]; rfl
  · rintro ⟨i, rfl⟩; exact ⟨7 * i + w, by omega, rfl⟩
  · rintro ⟨d, hd, rfl⟩
    refine ⟨(d - w) / 7, ?_⟩
    show day * (7 * ((d - w) / 7) + w) = _
    rw [show 7 * ((d - w) / 7) + w = d by omega]
  · rintro ⟨i, rfl⟩; exact ⟨7 * (i / 5) + i % 5 - 3, by omega, rfl⟩
  · rintro ⟨d, hd, rfl⟩
    refine ⟨5 * ((d - 4) / 7) + (d - 4) % 7 + 5, ?_⟩
    show day * (7 * ((5 * ((d - 4) / 7) + (d - 4) % 7 + 5) / 5) + (5 * ((d - 4) / 7) + (d - 4) % 7 + 5) % 5 - 3) = _
    congr 1
    omega

/-- **C67** Other offsets of pandas for which this holds: first and last days of months every `p` months (`QS`, `QE`, `YS`, `YE`, from any
month), days 1 and 15 of months, first and last business days of months. -/
theorem C67_more_offsets (day : Int) (hd : 0 < day) (n : Int) (hn : 0 < n) (cl : Closed) (lr : Bool) (p : Int) (hp : 0 < p) (k : Int) :
    Calendar.Ok ⟨monthsBegin day p k, n, cl, lr, day⟩ ∧ Calendar.Ok ⟨monthsEnd day p k, n, cl, lr, day⟩ ∧
    Calendar.Ok ⟨semiMonthBegin day, n, cl, lr, day⟩ ∧ Calendar.Ok ⟨businessMonthBegin day, n, cl, lr, day⟩ ∧
    Calendar.Ok ⟨businessMonthEnd day, n, cl, lr, day⟩ :=
  ⟨⟨monthsBegin_ok hd hp k, fun _ => ⟨_, rfl⟩, hd, hn⟩, ⟨monthsEnd_ok hd hp k, fun _ => ⟨_, rfl⟩, hd, hn⟩,
    ⟨semiMonthBegin_ok hd, fun _ => ⟨_, rfl⟩, hd, hn⟩, ⟨businessMonthBegin_ok hd, fun _ => ⟨_, rfl⟩, hd, hn⟩,
    ⟨businessMonthEnd_ok hd, fun _ => ⟨_, rfl⟩, hd, hn⟩⟩

/-- **C67** Their dates. -/
theorem C67_more_dates (day : Int) :
    (∀ p k x, (∃ i, (monthsBegin day p k).date i = x) ↔ ∃ m, m % p = k % p ∧ (monthBegin day).date m = x) ∧
    (∀ p k x, (∃ i, (monthsEnd day p k).date i = x) ↔ ∃ m, m % p = k % p ∧ (monthEnd day).date m = x) ∧
    (∀ x, (∃ i, (semiMonthBegin day).date i = x) ↔ ∃ m, (monthBegin day).date m = x ∨ (monthBegin day).date m + 14 * day = x) ∧
    (∀ m, ∃ d, (businessMonthBegin day).date m = day * d ∧ monthDays m ≤ d ∧ (d - 4) % 7 < 5 ∧
      ∀ d', monthDays m ≤ d' → d' < d → 5 ≤ (d' - 4) % 7) ∧
    (∀ m, ∃ d, (businessMonthEnd day).date m = day * d ∧ d < monthDays (m + 1) ∧ (d - 4) % 7 < 5 ∧
      ∀ d', d < d' → d' < monthDays (m + 1) → 5 ≤ (d' - 4) % 7) := by
  have hm : ∀ m p k : Int, m % p = k % p → ∃ i, p * i + k = m := by
    intro m p k h
    obtain ⟨i, hi⟩ := Int.dvd_of_emod_eq_zero (Int.emod_eq_emod_iff_emod_sub_eq_zero.1 h)
    exact ⟨i, by omega⟩
  refine ⟨fun p k x => ⟨?_, ?_⟩, fun p k x => ⟨?_, ?_⟩, fun x => ⟨?_, ?_⟩, fun m => ?_, fun m => ?_⟩
  · rintro ⟨i, rfl⟩; exact ⟨p * i + k, by rw [Int.add_comm, Int.add_mul_emod_self_left], rfl⟩
  · rintro ⟨m, h, rfl⟩
    obtain ⟨i, rfl⟩ := hm m p k h
    exact ⟨i, rfl⟩
  · rintro ⟨i, rfl⟩; exact ⟨p * i + k, by rw [Int.add_comm, Int.add_mul_emod_self_left], rfl⟩
  · rintro ⟨m, h, rfl⟩
    obtain ⟨i, rfl⟩ := hm m p k h
    exact ⟨i, rfl⟩
  · rintro ⟨i, rfl⟩
    refine ⟨i / 2, ?_⟩
    show day * monthDays (i / 2) = day * (monthDays (i / 2) + 14 * (i % 2)) ∨
      day * monthDays (i / 2) + 14 * day = day * (monthDays (i / 2) + 14 * (i % 2))
    rcases Int.emod_two_eq_zero_or_one i with h | h
    · left; rw [h]; simp
    · right; rw [h, Int.mul_add, Int.mul_comm 14 day]; rfl
  · rintro ⟨m, rfl | rfl⟩
    · refine ⟨2 * m, ?_⟩
      show day * (monthDays (2 * m / 2) + 14 * (2 * m % 2)) = day * monthDays m
      rw [show 2 * m / 2 = m by omega, show 2 * m % 2 = 0 by omega]; simp
    · refine ⟨2 * m + 1, ?_⟩
      show day * (monthDays ((2 * m + 1) / 2) + 14 * ((2 * m + 1) % 2)) = day * monthDays m + 14 * day
      rw [show (2 * m + 1) / 2 = m by omega, show (2 * m + 1) % 2 = 1 by omega, Int.mul_add, Int.mul_comm 14 day]; rfl
  · refine ⟨_, rfl, ?_⟩
    generalize monthDays m = d
    split
    · exact ⟨by omega, by omega, fun d' _ _ => by omega⟩
    · split
      · exact ⟨by omega, by omega, fun d' _ _ => by omega⟩
      · exact ⟨by omega, by omega, fun d' _ _ => by omega⟩
  · refine ⟨_, rfl, ?_⟩
    generalize monthDays (m + 1) = d
    split
    · exact ⟨by omega, by omega, fun d' _ _ => by omega⟩
    · split
      · exact ⟨by omega, by omega, fun d' _ _ => by omega⟩
      · exact ⟨by omega, by omega, fun d' _ _ => by omega⟩

/-- First days of years; 31 March, 30 June, ..; 15 January, 1 February; 2 February 1970 (Monday, the 1st being a Sunday); 30 January
1970 (Friday). -/
example : (List.range 3).map (fun i : Nat => (monthsBegin 1 12 0).date i) = [0, 365, 730] ∧
    (List.range 3).map (fun i : Nat => (monthsEnd 1 3 2).date i) = [89, 180, 272] ∧
    (List.range 3).map (fun i : Nat => (semiMonthBegin 1).date i) = [0, 14, 31] ∧
    (List.range 3).map (fun i : Nat => (businessMonthBegin 1).date i) = [0, 32, 60] ∧
    (List.range 3).map (fun i : Nat => (businessMonthEnd 1).date i) = [29, 57, 89] := by decide

/-- Two calls along business month begins, right-closed, and years. -/
example : (streamBins (calendarFn { off := businessMonthBegin 24, closed := .right, day := 24 } id) {} []
      [[24], [32 * 24], [32 * 24 + 1]]).toOption.map Prod.fst =
      some [⟨0, some 768, [24, 768]⟩, ⟨768, some 1440, [769]⟩] ∧
    (streamBins (calendarFn { off := monthsBegin 24 12 0, day := 24 } id) {} [] [[24], [8760, 9000]]).toOption.map Prod.fst =
      some [⟨0, some 8760, [24]⟩, ⟨8760, some 17520, [8760, 9000]⟩] := by decide

/-- First days of months of 1970, of March 2000 (leap year), of March 2100 (not a leap year); 1970-01-01 is a Thursday. -/
example : (List.range 13).map (fun m : Nat => monthDays m) = [0, 31, 59, 90, 120, 151, 181, 212, 243, 273, 304, 334, 365] ∧
    monthDays (30 * 12 + 2) - monthDays (30 * 12 + 1) = 29 ∧ monthDays (130 * 12 + 2) - monthDays (130 * 12 + 1) = 28 ∧
    monthDays (30 * 12 + 2) = 11017 := by decide

/-- Months, pieces with an empty bin in between; days of 24 hours. -/
example : Calendar.Ok { off := monthBegin 24, day := 24 } ∧
    (streamBins (calendarFn { off := monthBegin 24, day := 24 } id) {} [] [[5], [743, 744], [2160 + 30]]).toOption.map Prod.fst =
      some [⟨0, some 744, [5, 743]⟩, ⟨744, some 1416, [744]⟩, ⟨1416, some 2160, []⟩, ⟨2160, some 2880, [2190]⟩] :=
  ⟨(C67_offsets 24 (by decide) 1 (by decide) .left false 0).1, by decide⟩

/-- Two months per bin, right-closed: a date is at the end of its bin. -/
example : (streamBins (calendarFn { off := monthBegin 24, n := 2, closed := .right, day := 24 } id) {} []
      [[24], [744], [745, 1416], [1417]]).toOption.map Prod.fst =
      some [⟨-744, some 744, [24, 744]⟩, ⟨744, some 2160, [745, 1416, 1417]⟩] := by decide

/-- Several dates per bin, left-closed: when a call ends in the bin it started in, the next one starts from its first row,
which may be in another month than the start of the bin. The third call is refused, whereas one call on all rows is not. -/
theorem C67_several_fails : ∃ (c : Calendar) (p q r : List Int), c.Ok ∧ c.n = 2 ∧ c.closed = .left ∧
    AscOn id (p ++ q ++ r) ∧ (∃ res, calendarFn c id (p ++ q ++ r) none = .ok (res, none)) ∧
    (∃ res, streamBins (calendarFn c id) {} [] [p, q] = .ok res) ∧
    streamBins (calendarFn c id) {} [] [p, q, r] = .error .labelMismatch :=
  ⟨{ off := monthBegin 24, n := 2, day := 24 }, [24], [750], [800], (C67_offsets 24 (by decide) 2 (by decide) .left false 0).1,
    rfl, rfl, by decide, ⟨_, rfl⟩, ⟨_, rfl⟩, by decide⟩

/-- Last days of months, right-closed, labels at the right, which are the defaults of pandas for `ME`: edges are midnights,
hence rows of the last day of January (here at 10:00) are aggregated with those of February; and the bin of January is
returned, empty. (`resample` of pandas moves these edges to the end of the day; `by_scale` does not.) -/
theorem C67_month_end_fails :
    ∃ r, calendarFn { off := monthEnd 24, closed := .right, labelRight := true, day := 24 } id [30 * 24 + 10, 45 * 24] none =
        .ok (r, none) ∧
      readBins r.starts r.labels r.ends r.unknownLast [30 * 24 + 10, 45 * 24] =
        [⟨30 * 24, some (30 * 24), []⟩, ⟨58 * 24, some (58 * 24), [(30 * 24 + 10 : Int), 45 * 24]⟩] :=
  ⟨_, rfl, by decide⟩

end Oups.Segment

namespace Oups.Agg
open Oups.Segment Spec Oups.Segment.Spec

section
variable {R D V : Type} [DecidableEq D] (O : D → Ops V) (get : R → Nat → V)

/-- **C67** Aggregation in bins along dates: results of successive calls of `cumsegagg` are those of one call, with those
of the rows of each bin. -/
theorem C67_stream (c : Calendar) (hc : c.Ok) (hr : c.n = 1 ∨ c.closed = .right) (pos : R → Int)
    (ordered : Option (R → Int)) (dtype : Nat → Option D) (agg : List (Nat × Nat × Option Fn)) (cfg : List (D × Group))
    (h : setupCumsegagg agg dtype = .ok cfg) (hout : (agg.map Prod.fst).Nodup) (z : List (List V) → Bool)
    (pieces : List (List R)) (hne : pieces.flatten ≠ []) (hs : AscOn pos pieces.flatten)
    (ho : ∀ o, ordered = some o → AscOn o pieces.flatten) :
    ∃ bins stream b one, IsCalendar (c.closed == .right) c.labelRight c.off.date c.n c.day pos pieces.flatten bins ∧
      streamAgg (frameCall O get cfg z (calendarFn c pos) ordered none false) ⟨[], none⟩ (some (Buf.init {})) pieces =
        .ok (stream, b) ∧
      frameCall O get cfg z (calendarFn c pos) ordered none false pieces.flatten none = .ok (some one, none) ∧
      HasBins O get dtype agg cfg bins stream.bins ∧ HasBins O get dtype agg cfg bins one.bins := by
  have L := calendar_lawful c hc hr pos
  obtain ⟨stream, b, h1, _, h2⟩ := frame_stream_bins O get L (cfgOk_of h) hout z ordered pieces hs ho
    (fun q _ => strictLabels_ok (calSpec_strict c hc c.closed pos _))
  obtain ⟨one, h3, _, h4⟩ := frame_oneshot_bins O get L (cfgOk_of h) hout z ordered pieces.flatten hne hs ho
    (fun q _ => strictLabels_ok (calSpec_strict c hc c.closed pos _))
  exact ⟨_, stream, b, one, calSpec_isCalendar c hc c.closed pos _ hs, h1, h3, h2, h4⟩

/-- **C67** With snapshots along other dates (`gs` takes the closure of the bins): same, for bins and snapshots. -/
theorem C67_snapshots (c : Calendar) (hc : c.Ok) (hr : c.n = 1 ∨ c.closed = .right) (gs : Calendar) (hgs : gs.Ok)
    (hrs : gs.n = 1 ∨ c.closed = .right) (pos : R → Int)
    (dtype : Nat → Option D) (agg : List (Nat × Nat × Option Fn)) (cfg : List (D × Group))
    (h : setupCumsegagg agg dtype = .ok cfg) (hout : (agg.map Prod.fst).Nodup) (z : List (List V) → Bool)
    (pieces : List (List R)) (hne : pieces.flatten ≠ []) (hs : AscOn pos pieces.flatten) :
    ∃ bins pts stream b one, IsCalendar (c.closed == .right) c.labelRight c.off.date c.n c.day pos pieces.flatten bins ∧
      (∃ sbins : List (Bin R),
        IsCalendar (c.closed == .right) gs.labelRight gs.off.date gs.n gs.day pos pieces.flatten sbins ∧
        pts.map (fun q => (q.1, some q.2)) = sbins.map fun b => (b.label, b.stop)) ∧
      streamAgg (frameCall O get cfg z (calendarFn c pos) (some pos) (some (.calendar gs)) false) ⟨[], none⟩
        (some (Buf.init {})) pieces = .ok (stream, b) ∧
      frameCall O get cfg z (calendarFn c pos) (some pos) (some (.calendar gs)) false pieces.flatten none =
        .ok (some one, none) ∧
      HasBins O get dtype agg cfg bins stream.bins ∧ HasBins O get dtype agg cfg bins one.bins ∧
      HasSnaps O get dtype agg cfg (c.closed == .right) pos bins pts (stream.snaps.getD []) ∧
      HasSnaps O get dtype agg cfg (c.closed == .right) pos bins pts (one.snaps.getD []) ∧
      stream.snaps.isSome ∧ one.snaps.isSome := by
  have L := calendar_lawful c hc hr pos
  have SL := calendar_snaps gs hgs c.closed hrs pos
  obtain ⟨stream, b, h1, h2, h3, h4⟩ := frame_stream_snaps O get L (cfgOk_of h) hout z SL pieces hs
    (fun q _ => strictLabels_ok (calSpec_strict c hc c.closed pos _)) (fun q _ => calSpec_sep c hc c.closed pos _)
  obtain ⟨one, g1, g2, g3, g4⟩ := frame_oneshot_snaps O get L (cfgOk_of h) hout z SL pieces.flatten hne hs
    (fun q _ => strictLabels_ok (calSpec_strict c hc c.closed pos _)) (fun q _ => calSpec_sep c hc c.closed pos _)
  refine ⟨_, _, stream, b, one, calSpec_isCalendar c hc c.closed pos _ hs,
    ⟨_, calSpec_isCalendar gs hgs c.closed pos _ hs, ?_⟩, h1, g1, h2, g2, h3, g3, h4 hne, g4⟩
  unfold calPts
  rw [List.map_map]
  apply List.map_congr_left
  intro x hx
  simp only [Function.comp, Prod.mk.injEq, true_and]
  unfold calSpec at hx
  split at hx
  · unfold Grid.bins at hx
    split at hx
    · obtain ⟨c, _, _, hst, _⟩ := mem_spanBins hx
      rw [hst]; rfl
    · simp at hx
  · simp at hx

/-- **C67** With snapshots of a fixed frequency, for instance every hour of monthly bins. -/
theorem C67_fixed_snapshots (c : Calendar) (hc : c.Ok) (hr : c.n = 1 ∨ c.closed = .right) (gs : Grouper) (hgs : Fixed gs)
    (pos : R → Int) (dtype : Nat → Option D) (agg : List (Nat × Nat × Option Fn)) (cfg : List (D × Group))
    (h : setupCumsegagg agg dtype = .ok cfg) (hout : (agg.map Prod.fst).Nodup) (z : List (List V) → Bool)
    (pieces : List (List R)) (hne : pieces.flatten ≠ []) (hs : AscOn pos pieces.flatten) :
    ∃ bins pts stream b one, IsCalendar (c.closed == .right) c.labelRight c.off.date c.n c.day pos pieces.flatten bins ∧
      (∃ sbins : List (Bin R), IsGrid (c.closed == .right) gs.labelRight gs.origin0 gs.freq pos pieces.flatten sbins ∧
        pts.map (fun q => (q.1, some q.2)) = sbins.map fun b => (b.label, b.stop)) ∧
      streamAgg (frameCall O get cfg z (calendarFn c pos) (some pos) (some (.grouper gs)) false) ⟨[], none⟩
        (some (Buf.init {})) pieces = .ok (stream, b) ∧
      frameCall O get cfg z (calendarFn c pos) (some pos) (some (.grouper gs)) false pieces.flatten none =
        .ok (some one, none) ∧
      HasBins O get dtype agg cfg bins stream.bins ∧ HasBins O get dtype agg cfg bins one.bins ∧
      HasSnaps O get dtype agg cfg (c.closed == .right) pos bins pts (stream.snaps.getD []) ∧
      HasSnaps O get dtype agg cfg (c.closed == .right) pos bins pts (one.snaps.getD []) ∧
      stream.snaps.isSome ∧ one.snaps.isSome := by
  have L := calendar_lawful c hc hr pos
  have SL := grouper_snaps gs gs.origin0 hgs.anchored c.closed pos
  obtain ⟨stream, b, h1, h2, h3, h4⟩ := frame_stream_snaps O get L (cfgOk_of h) hout z SL pieces hs
    (fun q _ => strictLabels_ok (calSpec_strict c hc c.closed pos _)) (fun q _ => calSpec_sep c hc c.closed pos _)
  obtain ⟨one, g1, g2, g3, g4⟩ := frame_oneshot_snaps O get L (cfgOk_of h) hout z SL pieces.flatten hne hs
    (fun q _ => strictLabels_ok (calSpec_strict c hc c.closed pos _)) (fun q _ => calSpec_sep c hc c.closed pos _)
  refine ⟨_, _, stream, b, one, calSpec_isCalendar c hc c.closed pos _ hs,
    ⟨_, gridSpec_isGrid _ _ _ _ _ _ hgs.1 hs, ?_⟩, h1, g1, h2, g2, h3, g3, h4 hne, g4⟩
  unfold gridPts
  rw [List.map_map]
  apply List.map_congr_left
  intro x hx
  simp only [Function.comp, Prod.mk.injEq, true_and]
  unfold gridSpec at hx
  split at hx
  · obtain ⟨c, _, _, hst, _⟩ := mem_gridBins hx
    rw [hst]; rfl
  · simp at hx

/-- Sums per month, snapshots every week (of Thursdays). -/
example : ((streamAgg (frameCall (fun _ => intOps) ex_get ex_cfg (fun _ => false)
      (calendarFn { off := monthBegin 24, day := 24 } Prod.fst) (some Prod.fst) (some (.calendar { off := week 24 0, day := 24 }))
      false) ⟨[], none⟩ (some (Buf.init {})) [[(650, 1)], [(700, 2), (743, 4)], [(744, 8), (750, 16)]]).toOption.map
        (fun r => (column ex_cfg 0 r.1.bins, r.1.snaps.map (column ex_cfg 0)))) =
    some ([(0, some 7), (744, some 24)], some [(504, some 1), (672, some 24)]) := by decide

end

end Oups.Agg

namespace Oups.AggStream
open Oups.Agg Oups.Agg.Spec Oups.Segment Oups.Segment.Spec
open Oups.Writer (Table Params RG Col DupOn dupCols readRows StrictOn)

section
variable {K R B D V S P Q F : Type} [DecidableEq K] [DecidableEq F] [DecidableEq D]
variable (O : D → Ops V) (get : R → Nat → V) {dtype : Nat → Option D} {agg : List (Nat × Nat × Option Fn)}
  {gc : List (D × Group)} (z : List (List V) → Bool)
variable {c : Config K R (List (List V)) S P Q F} {i : Nat} {f : F} {cfg : KeyCfg K R (List (List V)) S Q}
  {gB gS : Row (List (List V)) → Row (List (List V))} {on : Col} {d : DupOn}
  {s s' : State (List (List V)) S P Q} {w w' : World K (List (List V)) (Md S P Q)} {q0 : Q} {as : List (Call R)} {a : Call R}

/-- **C67** Key with a `TimeGrouper` of calendar frequency: what is stored is what `cumsegagg` returns on all rows at once. -/
theorem C67_stored (hk : Apart c.keys) (hi : c.keys[i]? = some (f, cfg))
    (hagg : setupCumsegagg agg dtype = .ok gc) (g : Calendar) (hg : g.Ok) (hr : g.n = 1 ∨ g.closed = .right) (pos : R → Int)
    (ordered : Option (R → Int)) {emb : Buf ScaleBuf (List (List V)) → S}
    {e0 : Bool} (hcall : Embeds emb (inPlace (frameCall O get gc z (calendarFn g pos) ordered none e0)) cfg.call)
    (hres : cfg.resType = .bins) (hpost : PostRow cfg gB gS) (hw : WriteOk cfg.table cfg.params on d)
    (hT : ByLabel cfg.table on d gB) (hl : s.bufs.length = c.keys.length)
    (hb : s.bufs[i]? = some { seg := emb (Buf.init {}), post := q0 }) (hm : (w cfg.main).rgs = [])
    (ha : a.finalWrite = true) (hne : received c f (as ++ [a]) s.restart s.pre ≠ [])
    (hasc : AscOn pos (received c f (as ++ [a]) s.restart s.pre))
    (ho : ∀ o, ordered = some o → AscOn o (received c f (as ++ [a]) s.restart s.pre))
    (h : aggs c (as ++ [a]) s w = .ok (s', w')) :
    ∃ one, frameCall O get gc z (calendarFn g pos) ordered none false (received c f (as ++ [a]) s.restart s.pre) none =
        .ok (some one, none) ∧ readRows (w' cfg.main).rgs = one.bins.map gB := by
  have hc := cfgOk_of hagg
  have hL := calendar_lawful g hg hr pos
  have hst := calSpec_strict g hg g.closed pos (received c f (as ++ [a]) s.restart s.pre)
  obtain ⟨one, h1, h2, _⟩ := frame_once_bins O get hc z hL ordered hne hasc ho (strictLabels_ok hst)
  have hKL := keyLaws_bins O get hc z hL (ordered := ordered) hcall hres hpost hw hT
  have hms : (w cfg.snapKey).rgs = [] := by simpa [KeyCfg.snapKey, hres] using hm
  obtain ⟨e1, _⟩ := C48_stored hk hi hKL hl hb ⟨_, rfl, frameOk_init O get trivial hL⟩ hm hms ha
    (binsValid_of hL hasc ho hst) h
  exact ⟨one, h1, by rw [e1 (by simp [hres]), h2]⟩

theorem calPts_prefix (gs : Calendar) (hgs : gs.Ok) (cl : Closed) (hr : gs.n = 1 ∨ cl = .right) (pos : R → Int) (h p : List R)
    (hs : AscOn pos (h ++ p)) :
    (calPts gs hgs cl pos h).map Prod.fst <+: (calPts gs hgs cl pos (h ++ p)).map Prod.fst := by
  rw [calPts_fst, calPts_fst]
  have hgs' : Calendar.Ok { gs with closed := cl } := ⟨hgs.off, hgs.midnight, hgs.day, hgs.n⟩
  exact (calendar_lawful { gs with closed := cl } hgs' hr pos).labels_prefix h p hs

theorem calPts_ne (gs : Calendar) (hgs : gs.Ok) (cl : Closed) (hr : gs.n = 1 ∨ cl = .right) (pos : R → Int) (h : List R)
    (hne : h ≠ []) (hs : AscOn pos h) : calPts gs hgs cl pos h ≠ [] := by
  have hgs' : Calendar.Ok { gs with closed := cl } := ⟨hgs.off, hgs.midnight, hgs.day, hgs.n⟩
  have : calSpec gs hgs cl pos h ≠ [] := (calendar_lawful { gs with closed := cl } hgs' hr pos).spec_ne hne hs
  simpa [calPts] using this

/-- **C67** Key with snapshots along dates, bins along other ones: what is stored for snapshots, and for bins with a pair of
keys, is what `cumsegagg` returns on all rows at once. -/
theorem C67_stored_snapshots (hk : Apart c.keys) (hi : c.keys[i]? = some (f, cfg))
    (hagg : setupCumsegagg agg dtype = .ok gc) (g : Calendar) (hg : g.Ok) (hr : g.n = 1 ∨ g.closed = .right) (gs : Calendar)
    (hgs : gs.Ok) (hrs : gs.n = 1 ∨ g.closed = .right) (pos : R → Int)
    {emb : Buf ScaleBuf (List (List V)) → S}
    {e0 : Bool}
    (hcall : Embeds emb (inPlace (frameCall O get gc z (calendarFn g pos) (some pos) (some (.calendar gs)) e0)) cfg.call)
    (hres : cfg.resType ≠ .bins) (hd : cfg.resType = .both → cfg.main ≠ cfg.snap) (hpost : PostRow cfg gB gS)
    (hw : WriteOk cfg.table cfg.params on d) (hws : cfg.resType = .both → WriteOk cfg.table cfg.snapParams on d)
    (hT : cfg.resType = .both → ByLabel cfg.table on d gB) (hTs : ByLabel cfg.table on d gS)
    (hl : s.bufs.length = c.keys.length)
    (hb : s.bufs[i]? = some { seg := emb (Buf.init {}), post := q0 }) (hm : (w cfg.main).rgs = [])
    (hms : cfg.resType = .both → (w cfg.snap).rgs = [])
    (ha : a.finalWrite = true) (hne : received c f (as ++ [a]) s.restart s.pre ≠ [])
    (hasc : AscOn pos (received c f (as ++ [a]) s.restart s.pre))
    (h : aggs c (as ++ [a]) s w = .ok (s', w')) :
    ∃ one sns, frameCall O get gc z (calendarFn g pos) (some pos) (some (.calendar gs)) false
        (received c f (as ++ [a]) s.restart s.pre) none = .ok (some one, none) ∧ one.snaps = some sns ∧
      (cfg.resType = .snaps → readRows (w' cfg.main).rgs = sns.map gS) ∧
      (cfg.resType = .both → readRows (w' cfg.main).rgs = one.bins.map gB ∧ readRows (w' cfg.snap).rgs = sns.map gS) := by
  have hc := cfgOk_of hagg
  have hL := calendar_lawful g hg hr pos
  have hSL := calendar_snaps gs hgs g.closed hrs pos
  have hst : ∀ q, StrictLabels (calSpec g hg g.closed pos q) := fun q => calSpec_strict g hg g.closed pos q
  obtain ⟨one, sns, h1, h2, h3, h4⟩ := frame_once_snaps O get hc z hL hSL hne hasc (strictLabels_ok (hst _))
    (calSpec_sep g hg g.closed pos _)
  have hKL := keyLaws_snaps O get hc z hL hSL (calPts_prefix gs hgs g.closed hrs pos) (calPts_ne gs hgs g.closed hrs pos)
    hcall hres hd hpost hw hws hT hTs
  have hms' : (w cfg.snapKey).rgs = [] := by
    unfold KeyCfg.snapKey
    split
    · rename_i h; exact hms h
    · exact hm
  obtain ⟨e1, e2⟩ := C48_stored hk hi hKL hl hb ⟨_, rfl, frameOk_init O get hSL.init hL⟩ hm hms' ha
    ⟨hasc, fun q _ => ⟨strictLabels_ok (hst q), calSpec_sep g hg g.closed pos _, fun _ => hst q, by
      rw [calPts_fst]; exact calSpec_strict gs hgs g.closed pos _⟩⟩ h
  refine ⟨one, sns, h1, h3, fun hr => ?_, fun hr => ?_⟩
  · have := e2 hres _ rfl
    rw [show cfg.snapKey = cfg.main by simp [KeyCfg.snapKey, hr]] at this
    rw [this, h4]
  · have := e2 hres _ rfl
    rw [show cfg.snapKey = cfg.snap by simp [KeyCfg.snapKey, hr]] at this
    rw [this, h4, e1 (by simp [hr]), h2]
    exact ⟨rfl, rfl⟩

/-- **C67** After a crash in call `a2` and a replay: same. -/
theorem C67_replayed (hk : Apart c.keys) (hi : c.keys[i]? = some (f, cfg))
    (hagg : setupCumsegagg agg dtype = .ok gc) (g : Calendar) (hg : g.Ok) (hr : g.n = 1 ∨ g.closed = .right) (pos : R → Int)
    (ordered : Option (R → Int)) {emb : Buf ScaleBuf (List (List V)) → S}
    {e0 : Bool} (hcall : Embeds emb (inPlace (frameCall O get gc z (calendarFn g pos) ordered none e0)) cfg.call)
    (hres : cfg.resType = .bins) (hpost : PostRow cfg gB gS) (hw : WriteOk cfg.table cfg.params on d)
    (hT : ByLabel cfg.table on d gB) {s'' : State (List (List V)) S P Q}
    {wc w'' : World K (List (List V)) (Md S P Q)} (hl : s.bufs.length = c.keys.length)
    (hb : s.bufs[i]? = some { seg := emb (Buf.init {}), post := q0 }) (hm : (w cfg.main).rgs = [])
    (ha : a.finalWrite = true) (h : aggs c (as ++ [a]) s w = .ok (s', w'))
    {a2 : Call R} (hc : Crash c a2 s' w' wc) (hsafe : KeySafe cfg w') {rows : List R}
    (hrows : rows = received c f (as ++ [a]) s.restart s.pre ++
      received c f [{ a2 with finalWrite := true }] s'.restart s'.pre)
    (hne : rows ≠ []) (hasc : AscOn pos rows) (ho : ∀ o, ordered = some o → AscOn o rows)
    (h3 : aggs c [{ a2 with finalWrite := true }] s' wc = .ok (s'', w'')) :
    ∃ one, frameCall O get gc z (calendarFn g pos) ordered none false rows none = .ok (some one, none) ∧
      readRows (w'' cfg.main).rgs = one.bins.map gB := by
  have hcf := cfgOk_of hagg
  have hL := calendar_lawful g hg hr pos
  have hst := calSpec_strict g hg g.closed pos rows
  obtain ⟨one, h1, h2, _⟩ := frame_once_bins O get hcf z hL ordered hne hasc ho (strictLabels_ok hst)
  have hKL := keyLaws_bins O get hcf z hL (ordered := ordered) hcall hres hpost hw hT
  have hms : (w cfg.snapKey).rgs = [] := by simpa [KeyCfg.snapKey, hres] using hm
  subst hrows
  obtain ⟨e1, _⟩ := C50_replayed hk hi hKL hl hb ⟨_, rfl, frameOk_init O get trivial hL⟩ hm hms ha h hc hsafe
    (as3 := []) (a3 := { a2 with finalWrite := true }) rfl
    (binsValid_of hL hasc ho hst) (by rw [List.nil_append, C50_again]; exact List.prefix_refl _) h3
  exact ⟨one, h1, by rw [e1 (by simp [hres]), h2]; rfl⟩

end

/-- Key with bins of months. -/
def exMonths (maxSize : Nat) : KeyCfg Nat (Int × Int) (List (List Int)) (Buf ScaleBuf (List (List Int))) Unit :=
  { exKey 1 maxSize with
    call := inPlace (frameCall (fun _ => intOps) ex_get ex_cfg exZ (calendarFn { off := monthBegin 24, day := 24 } Prod.fst)
      none none true) }

-- January, February (no rows) and March of 1970, in two calls
example : exStored 1 (aggs (exConf [(0, exMonths 0)])
      [⟨[[(5, 1), (700, 2)], [(743, 4)]], false, false, true⟩, ⟨[[(1416, 8)], [(2000, 16)]], false, false, true⟩]
      (exState 1 (Buf.init {})) exWorld) =
    some [[(0, some [[7, 4]]), (744, none), (1416, some [[24, 16]])]] := by decide +kernel

-- hypotheses of `C67_stored` hold for this key
example : Apart (exConf [(0, exMonths 1)]).keys ∧ Calendar.Ok { off := monthBegin 24, day := 24 } ∧
    Embeds id (inPlace (frameCall (fun _ => intOps) ex_get ex_cfg exZ (calendarFn { off := monthBegin 24, day := 24 } Prod.fst)
      none none true)) (exMonths 1).call ∧
    PostRow (exMonths 1) id id ∧ WriteOk (exMonths 1).table (exMonths 1).params 0 (.one 0) := by
  refine ⟨by simp [Apart, exConf], (C67_offsets 24 (by decide) 1 (by decide) .left false 0).1, fun p b => ?_, ⟨rfl, rfl⟩,
    ⟨rfl, rfl, by decide, by decide⟩⟩
  simp only [exMonths, id]
  cases inPlace (frameCall (fun _ => intOps) ex_get ex_cfg exZ (calendarFn { off := monthBegin 24, day := 24 } Prod.fst)
      none none true) p b <;> rfl

end Oups.AggStream
