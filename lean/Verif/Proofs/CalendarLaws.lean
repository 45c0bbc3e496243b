import Verif.Proofs.AggLaw
import Verif.Proofs.Calendar
import Verif.Model.Calendar
/-! Bins along dates are separated, their labels in strict order; snapshots along dates; offsets of pandas. -/
set_option linter.unusedSimpArgs false
namespace Oups.Agg
open Oups.Segment Oups.Segment.Spec Spec

variable {R : Type}

section
variable (G : Grid)

theorem spanBins_succ (right lr : Bool) (e : Int → Int) (c0 : Int) (n : Nat) (pos : R → Int) (rows : List R) :
    spanBins right lr e c0 (n + 1) pos rows =
      ⟨if lr then e (c0 + 1) else e c0, some (e (c0 + 1)),
        rows.filter (fun r => decide (InSpan right e c0 (pos r)))⟩ :: spanBins right lr e (c0 + 1) n pos rows := by
  unfold spanBins
  rw [List.range_succ_eq_map, List.map_cons, List.map_map]
  congr 1
  · simp
  · apply List.map_congr_left
    intro i _
    have : c0 + ((i + 1 : Nat) : Int) = c0 + 1 + (i : Int) := by push_cast; omega
    simp only [Function.comp, Nat.succ_eq_add_one, this]

theorem mem_spanBins {right lr : Bool} {e : Int → Int} {c0 : Int} {n : Nat} {pos : R → Int} {rows : List R} {b : Bin R}
    (h : b ∈ spanBins right lr e c0 n pos rows) :
    ∃ c, c0 ≤ c ∧ c < c0 + n ∧ b.stop = some (e (c + 1)) ∧ b.label = (if lr then e (c + 1) else e c) ∧
      ∀ r ∈ b.rows, InSpan right e c (pos r) := by
  obtain ⟨i, hi, rfl⟩ := List.mem_map.1 h
  rw [List.mem_range] at hi
  refine ⟨c0 + i, by omega, by omega, rfl, rfl, ?_⟩
  intro r hr
  simpa using (List.mem_filter.1 hr).2

theorem spanBins_sep (right lr : Bool) (c0 : Int) (n : Nat) (pos : R → Int) (rows : List R) :
    Separated right pos (spanBins right lr G.e c0 n pos rows) := by
  induction n generalizing c0 with
  | zero => trivial
  | succ n ih =>
    rw [spanBins_succ]
    refine separated_cons.2 ⟨⟨by simp, ?_⟩, ih (c0 + 1)⟩
    intro e he
    simp only [Option.some.injEq] at he
    subst he
    constructor
    · intro r hr
      have := (List.mem_filter.1 hr).2
      simp only [decide_eq_true_eq] at this
      unfold InSpan at this
      split at this <;> omega
    · intro b hb
      obtain ⟨c, h1, _, h3, _, h5⟩ := mem_spanBins hb
      constructor
      · intro r hr
        rw [G.within_end]
        have := G.inSpan_iff.1 (h5 r hr)
        simp; omega
      · intro e' he'
        rw [h3] at he'
        simp only [Option.some.injEq] at he'
        have := G.strict (show c0 + 1 < c + 1 by omega)
        omega

theorem spanBins_strict (right lr : Bool) (c0 : Int) (n : Nat) (pos : R → Int) (rows : List R) :
    StrictLabels (spanBins right lr G.e c0 n pos rows) := by
  unfold StrictLabels spanBins
  rw [List.map_map, List.pairwise_map]
  refine List.Pairwise.imp ?_ List.pairwise_lt_range
  intro i j hij
  simp only [Function.comp]
  split <;> exact G.strict (by omega)

end

theorem calSpec_sep (c : Calendar) (hc : c.Ok) (closed : Closed) (pos : R → Int) (rows : List R) :
    Separated (closed == .right) pos (calSpec c hc closed pos rows) := by
  unfold calSpec
  split
  · unfold Grid.bins
    split
    · exact spanBins_sep _ _ _ _ _ _ _
    · trivial
  · trivial

theorem calSpec_strict (c : Calendar) (hc : c.Ok) (closed : Closed) (pos : R → Int) (rows : List R) :
    StrictLabels (calSpec c hc closed pos rows) := by
  unfold calSpec
  split
  · unfold Grid.bins
    split
    · exact spanBins_strict _ _ _ _ _ _ _
    · exact List.Pairwise.nil
  · exact List.Pairwise.nil

theorem calSpec_isCalendar (c : Calendar) (hc : c.Ok) (closed : Closed) (pos : R → Int) (rows : List R)
    (hs : AscOn pos rows) :
    IsCalendar (closed == .right) c.labelRight c.off.date c.n c.day pos rows (calSpec c hc closed pos rows) := by
  unfold IsCalendar calSpec Grid.bins
  cases hx : rows.head? with
  | none => rfl
  | some x =>
    cases hy : rows.getLast? with
    | none => rfl
    | some y =>
      have h0 := start_cell_le hc closed (pos x)
      have h1 := (c.off.every hc.off c.n hc.n (c.startIdx closed (pos x))).cell_mono (right := closed == .right)
        (ascOn_head_le hs hx y (List.mem_of_getLast? hy))
      refine ⟨c.startIdx closed (pos x), ((c.off.every hc.off c.n hc.n (c.startIdx closed (pos x))).cell (closed == .right)
        (pos y)).toNat, startIdx_first hc closed (pos x), ?_, ?_⟩
      · have := (c.off.every hc.off c.n hc.n (c.startIdx closed (pos x))).in_cell (closed == .right) (pos y)
        rw [show (((c.off.every hc.off c.n hc.n (c.startIdx closed (pos x))).cell (closed == .right) (pos y)).toNat : Int) =
          (c.off.every hc.off c.n hc.n (c.startIdx closed (pos x))).cell (closed == .right) (pos y) by omega]
        exact this
      · simp only
        rw [show ((c.off.every hc.off c.n hc.n (c.startIdx closed (pos x))).cell (closed == .right) (pos y) + 1).toNat =
          ((c.off.every hc.off c.n hc.n (c.startIdx closed (pos x))).cell (closed == .right) (pos y)).toNat + 1 by omega]
        rfl

/-- The bins are determined by the dates. -/
theorem isCalendar_unique {right lr : Bool} {date : Int → Int} {n day : Int} {pos : R → Int} {rows : List R}
    (hd : ∀ i, date i < date (i + 1)) (hn : 0 < n) {bins bins' : List (Bin R)}
    (h : IsCalendar right lr date n day pos rows bins) (h' : IsCalendar right lr date n day pos rows bins') : bins = bins' := by
  unfold IsCalendar at h h'
  cases hx : rows.head? with
  | none => rw [hx] at h h'; rw [h, h']
  | some x =>
    cases hy : rows.getLast? with
    | none => rw [hx, hy] at h h'; rw [h, h']
    | some y =>
      rw [hx, hy] at h h'
      obtain ⟨i, m, h1, h2, rfl⟩ := h
      obtain ⟨j, m', h1', h2', rfl⟩ := h'
      cases firstDate_unique hd h1 h1'
      have ho : (⟨date, fun _ => 0⟩ : Offset).Ok := hd
      have e1 := ((⟨date, fun _ => 0⟩ : Offset).every ho n hn i).inSpan_iff (right := right) (c := m) (x := pos y) |>.1 h2
      have e2 := ((⟨date, fun _ => 0⟩ : Offset).every ho n hn i).inSpan_iff (right := right) (c := m') (x := pos y) |>.1 h2'
      rw [show m = m' by omega]

/-! ### Snapshots -/

/-- Labels and positions of the snapshots of a frame along dates. -/
def calPts (c : Calendar) (hc : c.Ok) (closed : Closed) (pos : R → Int) (rows : List R) : List (Int × Int) :=
  (calSpec c hc closed pos rows).map fun b => (b.label, b.stop.getD 0)

theorem calPts_fst (c : Calendar) (hc : c.Ok) (closed : Closed) (pos : R → Int) (rows : List R) :
    (calPts c hc closed pos rows).map Prod.fst = (calSpec c hc closed pos rows).map Bin.label := by
  unfold calPts
  rw [List.map_map]; rfl

theorem calendar_snaps (g : Calendar) (hg : g.Ok) (c : Closed) (hr : g.Restarts c) (pos : R → Int) :
    SnapLaw (.calendar g) c pos (calPts g hg c pos) (calOk g hg c pos) where
  pts_nil := rfl
  init := rfl
  step := by
    intro h p b hp hs hok
    obtain ⟨s, b', h1, _, h3, h4, h5, ⟨i, c0, n, hi, h00, hnil, hg1, hg2, hg4, hg5⟩, h6⟩ :=
      calendar_step hg (some c) hr pos h p b hp hs hok
    simp only [Option.getD_some] at *
    generalize hG : g.off.every hg.off g.n hg.n i = G at *
    have hends : ∀ e ∈ s.ends, ∃ i : Nat, i < n + 1 ∧ e = G.e (c0 + i + 1) := by
      intro e he
      rw [hg1] at he
      obtain ⟨i, hi, rfl⟩ := List.mem_map.1 he
      exact ⟨i, List.mem_range.1 hi, rfl⟩
    refine ⟨s, b', by rw [runSnaps, h1], h3, ?_⟩
    constructor
    · rw [hg1]; simp [Grid.seg]
    · rw [hg1]; simp [Grid.seg]
    · rw [hg1]; exact G.asc_ends c0 (n + 1)
    · rw [hg1]; simp only [Grid.seg, List.map_map]; rfl
    · have hgl := h6.glue
      have hlab := readBins_labels (u := s.toRes.unknownLast) (rows := p) h6.labels_len h6.ends_len h6.ne
      have hst := readBins_stops (u := s.toRes.unknownLast) (rows := p) h6.labels_len h6.ends_len h6.ne
      have hu : s.toRes.unknownLast = false := h5
      rw [hu] at hgl hlab hst
      have hloc : (readBins s.toRes.starts s.toRes.labels s.toRes.ends false p).map
          (fun b => (b.label, b.stop.getD 0)) = s.labels.zip s.ends := by
        have e1 : s.ends = (readBins s.toRes.starts s.toRes.labels s.toRes.ends false p).map
            (fun b => b.stop.getD 0) := by
          rw [show (fun b : Bin R => b.stop.getD 0) = (fun o : Option Int => o.getD 0) ∘ Bin.stop from rfl,
            ← List.map_map, hst]
          simp [stops, Seg.toRes]
        have e2 : s.labels = (readBins s.toRes.starts s.toRes.labels s.toRes.ends false p).map Bin.label :=
          hlab.symm
        rw [e1, e2, List.zip_map']
      unfold calPts
      rw [← hgl, ← hloc]
      cases hA : (calSpec g hg c pos h).getLast? with
      | none =>
        rw [List.getLast?_eq_none_iff] at hA
        rw [hA]; rfl
      | some l =>
        cases hb : readBins s.toRes.starts s.toRes.labels s.toRes.ends false p with
        | nil =>
          rw [hb] at hlab
          have := congrArg List.length hlab
          rw [h6.labels_len] at this
          have := List.length_pos_iff.2 h6.ne
          simp at *; omega
        | cons x t =>
          have hgl' : glue (calSpec g hg c pos h) (x :: t) =
              (calSpec g hg c pos h).dropLast ++ ⟨x.label, x.stop, l.rows ++ x.rows⟩ :: t := by
            unfold glue; rw [hA]
          rw [hgl', List.map_append, List.map_dropLast]
          rfl
    · rw [hg1]
      simp only [Grid.seg]
      refine List.Nodup.map_on ?_ List.nodup_range
      intro i _ j _ hij
      by_contra hne
      rcases Nat.lt_or_gt_of_ne hne with hlt | hlt
      · have h1 := G.strict (show c0 + (i : Int) < c0 + j by omega)
        have h2 := G.strict (show c0 + (i : Int) + 1 < c0 + j + 1 by omega)
        split at hij <;> omega
      · have h1 := G.strict (show c0 + (j : Int) < c0 + i by omega)
        have h2 := G.strict (show c0 + (j : Int) + 1 < c0 + i + 1 by omega)
        split at hij <;> omega
    · intro e he r hr
      obtain ⟨i, _, rfl⟩ := hends e he
      rw [G.within_end]
      have hne : h ≠ [] := by rintro rfl; simp at hr
      obtain ⟨y, hy⟩ := getLast?_of_ne hne
      have h7 := ascOn_le_last (hs.sublist (List.sublist_append_left _ _)) hy r hr
      have h8 := G.cell_mono (right := c == .right) h7
      rw [hg5 y hy] at h8
      simp; omega
    · intro q hq y hy
      unfold calPts at hq
      rw [← List.map_dropLast] at hq
      obtain ⟨b, hb, rfl⟩ := List.mem_map.1 hq
      have hne : h ≠ [] := by rintro rfl; simp at hy
      obtain ⟨x, hx⟩ : ∃ x, h.head? = some x := by
        cases h with
        | nil => exact absurd rfl hne
        | cons x l => exact ⟨x, rfl⟩
      have hix : g.startIdx c (pos x) = i := by
        rw [List.head?_append, hx] at hi
        simpa using hi
      rw [calSpec, hx] at hb
      simp only [hix, hG] at hb
      rw [Grid.bins, hy] at hb
      simp only at hb
      generalize hm : (G.cell (c == .right) (pos y) + 1).toNat = m at hb
      have hdl : (spanBins (c == .right) g.labelRight G.e 0 m pos h).dropLast =
          spanBins (c == .right) g.labelRight G.e 0 (m - 1) pos h := by
        unfold spanBins
        rw [← List.map_dropLast]
        congr 1
        cases m with
        | zero => rfl
        | succ m => rw [List.range_succ, List.dropLast_concat]; rfl
      rw [hdl] at hb
      obtain ⟨k, hk1, hk2, hk3, _⟩ := mem_spanBins hb
      rw [hk3, Option.getD_some, G.within_end]
      simp; omega
    · rw [hg1]; rfl
  noBuf := by
    intro p hp hs
    obtain ⟨s, b', h1, h2, _⟩ := calendar_step hg (some c) hr pos [] p {} hp hs rfl
    exact ⟨s, b', by rw [runSnaps, h1], by rw [runSnaps, h2, h1]⟩

/-! ### Offsets of pandas -/

/-- Leap days before a year. -/
theorem leap_step (y : Int) : y / 4 - y / 100 + y / 400 ≤ (y + 1) / 4 - (y + 1) / 100 + (y + 1) / 400 ∧
    (y + 1) / 4 - (y + 1) / 100 + (y + 1) / 400 ≤ y / 4 - y / 100 + y / 400 + 1 := by
  have e : ∀ y : Int, y / 100 = y / 4 / 25 ∧ y / 400 = y / 4 / 25 / 4 := by omega
  rw [(e y).1, (e y).2, (e (y + 1)).1, (e (y + 1)).2]
  by_cases h : (y + 1) / 4 = y / 4
  · rw [h]; omega
  · have h1 : (y + 1) / 4 = y / 4 + 1 := by omega
    rw [h1]
    generalize y / 4 = d
    by_cases h : (d + 1) / 25 = d / 25
    · rw [h]; omega
    · have h1 : (d + 1) / 25 = d / 25 + 1 := by omega
      rw [h1]
      omega

/-- A month has 28 to 31 days. -/
theorem monthDays_step (m : Int) : monthDays m + 28 ≤ monthDays (m + 1) ∧ monthDays (m + 1) ≤ monthDays m + 31 := by
  unfold monthDays
  simp only
  rw [show m + 1 + 23638 = m + 23638 + 1 by omega]
  generalize m + 23638 = q
  by_cases h : q % 12 = 11
  · have h1 : (q + 1) / 12 = q / 12 + 1 := by omega
    have h2 : (q + 1) % 12 = 0 := by omega
    rw [h1, h2, h]
    have := leap_step (q / 12)
    omega
  · have h1 : (q + 1) / 12 = q / 12 := by omega
    have h2 : (q + 1) % 12 = q % 12 + 1 := by omega
    rw [h1, h2]
    omega

theorem leap_year (y : Int) : (y + 1) / 4 - (y + 1) / 100 + (y + 1) / 400 =
    y / 4 - y / 100 + y / 400 + (if Leap (y + 1) then 1 else 0) := by
  have e : ∀ y : Int, y / 100 = y / 4 / 25 ∧ y / 400 = y / 4 / 25 / 4 := by omega
  have l : Leap (y + 1) ↔ (y + 1) % 4 = 0 ∧ (((y + 1) / 4) % 25 ≠ 0 ∨ ((y + 1) / 4 / 25) % 4 = 0) := by
    unfold Leap; omega
  simp only [l, (e y).1, (e y).2, (e (y + 1)).1, (e (y + 1)).2]
  by_cases h : (y + 1) / 4 = y / 4
  · rw [h, if_neg (by omega)]; omega
  · have h1 : (y + 1) / 4 = y / 4 + 1 := by omega
    have h4 : (y + 1) % 4 = 0 := by omega
    simp only [h1, h4, true_and]
    generalize y / 4 = d
    by_cases h : (d + 1) / 25 = d / 25
    · rw [h, if_pos (by omega)]; omega
    · have h1 : (d + 1) / 25 = d / 25 + 1 := by omega
      rw [h1]
      split <;> omega

/-- Months have the days of the Gregorian calendar. -/
theorem monthDays_gregorian (m : Int) : monthDays (m + 1) = monthDays m + daysIn (1970 + m / 12) (m % 12) := by
  unfold monthDays
  simp only
  rw [show m + 1 + 23638 = m + 23638 + 1 by omega]
  by_cases h : m % 12 = 1
  · have h1 : (m + 23638 + 1) / 12 = (m + 23638) / 12 + 1 := by omega
    have h2 : (m + 23638 + 1) % 12 = 0 := by omega
    have h3 : 1970 + m / 12 = (m + 23638) / 12 + 1 := by omega
    have h4 : (m + 23638) % 12 = 11 := by omega
    have := leap_year ((m + 23638) / 12)
    rw [h1, h2, h, h3, h4, daysIn, if_pos rfl]
    split at this <;> rename_i hl <;> simp only [hl, if_true, if_false] <;> omega
  · have h1 : (m + 23638 + 1) / 12 = (m + 23638) / 12 := by omega
    have h2 : (m + 23638 + 1) % 12 = (m + 23638) % 12 + 1 := by omega
    have h3 : (m + 23638) % 12 = (m % 12 + 10) % 12 := by omega
    rw [h1, h2, h3, daysIn, if_neg h]
    have hm : 0 ≤ m % 12 ∧ m % 12 < 12 := by omega
    generalize m % 12 = k at *
    have : k = 0 ∨ k = 2 ∨ k = 3 ∨ k = 4 ∨ k = 5 ∨ k = 6 ∨ k = 7 ∨ k = 8 ∨ k = 9 ∨ k = 10 ∨ k = 11 := by omega
    rcases this with rfl | rfl | rfl | rfl | rfl | rfl | rfl | rfl | rfl | rfl | rfl <;> norm_num <;> omega

theorem day_mul {day a b : Int} (hd : 0 < day) (h : a < b) : day * a < day * b := Int.mul_lt_mul_of_pos_left h hd

theorem monthBegin_ok {day : Int} (hd : 0 < day) : (monthBegin day).Ok := fun i =>
  day_mul hd (by have := (monthDays_step i).1; omega)

theorem monthEnd_ok {day : Int} (hd : 0 < day) : (monthEnd day).Ok := fun i =>
  day_mul hd (by have := (monthDays_step (i + 1)).1; omega)

theorem quarterBegin_ok {day : Int} (hd : 0 < day) : (quarterBegin day).Ok := fun i =>
  day_mul hd (by
    have h1 := (monthDays_step (3 * i)).1
    have h2 := (monthDays_step (3 * i + 1)).1
    have h3 := (monthDays_step (3 * i + 1 + 1)).1
    rw [show 3 * i + 1 + 1 + 1 = 3 * (i + 1) by omega] at h3
    omega)

theorem week_ok {day : Int} (hd : 0 < day) (w : Int) : (week day w).Ok := fun i => day_mul hd (by omega)

theorem businessDay_ok {day : Int} (hd : 0 < day) : (businessDay day).Ok := fun i => day_mul hd (by omega)

theorem monthDays_mono (m : Int) (k : Nat) : monthDays m + 28 * (k : Int) ≤ monthDays (m + k) := by
  induction k with
  | zero => simp
  | succ k ih =>
    have := (monthDays_step (m + k)).1
    rw [show m + ((k + 1 : Nat) : Int) = m + k + 1 by omega]
    omega

theorem monthDays_skip (m : Int) {p : Int} (hp : 0 < p) : monthDays m < monthDays (m + p) := by
  have := monthDays_mono m p.toNat
  rw [Int.toNat_of_nonneg hp.le] at this
  omega

theorem monthsBegin_ok {day p : Int} (hd : 0 < day) (hp : 0 < p) (k : Int) : (monthsBegin day p k).Ok := fun i =>
  day_mul hd (by
    have := monthDays_skip (p * i + k) hp
    rwa [show p * i + k + p = p * (i + 1) + k by rw [Int.mul_add]; omega] at this)

theorem monthsEnd_ok {day p : Int} (hd : 0 < day) (hp : 0 < p) (k : Int) : (monthsEnd day p k).Ok := fun i =>
  day_mul hd (by
    have := monthDays_skip (p * i + k + 1) hp
    rw [show p * i + k + 1 + p = p * (i + 1) + k + 1 by rw [Int.mul_add]; omega] at this
    omega)

theorem semiMonthBegin_ok {day : Int} (hd : 0 < day) : (semiMonthBegin day).Ok := fun i =>
  day_mul hd (by
    rcases Int.emod_two_eq_zero_or_one i with h | h
    · rw [show (i + 1) / 2 = i / 2 by omega]; omega
    · have := (monthDays_step (i / 2)).1
      rw [show (i + 1) / 2 = i / 2 + 1 by omega]; omega)

theorem businessMonthBegin_ok {day : Int} (hd : 0 < day) : (businessMonthBegin day).Ok := fun i =>
  day_mul hd (by
    have := (monthDays_step i).1
    split <;> split <;> (try split) <;> (try split) <;> omega)

theorem businessMonthEnd_ok {day : Int} (hd : 0 < day) : (businessMonthEnd day).Ok := fun i =>
  day_mul hd (by
    have := (monthDays_step (i + 1)).1
    split <;> split <;> (try split) <;> (try split) <;> omega)

end Oups.Agg
