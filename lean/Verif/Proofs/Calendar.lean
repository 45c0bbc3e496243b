import Verif.Proofs.SpanGrid
/-! `by_scale` with a `TimeGrouper` of calendar frequency: edges, restart. -/
set_option linter.unusedSimpArgs false
namespace Oups.Segment
open Spec
variable {R : Type}

/-! ### Dates of an offset -/

/-- Dates in strict order. -/
def Offset.Ok (o : Offset) : Prop := ∀ i, o.date i < o.date (i + 1)

theorem rankUp_spec {date : Int → Int} (hd : ∀ i, date i < date (i + 1)) (x : Int) (k : Nat) (i : Int) (h : date i ≤ x)
    (hk : x - date i ≤ k) : date (rankUp date x k i) ≤ x ∧ x < date (rankUp date x k i + 1) := by
  induction k generalizing i with
  | zero => have := hd i; rw [rankUp]; omega
  | succ k ih =>
    rw [rankUp]
    split
    · rename_i h'
      have := hd i
      exact ih (i + 1) h' (by push_cast at hk; omega)
    · omega

theorem rankDown_spec {date : Int → Int} (hd : ∀ i, date i < date (i + 1)) (x : Int) (k : Nat) (i : Int)
    (h : x < date (i + 1)) (hk : date i - x ≤ k) : date (rankDown date x k i) ≤ x ∧ x < date (rankDown date x k i + 1) := by
  induction k generalizing i with
  | zero => rw [rankDown]; simp at hk; omega
  | succ k ih =>
    rw [rankDown]
    split
    · omega
    · have := hd (i - 1)
      rw [show i - 1 + 1 = i by omega] at this
      exact ih (i - 1) (by rw [show i - 1 + 1 = i by omega]; omega) (by push_cast at hk; omega)

theorem Offset.rank_spec {o : Offset} (ho : o.Ok) (x : Int) : o.date (o.rank x) ≤ x ∧ x < o.date (o.rank x + 1) := by
  unfold Offset.rank
  split
  · rename_i h
    exact rankUp_spec ho x _ _ h (by omega)
  · rename_i h
    have := ho (o.guess x)
    exact rankDown_spec ho x _ _ (by omega) (by omega)

/-- Dates are in strict order: as a grid. -/
def Offset.grid (o : Offset) (ho : o.Ok) : Grid where
  e := o.date
  cell right x := if right then (if o.date (o.rank x) = x then o.rank x - 1 else o.rank x) else o.rank x
  mono := ho
  in_cell := by
    intro right x
    have h := Offset.rank_spec ho x
    unfold InSpan
    cases right
    · simpa using h
    · simp only [if_true]
      split
      · rename_i h'
        have := ho (o.rank x - 1)
        rw [show o.rank x - 1 + 1 = o.rank x by omega] at *
        omega
      · omega

theorem Offset.rank_of {o : Offset} (ho : o.Ok) {x i : Int} (h1 : o.date i ≤ x) (h2 : x < o.date (i + 1)) : o.rank x = i := by
  have := ((o.grid ho).inSpan_iff (right := false) (c := i) (x := x)).1 (by
    simp only [InSpan, Bool.false_eq_true, if_false]; exact ⟨h1, h2⟩)
  simpa [Offset.grid] using this

theorem Offset.rank_date {o : Offset} (ho : o.Ok) (i : Int) : o.rank (o.date i) = i :=
  Offset.rank_of ho (le_refl _) (ho i)

/-- Edges every `n` dates, from date `i`. -/
def Offset.every (o : Offset) (ho : o.Ok) (n : Int) (hn : 0 < n) (i : Int) : Grid where
  e := everyDate o.date n i
  cell right x := ((o.grid ho).cell right x - i) / n
  mono c := by
    unfold everyDate
    exact (o.grid ho).strict (by rw [Int.mul_add]; omega)
  in_cell := by
    intro right x
    have h := (o.grid ho).in_cell right x
    generalize (o.grid ho).cell right x = k at h
    have h1 := Int.emod_add_mul_ediv (k - i) n
    have h2 := Int.emod_nonneg (k - i) (by omega : n ≠ 0)
    have h3 := Int.emod_lt_of_pos (k - i) hn
    have h4 : o.date (i + n * ((k - i) / n)) ≤ o.date k := (o.grid ho).le (by omega)
    have h5 : o.date (k + 1) ≤ o.date (i + n * ((k - i) / n + 1)) := (o.grid ho).le (by rw [Int.mul_add]; omega)
    unfold InSpan at *
    unfold everyDate
    simp only [Offset.grid] at h
    split <;> simp_all <;> omega

/-! ### Edges -/

/-- Requirements: dates in strict order, at midnight; a positive number of them per bin. -/
structure Calendar.Ok (c : Calendar) : Prop where
  off : c.off.Ok
  midnight : ∀ i, c.day ∣ c.off.date i
  day : 0 < c.day
  n : 0 < c.n

theorem midnight_spec {day x : Int} (hd : 0 < day) : midnight day x ≤ x ∧ x < midnight day x + day ∧ day ∣ midnight day x := by
  have h1 := Int.emod_add_mul_ediv x day
  have h2 := Int.emod_nonneg x (by omega : day ≠ 0)
  have h3 := Int.emod_lt_of_pos x hd
  unfold midnight
  exact ⟨by omega, by omega, ⟨x / day, by omega⟩⟩

/-- A date not after a time is not after its midnight. -/
theorem le_midnight {day x d : Int} (hd : 0 < day) (h : day ∣ d) : d ≤ midnight day x ↔ d ≤ x := by
  obtain ⟨h1, h2, k, hk⟩ := midnight_spec (x := x) hd
  obtain ⟨j, rfl⟩ := h
  constructor
  · omega
  · intro h
    rw [hk]
    apply mul_le_mul_of_nonneg_left _ (by omega)
    by_contra hc
    have : day * (k + 1) ≤ day * j := mul_le_mul_of_nonneg_left (by omega) (by omega)
    rw [Int.mul_add] at this
    omega

theorem rank_midnight {c : Calendar} (hc : c.Ok) (x : Int) : c.off.rank (midnight c.day x) = c.off.rank x := by
  obtain ⟨h1, h2⟩ := Offset.rank_spec hc.off x
  apply Offset.rank_of hc.off
  · rwa [le_midnight hc.day (hc.midnight _)]
  · have := (le_midnight (x := x) hc.day (hc.midnight (c.off.rank x + 1)))
    omega

/-- Number of the first edge. -/
def Calendar.startIdx (c : Calendar) (closed : Closed) (first : Int) : Int :=
  match closed with
  | .left => c.off.rank first
  | .right => if c.off.rollback (midnight c.day first) = midnight c.day first then c.off.rank first - c.n
      else c.off.rank first - c.n + 1

theorem calStart_eq {c : Calendar} (hc : c.Ok) (closed : Closed) (first : Int) :
    calStart c closed first = c.off.date (c.startIdx closed first) := by
  cases closed
  · simp only [calStart, Calendar.startIdx, Offset.rollback, rank_midnight hc]
  · simp only [calStart, Calendar.startIdx, Offset.minus, rank_midnight hc]
    split <;> rfl

theorem calStop_eq {c : Calendar} (hc : c.Ok) (last : Int) : calStop c last = c.off.date (c.off.rank last + c.n) := by
  rw [calStop, Offset.plus, rank_midnight hc]

theorem startIdx_first {c : Calendar} (hc : c.Ok) (closed : Closed) (x : Int) :
    FirstDate (closed == .right) c.off.date c.n c.day (c.startIdx closed x) x := by
  have h := Offset.rank_spec hc.off x
  have hm := Offset.rank_spec hc.off (midnight c.day x)
  rw [rank_midnight hc] at hm
  unfold FirstDate
  cases closed
  · simpa [Calendar.startIdx] using h
  · simp only [beq_self_eq_true, if_true, Calendar.startIdx, Offset.rollback, rank_midnight hc]
    change _ < midnight c.day x ∧ midnight c.day x ≤ _
    split
    · rename_i h'
      rw [show c.off.rank x - c.n + c.n - 1 = c.off.rank x - 1 by omega,
        show c.off.rank x - c.n + c.n = c.off.rank x by omega]
      have := hc.off (c.off.rank x - 1)
      rw [show c.off.rank x - 1 + 1 = c.off.rank x by omega] at this
      omega
    · rw [show c.off.rank x - c.n + 1 + c.n - 1 = c.off.rank x by omega,
        show c.off.rank x - c.n + 1 + c.n = c.off.rank x + 1 by omega]
      omega

theorem firstDate_unique {date : Int → Int} (hd : ∀ i, date i < date (i + 1)) {right : Bool} {n day i j x : Int}
    (h1 : FirstDate right date n day i x) (h2 : FirstDate right date n day j x) : i = j := by
  have ho : (⟨date, fun _ => 0⟩ : Offset).Ok := hd
  let G := Offset.grid ⟨date, fun _ => 0⟩ ho
  have key : ∀ a b : Int, date a < date (b + 1) → a ≤ b := fun a b h => by
    have := G.lt_of (c := a) (c' := b + 1) h; omega
  unfold FirstDate at h1 h2
  cases right
  · simp only [Bool.false_eq_true, if_false] at h1 h2
    have := key i j (by omega)
    have := key j i (by omega)
    omega
  · simp only [if_true] at h1 h2
    have := key (i + n - 1) (j + n - 1) (by rw [show j + n - 1 + 1 = j + n by omega]; omega)
    have := key (j + n - 1) (i + n - 1) (by rw [show i + n - 1 + 1 = i + n by omega]; omega)
    omega

/-- `date_range`, as edges. -/
theorem calRange_eq {o : Offset} (ho : o.Ok) {n : Int} (hn : 0 < n) (i j : Int) (k m : Nat) (hk : o.date j - o.date i < k)
    (h1 : i + n * m ≤ j) (h2 : j < i + n * (m + 1)) :
    calRange o n (o.date j) k (o.date i) = (List.range (m + 1)).map (fun (t : Nat) => o.date (i + n * t)) := by
  induction m generalizing i k with
  | zero =>
    have hle : o.date i ≤ o.date j := (o.grid ho).le (by simpa using h1)
    obtain ⟨k, rfl⟩ : ∃ k', k = k' + 1 := ⟨k - 1, by omega⟩
    rw [calRange, if_pos hle, Offset.plus, Offset.rank_date ho]
    have hlt : ¬ o.date (i + n) ≤ o.date j := by
      have := (o.grid ho).strict (c := j) (c' := i + n) (by simpa using h2)
      simp only [Offset.grid] at this
      omega
    cases k with
    | zero => simp [calRange]
    | succ k => rw [calRange, if_neg hlt]; simp
  | succ m ih =>
    push_cast at h1 h2
    rw [Int.mul_add] at h1
    have hnm : 0 ≤ n * m := by positivity
    have hle : o.date i ≤ o.date j := (o.grid ho).le (by omega)
    have hlt : o.date i < o.date (i + n) := (o.grid ho).strict (by omega)
    obtain ⟨k, rfl⟩ : ∃ k', k = k' + 1 := ⟨k - 1, by omega⟩
    rw [calRange, if_pos hle, Offset.plus, Offset.rank_date ho, ih (i + n) k (by push_cast at hk; omega) (by omega)
      (by rw [Int.mul_add] at *; rw [Int.mul_add] at h2; omega), List.range_succ_eq_map (n := m + 1), List.map_cons, List.map_map]
    congr 1
    · simp
    · apply List.map_congr_left
      intro t _
      simp only [Function.comp, Nat.succ_eq_add_one]
      push_cast
      rw [Int.mul_add]
      congr 1; omega

/-- Edges are in order, wherever they start. -/
theorem asc_calRange {o : Offset} (ho : o.Ok) {n : Int} (hn : 0 < n) (stop : Int) (k : Nat) (x : Int) :
    (calRange o n stop k x).Pairwise (· < ·) ∧ ∀ y ∈ calRange o n stop k x, x ≤ y := by
  induction k generalizing x with
  | zero => exact ⟨List.Pairwise.nil, by simp [calRange]⟩
  | succ k ih =>
    rw [calRange]
    split
    · obtain ⟨h1, h2⟩ := ih (o.plus n x)
      have hx : x < o.plus n x := by
        have h3 := (Offset.rank_spec ho x).2
        have h4 := (o.grid ho).le (c := o.rank x + 1) (c' := o.rank x + n) (by omega)
        simp only [Offset.grid] at h4
        unfold Offset.plus
        omega
      refine ⟨List.pairwise_cons.2 ⟨fun y hy => lt_of_lt_of_le hx (h2 y hy), h1⟩, ?_⟩
      intro y hy
      rcases List.mem_cons.1 hy with h | h
      · omega
      · have := h2 y h; omega
    · exact ⟨List.Pairwise.nil, by simp⟩

/-- Edges of a call, as those of the grid every `n` dates from `i`: they start at cell `c0`, and go at least to that of the
last row. -/
theorem calEdges {c : Calendar} (hc : c.Ok) (closed : Closed) (first last i c0 : Int) (m : Nat)
    (hfirst : c.startIdx closed first = i + c.n * c0)
    (hm : (c.off.every hc.off c.n hc.n i).cell (closed == .right) last = c0 + m) :
    ∃ extra : Nat, calRange c.off c.n (calStop c last) ((calStop c last - calStart c closed first).toNat + 1)
      (calStart c closed first) =
        (List.range (m + 1 + extra + 1)).map (fun (t : Nat) => (c.off.every hc.off c.n hc.n i).e (c0 + t)) := by
  have hn := hc.n
  set G := c.off.grid hc.off with hG
  rw [calStart_eq hc, calStop_eq hc, hfirst]
  -- the last edge is after the last row, hence at least at the end of its cell
  have hcell : ((G.cell (closed == .right) last - i) / c.n) = c0 + m := hm
  have h1 := Int.emod_add_mul_ediv (G.cell (closed == .right) last - i) c.n
  have h2 := Int.emod_nonneg (G.cell (closed == .right) last - i) (by omega : c.n ≠ 0)
  have h3 := Int.emod_lt_of_pos (G.cell (closed == .right) last - i) hn
  rw [hcell] at h1
  have hrank : c.off.rank last - 1 ≤ G.cell (closed == .right) last ∧ G.cell (closed == .right) last ≤ c.off.rank last := by
    cases closed
    · simp [hG, Offset.grid]
    · simp only [hG, Offset.grid, beq_self_eq_true, if_true]; split <;> omega
  -- number of edges
  have hlo : c.n * (m + 1 : Nat) ≤ c.off.rank last + c.n - (i + c.n * c0) := by
    push_cast
    rw [Int.mul_add] at *; omega
  have hpos : 0 ≤ c.off.rank last + c.n - (i + c.n * c0) := by
    have : 0 ≤ c.n * ((m + 1 : Nat) : Int) := by positivity
    omega
  obtain ⟨q, hq⟩ : ∃ q : Nat, (c.off.rank last + c.n - (i + c.n * c0)) / c.n = q :=
    ⟨((c.off.rank last + c.n - (i + c.n * c0)) / c.n).toNat, by
      have := Int.ediv_nonneg hpos (by omega : 0 ≤ c.n); omega⟩
  have g1 := Int.emod_add_mul_ediv (c.off.rank last + c.n - (i + c.n * c0)) c.n
  have g2 := Int.emod_nonneg (c.off.rank last + c.n - (i + c.n * c0)) (by omega : c.n ≠ 0)
  have g3 := Int.emod_lt_of_pos (c.off.rank last + c.n - (i + c.n * c0)) hn
  rw [hq] at g1
  have hqm : m + 1 ≤ q := by
    by_contra hcon
    have : c.n * ((q : Int) + 1) ≤ c.n * ((m + 1 : Nat) : Int) := mul_le_mul_of_nonneg_left (by omega) (by omega)
    rw [Int.mul_add] at this
    omega
  refine ⟨q - (m + 1), ?_⟩
  rw [calRange_eq hc.off hn (i + c.n * c0) (c.off.rank last + c.n) _ q (by push_cast; omega) (by omega)
    (by rw [Int.mul_add]; omega), show m + 1 + (q - (m + 1)) + 1 = q + 1 by omega]
  apply List.map_congr_left
  intro t _
  simp only [Offset.every, everyDate]
  rw [Int.mul_add]
  congr 1; omega

/-! ### Restart -/

/-- Calendars whose edges do not depend on where a call starts within a bin: one date per bin, or right-closed. -/
def Calendar.Restarts (c : Calendar) (closed : Closed) : Prop := c.n = 1 ∨ closed = .right

theorem start_cell_le {c : Calendar} (hc : c.Ok) (closed : Closed) (x : Int) :
    0 ≤ (c.off.every hc.off c.n hc.n (c.startIdx closed x)).cell (closed == .right) x := by
  have hn := hc.n
  have h := Offset.rank_spec hc.off x
  have hm := Offset.rank_spec hc.off (midnight c.day x)
  rw [rank_midnight hc] at hm
  simp only [Offset.every]
  apply Int.ediv_nonneg _ (by omega)
  cases closed
  · simp [Offset.grid, Calendar.startIdx]
  · simp only [Offset.grid, beq_self_eq_true, if_true, Calendar.startIdx, Offset.rollback, rank_midnight hc]
    have := (midnight_spec (x := x) hc.day).1
    split <;> split <;> omega

/-- The key kept by a call starts the next one in the cell of the last row. -/
theorem key_start {c : Calendar} (hc : c.Ok) {closed : Closed} (hr : c.Restarts closed) (i c0 : Int) (m : Nat) (x y : Int)
    (hxy : x ≤ y) (hx : c0 ≤ (c.off.every hc.off c.n hc.n i).cell (closed == .right) x)
    (hy : (c.off.every hc.off c.n hc.n i).cell (closed == .right) y = c0 + m) :
    c.startIdx closed ((c.off.every hc.off c.n hc.n i).key closed c0 m x) = i + c.n * (c0 + m) := by
  have hn := hc.n
  cases closed
  · simp only [Grid.key, Calendar.startIdx]
    have hn1 : c.n = 1 := by rcases hr with h | h <;> simp_all
    split
    · simp only [Offset.every, everyDate]
      exact Offset.rank_date hc.off _
    · have hm0 : m = 0 := by omega
      have := (c.off.every hc.off c.n hc.n i).cell_mono (right := false) hxy
      simp only [show (Closed.left == Closed.right) = false from rfl] at hx hy
      have hxc : (c.off.every hc.off c.n hc.n i).cell false x = c0 := by omega
      simp only [Offset.every, Offset.grid, Bool.false_eq_true, if_false, hn1, Int.ediv_one] at hxc
      rw [hn1, hm0]
      push_cast
      omega
  · simp only [Grid.key, Calendar.startIdx, Offset.every, everyDate]
    have hmid : midnight c.day (c.off.date (i + c.n * (c0 + m + 1))) = c.off.date (i + c.n * (c0 + m + 1)) := by
      obtain ⟨k, hk⟩ := hc.midnight (i + c.n * (c0 + m + 1))
      rw [midnight, hk, Int.mul_emod_right]; omega
    simp only [hmid, Offset.rollback, Offset.rank_date hc.off, if_true]
    rw [Int.mul_add c.n (c0 + m) 1]
    omega

/-- `bin_by` for a `TimeGrouper` of calendar frequency. -/
def calendarFn (c : Calendar) (pos : R → Int) : BinFn R ScaleBuf := fun p buf =>
  .ok ((byCalendar c none (p.map pos) buf).1.toRes, (byCalendar c none (p.map pos) buf).2)

/-- Bins of a frame along dates. -/
def calSpec (c : Calendar) (hc : c.Ok) (closed : Closed) (pos : R → Int) (rows : List R) : List (Bin R) :=
  match rows.head? with
  | some x => (c.off.every hc.off c.n hc.n (c.startIdx closed (pos x))).bins (closed == .right) c.labelRight pos rows
  | none => []

/-- Buffer after the rows `h`: the restart key starts a call in the bin of the last row. -/
def calOk (c : Calendar) (hc : c.Ok) (closed : Closed) (pos : R → Int) (h : List R) (b : ScaleBuf) : Prop :=
  match h.head?, h.getLast? with
  | some x, some y => ∃ k, b.restart = some k ∧ c.startIdx closed k = c.startIdx closed (pos x) +
      c.n * (c.off.every hc.off c.n hc.n (c.startIdx closed (pos x))).cell (closed == .right) (pos y)
  | _, _ => b.restart = none

theorem byCalendar_eq {c : Calendar} (hc : c.Ok) (cl : Option Closed) (on : List Int) (buf : Option ScaleBuf) (hs : Asc on)
    (x y i c0 : Int) (m : Nat) (hx : on.head? = some x) (hy : on.getLast? = some y)
    (hfirst : c.startIdx (cl.getD c.closed) (firstOf on buf) = i + c.n * c0)
    (hm : (c.off.every hc.off c.n hc.n i).cell (cl.getD c.closed == .right) y = c0 + m) :
    byCalendar c cl on buf = ((c.off.every hc.off c.n hc.n i).seg (cl.getD c.closed) c.labelRight c0 (m + 1) on,
      buf.map fun b => { b with restart := some ((c.off.every hc.off c.n hc.n i).key (cl.getD c.closed) c0 m x) }) := by
  obtain ⟨extra, hE⟩ := calEdges hc (cl.getD c.closed) (firstOf on buf) y i c0 m hfirst hm
  have := Grid.scaleFinish_eq (c.off.every hc.off c.n hc.n i) (cl.getD c.closed) c.labelRight c0 m extra on buf hs x y hx hy hm _ hE
  rw [← this]
  unfold byCalendar firstOf
  rw [getLastD_eq hy]
  rfl

theorem calendar_step {c : Calendar} (hc : c.Ok) (cl : Option Closed) (hr : c.Restarts (cl.getD c.closed)) (pos : R → Int)
    (h p : List R) (b : ScaleBuf) (hp : p ≠ []) (hs : AscOn pos (h ++ p)) (hok : calOk c hc (cl.getD c.closed) pos h b) :
    ∃ s b', byCalendar c cl (p.map pos) (some b) = (s, some b') ∧
      byCalendar c cl (p.map pos) none = ((byCalendar c cl (p.map pos) (some { })).1, none) ∧
      calOk c hc (cl.getD c.closed) pos (h ++ p) b' ∧ s.closed = cl.getD c.closed ∧ s.unknownLast = false ∧
      (∃ i c0 n, (h ++ p).head?.map (fun r => c.startIdx (cl.getD c.closed) (pos r)) = some i ∧ 0 ≤ c0 ∧
        (h = [] → c0 = 0) ∧
        s = (c.off.every hc.off c.n hc.n i).seg (cl.getD c.closed) c.labelRight c0 (n + 1) (p.map pos) ∧
        (∀ r ∈ p, c0 ≤ (c.off.every hc.off c.n hc.n i).cell (cl.getD c.closed == .right) (pos r)) ∧
        (∀ y, p.getLast? = some y → (c.off.every hc.off c.n hc.n i).cell (cl.getD c.closed == .right) (pos y) = c0 + n) ∧
        (∀ y, h.getLast? = some y → (c.off.every hc.off c.n hc.n i).cell (cl.getD c.closed == .right) (pos y) = c0)) ∧
      StepOk (calSpec c hc (cl.getD c.closed) pos) h p s.toRes := by
  obtain ⟨x, hx⟩ : ∃ x, p.head? = some x := by
    cases p with
    | nil => exact absurd rfl hp
    | cons x l => exact ⟨x, rfl⟩
  obtain ⟨y, hy⟩ : ∃ y, p.getLast? = some y := by
    cases h' : p.getLast? with
    | none => rw [List.getLast?_eq_none_iff] at h'; exact absurd h' hp
    | some y => exact ⟨y, rfl⟩
  have hs' := hs
  rw [AscOn, List.pairwise_append] at hs'
  obtain ⟨hsh, hsp, hhp⟩ := hs'
  have hxm : (p.map pos).head? = some (pos x) := by rw [List.head?_map, hx]; rfl
  have hym : (p.map pos).getLast? = some (pos y) := by rw [List.getLast?_map, hy]; rfl
  have hxy : pos x ≤ pos y := ascOn_head_le hsp hx y (List.mem_of_getLast? hy)
  have hfirst0 : ∀ b : Option ScaleBuf, b.bind ScaleBuf.restart = none → firstOf (p.map pos) b = pos x := by
    intro b hb
    rw [firstOf, hb]
    cases p with
    | nil => exact absurd rfl hp
    | cons z l => simp at hx ⊢; rw [hx]
  generalize hclosed : cl.getD c.closed = closed at *
  have h0x := start_cell_le hc closed (pos x)
  -- without history
  have hcold : ∀ b : Option ScaleBuf, b.bind ScaleBuf.restart = none → ∃ m : Nat,
      (c.off.every hc.off c.n hc.n (c.startIdx closed (pos x))).cell (closed == .right) (pos y) = 0 + m ∧
      byCalendar c cl (p.map pos) b =
        ((c.off.every hc.off c.n hc.n (c.startIdx closed (pos x))).seg closed c.labelRight 0 (m + 1) (p.map pos),
          b.map fun b => ⟨some ((c.off.every hc.off c.n hc.n (c.startIdx closed (pos x))).key closed 0 m (pos x)), b.lastOn⟩) := by
    intro b hb
    obtain ⟨m, hm⟩ : ∃ m : Nat,
        (c.off.every hc.off c.n hc.n (c.startIdx closed (pos x))).cell (closed == .right) (pos y) = 0 + m := by
      have := (c.off.every hc.off c.n hc.n (c.startIdx closed (pos x))).cell_mono (right := closed == .right) hxy
      exact ⟨((c.off.every hc.off c.n hc.n (c.startIdx closed (pos x))).cell (closed == .right) (pos y)).toNat, by omega⟩
    refine ⟨m, hm, ?_⟩
    have := byCalendar_eq hc cl (p.map pos) b (ascOn_map hsp) (pos x) (pos y) (c.startIdx closed (pos x)) 0 m hxm hym
      (by rw [hclosed, hfirst0 b hb]; simp) (by rw [hclosed]; exact hm)
    rw [hclosed] at this
    exact this
  have hnone : byCalendar c cl (p.map pos) none = ((byCalendar c cl (p.map pos) (some { })).1, none) := by
    obtain ⟨m, hm, h1⟩ := hcold none rfl
    obtain ⟨m', hm', h2⟩ := hcold (some {}) rfl
    rw [h1, h2, show m = m' by omega]
    rfl
  have hlastHP : (h ++ p).getLast? = some y := by rw [List.getLast?_append, hy]; rfl
  -- where the call starts
  obtain ⟨x0, hx0⟩ : ∃ x0, (h ++ p).head? = some x0 := by
    cases h' : (h ++ p).head? with
    | none => simp [hp] at h'
    | some x0 => exact ⟨x0, rfl⟩
  set i := c.startIdx closed (pos x0) with hi
  set G := c.off.every hc.off c.n hc.n i with hG
  have hstart : ∃ c0, c.startIdx closed (firstOf (p.map pos) (some b)) = i + c.n * c0 ∧ 0 ≤ c0 ∧ (h = [] → c0 = 0) ∧
      (∀ z, h.getLast? = some z → G.cell (closed == .right) (pos z) = c0) ∧ c0 ≤ G.cell (closed == .right) (pos x) := by
    unfold calOk at hok
    cases hl : h.getLast? with
    | none =>
      have hnil := List.getLast?_eq_none_iff.1 hl
      subst hnil
      simp only [List.head?_nil] at hok
      rw [List.nil_append, hx] at hx0
      cases hx0
      refine ⟨0, by rw [hfirst0 (some b) hok, hi]; simp, le_refl _, fun _ => rfl, fun z hz => (by simp at hz), ?_⟩
      rw [hG, hi]; exact h0x
    | some z =>
      obtain ⟨x1, hx1⟩ : ∃ x1, h.head? = some x1 := by
        cases h with
        | nil => simp at hl
        | cons x l => exact ⟨x, rfl⟩
      rw [List.head?_append, hx1] at hx0
      simp only [Option.some_or, Option.some.injEq] at hx0
      subst hx0
      rw [hx1, hl] at hok
      obtain ⟨k, hk, hkc⟩ := hok
      have hfk : firstOf (p.map pos) (some b) = k := by simp [firstOf, hk]
      refine ⟨G.cell (closed == .right) (pos z), by rw [hfk, hkc], ?_, ?_, ?_, ?_⟩
      · have h1 := start_cell_le hc closed (pos x1)
        have h2 := G.cell_mono (right := closed == .right) (ascOn_head_le hsh hx1 z (List.mem_of_getLast? hl))
        rw [hG, hi] at h2 ⊢
        omega
      · rintro rfl; simp at hl
      · intro z' hz'; cases hz'; rfl
      · exact G.cell_mono (hhp z (List.mem_of_getLast? hl) x (List.mem_of_mem_head? hx))
  obtain ⟨c0, hf0, h00, hnil, hz, hcx⟩ := hstart
  have hcxy := G.cell_mono (right := closed == .right) hxy
  obtain ⟨m, hm⟩ : ∃ m : Nat, G.cell (closed == .right) (pos y) = c0 + m :=
    ⟨(G.cell (closed == .right) (pos y) - c0).toNat, by omega⟩
  have heq := byCalendar_eq hc cl (p.map pos) (some b) (ascOn_map hsp) (pos x) (pos y) i c0 m hxm hym
    (by rw [hclosed]; exact hf0) (by rw [hclosed]; exact hm)
  rw [hclosed] at heq
  have hge : ∀ r ∈ p, c0 ≤ G.cell (closed == .right) (pos r) := fun r hr =>
    le_trans hcx (G.cell_mono (ascOn_head_le hsp hx r hr))
  refine ⟨_, _, heq, hnone, ?_, rfl, rfl, ⟨i, c0, m, by rw [hx0]; rfl, h00, hnil, rfl, hge, ?_, hz⟩, ?_⟩
  · unfold calOk
    rw [hx0, hlastHP]
    refine ⟨_, rfl, ?_⟩
    rw [key_start hc hr i c0 m (pos x) (pos y) hxy hcx hm, ← hi, ← hG, hm]
  · intro y' hy'; rw [hy] at hy'; cases hy'; exact hm
  · have hstep := G.step_ok closed c.labelRight pos h p hs c0 m y hy h00 hnil hz hge hm
    have e1 : calSpec c hc closed pos (h ++ p) = G.bins (closed == .right) c.labelRight pos (h ++ p) := by
      rw [calSpec, hx0]
    have e2 : calSpec c hc closed pos h = G.bins (closed == .right) c.labelRight pos h := by
      cases h with
      | nil => rfl
      | cons x1 l =>
        simp only [List.cons_append, List.head?_cons, Option.some.injEq] at hx0
        subst hx0
        rfl
    constructor
    · exact hstep.labels_len
    · exact hstep.ends_len
    · exact hstep.mono
    · exact hstep.last
    · exact hstep.before
    · rw [e1, e2]; exact hstep.glue
    · rw [e2]; exact hstep.first_label
    · rw [e1]; exact hstep.last_label
    · exact hstep.null

theorem calendar_lawful (c : Calendar) (hc : c.Ok) (hr : c.Restarts c.closed) (pos : R → Int) :
    Lawful (calendarFn c pos) pos c.closed ({} : ScaleBuf) (calSpec c hc c.closed pos) (calOk c hc c.closed pos) where
  spec_nil := rfl
  init := rfl
  step := by
    intro h p b hp hs hok
    obtain ⟨s, b', h1, _, h3, h4, _, _, h5⟩ := calendar_step hc none hr pos h p b hp hs hok
    refine ⟨s.toRes, b', ?_, h3, ?_, h5⟩
    · rw [calendarFn, h1]
    · simp only [Seg.toRes, h4]; rfl
  noBuf := by
    intro p hp hs
    obtain ⟨s, b', h1, h2, _⟩ := calendar_step hc none hr pos [] p {} hp hs rfl
    refine ⟨s.toRes, b', ?_, ?_⟩
    · rw [calendarFn, h1]
    · rw [calendarFn, h2, h1]

end Oups.Segment
