import Verif.Proofs.SegmentRank
/-! `by_scale` with a `TimeGrouper`: grid cells and restart. -/
set_option linter.unusedSimpArgs false
namespace Oups.Segment
open Spec

/-- Cell of a position. -/
def cellOf (right : Bool) (a f x : Int) : Int := if right then (x - a - 1) / f else (x - a) / f

theorem inCell_iff {right : Bool} {a f c x : Int} (hf : 0 < f) :
    InCell right a f c x ↔ cellOf right a f x = c := by
  have key : ∀ y : Int, y / f = c ↔ f * c ≤ y ∧ y < f * (c + 1) := by
    intro y
    constructor
    · rintro rfl
      have h1 := Int.emod_add_mul_ediv y f
      have h2 := Int.emod_nonneg y (by omega : f ≠ 0)
      have h3 := Int.emod_lt_of_pos y hf
      rw [Int.mul_add]; omega
    · rintro ⟨h1, h2⟩
      apply Int.le_antisymm
      · have : y / f < c + 1 := Int.ediv_lt_of_lt_mul hf (by rw [Int.mul_comm]; exact h2)
        omega
      · exact Int.le_ediv_of_mul_le hf (by rw [Int.mul_comm]; exact h1)
  unfold InCell cellOf
  cases right
  · simp only [Bool.false_eq_true, if_false, key]; constructor <;> rintro ⟨h1, h2⟩ <;> constructor <;> omega
  · simp only [if_true, key]; constructor <;> rintro ⟨h1, h2⟩ <;> constructor <;> omega

theorem cellOf_mono {right : Bool} {a f x y : Int} (hf : 0 < f) (h : x ≤ y) :
    cellOf right a f x ≤ cellOf right a f y := by
  unfold cellOf
  split <;> exact Int.ediv_le_ediv hf (by omega)

theorem cellOf_shift (right : Bool) (a f t x : Int) (hf : 0 < f) :
    cellOf right (a + f * t) f x = cellOf right a f x - t := by
  unfold cellOf
  split
  · rw [show x - (a + f * t) - 1 = (x - a - 1) + f * (-t) by rw [Int.mul_neg]; omega,
      Int.add_mul_ediv_left _ _ (by omega)]; omega
  · rw [show x - (a + f * t) = (x - a) + f * (-t) by rw [Int.mul_neg]; omega,
      Int.add_mul_ediv_left _ _ (by omega)]; omega

/-- Position of a cell end as seen from the grid. -/
theorem within_end {right : Bool} {a f c x : Int} (hf : 0 < f) :
    within right (a + f * (c + 1)) x = decide (cellOf right a f x ≤ c) := by
  have h := (inCell_iff (right := right) (a := a) (f := f) (x := x) hf).2 rfl
  rw [Bool.eq_iff_iff]
  unfold within
  unfold InCell at h
  generalize cellOf right a f x = k at h
  have h1 : k ≤ c ↔ f * k ≤ f * c := (Int.mul_le_mul_left hf).symm
  have h2 : c < k ↔ f * (c + 1) ≤ f * k := by
    rw [show c < k ↔ c + 1 ≤ k from Iff.rfl]; exact (Int.mul_le_mul_left hf).symm
  rw [Int.mul_add] at *
  cases right <;> simp only [Bool.false_eq_true, if_false, if_true, decide_eq_true_eq] at *
  · constructor
    · intro hx; by_contra hc; have := h2.1 (by omega); omega
    · intro hx; have := h1.1 hx; omega
  · constructor
    · intro hx; by_contra hc; have := h2.1 (by omega); omega
    · intro hx; have := h1.1 hx; omega

theorem gtreStart_eq (f o : Int) (closed : Closed) (x : Int) (hf : 0 < f) :
    gtreStart f o closed x = o + f * cellOf (closed == .right) o f x := by
  have h1 := Int.emod_add_mul_ediv (x - o) f
  have h2 := Int.emod_nonneg (x - o) (by omega : f ≠ 0)
  have h3 := Int.emod_lt_of_pos (x - o) hf
  unfold gtreStart cellOf
  cases closed
  · simp only [beq_self_eq_true, show (Closed.left == Closed.right) = false from rfl, Bool.false_eq_true, if_false]
    split <;> omega
  · simp only [beq_self_eq_true, if_true]
    split
    · rename_i hm
      have : (x - o - 1) / f = (x - o) / f :=
        (((inCell_iff (right := false) (a := 0) (f := f) (c := (x - o) / f) (x := x - o - 1) hf).1 (by
          simp only [InCell, Bool.false_eq_true, if_false, Int.mul_add]; omega)).symm ▸ by simp [cellOf])
      rw [this]; omega
    · rename_i hm
      have : (x - o - 1) / f = (x - o) / f - 1 := by
        have := (inCell_iff (right := false) (a := 0) (f := f) (c := (x - o) / f - 1) (x := x - o - 1) hf).1 (by
          simp only [InCell, Bool.false_eq_true, if_false, Int.mul_add, Int.mul_sub]; omega)
        simpa [cellOf] using this
      rw [this, Int.mul_sub]; omega

theorem gtreEnd_eq (f o : Int) (closed : Closed) (x : Int) (hf : 0 < f) :
    gtreEnd f o closed x = o + f * (cellOf (closed == .right) o f x + 1) := by
  have h1 := Int.emod_add_mul_ediv (x - o) f
  have h2 := Int.emod_nonneg (x - o) (by omega : f ≠ 0)
  have h3 := Int.emod_lt_of_pos (x - o) hf
  have hs := gtreStart_eq f o closed x hf
  rw [Int.mul_add, ← Int.add_assoc, ← hs]
  unfold gtreEnd gtreStart
  cases closed <;> simp only <;> split <;> omega

theorem dateRange_eq (a f : Int) (c0 c1 : Int) (hf : 0 < f) (h : c0 ≤ c1) :
    dateRange (a + f * c0) (a + f * (c1 + 1)) f =
      (List.range ((c1 - c0 + 1).toNat + 1)).map (fun (i : Nat) => a + f * (c0 + i)) := by
  unfold dateRange
  have : (a + f * (c1 + 1) - (a + f * c0)) / f = c1 + 1 - c0 := by
    rw [show a + f * (c1 + 1) - (a + f * c0) = f * (c1 + 1 - c0) by rw [Int.mul_sub]; omega]
    exact Int.mul_ediv_cancel_left _ (by omega)
  rw [this]
  have hn : (c1 + 1 - c0 + 1).toNat = (c1 - c0 + 1).toNat + 1 := by omega
  rw [hn]
  apply List.map_congr_left
  intro i _
  rw [Int.mul_add, Int.mul_comm (i : Int) f]; omega

theorem tail_range_map {α} (g : Nat → α) (n : Nat) :
    ((List.range (n + 1)).map g).tail = (List.range n).map (fun i => g (i + 1)) := by
  rw [List.range_succ_eq_map, List.map_cons, List.tail_cons, List.map_map]; rfl

theorem dropLast_range_map {α} (g : Nat → α) (n : Nat) :
    ((List.range (n + 1)).map g).dropLast = (List.range n).map g := by
  rw [List.range_succ, List.map_append, List.map_singleton, List.dropLast_concat]

theorem cut_range {R : Type} (rows : List R) (s : Nat) (g : Nat → Nat) (n : Nat) :
    cut rows s ((List.range n).map g) =
      (List.range n).map (fun i => (rows.drop (if i = 0 then s else g (i - 1))).take
        (g i - (if i = 0 then s else g (i - 1)))) := by
  induction n generalizing s g with
  | zero => rfl
  | succ n ih =>
    rw [List.range_succ_eq_map, List.map_cons, List.map_cons, List.map_map, List.map_map, cut]
    rw [show (g ∘ Nat.succ) = (fun i => g (i + 1)) from rfl, ih (g 0) (fun i => g (i + 1))]
    simp only [if_true, List.cons.injEq, true_and]
    apply List.map_congr_left
    intro i _
    cases i <;> simp

/-- Ordered rows split at a rank. -/
theorem take_rank {R : Type} (pos : R → Int) (right : Bool) (e : Int) (rows : List R)
    (hs : rows.Pairwise (fun a b => pos a ≤ pos b)) :
    rows.take ((rows.map pos).countP (within right e)) = rows.filter (fun r => within right e (pos r)) ∧
    rows.drop ((rows.map pos).countP (within right e)) = rows.filter (fun r => !within right e (pos r)) := by
  induction rows with
  | nil => simp
  | cons a l ih =>
    have h' := List.pairwise_cons.1 hs
    have ih := ih h'.2
    by_cases ha : within right e (pos a) = true
    · rw [List.countP_map] at ih
      simp [List.countP_cons, ha, ih.1, ih.2]
    · simp only [Bool.not_eq_true] at ha
      have h0 : ∀ b ∈ l, within right e (pos b) = false := by
        intro b hb
        by_contra hc
        simp only [Bool.not_eq_false] at hc
        have := within_mono (h'.1 b hb) hc
        simp [this] at ha
      have hc : (List.map pos l).countP (within right e) = 0 := by
        rw [List.countP_eq_zero]; intro x hx
        obtain ⟨b, hb, rfl⟩ := List.mem_map.1 hx
        simp [h0 b hb]
      have h1 : l.filter (fun r => within right e (pos r)) = [] := by
        rw [List.filter_eq_nil_iff]; intro b hb; simp [h0 b hb]
      have h2 : l.filter (fun r => !within right e (pos r)) = l := by
        rw [List.filter_eq_self]; intro b hb; simp [h0 b hb]
      simp [List.countP_cons, ha, hc, h1, h2]

theorem slice_rank {R : Type} (pos : R → Int) (right : Bool) (e e' : Int) (rows : List R)
    (hs : rows.Pairwise (fun a b => pos a ≤ pos b)) :
    (rows.drop ((rows.map pos).countP (within right e))).take
      ((rows.map pos).countP (within right e') - (rows.map pos).countP (within right e)) =
    rows.filter (fun r => !within right e (pos r) && within right e' (pos r)) := by
  rw [← List.drop_take, (take_rank pos right e' rows hs).1]
  by_cases h : e ≤ e'
  · have hs' : (rows.filter (fun r => within right e' (pos r))).Pairwise (fun a b => pos a ≤ pos b) :=
      hs.filter _
    have := (take_rank pos right e _ hs').2
    rw [← List.filter_filter, ← this]
    congr 1
    rw [List.countP_map, List.countP_map, List.countP_filter]
    apply List.countP_congr
    intro r _
    simp only [Function.comp]
    constructor
    · intro h1; simp [h1, within_mono_edge h h1]
    · intro h1; simp at h1; exact h1.1
  · have hle : (rows.map pos).countP (within right e') ≤ (rows.map pos).countP (within right e) :=
      countP_mono_edge right (by omega) _
    have h1 : (rows.filter (fun r => within right e' (pos r))).length =
        (rows.map pos).countP (within right e') := by
      rw [List.countP_map, List.countP_eq_length_filter]; rfl
    rw [List.drop_eq_nil_of_le (by omega)]
    symm
    rw [List.filter_eq_nil_iff]
    intro r _
    simp only [Bool.and_eq_true, Bool.not_eq_true', not_and, Bool.not_eq_true]
    intro h2
    by_contra h3
    simp only [Bool.not_eq_false] at h3
    simp [within_mono_edge (by omega : e' ≤ e) h3] at h2

/-! ### One call -/

/-- The grouper is anchored in `a` whatever the first timestamp. -/
def Anchored (g : Grouper) (a : Int) : Prop :=
  0 < g.freq ∧ (∀ x, ∃ t, g.anchor x = a + g.freq * t) ∧ ∀ c x y, g.moved c x y = x

/-- Segmentation along the grid: cells `c0 .. c0 + n - 1`. -/
def gridSeg (closed : Closed) (labelRight : Bool) (a f c0 : Int) (n : Nat) (on : List Int) : Seg where
  starts := (List.range n).map fun (i : Nat) => on.countP (within (closed == .right) (a + f * (c0 + i + 1)))
  labels := (List.range n).map fun (i : Nat) =>
    if labelRight then a + f * (c0 + i + 1) else a + f * (c0 + i)
  nNull := repeats 0 ((List.range n).map fun (i : Nat) =>
    on.countP (within (closed == .right) (a + f * (c0 + i + 1))))
  closed := closed
  ends := (List.range n).map fun (i : Nat) => a + f * (c0 + i + 1)
  unknownLast := false

/-- First timestamp given to pandas: the restart key, or the first row. -/
def firstOf (on : List Int) (buf : Option ScaleBuf) : Int :=
  match buf.bind ScaleBuf.restart with
  | some k => k
  | none => on.getD 0 0

theorem upTo_eq_self {n : Nat} {l : List Nat} (h : ∀ x ∈ l.dropLast, x ≠ n) : upTo n l = l := by
  induction l with
  | nil => rfl
  | cons r rs ih =>
    cases rs with
    | nil => simp [upTo]
    | cons y ys =>
      have h1 : r ≠ n := h r (by simp)
      rw [upTo, if_neg h1, ih]
      intro x hx
      exact h x (by rw [List.dropLast_cons₂]; exact List.mem_cons_of_mem _ hx)

theorem asc_gridEnds (a f c0 : Int) (hf : 0 < f) (n : Nat) :
    Asc ((List.range n).map fun (i : Nat) => a + f * (c0 + i + 1)) := by
  rw [Asc, List.pairwise_map]
  refine List.Pairwise.imp ?_ List.pairwise_lt_range
  intro i j hij
  have : f * (c0 + i + 1) ≤ f * (c0 + j + 1) := (Int.mul_le_mul_left hf).2 (by omega)
  omega

/-- Chunk starts along the grid, when the last row is in the last cell. -/
theorem nextChunkStarts_grid (closed : Closed) (a f c0 : Int) (n : Nat) (on : List Int) (hf : 0 < f)
    (hs : Asc on) (y : Int) (hy : on.getLast? = some y) (hc : cellOf (closed == .right) a f y = c0 + n) :
    nextChunkStarts on ((List.range (n + 1)).map fun (i : Nat) => a + f * (c0 + i + 1)) (closed == .right) =
      ((gridSeg closed false a f c0 (n + 1) on).starts, (gridSeg closed false a f c0 (n + 1) on).nNull, true) := by
  have hne : on ≠ [] := by rintro rfl; simp at hy
  have hmem : ∀ x ∈ on, x ≤ y := by
    intro x hx
    have hl := List.getLast?_eq_some_iff.1 hy
    obtain ⟨l, rfl⟩ := hl
    rw [Asc, List.pairwise_append] at hs
    rcases List.mem_append.1 hx with h | h
    · exact hs.2.2 x h y (by simp)
    · simp at h; omega
  rw [nextChunkStarts_eq on _ _ hs (asc_gridEnds a f c0 hf (n + 1)) hne]
  have hlast : on.countP (within (closed == .right) (a + f * (c0 + n + 1))) = on.length := by
    rw [List.countP_eq_length]
    intro x hx
    rw [within_end hf, decide_eq_true_eq, ← hc]
    exact cellOf_mono hf (hmem x hx)
  have hmap : ((List.range (n + 1)).map fun (i : Nat) => a + f * (c0 + i + 1)).map
      (fun e => on.countP (within (closed == .right) e)) = (gridSeg closed false a f c0 (n + 1) on).starts := by
    rw [List.map_map]; rfl
  rw [hmap]
  have hup : upTo on.length (gridSeg closed false a f c0 (n + 1) on).starts =
      (gridSeg closed false a f c0 (n + 1) on).starts := by
    apply upTo_eq_self
    intro x hx
    rw [gridSeg, dropLast_range_map] at hx
    obtain ⟨i, hi, rfl⟩ := List.mem_map.1 hx
    intro hcon
    rw [List.countP_eq_length] at hcon
    have := hcon y (List.mem_of_getLast? hy)
    rw [within_end hf, decide_eq_true_eq, hc] at this
    have := List.mem_range.1 hi
    omega
  rw [hup]
  refine Prod.ext rfl (Prod.ext rfl ?_)
  simp only [decide_eq_true_eq]
  rw [gridSeg]
  exact List.mem_map.2 ⟨n, by simp, hlast⟩

theorem getLastD_eq {α} {l : List α} {y d : α} (h : l.getLast? = some y) : l.getLastD d = y := by
  rw [List.getLastD_eq_getLast?, h]; rfl

theorem cellOf_edge_left (a f c : Int) (hf : 0 < f) : cellOf false a f (a + f * c) = c :=
  (inCell_iff hf).1 (by simp only [InCell, Bool.false_eq_true, if_false, Int.mul_add]; omega)

theorem cellOf_edge_right (a f c : Int) (hf : 0 < f) : cellOf true a f (a + f * (c + 1)) = c :=
  (inCell_iff hf).1 (by simp only [InCell, if_true, Int.mul_add]; omega)

/-- `by_scale` with a `TimeGrouper`, one call: all cells from that of the first timestamp to that of the last row,
and the restart key to be in the last cell. -/
theorem byGrouper_eq (g : Grouper) (a : Int) (ha : Anchored g a) (cl : Option Closed) (on : List Int)
    (buf : Option ScaleBuf) (hs : Asc on) (x y : Int) (hx : on.head? = some x) (hy : on.getLast? = some y)
    (hc : cellOf (cl.getD g.closed == .right) a g.freq (firstOf on buf) ≤
      cellOf (cl.getD g.closed == .right) a g.freq x) :
    ∃ k, cellOf (cl.getD g.closed == .right) a g.freq k = cellOf (cl.getD g.closed == .right) a g.freq y ∧
      byGrouper g cl on buf =
        (gridSeg (cl.getD g.closed) g.labelRight a g.freq
          (cellOf (cl.getD g.closed == .right) a g.freq (firstOf on buf))
          (cellOf (cl.getD g.closed == .right) a g.freq y -
            cellOf (cl.getD g.closed == .right) a g.freq (firstOf on buf) + 1).toNat on,
         buf.map fun b => { b with restart := some k }) := by
  obtain ⟨hf, hanchor, hmoved⟩ := ha
  generalize hclosed : cl.getD g.closed = closed at *
  obtain ⟨t, ht⟩ := hanchor (firstOf on buf)
  have hxy : x ≤ y := by
    cases on with
    | nil => simp at hx
    | cons z l =>
      simp only [List.head?_cons, Option.some.injEq] at hx; subst hx
      rcases List.mem_cons.1 (List.mem_of_getLast? hy) with h | h
      · omega
      · exact (List.pairwise_cons.1 hs).1 y h
  have hcxy := cellOf_mono (right := closed == .right) (a := a) hf hxy
  generalize hc0 : cellOf (closed == .right) a g.freq (firstOf on buf) = c0 at *
  generalize hc1 : cellOf (closed == .right) a g.freq y = c1 at *
  obtain ⟨n, hn⟩ : ∃ n : Nat, c1 = c0 + n := ⟨(c1 - c0).toNat, by omega⟩
  have hnn : (c1 - c0 + 1).toNat = n + 1 := by omega
  have hedges : dateRange (gtreStart g.freq (g.anchor (firstOf on buf)) closed (firstOf on buf))
      (gtreEnd g.freq (g.anchor (firstOf on buf)) closed (on.getLastD 0)) g.freq =
      (List.range (n + 1 + 1)).map (fun (i : Nat) => a + g.freq * (c0 + i)) := by
    rw [gtreStart_eq _ _ _ _ hf, gtreEnd_eq _ _ _ _ hf, getLastD_eq hy, ht, cellOf_shift _ _ _ _ _ hf,
      cellOf_shift _ _ _ _ _ hf, hc0, hc1]
    rw [show a + g.freq * t + g.freq * (c0 - t) = a + g.freq * c0 by rw [Int.mul_sub]; omega,
      show a + g.freq * t + g.freq * (c1 - t + 1) = a + g.freq * (c1 + 1) by
        rw [show c1 - t + 1 = (c1 + 1) - t by omega, Int.mul_sub]; omega]
    rw [dateRange_eq a g.freq c0 c1 hf (by omega), hnn]
  have hends : ((List.range (n + 1 + 1)).map (fun (i : Nat) => a + g.freq * (c0 + i))).tail =
      (List.range (n + 1)).map (fun (i : Nat) => a + g.freq * (c0 + i + 1)) := by
    rw [tail_range_map]
    apply List.map_congr_left; intro i _
    rw [show c0 + ((i + 1 : Nat) : Int) = c0 + i + 1 by omega]
  have hlabels : (if g.labelRight then (List.range (n + 1)).map (fun (i : Nat) => a + g.freq * (c0 + i + 1))
        else ((List.range (n + 1 + 1)).map (fun (i : Nat) => a + g.freq * (c0 + i))).dropLast) =
      (gridSeg closed g.labelRight a g.freq c0 (n + 1) on).labels := by
    rw [dropLast_range_map, gridSeg]
    cases g.labelRight <;> simp
  have hstarts := nextChunkStarts_grid closed a g.freq c0 n on hf hs y hy (by rw [hc1, hn])
  have hlen : (gridSeg closed false a g.freq c0 (n + 1) on).starts.length = n + 1 := by simp [gridSeg]
  have hunfold : byGrouper g cl on buf =
      scaleFinish true on (gridSeg closed g.labelRight a g.freq c0 (n + 1) on).labels
        ((List.range (n + 1)).map (fun (i : Nat) => a + g.freq * (c0 + i + 1))) closed buf := by
    unfold byGrouper
    simp only [hmoved]
    rw [← hlabels, ← hends, ← hedges, hclosed]
    rfl
  have htake : (gridSeg closed g.labelRight a g.freq c0 (n + 1) on).labels.take (n + 1) =
      (gridSeg closed g.labelRight a g.freq c0 (n + 1) on).labels :=
    List.take_of_length_le (by simp [gridSeg])
  have htake2 : ((List.range (n + 1)).map (fun (i : Nat) => a + g.freq * (c0 + i + 1))).take (n + 1) =
      (List.range (n + 1)).map (fun (i : Nat) => a + g.freq * (c0 + i + 1)) :=
    List.take_of_length_le (by simp)
  refine ⟨if closed == .left then (if n + 1 > 1 then a + g.freq * c1 else x) else a + g.freq * (c1 + 1), ?_, ?_⟩
  · cases closed
    · simp only [beq_self_eq_true, if_true]
      split
      · exact cellOf_edge_left _ _ _ hf
      · have : n = 0 := by omega
        simp only [beq_self_eq_true, show (Closed.left == Closed.right) = false from rfl] at *
        omega
    · exact cellOf_edge_right _ _ _ hf
  · rw [hunfold, hnn]
    unfold scaleFinish
    rw [hstarts]
    simp only [if_true, hlen, htake, htake2]
    refine Prod.ext rfl ?_
    simp only
    congr 1
    funext b
    cases closed
    · simp only [beq_self_eq_true, Bool.and_true, if_true]
      split
      · rename_i h
        congr 2
        rw [List.getD_eq_getElem?_getD]
        rw [List.getElem?_map, List.getElem?_range (by omega)]
        simp only [Option.map_some, Option.getD_some]
        rw [show c0 + ((n + 1 - 2 : Nat) : Int) + 1 = c1 by omega]
      · congr 2
        cases on with
        | nil => simp at hx
        | cons z l => simpa using hx
    · simp only [show (Closed.right == Closed.left) = false from rfl, Bool.false_and, Bool.false_eq_true, if_false]
      congr 2
      rw [List.getD_eq_getElem?_getD]
      rw [List.getElem?_map, List.getElem?_range (by omega)]
      simp only [Option.map_some, Option.getD_some]
      rw [show c0 + ((n + 1 - 1 : Nat) : Int) + 1 = c1 + 1 by omega]

/-! ### The bins of a grid segmentation -/

theorem gridSeg_bins {R : Type} (closed : Closed) (lr : Bool) (a f c0 : Int) (n : Nat) (pos : R → Int)
    (rows : List R) (hf : 0 < f) (hs : rows.Pairwise (fun a b => pos a ≤ pos b))
    (h0 : ∀ r ∈ rows, c0 ≤ cellOf (closed == .right) a f (pos r)) :
    readBins (gridSeg closed lr a f c0 n (rows.map pos)).starts (gridSeg closed lr a f c0 n (rows.map pos)).labels
      (gridSeg closed lr a f c0 n (rows.map pos)).ends false rows =
    gridBins (closed == .right) lr a f c0 n pos rows := by
  unfold readBins gridBins gridSeg
  simp only [stops, Bool.false_eq_true, if_false, List.map_map]
  rw [List.zip_map', cut_range, List.zip_map', List.map_map]
  apply List.map_congr_left
  intro i _
  simp only [Function.comp, Bin.mk.injEq, true_and]
  have hprev : (if i = 0 then 0
      else (rows.map pos).countP (within (closed == .right) (a + f * (c0 + ((i - 1 : Nat) : Int) + 1)))) =
      (rows.map pos).countP (within (closed == .right) (a + f * (c0 + i - 1 + 1))) := by
    split
    · rename_i h
      symm
      rw [List.countP_eq_zero]
      intro x hx
      obtain ⟨r, hr, rfl⟩ := List.mem_map.1 hx
      rw [within_end hf]
      have := h0 r hr
      simp; omega
    · rename_i h
      rw [show c0 + ((i - 1 : Nat) : Int) + 1 = c0 + i - 1 + 1 by omega]
  rw [hprev, slice_rank pos _ _ _ _ hs]
  apply List.filter_congr
  intro r _
  rw [within_end hf, within_end hf, Bool.eq_iff_iff]
  simp only [Bool.and_eq_true, Bool.not_eq_true', decide_eq_false_iff_not, decide_eq_true_eq, inCell_iff hf]
  omega

theorem gridBins_length {R : Type} (right lr : Bool) (a f c0 : Int) (n : Nat) (pos : R → Int) (rows : List R) :
    (gridBins right lr a f c0 n pos rows).length = n := by simp [gridBins]

/-- Accumulating the bins of a call that starts in the last cell of the history. -/
theorem glue_grid {R : Type} (right lr : Bool) (a f c0 : Int) (n m : Nat) (pos : R → Int) (h p : List R)
    (hf : 0 < f) (hh : ∀ r ∈ h, cellOf right a f (pos r) ≤ c0 + n)
    (hp : ∀ r ∈ p, c0 + n ≤ cellOf right a f (pos r)) :
    glue (gridBins right lr a f c0 (n + 1) pos h) (gridBins right lr a f (c0 + n) (m + 1) pos p) =
      gridBins right lr a f c0 (n + 1 + m) pos (h ++ p) := by
  have hlast : (gridBins right lr a f c0 (n + 1) pos h).getLast? = some
      ⟨if lr then a + f * (c0 + n + 1) else a + f * (c0 + n), some (a + f * (c0 + n + 1)),
        h.filter (fun r => decide (InCell right a f (c0 + n) (pos r)))⟩ := by
    rw [gridBins, List.range_succ, List.map_append, List.map_singleton, List.getLast?_concat]
  have hcons : gridBins right lr a f (c0 + n) (m + 1) pos p =
      ⟨if lr then a + f * (c0 + n + 1) else a + f * (c0 + n), some (a + f * (c0 + n + 1)),
        p.filter (fun r => decide (InCell right a f (c0 + n) (pos r)))⟩ ::
      (List.range m).map (fun (i : Nat) => ⟨if lr then a + f * (c0 + n + (i + 1) + 1) else a + f * (c0 + n + (i + 1)),
        some (a + f * (c0 + n + (i + 1) + 1)),
        p.filter (fun r => decide (InCell right a f (c0 + n + (i + 1)) (pos r)))⟩) := by
    rw [gridBins, List.range_succ_eq_map, List.map_cons, List.map_map]
    simp
  unfold glue
  rw [hlast, hcons]
  simp only
  rw [gridBins, dropLast_range_map, gridBins, List.range_add, List.map_append, List.map_map, List.range_succ,
    List.map_append, List.map_singleton, List.append_assoc]
  congr 1
  · apply List.map_congr_left
    intro i hi
    have := List.mem_range.1 hi
    simp only [List.filter_append, Bin.mk.injEq, true_and]
    have : p.filter (fun r => decide (InCell right a f (c0 + i) (pos r))) = [] := by
      rw [List.filter_eq_nil_iff]
      intro r hr
      have := hp r hr
      simp only [decide_eq_true_eq, inCell_iff hf]
      omega
    rw [this, List.append_nil]
  · simp only [List.singleton_append, List.cons.injEq, Bin.mk.injEq, true_and]
    refine ⟨by rw [List.filter_append], ?_⟩
    apply List.map_congr_left
    intro i _
    simp only [Function.comp, List.filter_append, Bin.mk.injEq]
    have he : c0 + (n : Int) + (i + 1) = c0 + ((n + 1 + i : Nat) : Int) := by push_cast; omega
    rw [he]
    refine ⟨rfl, rfl, ?_⟩
    have : h.filter (fun r => decide (InCell right a f (c0 + ((n + 1 + i : Nat) : Int)) (pos r))) = [] := by
      rw [List.filter_eq_nil_iff]
      intro r hr
      have := hh r hr
      simp only [decide_eq_true_eq, inCell_iff hf]
      push_cast
      omega
    rw [this, List.nil_append]

end Oups.Segment
