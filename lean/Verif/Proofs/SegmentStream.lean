import Verif.Proofs.SegmentRows
/-! Streaming contract of a binning function, and its instances. -/
set_option linter.unusedSimpArgs false
namespace Oups.Segment
open Spec
variable {R B : Type}

/-- Rows in ascending order of position. -/
abbrev AscOn (pos : R → Int) (rows : List R) : Prop := rows.Pairwise (fun a b => pos a ≤ pos b)

/-- What one call over the piece `p` after the history `h` returns, relative to the bins `spec` of a frame. -/
structure StepOk (spec : List R → List (Bin R)) (h p : List R) (r : BinRes) : Prop where
  labels_len : r.labels.length = r.starts.length
  ends_len : r.ends.length = r.starts.length
  mono : r.starts.Pairwise (· ≤ ·)
  last : r.starts.getLast? = some p.length
  before : ∀ s ∈ r.starts.dropLast, s < p.length
  glue : glue (spec h) (readBins r.starts r.labels r.ends r.unknownLast p) = spec (h ++ p)
  first_label : h ≠ [] → r.labels.head? = (spec h).getLast?.map Bin.label
  last_label : r.labels.getLast? = (spec (h ++ p)).getLast?.map Bin.label
  null : r.nNull = (cut p 0 r.starts).countP List.isEmpty

/-- A binning function that restarts exactly: `ok h b` tells that `b` is its buffer after the rows `h`. -/
structure Lawful (fn : BinFn R B) (pos : R → Int) (closed : Closed) (b0 : B)
    (spec : List R → List (Bin R)) (ok : List R → B → Prop) : Prop where
  spec_nil : spec [] = []
  init : ok [] b0
  step : ∀ h p b, p ≠ [] → AscOn pos (h ++ p) → ok h b →
    ∃ r b', fn p (some b) = .ok (r, some b') ∧ ok (h ++ p) b' ∧ r.closed = some closed ∧ StepOk spec h p r
  noBuf : ∀ p, p ≠ [] → AscOn pos p → ∃ r b', fn p (some b0) = .ok (r, some b') ∧ fn p none = .ok (r, none)

/-! ### `TimeGrouper` -/

/-- `bin_by` for a `TimeGrouper` (`partial(by_scale, by=bin_by)`, `segmentby.py:639`). -/
def grouperFn (g : Grouper) (pos : R → Int) : BinFn R ScaleBuf := fun p buf =>
  .ok ((byGrouper g none (p.map pos) buf).1.toRes, (byGrouper g none (p.map pos) buf).2)

/-- Bins of a frame along the grid. -/
def gridSpec (right lr : Bool) (a f : Int) (pos : R → Int) (rows : List R) : List (Bin R) :=
  match rows.head?, rows.getLast? with
  | some x, some y => gridBins right lr a f (cellOf right a f (pos x))
      (cellOf right a f (pos y) - cellOf right a f (pos x) + 1).toNat pos rows
  | _, _ => []

theorem gridSpec_isGrid (right lr : Bool) (a f : Int) (pos : R → Int) (rows : List R) (hf : 0 < f)
    (hs : AscOn pos rows) : IsGrid right lr a f pos rows (gridSpec right lr a f pos rows) := by
  unfold IsGrid gridSpec
  cases hx : rows.head? with
  | none => rfl
  | some x =>
    cases hy : rows.getLast? with
    | none => rfl
    | some y =>
      refine ⟨_, _, (inCell_iff hf).2 rfl, (inCell_iff hf).2 rfl, ?_, rfl⟩
      apply cellOf_mono hf
      cases rows with
      | nil => simp at hx
      | cons z l =>
        simp only [List.head?_cons, Option.some.injEq] at hx; subst hx
        rcases List.mem_cons.1 (List.mem_of_getLast? hy) with h | h
        · rw [h]
        · exact (List.pairwise_cons.1 hs).1 y h

theorem isGrid_unique (right lr : Bool) (a f : Int) (pos : R → Int) (rows : List R) (hf : 0 < f)
    (bins : List (Bin R)) (h : IsGrid right lr a f pos rows bins) : bins = gridSpec right lr a f pos rows := by
  unfold IsGrid at h
  unfold gridSpec
  cases hx : rows.head? with
  | none => rw [hx] at h; exact h
  | some x =>
    cases hy : rows.getLast? with
    | none => rw [hx, hy] at h; exact h
    | some y =>
      rw [hx, hy] at h
      obtain ⟨c0, c1, h0, h1, _, rfl⟩ := h
      rw [inCell_iff hf] at h0 h1
      simp only [h0, h1]

/-- Buffer of `by_scale` after the rows `h`: the restart key is in the cell of the last row. -/
def gridOk (right : Bool) (a f : Int) (pos : R → Int) (h : List R) (b : ScaleBuf) : Prop :=
  match h.getLast? with
  | none => b.restart = none
  | some y => ∃ k, b.restart = some k ∧ cellOf right a f k = cellOf right a f (pos y)

theorem ascOn_map {pos : R → Int} {rows : List R} (h : AscOn pos rows) : Asc (rows.map pos) := by
  rw [Asc, List.pairwise_map]; exact h

theorem ascOn_le_last {pos : R → Int} {rows : List R} (h : AscOn pos rows) {y : R} (hy : rows.getLast? = some y) :
    ∀ x ∈ rows, pos x ≤ pos y := by
  intro x hx
  obtain ⟨l, rfl⟩ := List.getLast?_eq_some_iff.1 hy
  rw [AscOn, List.pairwise_append] at h
  rcases List.mem_append.1 hx with h' | h'
  · exact h.2.2 x h' y (by simp)
  · simp at h'; rw [h']

theorem ascOn_head_le {pos : R → Int} {rows : List R} (h : AscOn pos rows) {x : R} (hx : rows.head? = some x) :
    ∀ y ∈ rows, pos x ≤ pos y := by
  intro y hy
  cases rows with
  | nil => simp at hx
  | cons z l =>
    simp only [List.head?_cons, Option.some.injEq] at hx; subst hx
    rcases List.mem_cons.1 hy with h' | h'
    · rw [h']
    · exact (List.pairwise_cons.1 h).1 y h'

theorem gridSeg_mono (closed : Closed) (lr : Bool) (a f c0 : Int) (n : Nat) (on : List Int) (hf : 0 < f) :
    (gridSeg closed lr a f c0 n on).starts.Pairwise (· ≤ ·) := by
  rw [gridSeg, List.pairwise_map]
  refine List.Pairwise.imp ?_ List.pairwise_lt_range
  intro i j hij
  apply countP_mono_edge
  have : f * (c0 + i + 1) ≤ f * (c0 + j + 1) := (Int.mul_le_mul_left hf).2 (by omega)
  omega

theorem grouper_step (g : Grouper) (a : Int) (ha : Anchored g a) (cl : Option Closed) (pos : R → Int)
    (h p : List R) (b : ScaleBuf) (hp : p ≠ []) (hs : AscOn pos (h ++ p))
    (hok : gridOk (cl.getD g.closed == .right) a g.freq pos h b) :
    ∃ s b', byGrouper g cl (p.map pos) (some b) = (s, some b') ∧
      byGrouper g cl (p.map pos) none = ((byGrouper g cl (p.map pos) (some { })).1, none) ∧
      gridOk (cl.getD g.closed == .right) a g.freq pos (h ++ p) b' ∧ s.closed = cl.getD g.closed ∧
      s.unknownLast = false ∧
      (∃ c0 n, s = gridSeg (cl.getD g.closed) g.labelRight a g.freq c0 (n + 1) (p.map pos) ∧
        (∀ r ∈ p, c0 ≤ cellOf (cl.getD g.closed == .right) a g.freq (pos r)) ∧
        (∀ r ∈ p, cellOf (cl.getD g.closed == .right) a g.freq (pos r) ≤ c0 + n) ∧
        (∀ y, p.getLast? = some y → cellOf (cl.getD g.closed == .right) a g.freq (pos y) = c0 + n) ∧
        (∀ y, h.getLast? = some y → cellOf (cl.getD g.closed == .right) a g.freq (pos y) = c0)) ∧
      StepOk (gridSpec (cl.getD g.closed == .right) g.labelRight a g.freq pos) h p s.toRes := by
  have hf := ha.1
  obtain ⟨x, hx⟩ : ∃ x, p.head? = some x := by
    cases p with
    | nil => exact absurd rfl hp
    | cons x l => exact ⟨x, rfl⟩
  obtain ⟨y, hy⟩ : ∃ y, p.getLast? = some y := by
    cases h' : p.getLast? with
    | none => rw [List.getLast?_eq_none_iff] at h'; exact absurd h' hp
    | some y => exact ⟨y, rfl⟩
  rw [AscOn, List.pairwise_append] at hs
  obtain ⟨hsh, hsp, hhp⟩ := hs
  have hxm : (p.map pos).head? = some (pos x) := by rw [List.head?_map, hx]; rfl
  have hym : (p.map pos).getLast? = some (pos y) := by rw [List.getLast?_map, hy]; rfl
  have hfirst0 : ∀ b : Option ScaleBuf, b.bind ScaleBuf.restart = none → firstOf (p.map pos) b = pos x := by
    intro b hb
    rw [firstOf, hb]
    cases p with
    | nil => exact absurd rfl hp
    | cons z l => simp at hx ⊢; rw [hx]
  -- cell of the restart point
  have hcell : cellOf (cl.getD g.closed == .right) a g.freq (firstOf (p.map pos) (some b)) ≤
      cellOf (cl.getD g.closed == .right) a g.freq (pos x) ∧
      (∀ z, h.getLast? = some z → cellOf (cl.getD g.closed == .right) a g.freq (firstOf (p.map pos) (some b)) =
        cellOf (cl.getD g.closed == .right) a g.freq (pos z)) ∧
      (h = [] → firstOf (p.map pos) (some b) = pos x) := by
    unfold gridOk at hok
    cases hl : h.getLast? with
    | none =>
      rw [hl] at hok
      rw [hfirst0 (some b) hok]
      exact ⟨Int.le_refl _, ⟨fun z hz => (by simp at hz), fun _ => rfl⟩⟩
    | some z =>
      rw [hl] at hok
      obtain ⟨k, hk, hkc⟩ := hok
      have : firstOf (p.map pos) (some b) = k := by simp [firstOf, hk]
      rw [this, hkc]
      refine ⟨cellOf_mono hf (hhp z (List.mem_of_getLast? hl) x (List.mem_of_mem_head? hx)), ?_, ?_⟩
      · intro z' hz'; cases hz'; rfl
      · rintro rfl; simp at hl
  obtain ⟨hc, hch, hce⟩ := hcell
  obtain ⟨k, hk, heq⟩ := byGrouper_eq g a ha cl (p.map pos) (some b) (ascOn_map hsp) _ _ hxm hym hc
  have hcell0 : ∀ b : Option ScaleBuf, b.bind ScaleBuf.restart = none →
      cellOf (cl.getD g.closed == .right) a g.freq (firstOf (p.map pos) b) ≤
      cellOf (cl.getD g.closed == .right) a g.freq (pos x) := fun b hb => by rw [hfirst0 b hb]
  obtain ⟨k0, _, heq0⟩ := byGrouper_eq g a ha cl (p.map pos) none (ascOn_map hsp) _ _ hxm hym (hcell0 none rfl)
  obtain ⟨k1, _, heq1⟩ := byGrouper_eq g a ha cl (p.map pos) (some {}) (ascOn_map hsp) _ _ hxm hym
    (hcell0 (some {}) rfl)
  rw [hfirst0 none rfl] at heq0
  rw [hfirst0 (some {}) rfl] at heq1
  have hxy : pos x ≤ pos y := ascOn_head_le hsp hx y (List.mem_of_getLast? hy)
  have hcxy := cellOf_mono (right := cl.getD g.closed == .right) (a := a) hf hxy
  generalize hright : (cl.getD g.closed == Closed.right) = right at *
  generalize hc0 : cellOf right a g.freq (firstOf (p.map pos) (some b)) = c0 at *
  obtain ⟨n, hn⟩ : ∃ n : Nat, cellOf right a g.freq (pos y) = c0 + n :=
    ⟨(cellOf right a g.freq (pos y) - c0).toNat, by omega⟩
  have hnn : (cellOf right a g.freq (pos y) - c0 + 1).toNat = n + 1 := by omega
  rw [hnn] at heq
  have hge : ∀ r ∈ p, c0 ≤ cellOf right a g.freq (pos r) := fun r hr =>
    le_trans hc (cellOf_mono hf (ascOn_head_le hsp hx r hr))
  have hle : ∀ r ∈ p, cellOf right a g.freq (pos r) ≤ c0 + n := fun r hr => by
    rw [← hn]; exact cellOf_mono hf (ascOn_le_last hsp hy r hr)
  have hbins := gridSeg_bins (cl.getD g.closed) g.labelRight a g.freq c0 (n + 1) pos p hf hsp (by rw [hright]; exact hge)
  rw [hright] at hbins
  have hcov : (p.map pos).countP (within right (a + g.freq * (c0 + n + 1))) = p.length := by
    rw [← List.length_map (f := pos), List.countP_eq_length]
    intro v hv
    obtain ⟨r, hr, rfl⟩ := List.mem_map.1 hv
    rw [within_end hf, decide_eq_true_eq]; exact hle r hr
  have hlastHP : (h ++ p).getLast? = some y := by
    rw [List.getLast?_append, hy]; rfl
  refine ⟨_, _, heq, ?_, ?_, rfl, rfl, ⟨c0, n, rfl, hge, hle, ?_, ?_⟩, ?_⟩
  · rw [heq0, heq1]; rfl
  · unfold gridOk
    rw [hlastHP]
    exact ⟨k, rfl, hk⟩
  · intro y' hy'; rw [hy] at hy'; cases hy'; exact hn
  · intro z hz; exact (hch z hz).symm
  have hglue : glue (gridSpec right g.labelRight a g.freq pos h) (gridBins right g.labelRight a g.freq c0 (n + 1) pos p) =
      gridSpec right g.labelRight a g.freq pos (h ++ p) ∧
      (gridSpec right g.labelRight a g.freq pos (h ++ p)).getLast?.map Bin.label =
        some (if g.labelRight then a + g.freq * (c0 + n + 1) else a + g.freq * (c0 + n)) := by
    cases hl : h.getLast? with
    | none =>
      rw [List.getLast?_eq_none_iff] at hl
      subst hl
      have e : gridSpec right g.labelRight a g.freq pos ([] ++ p) =
          gridBins right g.labelRight a g.freq c0 (n + 1) pos p := by
        rw [List.nil_append, gridSpec, hx, hy]
        simp only
        rw [← hnn, ← hc0, hce rfl]
      rw [e]
      refine ⟨rfl, ?_⟩
      rw [gridBins, List.range_succ, List.map_append, List.map_singleton, List.getLast?_concat]
      rfl
    | some z =>
      have hcz := hch z hl
      obtain ⟨x0, hx0⟩ : ∃ x0, h.head? = some x0 := by
        cases h with
        | nil => simp at hl
        | cons x l => exact ⟨x, rfl⟩
      have hx0z : pos x0 ≤ pos z := ascOn_head_le hsh hx0 z (List.mem_of_getLast? hl)
      have hcx0 := cellOf_mono (right := right) (a := a) hf hx0z
      obtain ⟨n0, hn0⟩ : ∃ n0 : Nat, c0 = cellOf right a g.freq (pos x0) + n0 :=
        ⟨(c0 - cellOf right a g.freq (pos x0)).toNat, by omega⟩
      have e0 : gridSpec right g.labelRight a g.freq pos h =
          gridBins right g.labelRight a g.freq (cellOf right a g.freq (pos x0)) (n0 + 1) pos h := by
        rw [gridSpec, hx0, hl]
        simp only
        rw [show (cellOf right a g.freq (pos z) - cellOf right a g.freq (pos x0) + 1).toNat = n0 + 1 by omega]
      have e1 : gridSpec right g.labelRight a g.freq pos (h ++ p) =
          gridBins right g.labelRight a g.freq (cellOf right a g.freq (pos x0)) (n0 + 1 + n) pos (h ++ p) := by
        rw [gridSpec, List.head?_append, hx0, hlastHP]
        simp only [Option.some_or]
        rw [show (cellOf right a g.freq (pos y) - cellOf right a g.freq (pos x0) + 1).toNat = n0 + 1 + n by omega]
      rw [e0, e1]
      refine ⟨?_, ?_⟩
      · rw [hn0]
        exact glue_grid right g.labelRight a g.freq _ n0 n pos h p hf
          (fun r hr => by rw [← hn0, hcz]; exact cellOf_mono hf (ascOn_le_last hsh hl r hr))
          (fun r hr => by rw [← hn0]; exact hge r hr)
      · rw [show n0 + 1 + n = n0 + n + 1 by omega, gridBins, List.range_succ, List.map_append, List.map_singleton,
          List.getLast?_concat]
        simp only [Option.map_some]
        rw [hn0]; push_cast
        rw [show cellOf right a g.freq (pos x0) + ((n0 : Int) + n) = cellOf right a g.freq (pos x0) + n0 + n by omega]
  constructor
  · simp [gridSeg, Seg.toRes]
  · simp [gridSeg, Seg.toRes]
  · exact gridSeg_mono (cl.getD g.closed) g.labelRight a g.freq c0 (n + 1) (p.map pos) hf
  · simp only [gridSeg, Seg.toRes]
    rw [List.range_succ, List.map_append, List.map_singleton, List.getLast?_concat, hright, hcov]
  · intro s hs
    simp only [gridSeg, Seg.toRes, hright, dropLast_range_map] at hs
    obtain ⟨i, hi, rfl⟩ := List.mem_map.1 hs
    have hi := List.mem_range.1 hi
    have h1 : (p.map pos).countP (within right (a + g.freq * (c0 + i + 1))) ≤ (p.map pos).length :=
      List.countP_le_length
    rw [List.length_map] at h1
    apply Nat.lt_of_le_of_ne h1
    intro hcon
    rw [← List.length_map (f := pos), List.countP_eq_length] at hcon
    have := hcon (pos y) (List.mem_map_of_mem (List.mem_of_getLast? hy))
    rw [within_end hf, decide_eq_true_eq, hn] at this
    omega
  · simp only [Seg.toRes]
    rw [show (gridSeg (cl.getD g.closed) g.labelRight a g.freq c0 (n + 1) (p.map pos)).unknownLast = false from rfl, hbins]
    exact hglue.1
  · intro hne
    cases hl : h.getLast? with
    | none => rw [List.getLast?_eq_none_iff] at hl; exact absurd hl hne
    | some z =>
      have hcz := hch z hl
      obtain ⟨x0, hx0⟩ : ∃ x0, h.head? = some x0 := by
        cases h with
        | nil => simp at hl
        | cons x l => exact ⟨x, rfl⟩
      have hx0z : pos x0 ≤ pos z := ascOn_head_le hsh hx0 z (List.mem_of_getLast? hl)
      have hcx0 := cellOf_mono (right := right) (a := a) hf hx0z
      rw [gridSpec, hx0, hl]
      simp only [Seg.toRes, gridSeg]
      obtain ⟨n0, hn0⟩ : ∃ n0 : Nat, c0 = cellOf right a g.freq (pos x0) + n0 :=
        ⟨(c0 - cellOf right a g.freq (pos x0)).toNat, by omega⟩
      rw [show (cellOf right a g.freq (pos z) - cellOf right a g.freq (pos x0) + 1).toNat = n0 + 1 by omega,
        gridBins, List.range_succ (n := n0), List.map_append, List.map_singleton, List.getLast?_concat,
        List.range_succ_eq_map, List.map_cons, List.head?_cons, hn0]
      simp
  · rw [hglue.2]
    simp only [Seg.toRes, gridSeg]
    rw [List.range_succ, List.map_append, List.map_singleton, List.getLast?_concat]
  · simp only [Seg.toRes]
    have h1 := gridSeg_mono (cl.getD g.closed) g.labelRight a g.freq c0 (n + 1) (p.map pos) hf
    have h2 := repeats_eq_countP (p.map pos) 0 (gridSeg (cl.getD g.closed) g.labelRight a g.freq c0 (n + 1) (p.map pos)).starts
      (List.pairwise_cons.2 ⟨fun _ _ => Nat.zero_le _, h1⟩) (by
        intro t ht
        obtain ⟨i, _, rfl⟩ := List.mem_map.1 ht
        exact List.countP_le_length)
    rw [show (gridSeg (cl.getD g.closed) g.labelRight a g.freq c0 (n + 1) (p.map pos)).nNull =
      repeats 0 (gridSeg (cl.getD g.closed) g.labelRight a g.freq c0 (n + 1) (p.map pos)).starts from rfl, h2]
    have hcut : ∀ (s : Nat) (ts : List Nat), cut (p.map pos) s ts = (cut p s ts).map (List.map pos) := by
      intro s ts
      induction ts generalizing s with
      | nil => rfl
      | cons t ts ih => rw [cut, cut, ih, List.map_cons, List.map_take, List.map_drop]
    rw [hcut, List.countP_map]
    apply List.countP_congr
    intro l _
    cases l <;> simp

theorem grouper_lawful (g : Grouper) (a : Int) (ha : Anchored g a) (pos : R → Int) :
    Lawful (grouperFn g pos) pos g.closed ({} : ScaleBuf)
      (gridSpec (g.closed == .right) g.labelRight a g.freq pos)
      (gridOk (g.closed == .right) a g.freq pos) where
  spec_nil := rfl
  init := rfl
  step := by
    intro h p b hp hs hok
    obtain ⟨s, b', h1, _, h3, h4, _, _, h5⟩ := grouper_step g a ha none pos h p b hp hs hok
    refine ⟨s.toRes, b', ?_, h3, ?_, h5⟩
    · rw [grouperFn, h1]
    · simp only [Seg.toRes, h4]; rfl
  noBuf := by
    intro p hp hs
    obtain ⟨s, b', h1, h2, _⟩ := grouper_step g a ha none pos [] p {} hp hs rfl
    refine ⟨s.toRes, b', ?_, ?_⟩
    · rw [grouperFn, h1]
    · rw [grouperFn, h2, h1]

/-! ### `by_x_rows` -/

/-- `bin_by` set to `by_x_rows` (with its parameters bound); the positions are the last column of `on`. -/
def rowsFn (n : Nat) (closed : Closed) (pos : R → Int) : BinFn R (Option RowsBuf) := fun p buf =>
  .ok ((byXRows n closed (p.map pos) buf).1.toRes, (byXRows n closed (p.map pos) buf).2)

/-- Buffer of `by_x_rows` after the rows `h`. -/
def rowsOk (n : Nat) (closed : Closed) (pos : R → Int) (h : List R) (b : Option RowsBuf) : Prop :=
  match b with
  | none => h = []
  | some b => ∃ j, h.length = j * n + b.restart ∧ 1 ≤ b.restart ∧ b.restart ≤ n ∧
      b.lastLabel = (h.map pos).getD (j * n) 0 ∧ (closed = .right → b.lastEnd = some ((h.map pos).getD (h.length - 1) 0))

theorem getLastD_range_map {α} (g : Nat → α) (d : Nat) (z : α) :
    ((List.range (d + 1)).map g).getLastD z = g d := by
  rw [List.range_succ, List.map_append, List.map_singleton, List.getLastD_concat]

theorem rowsSeg_step (n : Nat) (closed : Closed) (pos : R → Int) (h p : List R) (j s d t : Nat)
    (lab0 end0 : Int) (hn : 0 < n) (hH : h.length = j * n + s) (hsn : s ≤ n) (hs0 : s = 0 → h = [])
    (hL : p.length + s = d * n + t) (hp : p ≠ []) (h1 : 1 ≤ t) (h2 : t ≤ n)
    (hlab : lab0 = ((h ++ p).map pos).getD (j * n) 0)
    (hend : closed = .right → s = n → end0 = ((h ++ p).map pos).getD ((j + 1) * n - 1) 0) :
    rowsOk n closed pos (h ++ p) (some ⟨t, (rowsSeg n closed (p.map pos) s d t lab0 end0).labels.getLastD 0,
      match (generalizing := false) closed with
        | .right => some ((rowsSeg n closed (p.map pos) s d t lab0 end0).ends.getLastD 0)
        | .left => none⟩) ∧
    StepOk (xBins (closed == .right) n pos) h p (rowsSeg n closed (p.map pos) s d t lab0 end0).toRes := by
  have hlen := List.length_pos_iff.2 hp
  have hw : (h ++ p).length = (j + d) * n + t := by rw [List.length_append, Nat.add_mul]; omega
  have hmap : (h ++ p).map pos = h.map pos ++ p.map pos := List.map_append
  have hget : ∀ k m, k = h.length + m → ((h ++ p).map pos).getD k 0 = (p.map pos).getD m 0 := by
    intro k m hk
    have := getD_add (h.map pos) (p.map pos) m 0
    rw [hmap, hk]
    rw [List.length_map] at this
    exact this
  have hsucc : ∀ i : Nat, (i + 1) * n = i * n + n := fun i => by rw [Nat.add_mul]; omega
  have hjd : (j + d) * n = j * n + d * n := Nat.add_mul ..
  have hdn : d ≠ 0 → 1 * n ≤ d * n := fun h' => Nat.mul_le_mul_right n (by omega)
  have hlastlab : (if d = 0 then lab0 else (p.map pos).getD (d * n - s) 0) =
      ((h ++ p).map pos).getD ((j + d) * n) 0 := by
    by_cases hd : d = 0
    · simp [hd, hlab]
    · have := hdn hd
      rw [if_neg hd, hget _ (d * n - s) (by omega)]
  have hbins := rowsSeg_bins n closed pos h p j s d t lab0 end0 hn hH hsn hL hp h1 h2 hlab hend
  have hlast : (xBins (closed == .right) n pos (h ++ p)).getLast?.map Bin.label =
      some (((h ++ p).map pos).getD ((j + d) * n) 0) := by
    rw [xBins_eq (closed == .right) n pos (h ++ p) (j + d) t hn hw h1 h2, List.range_succ, List.map_append,
      List.map_singleton, List.getLast?_concat]
    rfl
  refine ⟨⟨j + d, hw, h1, h2, ?_, ?_⟩, ?_⟩
  · simp only [rowsSeg]
    rw [getLastD_range_map]
    exact hlastlab
  · intro hc
    subst hc
    simp only [rowsSeg]
    rw [getLastD_range_map, if_pos rfl, List.length_map]
    have hne : ¬ (d = 0 ∧ s = n) := by
      rintro ⟨rfl, rfl⟩; simp at hL; omega
    rw [if_neg hne]
    congr 1
    rw [List.length_append]
    exact (hget _ _ (by omega)).symm
  constructor
  · simp [rowsSeg, Seg.toRes]
  · simp [rowsSeg, Seg.toRes]
  · simp only [rowsSeg, Seg.toRes]
    rw [List.pairwise_map]
    refine List.Pairwise.imp_of_mem ?_ List.pairwise_lt_range
    intro i k hi hk hik
    have hi := List.mem_range.1 hi
    have hk := List.mem_range.1 hk
    rw [List.length_map]
    have e1 : (i + 1) * n ≤ (k + 1) * n := Nat.mul_le_mul_right n (by omega)
    have e2 : (i + 1) * n ≤ d * n := Nat.mul_le_mul_right n (by omega)
    rw [if_neg (by omega)]
    split <;> omega
  · simp only [rowsSeg, Seg.toRes]
    rw [List.range_succ, List.map_append, List.map_singleton, List.getLast?_concat, if_pos rfl, List.length_map]
  · intro x hx
    simp only [rowsSeg, Seg.toRes] at hx
    rw [dropLast_range_map] at hx
    obtain ⟨i, hi, rfl⟩ := List.mem_map.1 hx
    have hi := List.mem_range.1 hi
    have e2 : (i + 1) * n ≤ d * n := Nat.mul_le_mul_right n (by omega)
    rw [if_neg (by omega)]
    omega
  · simp only [Seg.toRes]
    rw [hbins]
    by_cases hh : h = []
    · subst hh
      have h0 : j * n = 0 ∧ s = 0 := by simp at hH; omega
      have hj : j = 0 := by
        rcases Nat.mul_eq_zero.1 h0.1 with h' | h' <;> omega
      obtain ⟨_, rfl⟩ := h0
      subst hj
      have : xBins (closed == .right) n pos ([] : List R) = [] := by
        rw [xBins]; simp [Nat.div_eq_of_lt (by omega : n - 1 < n)]
      rw [this]
      simp only [glue, List.getLast?_nil, List.nil_append, Nat.zero_add]
      rw [xBins_eq (closed == .right) n pos p d t hn (by omega) h1 h2]
      apply List.map_congr_left
      intro i hi
      have hi := List.mem_range.1 hi
      have e2 : i ≠ d → (i + 1) * n ≤ d * n := fun h' => Nat.mul_le_mul_right n (by omega)
      have e1 := hsucc i
      simp only [xb, Bin.mk.injEq, true_and, Nat.sub_zero]
      by_cases hd : i = d
      · subst hd
        rw [if_pos rfl, List.take_of_length_le (by rw [List.length_drop]),
          List.take_of_length_le (by rw [List.length_drop]; omega)]
      · rw [if_neg hd]; congr 1; omega
    · exact glue_rows (closed == .right) n pos h p j s d t hn hH (by
        rcases Nat.eq_zero_or_pos s with h' | h'
        · exact absurd (hs0 h') hh
        · exact h') hsn hL hp h1 h2
  · intro hne
    have hs1 : 0 < s := by
      rcases Nat.eq_zero_or_pos s with h' | h'
      · exact absurd (hs0 h') hne
      · exact h'
    rw [xBins_eq (closed == .right) n pos h j s hn hH hs1 hsn, List.range_succ, List.map_append,
      List.map_singleton, List.getLast?_concat]
    simp only [rowsSeg, Seg.toRes]
    rw [List.range_succ_eq_map, List.map_cons, List.head?_cons]
    simp only [if_true, Option.map_some, xb, hlab, Option.some.injEq]
    rw [hmap, List.getD_eq_getElem?_getD, List.getElem?_append_left (by rw [List.length_map]; omega),
      List.getD_eq_getElem?_getD]
  · rw [hlast]
    simp only [rowsSeg, Seg.toRes]
    rw [List.range_succ, List.map_append, List.map_singleton, List.getLast?_concat]
    rw [hlastlab]
  · simp only [rowsSeg, Seg.toRes]
    rw [cut_range, List.countP_map, List.range_succ_eq_map, List.countP_cons, List.countP_map]
    have hz : List.countP ((List.isEmpty ∘ fun i => (p.drop (if i = 0 then 0 else
        if i - 1 = d then (p.map pos).length else (i - 1 + 1) * n - s)).take
        ((if i = d then (p.map pos).length else (i + 1) * n - s) - (if i = 0 then 0 else
        if i - 1 = d then (p.map pos).length else (i - 1 + 1) * n - s))) ∘ Nat.succ) (List.range d) = 0 := by
      rw [List.countP_eq_zero]
      intro i hi
      have hi := List.mem_range.1 hi
      simp only [Function.comp, Nat.succ_eq_add_one, Nat.add_sub_cancel, List.length_map]
      rw [if_neg (by omega : ¬ i + 1 = 0), if_neg (by omega : ¬ i = d)]
      rw [List.isEmpty_iff]
      intro hc
      have := congrArg List.length hc
      simp only [List.length_take, List.length_drop, List.length_nil] at this
      have e1 := hsucc i
      have e2 := hsucc (i + 1)
      have e3 : (i + 1) * n ≤ d * n := Nat.mul_le_mul_right n (by omega)
      have e4 : i + 1 ≠ d → (i + 1 + 1) * n ≤ d * n := fun h' => Nat.mul_le_mul_right n (by omega)
      by_cases hd : i + 1 = d
      · rw [if_pos hd] at this; omega
      · rw [if_neg hd] at this
        have := e4 hd
        omega
    rw [hz]
    simp only [Function.comp, if_true, List.drop_zero, Nat.sub_zero, Nat.zero_add, List.length_map, Nat.one_mul]
    by_cases hsn' : s = n
    · have hd : ¬ 0 = d := by
        rintro rfl; simp at hL; omega
      simp [hsn', hd]
    · rw [if_neg hsn', if_neg]
      rw [List.isEmpty_iff]
      intro hc
      have := congrArg List.length hc
      simp only [List.length_take, List.length_nil] at this
      split at this <;> omega

theorem rows_step (n : Nat) (hn : 0 < n) (closed : Closed) (pos : R → Int) (h p : List R) (b : Option RowsBuf)
    (hp : p ≠ []) (hok : rowsOk n closed pos h b) :
    ∃ s b', byXRows n closed (p.map pos) (some b) = (s, some b') ∧ rowsOk n closed pos (h ++ p) b' ∧
      s.closed = closed ∧ StepOk (xBins (closed == .right) n pos) h p s.toRes := by
  have hlen := List.length_pos_iff.2 hp
  have hmap : (h ++ p).map pos = h.map pos ++ p.map pos := List.map_append
  cases b with
  | none =>
    simp only [rowsOk] at hok
    subst hok
    obtain ⟨d, t, hL, h1, h2⟩ := div_mod_decomp n p.length hn hlen
    have := rowsSeg_step n closed pos [] p 0 0 d t ((p.map pos).getD 0 0) 0 hn (by simp) (by omega) (fun _ => rfl)
      hL hp h1 h2 (by simp) (fun _ h' => by omega)
    exact ⟨_, _, byXRows_fresh n closed (p.map pos) d t hn (by simpa using hL) h1 h2 (some none) (Or.inr rfl) 0,
      this.1, rfl, this.2⟩
  | some b =>
    obtain ⟨j, hH, hb1, hb2, hlab, hend⟩ := hok
    obtain ⟨d, t, hL, h1, h2⟩ := div_mod_decomp n (p.length + b.restart) hn (by omega)
    have hgetl : ∀ k, k < h.length → ((h ++ p).map pos).getD k 0 = (h.map pos).getD k 0 := by
      intro k hk
      rw [hmap, List.getD_eq_getElem?_getD, List.getElem?_append_left (by simpa using hk),
        List.getD_eq_getElem?_getD]
    have hpm : p.map pos ≠ [] := by simpa using hp
    by_cases hbn : b.restart = n
    · have := rowsSeg_step n closed pos h p j n d t b.lastLabel (b.lastEnd.getD 0) hn (by omega) (by omega)
        (fun h' => by omega) (by omega) hp h1 h2 (by rw [hlab, hgetl _ (by omega)]) (by
          intro hc _
          rw [hend hc, Option.getD_some]
          have : (j + 1) * n - 1 = h.length - 1 := by rw [Nat.add_mul]; omega
          rw [this, hgetl _ (by omega)])
      exact ⟨_, _, byXRows_new n closed (p.map pos) d t b hbn hn (by rw [List.length_map]; omega) hpm h1 h2,
        this.1, rfl, this.2⟩
    · have := rowsSeg_step n closed pos h p j b.restart d t b.lastLabel 0 hn hH hb2
        (fun h' => by omega) hL hp h1 h2 (by rw [hlab, hgetl _ (by omega)]) (fun _ h' => absurd h' hbn)
      exact ⟨_, _, byXRows_cont n closed (p.map pos) b.restart d t b rfl hb1 (by omega)
        (by rw [List.length_map]; omega) hpm h1 h2 0, this.1, rfl, this.2⟩

/-- (`by_x_rows` does not need the rows to be ordered: `ord` is arbitrary.) -/
theorem rows_lawful (n : Nat) (hn : 0 < n) (closed : Closed) (pos ord : R → Int) :
    Lawful (rowsFn n closed pos) ord closed (none : Option RowsBuf) (xBins (closed == .right) n pos)
      (rowsOk n closed pos) where
  spec_nil := by rw [xBins]; simp [Nat.div_eq_of_lt (by omega : n - 1 < n)]
  init := rfl
  step := by
    intro h p b hp _ hok
    obtain ⟨s, b', h1, h2, h3, h4⟩ := rows_step n hn closed pos h p b hp hok
    exact ⟨s.toRes, b', by rw [rowsFn, h1], h2, by rw [Seg.toRes, h3], h4⟩
  noBuf := by
    intro p hp _
    obtain ⟨d, t, hL, h1, h2⟩ := div_mod_decomp n p.length hn (List.length_pos_iff.2 hp)
    have e := fun buf hb => byXRows_fresh n closed (p.map pos) d t hn (by simpa using hL) h1 h2 buf hb 0
    exact ⟨_, _, by rw [rowsFn, e (some none) (Or.inr rfl)]; rfl, by rw [rowsFn, e none (Or.inl rfl)]; rfl⟩

end Oups.Segment
