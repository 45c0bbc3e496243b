import Verif.Proofs.SegmentStream
import Verif.Spec.Calendar
/-! `by_scale` along any edges in strict order: one call, and the bins of a succession of calls. -/
set_option linter.unusedSimpArgs false
namespace Oups.Segment
open Spec
variable {R : Type}

/-- Edges in strict order, and the cell of each position. -/
structure Grid where
  e : Int → Int
  cell : Bool → Int → Int
  mono : ∀ c, e c < e (c + 1)
  in_cell : ∀ right x, InSpan right e (cell right x) x

namespace Grid
variable (G : Grid)

theorem lt_add (c : Int) (k : Nat) : G.e c < G.e (c + k + 1) := by
  induction k with
  | zero => simpa using G.mono c
  | succ k ih =>
    refine lt_trans ih ?_
    have := G.mono (c + k + 1)
    rwa [show c + ((k + 1 : Nat) : Int) + 1 = c + k + 1 + 1 by push_cast; omega]

theorem strict {c c' : Int} (h : c < c') : G.e c < G.e c' := by
  have := G.lt_add c (c' - c - 1).toNat
  rwa [show c + ((c' - c - 1).toNat : Int) + 1 = c' by omega] at this

theorem le {c c' : Int} (h : c ≤ c') : G.e c ≤ G.e c' := by
  rcases Int.lt_or_eq_of_le h with h | h
  · exact le_of_lt (G.strict h)
  · rw [h]

theorem lt_of {c c' : Int} (h : G.e c < G.e c') : c < c' := by
  by_contra hc
  have := G.le (show c' ≤ c by omega)
  omega

theorem inSpan_iff {right : Bool} {c x : Int} : InSpan right G.e c x ↔ G.cell right x = c := by
  constructor
  · intro h
    have h' := G.in_cell right x
    unfold InSpan at h h'
    by_contra hne
    rcases lt_or_gt_of_ne hne with hlt | hlt
    · have := G.le (show G.cell right x + 1 ≤ c by omega)
      split at h <;> simp_all <;> omega
    · have := G.le (show c + 1 ≤ G.cell right x by omega)
      split at h <;> simp_all <;> omega
  · rintro rfl
    exact G.in_cell right x

theorem within_end {right : Bool} {c x : Int} : within right (G.e (c + 1)) x = decide (G.cell right x ≤ c) := by
  have h := G.in_cell right x
  rw [Bool.eq_iff_iff]
  unfold within
  unfold InSpan at h
  generalize G.cell right x = k at h
  cases right <;> simp only [Bool.false_eq_true, if_false, if_true, decide_eq_true_eq] at *
  · constructor
    · intro hx; by_contra hc; have := G.le (show c + 1 ≤ k by omega); omega
    · intro hx; have := G.le (show k + 1 ≤ c + 1 by omega); omega
  · constructor
    · intro hx; by_contra hc; have := G.le (show c + 1 ≤ k by omega); omega
    · intro hx; have := G.le (show k + 1 ≤ c + 1 by omega); omega

theorem cell_mono {right : Bool} {x y : Int} (h : x ≤ y) : G.cell right x ≤ G.cell right y := by
  have hx := G.in_cell right x
  have hy := G.in_cell right y
  unfold InSpan at hx hy
  by_contra hc
  have := G.le (show G.cell right y + 1 ≤ G.cell right x by omega)
  split at hx <;> simp_all <;> omega

theorem cell_edge_left (c : Int) : G.cell false (G.e c) = c :=
  G.inSpan_iff.1 (by simp only [InSpan, Bool.false_eq_true, if_false]; exact ⟨le_refl _, G.mono c⟩)

theorem cell_edge_right (c : Int) : G.cell true (G.e (c + 1)) = c :=
  G.inSpan_iff.1 (by simp only [InSpan, if_true]; exact ⟨G.mono c, le_refl _⟩)

/-! ### One call -/

/-- Segmentation along the edges: cells `c0 .. c0 + n - 1`. -/
def seg (closed : Closed) (labelRight : Bool) (c0 : Int) (n : Nat) (on : List Int) : Seg where
  starts := (List.range n).map fun (i : Nat) => on.countP (within (closed == .right) (G.e (c0 + i + 1)))
  labels := (List.range n).map fun (i : Nat) => if labelRight then G.e (c0 + i + 1) else G.e (c0 + i)
  nNull := repeats 0 ((List.range n).map fun (i : Nat) => on.countP (within (closed == .right) (G.e (c0 + i + 1))))
  closed := closed
  ends := (List.range n).map fun (i : Nat) => G.e (c0 + i + 1)
  unknownLast := false

theorem asc_ends (c0 : Int) (n : Nat) : Asc ((List.range n).map fun (i : Nat) => G.e (c0 + i + 1)) := by
  rw [Asc, List.pairwise_map]
  refine List.Pairwise.imp ?_ List.pairwise_lt_range
  intro i j hij
  exact G.le (by omega)

theorem upTo_append {k : Nat} {l m : List Nat} (h : ∀ x ∈ l.dropLast, x ≠ k) (hl : l.getLast? = some k) :
    upTo k (l ++ m) = l := by
  induction l with
  | nil => simp at hl
  | cons r rs ih =>
    cases rs with
    | nil =>
      simp only [List.getLast?_singleton, Option.some.injEq] at hl
      subst hl
      simp [upTo]
    | cons y ys =>
      have h1 : r ≠ k := h r (by simp)
      rw [List.cons_append, upTo, if_neg h1, ih]
      · intro x hx
        exact h x (by rw [List.dropLast_cons₂]; exact List.mem_cons_of_mem _ hx)
      · simpa using hl

/-- Chunk starts along the edges: cells after that of the last row are dropped. -/
theorem nextChunkStarts_eq' (closed : Closed) (c0 : Int) (n m : Nat) (on : List Int) (hs : Asc on) (y : Int)
    (hy : on.getLast? = some y) (hc : G.cell (closed == .right) y = c0 + n) :
    nextChunkStarts on ((List.range (n + 1 + m)).map fun (i : Nat) => G.e (c0 + i + 1)) (closed == .right) =
      ((G.seg closed false c0 (n + 1) on).starts, (G.seg closed false c0 (n + 1) on).nNull, true) := by
  have hne : on ≠ [] := by rintro rfl; simp at hy
  have hmem : ∀ x ∈ on, x ≤ y := by
    intro x hx
    obtain ⟨l, rfl⟩ := List.getLast?_eq_some_iff.1 hy
    rw [Asc, List.pairwise_append] at hs
    rcases List.mem_append.1 hx with h | h
    · exact hs.2.2 x h y (by simp)
    · simp at h; omega
  rw [nextChunkStarts_eq on _ _ hs (G.asc_ends c0 (n + 1 + m)) hne]
  have hlast : on.countP (within (closed == .right) (G.e (c0 + n + 1))) = on.length := by
    rw [List.countP_eq_length]
    intro x hx
    rw [G.within_end, decide_eq_true_eq, ← hc]
    exact G.cell_mono (hmem x hx)
  have hmap : ((List.range (n + 1 + m)).map fun (i : Nat) => G.e (c0 + i + 1)).map
      (fun e => on.countP (within (closed == .right) e)) = (G.seg closed false c0 (n + 1) on).starts ++
      ((List.range m).map fun i => on.countP (within (closed == .right) (G.e (c0 + ((n + 1 + i : Nat) : Int) + 1)))) := by
    rw [List.map_map, List.range_add, List.map_append, List.map_map]; rfl
  have hup : upTo on.length ((G.seg closed false c0 (n + 1) on).starts ++
      ((List.range m).map fun i => on.countP (within (closed == .right) (G.e (c0 + ((n + 1 + i : Nat) : Int) + 1))))) =
      (G.seg closed false c0 (n + 1) on).starts := by
    apply upTo_append
    · intro x hx
      rw [seg, dropLast_range_map] at hx
      obtain ⟨i, hi, rfl⟩ := List.mem_map.1 hx
      intro hcon
      rw [List.countP_eq_length] at hcon
      have := hcon y (List.mem_of_getLast? hy)
      rw [G.within_end, decide_eq_true_eq, hc] at this
      have := List.mem_range.1 hi
      omega
    · rw [seg, List.range_succ, List.map_append, List.map_singleton, List.getLast?_concat, hlast]
  rw [hmap, hup]
  refine Prod.ext rfl (Prod.ext rfl ?_)
  simp only [decide_eq_true_eq]
  rw [seg]
  exact List.mem_append_left _ (List.mem_map.2 ⟨n, by simp, hlast⟩)

/-- Key kept for the next call. -/
def key (closed : Closed) (c0 : Int) (n : Nat) (x : Int) : Int :=
  match closed with
  | .left => if 0 < n then G.e (c0 + n) else x
  | .right => G.e (c0 + n + 1)

/-- End of `by_scale`, when the edges start at cell `c0` and go up to that of the last row, or after. -/
theorem scaleFinish_eq (closed : Closed) (lr : Bool) (c0 : Int) (n m : Nat) (on : List Int) (buf : Option ScaleBuf)
    (hs : Asc on) (x y : Int) (hx : on.head? = some x) (hy : on.getLast? = some y)
    (hc : G.cell (closed == .right) y = c0 + n) (edges : List Int)
    (hE : edges = (List.range (n + 1 + m + 1)).map (fun (i : Nat) => G.e (c0 + i))) :
    scaleFinish true on (if lr then edges.tail else edges.dropLast) edges.tail closed buf =
      (G.seg closed lr c0 (n + 1) on, buf.map fun b => { b with restart := some (G.key closed c0 n x) }) := by
  have hends : edges.tail = (List.range (n + 1 + m)).map (fun (i : Nat) => G.e (c0 + i + 1)) := by
    rw [hE, tail_range_map]
    apply List.map_congr_left; intro i _
    rw [show c0 + ((i + 1 : Nat) : Int) = c0 + i + 1 by omega]
  have hlabels : (if lr then edges.tail else edges.dropLast) =
      (List.range (n + 1 + m)).map fun (i : Nat) => if lr then G.e (c0 + i + 1) else G.e (c0 + i) := by
    cases lr
    · simp only [Bool.false_eq_true, if_false]; rw [hE, dropLast_range_map]
    · simp only [if_true]; rw [hends]
  have htake : ∀ g : Nat → Int, ((List.range (n + 1 + m)).map g).take (n + 1) = (List.range (n + 1)).map g := by
    intro g
    rw [List.range_add, List.map_append, List.take_append_of_le_length (by simp), List.take_of_length_le (by simp)]
  rw [hlabels, hends]
  unfold scaleFinish
  rw [G.nextChunkStarts_eq' closed c0 n m on hs y hy hc]
  have hlen : (G.seg closed false c0 (n + 1) on).starts.length = n + 1 := by simp [seg]
  simp only [if_true, hlen, htake]
  refine Prod.ext rfl ?_
  simp only
  congr 1
  funext b
  cases closed
  · simp only [beq_self_eq_true, Bool.and_true, if_true, key]
    by_cases h : 0 < n
    · rw [if_pos (by omega), if_pos h]
      congr 2
      rw [List.getD_eq_getElem?_getD, List.getElem?_map, List.getElem?_range (by omega)]
      simp only [Option.map_some, Option.getD_some]
      rw [show c0 + ((n + 1 - 2 : Nat) : Int) + 1 = c0 + n by omega]
    · rw [if_neg (by omega), if_neg h]
      congr 2
      cases on with
      | nil => simp at hx
      | cons z l => simpa using hx
  · simp only [show (Closed.right == Closed.left) = false from rfl, Bool.false_and, Bool.false_eq_true, if_false, key]
    congr 2
    rw [List.getD_eq_getElem?_getD, List.getElem?_map, List.getElem?_range (by omega)]
    simp only [Option.map_some, Option.getD_some]
    rw [show c0 + ((n + 1 - 1 : Nat) : Int) + 1 = c0 + n + 1 by omega]

/-! ### Bins -/

theorem seg_bins (closed : Closed) (lr : Bool) (c0 : Int) (n : Nat) (pos : R → Int) (rows : List R)
    (hs : rows.Pairwise (fun a b => pos a ≤ pos b)) (h0 : ∀ r ∈ rows, c0 ≤ G.cell (closed == .right) (pos r)) :
    readBins (G.seg closed lr c0 n (rows.map pos)).starts (G.seg closed lr c0 n (rows.map pos)).labels
      (G.seg closed lr c0 n (rows.map pos)).ends false rows =
    spanBins (closed == .right) lr G.e c0 n pos rows := by
  unfold readBins spanBins seg
  simp only [stops, Bool.false_eq_true, if_false, List.map_map]
  rw [List.zip_map', cut_range, List.zip_map', List.map_map]
  apply List.map_congr_left
  intro i _
  simp only [Function.comp, Bin.mk.injEq, true_and]
  have hprev : (if i = 0 then 0
      else (rows.map pos).countP (within (closed == .right) (G.e (c0 + ((i - 1 : Nat) : Int) + 1)))) =
      (rows.map pos).countP (within (closed == .right) (G.e (c0 + i - 1 + 1))) := by
    split
    · rename_i h
      symm
      rw [List.countP_eq_zero]
      intro x hx
      obtain ⟨r, hr, rfl⟩ := List.mem_map.1 hx
      rw [G.within_end]
      have := h0 r hr
      simp; omega
    · rename_i h
      rw [show c0 + ((i - 1 : Nat) : Int) + 1 = c0 + i - 1 + 1 by omega]
  rw [hprev, slice_rank pos _ _ _ _ hs]
  apply List.filter_congr
  intro r _
  rw [G.within_end, G.within_end, Bool.eq_iff_iff]
  simp only [Bool.and_eq_true, Bool.not_eq_true', decide_eq_false_iff_not, decide_eq_true_eq, G.inSpan_iff]
  omega

/-- Accumulating the bins of a call that starts in the last cell of the history. -/
theorem glue_span (right lr : Bool) (c0 : Int) (n m : Nat) (pos : R → Int) (h p : List R)
    (hh : ∀ r ∈ h, G.cell right (pos r) ≤ c0 + n) (hp : ∀ r ∈ p, c0 + n ≤ G.cell right (pos r)) :
    glue (spanBins right lr G.e c0 (n + 1) pos h) (spanBins right lr G.e (c0 + n) (m + 1) pos p) =
      spanBins right lr G.e c0 (n + 1 + m) pos (h ++ p) := by
  have hlast : (spanBins right lr G.e c0 (n + 1) pos h).getLast? = some
      ⟨if lr then G.e (c0 + n + 1) else G.e (c0 + n), some (G.e (c0 + n + 1)),
        h.filter (fun r => decide (InSpan right G.e (c0 + n) (pos r)))⟩ := by
    rw [spanBins, List.range_succ, List.map_append, List.map_singleton, List.getLast?_concat]
  have hcons : spanBins right lr G.e (c0 + n) (m + 1) pos p =
      ⟨if lr then G.e (c0 + n + 1) else G.e (c0 + n), some (G.e (c0 + n + 1)),
        p.filter (fun r => decide (InSpan right G.e (c0 + n) (pos r)))⟩ ::
      (List.range m).map (fun (i : Nat) => ⟨if lr then G.e (c0 + n + (i + 1) + 1) else G.e (c0 + n + (i + 1)),
        some (G.e (c0 + n + (i + 1) + 1)),
        p.filter (fun r => decide (InSpan right G.e (c0 + n + (i + 1)) (pos r)))⟩) := by
    rw [spanBins, List.range_succ_eq_map, List.map_cons, List.map_map]
    simp
  unfold glue
  rw [hlast, hcons]
  simp only
  rw [spanBins, dropLast_range_map, spanBins, List.range_add, List.map_append, List.map_map, List.range_succ,
    List.map_append, List.map_singleton, List.append_assoc]
  congr 1
  · apply List.map_congr_left
    intro i hi
    have := List.mem_range.1 hi
    simp only [List.filter_append, Bin.mk.injEq, true_and]
    have : p.filter (fun r => decide (InSpan right G.e (c0 + i) (pos r))) = [] := by
      rw [List.filter_eq_nil_iff]
      intro r hr
      have := hp r hr
      simp only [decide_eq_true_eq, G.inSpan_iff]
      omega
    rw [this, List.append_nil]
  · simp only [List.singleton_append, List.cons.injEq, Bin.mk.injEq, true_and]
    refine ⟨by rw [List.filter_append], ?_⟩
    apply List.map_congr_left
    intro i _
    simp only [Function.comp, List.filter_append, Bin.mk.injEq]
    have he : c0 + (n : Int) + (i + 1) = c0 + ((n + 1 + i : Nat) : Int) := by push_cast; omega
    rw [he]
    refine ⟨rfl, rfl, ?_⟩
    have : h.filter (fun r => decide (InSpan right G.e (c0 + ((n + 1 + i : Nat) : Int)) (pos r))) = [] := by
      rw [List.filter_eq_nil_iff]
      intro r hr
      have := hh r hr
      simp only [decide_eq_true_eq, G.inSpan_iff]
      push_cast
      omega
    rw [this, List.nil_append]

theorem seg_mono (closed : Closed) (lr : Bool) (c0 : Int) (n : Nat) (on : List Int) :
    (G.seg closed lr c0 n on).starts.Pairwise (· ≤ ·) := by
  rw [seg, List.pairwise_map]
  refine List.Pairwise.imp ?_ List.pairwise_lt_range
  intro i j hij
  apply countP_mono_edge
  exact G.le (by omega)

theorem spanBins_last (right lr : Bool) (c0 : Int) (n : Nat) (pos : R → Int) (rows : List R) :
    (spanBins right lr G.e c0 (n + 1) pos rows).getLast?.map Bin.label =
      some (if lr then G.e (c0 + n + 1) else G.e (c0 + n)) := by
  rw [spanBins, List.range_succ, List.map_append, List.map_singleton, List.getLast?_concat]; rfl

/-- Bins from cell `0` to that of the last row. -/
def bins (right lr : Bool) (pos : R → Int) (rows : List R) : List (Bin R) :=
  match rows.getLast? with
  | some y => spanBins right lr G.e 0 (G.cell right (pos y) + 1).toNat pos rows
  | none => []

/-- One call after the history `h`, on a piece `p`: it starts in the last cell of the history (`0` when there is none). -/
theorem step_ok (closed : Closed) (lr : Bool) (pos : R → Int) (h p : List R) (hs : AscOn pos (h ++ p)) (c0 : Int) (n : Nat)
    (y : R) (hy : p.getLast? = some y) (h00 : 0 ≤ c0) (h0 : h = [] → c0 = 0)
    (hz : ∀ z, h.getLast? = some z → G.cell (closed == .right) (pos z) = c0)
    (hge : ∀ r ∈ p, c0 ≤ G.cell (closed == .right) (pos r))
    (hn : G.cell (closed == .right) (pos y) = c0 + n) :
    StepOk (G.bins (closed == .right) lr pos) h p (G.seg closed lr c0 (n + 1) (p.map pos)).toRes := by
  rw [AscOn, List.pairwise_append] at hs
  obtain ⟨hsh, hsp, hhp⟩ := hs
  have hbins := G.seg_bins closed lr c0 (n + 1) pos p hsp hge
  generalize hright : (closed == Closed.right) = right at *
  have hle : ∀ r ∈ p, G.cell right (pos r) ≤ c0 + n := fun r hr => by
    rw [← hn]; exact G.cell_mono (ascOn_le_last hsp hy r hr)
  have hcov : (p.map pos).countP (within right (G.e (c0 + n + 1))) = p.length := by
    rw [← List.length_map (f := pos), List.countP_eq_length]
    intro v hv
    obtain ⟨r, hr, rfl⟩ := List.mem_map.1 hv
    rw [G.within_end, decide_eq_true_eq]; exact hle r hr
  have hlastHP : (h ++ p).getLast? = some y := by rw [List.getLast?_append, hy]; rfl
  obtain ⟨n0, hn0⟩ : ∃ n0 : Nat, c0 = 0 + n0 := ⟨c0.toNat, by omega⟩
  have e1 : G.bins right lr pos (h ++ p) = spanBins right lr G.e 0 (n0 + 1 + n) pos (h ++ p) := by
    rw [bins, hlastHP]
    simp only
    rw [show (G.cell right (pos y) + 1).toNat = n0 + 1 + n by omega]
  have hlastlab : (G.bins right lr pos (h ++ p)).getLast?.map Bin.label =
      some (if lr then G.e (c0 + n + 1) else G.e (c0 + n)) := by
    rw [e1, show n0 + 1 + n = n0 + n + 1 by omega, spanBins_last, hn0]
    push_cast
    rw [show (0 : Int) + (n0 + n) = 0 + n0 + n by omega]
  have e0 : ∀ z, h.getLast? = some z → G.bins right lr pos h = spanBins right lr G.e 0 (n0 + 1) pos h := by
    intro z hl
    rw [bins, hl]
    simp only
    rw [show (G.cell right (pos z) + 1).toNat = n0 + 1 by have := hz z hl; omega]
  have hglue : glue (G.bins right lr pos h) (spanBins right lr G.e c0 (n + 1) pos p) = G.bins right lr pos (h ++ p) := by
    cases hl : h.getLast? with
    | none =>
      rw [List.getLast?_eq_none_iff] at hl
      subst hl
      have hc0 := h0 rfl
      rw [e1, hc0, show n0 = 0 by omega]
      simp only [bins, List.getLast?_nil, glue, List.nil_append]
      rw [show 0 + 1 + n = n + 1 by omega]
    | some z =>
      rw [e0 z hl, e1, hn0]
      exact G.glue_span right lr 0 n0 n pos h p
        (fun r hr => by rw [← hn0, ← hz z hl]; exact G.cell_mono (ascOn_le_last hsh hl r hr))
        (fun r hr => by rw [← hn0]; exact hge r hr)
  constructor
  · simp [seg, Seg.toRes]
  · simp [seg, Seg.toRes]
  · exact G.seg_mono closed lr c0 (n + 1) (p.map pos)
  · simp only [seg, Seg.toRes]
    rw [List.range_succ, List.map_append, List.map_singleton, List.getLast?_concat, hright, hcov]
  · intro s hs
    simp only [seg, Seg.toRes, hright, dropLast_range_map] at hs
    obtain ⟨i, hi, rfl⟩ := List.mem_map.1 hs
    have hi := List.mem_range.1 hi
    have h1 : (p.map pos).countP (within right (G.e (c0 + i + 1))) ≤ (p.map pos).length := List.countP_le_length
    rw [List.length_map] at h1
    apply Nat.lt_of_le_of_ne h1
    intro hcon
    rw [← List.length_map (f := pos), List.countP_eq_length] at hcon
    have := hcon (pos y) (List.mem_map_of_mem (List.mem_of_getLast? hy))
    rw [G.within_end, decide_eq_true_eq, hn] at this
    omega
  · simp only [Seg.toRes]
    rw [show (G.seg closed lr c0 (n + 1) (p.map pos)).unknownLast = false from rfl, hbins]
    exact hglue
  · intro hne
    cases hl : h.getLast? with
    | none => rw [List.getLast?_eq_none_iff] at hl; exact absurd hl hne
    | some z =>
      rw [e0 z hl, spanBins_last]
      simp only [Seg.toRes, seg]
      rw [List.range_succ_eq_map, List.map_cons, List.head?_cons, hn0]
      simp
  · rw [hlastlab]
    simp only [Seg.toRes, seg]
    rw [List.range_succ, List.map_append, List.map_singleton, List.getLast?_concat]
  · simp only [Seg.toRes]
    have h1 := G.seg_mono closed lr c0 (n + 1) (p.map pos)
    have h2 := repeats_eq_countP (p.map pos) 0 (G.seg closed lr c0 (n + 1) (p.map pos)).starts
      (List.pairwise_cons.2 ⟨fun _ _ => Nat.zero_le _, h1⟩) (by
        intro t ht
        obtain ⟨i, _, rfl⟩ := List.mem_map.1 ht
        exact List.countP_le_length)
    rw [show (G.seg closed lr c0 (n + 1) (p.map pos)).nNull =
      repeats 0 (G.seg closed lr c0 (n + 1) (p.map pos)).starts from rfl, h2]
    have hcut : ∀ (s : Nat) (ts : List Nat), cut (p.map pos) s ts = (cut p s ts).map (List.map pos) := by
      intro s ts
      induction ts generalizing s with
      | nil => rfl
      | cons t ts ih => rw [cut, cut, ih, List.map_cons, List.map_take, List.map_drop]
    rw [hcut, List.countP_map]
    apply List.countP_congr
    intro l _
    cases l <;> simp

end Grid
end Oups.Segment
