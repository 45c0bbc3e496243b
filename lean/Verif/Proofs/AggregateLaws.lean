import Verif.Proofs.AggregateStream
/-! Instances: bins of `TimeGrouper` and `by_x_rows` are separated; snapshots of a `TimeGrouper`. -/
set_option linter.unusedSimpArgs false
namespace Oups.Agg
open Oups.Segment Oups.Segment.Spec Spec

variable {R : Type}

theorem gridBins_succ (right lr : Bool) (a f c0 : Int) (n : Nat) (pos : R → Int) (rows : List R) :
    gridBins right lr a f c0 (n + 1) pos rows =
      ⟨if lr then a + f * (c0 + 1) else a + f * c0, some (a + f * (c0 + 1)),
        rows.filter (fun r => decide (InCell right a f c0 (pos r)))⟩ :: gridBins right lr a f (c0 + 1) n pos rows := by
  unfold gridBins
  rw [List.range_succ_eq_map, List.map_cons, List.map_map]
  congr 1
  · simp
  · apply List.map_congr_left
    intro i _
    have : c0 + ((i + 1 : Nat) : Int) = c0 + 1 + (i : Int) := by push_cast; omega
    simp only [Function.comp, Nat.succ_eq_add_one, this]

theorem mem_gridBins {right lr : Bool} {a f c0 : Int} {n : Nat} {pos : R → Int} {rows : List R} {b : Bin R}
    (h : b ∈ gridBins right lr a f c0 n pos rows) :
    ∃ c, c0 ≤ c ∧ c < c0 + n ∧ b.stop = some (a + f * (c + 1)) ∧ b.label = (if lr then a + f * (c + 1) else a + f * c) ∧
      ∀ r ∈ b.rows, InCell right a f c (pos r) := by
  obtain ⟨i, hi, rfl⟩ := List.mem_map.1 h
  rw [List.mem_range] at hi
  refine ⟨c0 + i, by omega, by omega, rfl, rfl, ?_⟩
  intro r hr
  simpa using (List.mem_filter.1 hr).2

theorem mul_mono {f c c' : Int} (hf : 0 < f) (h : c ≤ c') : f * c ≤ f * c' := (Int.mul_le_mul_left hf).2 h

theorem gridBins_sep (right lr : Bool) (a f c0 : Int) (n : Nat) (pos : R → Int) (rows : List R) (hf : 0 < f) :
    Separated right pos (gridBins right lr a f c0 n pos rows) := by
  induction n generalizing c0 with
  | zero => trivial
  | succ n ih =>
    rw [gridBins_succ]
    refine separated_cons.2 ⟨⟨by simp, ?_⟩, ih (c0 + 1)⟩
    intro e he
    simp only [Option.some.injEq] at he
    subst he
    constructor
    · intro r hr
      have := (List.mem_filter.1 hr).2
      simp only [decide_eq_true_eq] at this
      unfold InCell at this
      split at this <;> omega
    · intro b hb
      obtain ⟨c, h1, _, h3, _, h5⟩ := mem_gridBins hb
      constructor
      · intro r hr
        rw [within_end hf]
        have := (inCell_iff hf).1 (h5 r hr)
        simp; omega
      · intro e' he'
        rw [h3] at he'
        simp only [Option.some.injEq] at he'
        have := mul_mono hf (show c0 + 1 ≤ c + 1 by omega)
        omega

theorem gridSpec_sep (right lr : Bool) (a f : Int) (pos : R → Int) (rows : List R) (hf : 0 < f) :
    Separated right pos (gridSpec right lr a f pos rows) := by
  unfold gridSpec
  split
  · exact gridBins_sep _ _ _ _ _ _ _ _ hf
  · trivial

theorem gridBins_nodup (right lr : Bool) (a f c0 : Int) (n : Nat) (pos : R → Int) (rows : List R) (hf : 0 < f) :
    ((gridBins right lr a f c0 n pos rows).map Bin.label).Nodup := by
  induction n generalizing c0 with
  | zero => exact List.nodup_nil
  | succ n ih =>
    rw [gridBins_succ, List.map_cons, List.nodup_cons]
    refine ⟨?_, ih (c0 + 1)⟩
    intro hm
    obtain ⟨b, hb, hl⟩ := List.mem_map.1 hm
    obtain ⟨c, h1, _, _, h4, _⟩ := mem_gridBins hb
    rw [h4] at hl
    have := mul_mono hf (show c0 + 1 ≤ c by omega)
    rw [Int.mul_add] at this
    cases lr
    · simp at hl; omega
    · simp only [if_true, Int.mul_add] at hl; omega

theorem gridSpec_labels (right lr : Bool) (a f : Int) (pos : R → Int) (rows : List R) (hf : 0 < f) :
    LabelsOk (gridSpec right lr a f pos rows) := by
  left
  unfold gridSpec
  split
  · exact gridBins_nodup _ _ _ _ _ _ _ _ hf
  · exact List.nodup_nil

/-! ### `by_x_rows` -/

theorem leftBins_sep (pos : R → Int) (bins : List (Bin R)) (hne : ∀ b ∈ bins, b.rows ≠ [])
    (hs : AscOn pos (bins.map Bin.rows).flatten)
    (hstop : ∀ (i : Nat) (b : Bin R), bins[i]? = some b →
      b.stop = bins[i + 1]?.bind fun b' => b'.rows.head?.map pos) : Separated false pos bins := by
  induction bins with
  | nil => trivial
  | cons b bs ih =>
    rw [List.map_cons, List.flatten_cons] at hs
    have hs' := List.pairwise_append.1 hs
    refine separated_cons.2 ⟨⟨?_, ?_⟩, ih (fun x hx => hne x (by simp [hx])) hs'.2.1
      (fun i x hx => hstop (i + 1) x (by simpa using hx))⟩
    · intro h0
      have := hstop 0 b (by simp)
      rw [h0] at this
      cases bs with
      | nil => rfl
      | cons b' bs =>
        have hb' := hne b' (by simp)
        cases hr : b'.rows with
        | nil => exact absurd hr hb'
        | cons x l => simp [hr] at this
    · intro e he
      have := hstop 0 b (by simp)
      rw [he] at this
      cases bs with
      | nil => simp at this
      | cons b' bs =>
        cases hr : b'.rows with
        | nil => exact absurd hr (hne b' (by simp))
        | cons x l =>
          simp only [List.getElem?_cons_succ, List.getElem?_cons_zero, Option.bind_some, hr, List.head?_cons,
            Option.map_some, Option.some.injEq] at this
          subst this
          have hx : x ∈ ((b' :: bs).map Bin.rows).flatten := by simp [hr]
          refine ⟨fun r hr' => hs'.2.2 r hr' x hx, ?_⟩
          have hge : ∀ r ∈ ((b' :: bs).map Bin.rows).flatten, pos x ≤ pos r := by
            intro r hr'
            have h2 := hs'.2.1
            rw [List.map_cons, List.flatten_cons, hr, List.cons_append] at h2 hr'
            rcases List.mem_cons.1 hr' with rfl | hr'
            · omega
            · exact (List.pairwise_cons.1 h2).1 r hr'
          intro y hy
          constructor
          · intro r hr'
            have := hge r (List.mem_flatten.2 ⟨y.rows, List.mem_map_of_mem hy, hr'⟩)
            simp [within]; omega
          · intro e' he'
            obtain ⟨i, hi⟩ := List.getElem?_of_mem hy
            have hst := hstop (i + 1) y (by simpa using hi)
            rw [he'] at hst
            cases hn : (b :: b' :: bs)[i + 1 + 1]? with
            | none => rw [hn] at hst; simp at hst
            | some w =>
              rw [hn] at hst
              simp only [Option.bind_some] at hst
              cases hw : w.rows with
              | nil => rw [hw] at hst; simp at hst
              | cons v l' =>
                rw [hw] at hst
                simp only [List.head?_cons, Option.map_some, Option.some.injEq] at hst
                subst hst
                apply hge
                rw [List.getElem?_cons_succ] at hn
                exact List.mem_flatten.2 ⟨w.rows, List.mem_map_of_mem (List.mem_of_getElem? hn), by simp [hw]⟩

theorem rightBins_sep (n : Nat) (pos : R → Int) (bins : List (Bin R)) (hne : ∀ b ∈ bins, b.rows ≠ [])
    (hs : (bins.map Bin.rows).flatten.Pairwise (fun a b => pos a < pos b))
    (hfull : ∀ b ∈ bins.dropLast, b.rows.length = n)
    (hstop : ∀ b ∈ bins, b.stop = if b.rows.length = n then b.rows.getLast?.map pos else none) :
    Separated true pos bins := by
  induction bins with
  | nil => trivial
  | cons b bs ih =>
    rw [List.map_cons, List.flatten_cons] at hs
    have hs' := List.pairwise_append.1 hs
    have hst := hstop b (by simp)
    refine separated_cons.2 ⟨⟨?_, ?_⟩, ih (fun x hx => hne x (by simp [hx])) hs'.2.1 ?_
      (fun x hx => hstop x (by simp [hx]))⟩
    · intro h0
      by_contra hbs
      have := hfull b (by rw [List.dropLast_cons_of_ne_nil hbs]; simp)
      rw [if_pos this, h0] at hst
      obtain ⟨z, hz⟩ := getLast?_of_ne (hne b (by simp))
      simp [hz] at hst
    · intro e he
      obtain ⟨z, hz⟩ := getLast?_of_ne (hne b (by simp))
      rw [he, hz] at hst
      split at hst
      · simp only [Option.map_some, Option.some.injEq] at hst
        subst hst
        have hzm : z ∈ b.rows := List.mem_of_getLast? hz
        refine ⟨ascOn_le_last (hs'.1.imp (fun h => Int.le_of_lt h)) hz, ?_⟩
        intro y hy
        have hgt : ∀ r ∈ y.rows, pos z < pos r := fun r hr =>
          hs'.2.2 z hzm r (List.mem_flatten.2 ⟨y.rows, List.mem_map_of_mem hy, hr⟩)
        constructor
        · intro r hr
          have := hgt r hr
          simp [within]; omega
        · intro e' he'
          have hsty := hstop y (by simp [hy])
          obtain ⟨w, hw⟩ := getLast?_of_ne (hne y (by simp [hy]))
          rw [he', hw] at hsty
          split at hsty
          · simp only [Option.map_some, Option.some.injEq] at hsty
            subst hsty
            have := hgt w (List.mem_of_getLast? hw)
            omega
          · cases hsty
      · cases hst
    · intro x hx
      apply hfull
      cases bs with
      | nil => simp at hx
      | cons b' bs => rw [List.dropLast_cons_of_ne_nil (by simp)]; simp [hx]

/-- Bins of `by_x_rows` are separated if left-closed, or if no two rows share a position. -/
theorem xBins_sep (right : Bool) (n : Nat) (hn : 0 < n) (pos : R → Int) (rows : List R) (hs : AscOn pos rows)
    (hr : right = true → rows.Pairwise (fun a b => pos a < pos b)) : Separated right pos (xBins right n pos rows) := by
  obtain ⟨h1, h2, h3, h4⟩ := xBins_spec right n pos rows hn
  cases right with
  | false =>
    apply leftBins_sep pos _ (fun b hb => (h2 b hb).1) (by rw [h1]; exact hs)
    intro i b hb
    simpa using h4 i b hb
  | true =>
    apply rightBins_sep n pos _ (fun b hb => (h2 b hb).1) (by rw [h1]; exact hr rfl) h3
    intro b hb
    obtain ⟨i, hi⟩ := List.getElem?_of_mem hb
    simpa using h4 i b hi

theorem rightBins_ended (n : Nat) (pos : R → Int) (bins : List (Bin R)) (hne : ∀ b ∈ bins, b.rows ≠ [])
    (hs : AscOn pos (bins.map Bin.rows).flatten) (hfull : ∀ b ∈ bins.dropLast, b.rows.length = n)
    (hstop : ∀ b ∈ bins, b.stop = if b.rows.length = n then b.rows.getLast?.map pos else none) : Ended pos bins := by
  induction bins with
  | nil => trivial
  | cons b bs ih =>
    rw [List.map_cons, List.flatten_cons] at hs
    have hs' := List.pairwise_append.1 hs
    have hst := hstop b (by simp)
    obtain ⟨z, hz⟩ := getLast?_of_ne (hne b (by simp))
    refine ended_cons.2 ⟨⟨?_, ?_⟩, ih (fun x hx => hne x (by simp [hx])) hs'.2.1 ?_ (fun x hx => hstop x (by simp [hx]))⟩
    · intro h0
      by_contra hbs
      have := hfull b (by rw [List.dropLast_cons_of_ne_nil hbs]; simp)
      rw [if_pos this, h0] at hst
      simp [hz] at hst
    · intro e he
      rw [he, hz] at hst
      split at hst
      · simp only [Option.map_some, Option.some.injEq] at hst
        subst hst
        refine ⟨ascOn_le_last hs'.1 hz, ?_⟩
        intro y hy e' he'
        have hsty := hstop y (by simp [hy])
        obtain ⟨w, hw⟩ := getLast?_of_ne (hne y (by simp [hy]))
        rw [he', hw] at hsty
        split at hsty
        · simp only [Option.map_some, Option.some.injEq] at hsty
          subst hsty
          exact hs'.2.2 z (List.mem_of_getLast? hz) w
            (List.mem_flatten.2 ⟨y.rows, List.mem_map_of_mem hy, List.mem_of_getLast? hw⟩)
        · cases hsty
      · cases hst
    · intro x hx
      apply hfull
      cases bs with
      | nil => simp at hx
      | cons b' bs => rw [List.dropLast_cons_of_ne_nil (by simp)]; simp [hx]

/-- Rows of bins of `by_x_rows` are not after their ends, rows sharing positions or not. -/
theorem xBins_ended (right : Bool) (n : Nat) (hn : 0 < n) (pos : R → Int) (rows : List R) (hs : AscOn pos rows) :
    Ended pos (xBins right n pos rows) := by
  cases right with
  | false => exact (xBins_sep false n hn pos rows hs (by simp)).ended
  | true =>
    obtain ⟨h1, h2, h3, h4⟩ := xBins_spec true n pos rows hn
    apply rightBins_ended n pos _ (fun b hb => (h2 b hb).1) (by rw [h1]; exact hs) h3
    intro b hb
    obtain ⟨i, hi⟩ := List.getElem?_of_mem hb
    simpa using h4 i b hi

theorem xBins_labels (right : Bool) (n : Nat) (hn : 0 < n) (pos : R → Int) (rows : List R) :
    LabelsOk (xBins right n pos rows) :=
  Or.inr fun b hb => ((xBins_spec right n pos rows hn).2.1 b hb).1

/-! ### Snapshots of a `TimeGrouper` -/

/-- Labels and positions of the snapshots of a frame along a grid. -/
def gridPts (right lr : Bool) (a f : Int) (pos : R → Int) (rows : List R) : List (Int × Int) :=
  (gridSpec right lr a f pos rows).map fun b => (b.label, b.stop.getD 0)

theorem grouper_snaps (g : Grouper) (a : Int) (ha : Anchored g a) (c : Closed) (pos : R → Int) :
    SnapLaw (.grouper g) c pos (gridPts (c == .right) g.labelRight a g.freq pos)
      (gridOk (c == .right) a g.freq pos) where
  pts_nil := rfl
  init := rfl
  step := by
    intro h p b hp hs hok
    have hf := ha.1
    obtain ⟨s, b', h1, _, h3, h4, h5, ⟨c0, n, hg1, hg2, hg3, hg4, hg5⟩, h6⟩ :=
      grouper_step g a ha (some c) pos h p b hp hs hok
    simp only [Option.getD_some] at *
    have hends : ∀ e ∈ s.ends, ∃ i : Nat, i < n + 1 ∧ e = a + g.freq * (c0 + i + 1) := by
      intro e he
      rw [hg1] at he
      obtain ⟨i, hi, rfl⟩ := List.mem_map.1 he
      exact ⟨i, List.mem_range.1 hi, rfl⟩
    refine ⟨s, b', by rw [runSnaps, h1], h3, ?_⟩
    constructor
    · rw [hg1]; simp [gridSeg]
    · rw [hg1]; simp [gridSeg]
    · rw [hg1, Asc, gridSeg, List.pairwise_map]
      refine List.Pairwise.imp ?_ List.pairwise_lt_range
      intro i j hij
      have := mul_mono hf (show c0 + (i : Int) + 1 ≤ c0 + j + 1 by omega)
      omega
    · rw [hg1]; simp only [gridSeg, List.map_map]; rfl
    · have hgl := h6.glue
      have hlab := readBins_labels (u := s.toRes.unknownLast) (rows := p) h6.labels_len h6.ends_len h6.ne
      have hst := readBins_stops (u := s.toRes.unknownLast) (rows := p) h6.labels_len h6.ends_len h6.ne
      have hu : s.toRes.unknownLast = false := h5
      rw [hu] at hgl hlab hst
      have hloc : (readBins s.toRes.starts s.toRes.labels s.toRes.ends false p).map
          (fun b => (b.label, b.stop.getD 0)) = s.labels.zip s.ends := by
        have e1 : s.ends = (readBins s.toRes.starts s.toRes.labels s.toRes.ends false p).map
            (fun b => b.stop.getD 0) := by
          rw [show (fun b : Bin R => b.stop.getD 0) = (fun o : Option Int => o.getD 0) ∘ Bin.stop from rfl,
            ← List.map_map, hst]
          simp [stops, Seg.toRes]
        have e2 : s.labels = (readBins s.toRes.starts s.toRes.labels s.toRes.ends false p).map Bin.label :=
          hlab.symm
        rw [e1, e2, List.zip_map']
      unfold gridPts
      rw [← hgl, ← hloc]
      cases hA : (gridSpec (c == .right) g.labelRight a g.freq pos h).getLast? with
      | none =>
        rw [List.getLast?_eq_none_iff] at hA
        rw [hA]; rfl
      | some l =>
        cases hb : readBins s.toRes.starts s.toRes.labels s.toRes.ends false p with
        | nil =>
          rw [hb] at hlab
          have := congrArg List.length hlab
          rw [h6.labels_len] at this
          have := List.length_pos_iff.2 h6.ne
          simp at *; omega
        | cons x t =>
          have hgl' : glue (gridSpec (c == .right) g.labelRight a g.freq pos h) (x :: t) =
              (gridSpec (c == .right) g.labelRight a g.freq pos h).dropLast ++ ⟨x.label, x.stop, l.rows ++ x.rows⟩ :: t := by
            unfold glue; rw [hA]
          rw [hgl', List.map_append, List.map_dropLast]
          rfl
    · rw [hg1]
      simp only [gridSeg]
      refine List.Nodup.map_on ?_ List.nodup_range
      intro i _ j _ hij
      by_contra hne
      rcases Nat.lt_or_gt_of_ne hne with hlt | hlt
      · have := mul_mono hf (show c0 + (i : Int) + 1 ≤ c0 + j by omega)
        have h2 := mul_mono hf (show c0 + (i : Int) + 1 + 1 ≤ c0 + j + 1 by omega)
        rw [Int.mul_add _ _ 1] at this h2
        split at hij
        · rw [Int.mul_add g.freq (c0 + (i : Int)) 1] at *; omega
        · omega
      · have := mul_mono hf (show c0 + (j : Int) + 1 ≤ c0 + i by omega)
        have h2 := mul_mono hf (show c0 + (j : Int) + 1 + 1 ≤ c0 + i + 1 by omega)
        rw [Int.mul_add _ _ 1] at this h2
        split at hij
        · rw [Int.mul_add g.freq (c0 + (j : Int)) 1] at *; omega
        · omega
    · intro e he r hr
      obtain ⟨i, _, rfl⟩ := hends e he
      rw [within_end hf]
      have hne : h ≠ [] := by rintro rfl; simp at hr
      obtain ⟨y, hy⟩ := getLast?_of_ne hne
      have h7 := ascOn_le_last (hs.sublist (List.sublist_append_left _ _)) hy r hr
      have h8 := cellOf_mono (right := c == .right) (a := a) hf h7
      rw [hg5 y hy] at h8
      simp; omega
    · intro q hq y hy
      unfold gridPts at hq
      rw [← List.map_dropLast] at hq
      obtain ⟨b, hb, rfl⟩ := List.mem_map.1 hq
      unfold gridSpec at hb
      have hne : h ≠ [] := by rintro rfl; simp at hy
      obtain ⟨x, hx⟩ : ∃ x, h.head? = some x := by
        cases h with
        | nil => exact absurd rfl hne
        | cons x l => exact ⟨x, rfl⟩
      rw [hx, hy] at hb
      simp only at hb
      generalize hm : (cellOf (c == .right) a g.freq (pos y) - cellOf (c == .right) a g.freq (pos x) + 1).toNat = m at hb
      have hle : cellOf (c == .right) a g.freq (pos x) ≤ cellOf (c == .right) a g.freq (pos y) :=
        cellOf_mono hf (ascOn_le_last (hs.sublist (List.sublist_append_left _ _)) hy x (List.mem_of_head? hx))
      have hdl : (gridBins (c == .right) g.labelRight a g.freq (cellOf (c == .right) a g.freq (pos x)) m pos h).dropLast =
          gridBins (c == .right) g.labelRight a g.freq (cellOf (c == .right) a g.freq (pos x)) (m - 1) pos h := by
        unfold gridBins
        rw [← List.map_dropLast]
        congr 1
        cases m with
        | zero => rfl
        | succ m => rw [List.range_succ, List.dropLast_concat]; rfl
      rw [hdl] at hb
      obtain ⟨k, _, hk2, hk3, _⟩ := mem_gridBins hb
      rw [hk3, Option.getD_some, within_end hf]
      simp; omega
    · rw [hg1]; rfl
  noBuf := by
    intro p hp hs
    obtain ⟨s, b', h1, h2, _⟩ := grouper_step g a ha (some c) pos [] p {} hp hs rfl
    exact ⟨s, b', by rw [runSnaps, h1], by rw [runSnaps, h2, h1]⟩

end Oups.Agg
