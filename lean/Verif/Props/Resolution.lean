import Verif.Model.Resolution
import Verif.Props.Segment
/-! # C82: date-times that are not in nanoseconds

Values of the column are numbers of ticks of `k` nanoseconds (1000 for `datetime64[us]`). -/
namespace Oups.Segment
open Spec
variable {R : Type}

/-- **C82** Nanoseconds: bins along the grid (`C30_restart`). -/
theorem C82_nanoseconds (g : Grouper) (pos : R → Int) : grouperResFn 1 g pos = grouperFn g pos := by
  funext p buf
  have : ∀ on buf, byGrouperRes 1 g none on buf = byGrouper g none on buf := by
    intro on buf
    cases h : buf.bind ScaleBuf.restart <;>
      simp only [byGrouper, byGrouperRes, resFinish, scaleFinish, Int.one_mul, Bool.and_true, h, Option.getD_some, Option.getD_none]
  simp only [grouperResFn, grouperFn, this]

/-- Time from which the edges of a call are computed. -/
def resFirst (k : Int) (on : List Int) (buf : Option ScaleBuf) : Int := (buf.bind ScaleBuf.restart).getD (k * on.getD 0 0)

theorem scan_none (b : Int → Bool) : ∀ (vs : List Int) (i : Nat), (∀ v ∈ vs, b v = false) → scan b i vs = (i + vs.length - 1, true) := by
  intro vs
  induction vs with
  | nil => intro i _; simp [scan]
  | cons v vs ih =>
    intro i h
    rw [scan, h v (by simp)]
    simp only [Bool.false_eq_true, if_false]
    rw [ih (i + 1) (fun w hw => h w (by simp [hw]))]
    simp only [List.length_cons]
    congr 1; omega

theorem byGrouperRes_one (k : Int) (g : Grouper) (a : Int) (ha : Anchored g a) (cl : Option Closed) (on : List Int)
    (buf : Option ScaleBuf) (hne : on ≠ [])
    (hc : cellOf (cl.getD g.closed == .right) a g.freq (resFirst k on buf) ≤
      cellOf (cl.getD g.closed == .right) a g.freq (k * on.getLastD 0))
    (hv : ∀ v ∈ on, v < resFirst k on buf) :
    let c := cellOf (cl.getD g.closed == .right) a g.freq (resFirst k on buf)
    byGrouperRes k g cl on buf =
      (⟨[on.length], [if g.labelRight then a + g.freq * (c + 1) else a + g.freq * c], 0, cl.getD g.closed, [a + g.freq * (c + 1)], false⟩,
        buf.map fun b => { b with restart := some (if cl.getD g.closed = .left then k * on.getD 0 0 else a + g.freq * (c + 1)) }) := by
  obtain ⟨hf, hanc, hmoved⟩ := ha
  intro c
  obtain ⟨t, ht⟩ := hanc (resFirst k on buf)
  have hfst : (buf.bind ScaleBuf.restart).getD (k * on.getD 0 0) = resFirst k on buf := rfl
  have hstart : gtreStart g.freq (g.anchor (resFirst k on buf)) (cl.getD g.closed) (resFirst k on buf) = a + g.freq * c := by
    rw [gtreStart_eq _ _ _ _ hf, ht, cellOf_shift _ _ _ _ _ hf, Int.mul_sub]
    show a + g.freq * t + (g.freq * c - g.freq * t) = _
    omega
  have hstop : gtreEnd g.freq (g.anchor (resFirst k on buf)) (cl.getD g.closed) (k * on.getLastD 0) =
      a + g.freq * (cellOf (cl.getD g.closed == .right) a g.freq (k * on.getLastD 0) + 1) := by
    rw [gtreEnd_eq _ _ _ _ hf, ht, cellOf_shift _ _ _ _ _ hf, show ∀ z : Int, z - t + 1 = z + 1 - t by intro z; omega, Int.mul_sub]; omega
  simp only [byGrouperRes, hmoved, hfst, hstart, hstop]
  rw [dateRange_eq _ _ _ _ hf hc, tail_range_map, dropLast_range_map]
  obtain ⟨n, hn⟩ : ∃ n, (cellOf (cl.getD g.closed == .right) a g.freq (k * on.getLastD 0) - c + 1).toNat = n + 1 :=
    ⟨(cellOf (cl.getD g.closed == .right) a g.freq (k * on.getLastD 0) - c).toNat, by
      have : c ≤ cellOf (cl.getD g.closed == .right) a g.freq (k * on.getLastD 0) := hc
      omega⟩
  have hn' : (cellOf (cl.getD g.closed == .right) a g.freq (k * on.getLastD 0) -
      cellOf (cl.getD g.closed == .right) a g.freq (resFirst k on buf) + 1).toNat = n + 1 := hn
  rw [hn', List.range_succ_eq_map]
  simp only [List.map_cons, List.map_map]
  have hend : resFirst k on buf ≤ a + g.freq * (c + 1) := by
    have h := (inCell_iff (right := cl.getD g.closed == .right) (a := a) (f := g.freq) (x := resFirst k on buf) (c := c) hf).2 rfl
    unfold InCell at h
    split at h <;> omega
  have hb : ∀ v ∈ on, beyond (cl.getD g.closed == .right) (a + g.freq * (c + 1)) v = false := by
    intro v hv'
    have := hv v hv'
    unfold beyond
    split <;> simp <;> omega
  have hlen := List.length_pos_iff.2 hne
  have hN : ∀ es : List Int, nextChunkStarts on ((a + g.freq * (c + 1)) :: es) (cl.getD g.closed == .right) = ([on.length], 0, true) := by
    intro es
    rw [nextChunkStarts, chunkLoop, List.drop_zero, scan_none _ _ _ hb]
    simp only [Nat.zero_add]
    rw [if_pos (by simp)]
    rw [show on.length - 1 + 1 = on.length by omega]
  have hcast : cellOf (cl.getD g.closed == .right) a g.freq (resFirst k on buf) + ((0 + 1 : Nat) : Int) = c + 1 := by
    show c + _ = _; omega
  rw [hcast]
  simp only [resFinish, hN, if_true, List.length_singleton, List.take_succ_cons, List.take_zero, Nat.lt_irrefl, if_false,
    gt_iff_lt, Nat.sub_self, List.getD_cons_zero]
  refine Prod.ext ?_ ?_
  · cases g.labelRight <;> simp [c]
  · cases buf with
    | none => rfl
    | some b => cases cl.getD g.closed <;> rfl

/-- The bin of the grid that holds the time `t`, with the rows `p`. -/
def timeBin (g : Grouper) (t : Int) (p : List R) : Bin R :=
  let c := cellOf (g.closed == .right) g.origin0 g.freq t
  ⟨if g.labelRight then g.origin0 + g.freq * (c + 1) else g.origin0 + g.freq * c, some (g.origin0 + g.freq * (c + 1)), p⟩

/-- It holds `t`. -/
theorem timeBin_holds (g : Grouper) (hg : Fixed g) (t : Int) (p : List R) :
    ∃ c, InCell (g.closed == .right) g.origin0 g.freq c t ∧ (timeBin g t p).stop = some (g.origin0 + g.freq * (c + 1)) :=
  ⟨_, (inCell_iff hg.1).2 rfl, rfl⟩

/-- Rows which come, as integers, before the time `t`. For dates of the twenty-first century in microseconds or coarser, compared with
nanoseconds, all of them do. -/
def Early (pos : R → Int) (t : Int) (p : List R) : Prop := ∀ r ∈ p, pos r < t

instance (pos : R → Int) (t : Int) (p : List R) : Decidable (Early pos t p) := by unfold Early; infer_instance

theorem grouperRes_call (k : Int) (g : Grouper) (hg : Fixed g) (pos : R → Int) (p : List R) (x : R) (hx : p.head? = some x)
    (buf : Option ScaleBuf) (t : Int) (ht : (buf.bind ScaleBuf.restart).getD (k * pos x) = t) (he : Early pos t p)
    (hc : ∀ y, p.getLast? = some y → cellOf (g.closed == .right) g.origin0 g.freq t ≤ cellOf (g.closed == .right) g.origin0 g.freq (k * pos y)) :
    ∃ r, grouperResFn k g pos p buf = .ok (r, buf.map fun b =>
        { b with restart := if g.closed = .left then some (k * pos x) else (timeBin g t p).stop }) ∧
      r.closed = some g.closed ∧ readBins r.starts r.labels r.ends r.unknownLast p = [timeBin g t p] := by
  have hne : p.map pos ≠ [] := by cases p <;> simp_all
  have h0 : (p.map pos).getD 0 0 = pos x := by
    cases p with
    | nil => simp at hx
    | cons z l => simp at hx; subst hx; rfl
  have hfirst : resFirst k (p.map pos) buf = t := by rw [resFirst, h0, ht]
  obtain ⟨y, hy⟩ : ∃ y, p.getLast? = some y := by
    cases h : p.getLast? with
    | none => rw [List.getLast?_eq_none_iff] at h; simp [h] at hx
    | some y => exact ⟨y, rfl⟩
  have hl : (p.map pos).getLastD 0 = pos y := getLastD_eq (by rw [List.getLast?_map, hy]; rfl)
  have := byGrouperRes_one k g g.origin0 hg.anchored none (p.map pos) buf hne
    (by rw [hfirst, hl]; exact hc y hy) (by
      rw [hfirst]; intro v hv
      obtain ⟨r, hr, rfl⟩ := List.mem_map.1 hv
      exact he r hr)
  simp only [hfirst, Option.getD_none, h0] at this
  refine ⟨(byGrouperRes k g none (p.map pos) buf).1.toRes, ?_, ?_, ?_⟩
  · rw [grouperResFn, this]
    simp only [timeBin]
    congr 3
    funext b
    cases g.closed <;> simp
  · rw [this]; rfl
  · rw [this]
    simp [Seg.toRes, readBins, stops, cut, timeBin]

/-- **C82** One call, ticks longer than nanoseconds: all rows are returned in one bin, that of the first row. -/
theorem C82_one_bin (k : Int) (hk : 0 < k) (g : Grouper) (hg : Fixed g) (pos : R → Int) (p : List R) (hs : AscOn pos p) (x : R)
    (hx : p.head? = some x) (he : Early pos (k * pos x) p) :
    ∃ r, grouperResFn k g pos p none = .ok (r, none) ∧
      readBins r.starts r.labels r.ends r.unknownLast p = [timeBin g (k * pos x) p] := by
  obtain ⟨r, h1, _, h2⟩ := grouperRes_call k g hg pos p x hx none _ rfl he (by
    intro y hy
    apply cellOf_mono hg.1
    apply Int.mul_le_mul_of_nonneg_left _ (by omega)
    cases p with
    | nil => simp at hx
    | cons z l =>
      simp only [List.head?_cons, Option.some.injEq] at hx; subst hx
      rcases List.mem_cons.1 (List.mem_of_getLast? hy) with h | h
      · rw [h]
      · exact (List.pairwise_cons.1 hs).1 y h)
  exact ⟨r, h1, h2⟩

theorem head_le_last {pos : R → Int} {h p : List R} {x y : R} (hs : AscOn pos (h ++ p)) (hx : (h ++ p).head? = some x)
    (hy : p.getLast? = some y) : pos x ≤ pos y := by
  have hm : y ∈ h ++ p := List.mem_append_right _ (List.mem_of_getLast? hy)
  generalize h ++ p = l at *
  cases l with
  | nil => simp at hx
  | cons z l =>
    simp only [List.head?_cons, Option.some.injEq] at hx; subst hx
    rcases List.mem_cons.1 hm with h | h
    · rw [h]
    · exact (List.pairwise_cons.1 hs).1 y h

/-- **C82** Right-closed bins, any succession of pieces through one buffer: still a single bin, that of the first row, and no call is
refused. -/
theorem C82_stream_right (k : Int) (hk : 0 < k) (g : Grouper) (hg : Fixed g) (hr : g.closed = .right) (pos : R → Int)
    (pieces : List (List R)) (hne : ∀ p ∈ pieces, p ≠ []) (hs : AscOn pos pieces.flatten) (x : R)
    (hx : pieces.flatten.head? = some x) (he : Early pos (k * pos x) pieces.flatten) :
    ∃ b, streamBins (grouperResFn k g pos) {} [] pieces = .ok ([timeBin g (k * pos x) pieces.flatten], b) := by
  obtain ⟨c, hc⟩ : ∃ c, cellOf true g.origin0 g.freq (k * pos x) = c := ⟨_, rfl⟩
  have hT : ∀ (t : Int) (p : List R), cellOf true g.origin0 g.freq t = c → timeBin g t p = timeBin g (k * pos x) p := by
    intro t p h
    simp only [timeBin, hr, beq_self_eq_true, h, hc]
  -- later pieces
  have later : ∀ (ps : List (List R)) (h : List R) (b : ScaleBuf), (∀ p ∈ ps, p ≠ []) → h.head? = some x →
      AscOn pos (h ++ ps.flatten) → Early pos (k * pos x) ps.flatten →
      b.restart = some (g.origin0 + g.freq * (c + 1)) →
      ∃ b', streamBins (grouperResFn k g pos) b [timeBin g (k * pos x) h] ps = .ok ([timeBin g (k * pos x) (h ++ ps.flatten)], b') := by
    intro ps
    induction ps with
    | nil => intro h b _ _ _ _ _; exact ⟨b, by simp [streamBins]⟩
    | cons p ps ih =>
      intro h b hne hh hs he hb
      have hp := hne p (by simp)
      obtain ⟨z, hz⟩ : ∃ z, p.head? = some z := by cases p <;> simp_all
      have hcell : cellOf true g.origin0 g.freq (g.origin0 + g.freq * (c + 1)) = c := cellOf_edge_right _ _ _ hg.1
      have hin := (inCell_iff (right := true) (a := g.origin0) (f := g.freq) (c := c) (x := k * pos x) hg.1).2 hc
      simp only [InCell, if_true] at hin
      have hasc : AscOn pos (h ++ p) := by
        simp only [AscOn, List.flatten_cons, ← List.append_assoc] at hs
        exact (List.pairwise_append.1 hs).1
      obtain ⟨r, h1, _, h2⟩ := grouperRes_call k g hg pos p z hz (some b) (g.origin0 + g.freq * (c + 1))
        (by simp [hb]) (fun v hv => by have := he v (by simp [hv]); omega) (by
          intro y hy
          rw [hr, beq_self_eq_true, hcell, ← hc]
          apply cellOf_mono hg.1
          apply Int.mul_le_mul_of_nonneg_left _ (by omega)
          have hx' : (h ++ p).head? = some x := by cases h <;> simp_all
          exact head_le_last hasc hx' hy)
      rw [hT _ _ hcell] at h2
      have hl : (List.head? [timeBin g (k * pos x) p]).map Bin.label = ([timeBin g (k * pos x) h].getLast?).map Bin.label := rfl
      obtain ⟨b', hb'⟩ := ih (h ++ p) { b with restart := if g.closed = .left then some (k * pos z) else (timeBin g (g.origin0 + g.freq * (c + 1)) p).stop } (fun q hq => hne q (by simp [hq])) (by cases h <;> simp_all)
        (by simpa [List.append_assoc] using hs) (fun v hv => he v (by simp only [List.flatten_cons, List.mem_append]; exact Or.inr hv))
        (by rw [hr]; simp [timeBin, hr, hcell])
      refine ⟨b', ?_⟩
      rw [streamBins, h1]
      simp only [h2, hl, Option.map_some, Option.getD_some, if_true, Bool.or_true, decide_true]
      rw [show glue [timeBin g (k * pos x) h] [timeBin g (k * pos x) p] = [timeBin g (k * pos x) (h ++ p)] from rfl]
      rw [hb', List.flatten_cons, List.append_assoc]
  cases pieces with
  | nil => simp at hx
  | cons p ps =>
    have hp := hne p (by simp)
    obtain ⟨z, hz⟩ : ∃ z, p.head? = some z := by cases p <;> simp_all
    have hzx : z = x := by
      cases p with
      | nil => simp at hz
      | cons w l => simp at hz hx; rw [← hz, hx]
    subst hzx
    have hasc : AscOn pos p := by
      simp only [AscOn, List.flatten_cons] at hs
      exact (List.pairwise_append.1 hs).1
    obtain ⟨r, h1, _, h2⟩ := grouperRes_call k g hg pos p z hz (some {}) (k * pos z) rfl
      (fun v hv => he v (by simp [hv])) (by
        intro y hy
        apply cellOf_mono hg.1
        apply Int.mul_le_mul_of_nonneg_left _ (by omega)
        exact head_le_last (h := []) hasc hz hy)
    obtain ⟨b', hb'⟩ := later ps p
      { restart := if g.closed = .left then some (k * pos z) else (timeBin g (k * pos z) p).stop }
      (fun q hq => hne q (by simp [hq])) hz (by simpa using hs) (fun v hv => he v (by simp only [List.flatten_cons, List.mem_append]; exact Or.inr hv))
      (by rw [hr]; simp [timeBin, hr, hc])
    refine ⟨b', ?_⟩
    rw [streamBins, h1]
    simp only [h2, Option.map_some, Option.getD_some, List.isEmpty_nil, Bool.true_or, if_true]
    exact hb'

/-- **C82** Left-closed bins (the default): the third call is refused when the second piece does not begin in the bin of the first row. -/
theorem C82_third_call_refused (k : Int) (hk : 0 < k) (g : Grouper) (hg : Fixed g) (hl : g.closed = .left) (pos : R → Int)
    (p q s : List R) (x y z : R) (hx : p.head? = some x) (hy : q.head? = some y) (hz : s.head? = some z)
    (hs : AscOn pos (p ++ q ++ s)) (he : Early pos (k * pos x) (p ++ q ++ s))
    (hd : ∀ c, InCell false g.origin0 g.freq c (k * pos x) → ¬ InCell false g.origin0 g.freq c (k * pos y)) :
    (∃ b, streamBins (grouperResFn k g pos) {} [] [p, q] = .ok ([timeBin g (k * pos x) (p ++ q)], b)) ∧
      streamBins (grouperResFn k g pos) {} [] [p, q, s] = .error .labelMismatch := by
  have hd : cellOf false g.origin0 g.freq (k * pos x) ≠ cellOf false g.origin0 g.freq (k * pos y) := fun h =>
    hd _ ((inCell_iff hg.1).2 rfl) ((inCell_iff hg.1).2 h.symm)
  have hs' : AscOn pos (p ++ (q ++ s)) := by simpa [List.append_assoc] using hs
  have a1 : AscOn pos p := (List.pairwise_append.1 hs').1
  have a2 : AscOn pos (p ++ q) := (List.pairwise_append.1 hs).1
  have a3 : AscOn pos (q ++ s) := (List.pairwise_append.1 hs').2.1
  have hxy : pos x ≤ pos y := by
    have h1 : x ∈ p := List.mem_of_head? hx
    have h2 : y ∈ q ++ s := List.mem_append_left _ (List.mem_of_head? hy)
    exact (List.pairwise_append.1 hs').2.2 x h1 y h2
  have mono : ∀ a b : R, pos a ≤ pos b → cellOf (g.closed == .right) g.origin0 g.freq (k * pos a) ≤
      cellOf (g.closed == .right) g.origin0 g.freq (k * pos b) := fun a b h =>
    cellOf_mono hg.1 (Int.mul_le_mul_of_nonneg_left h (by omega))
  obtain ⟨r1, h1, _, h1'⟩ := grouperRes_call k g hg pos p x hx (some {}) (k * pos x) rfl (fun v hv => he v (by simp [hv]))
    (fun w hw => mono _ _ (head_le_last (h := []) a1 hx hw))
  obtain ⟨r2, h2, _, h2'⟩ := grouperRes_call k g hg pos q y hy (some { restart := some (k * pos x) }) (k * pos x) rfl
    (fun v hv => he v (by simp [hv])) (fun w hw => mono _ _ (head_le_last a2 (by cases p <;> simp_all) hw))
  obtain ⟨r3, h3, _, h3'⟩ := grouperRes_call k g hg pos s z hz (some { restart := some (k * pos y) }) (k * pos y) rfl
    (fun v hv => by
      have := he v (by simp [hv])
      have : k * pos x ≤ k * pos y := Int.mul_le_mul_of_nonneg_left hxy (by omega)
      omega)
    (fun w hw => mono _ _ (head_le_last a3 (by cases q <;> simp_all) hw))
  simp only [hl, if_true, Option.map_some] at h1 h2 h3
  have hlab : (timeBin g (k * pos y) s).label ≠ (timeBin g (k * pos x) (p ++ q)).label := by
    have hf := hg.1
    have hne : g.freq * cellOf false g.origin0 g.freq (k * pos y) ≠ g.freq * cellOf false g.origin0 g.freq (k * pos x) :=
      fun h => hd (Int.eq_of_mul_eq_mul_left (by omega) h).symm
    have e : (g.closed == .right) = false := by rw [hl]; rfl
    simp only [timeBin, e, Int.mul_add, Int.mul_one]
    cases g.labelRight <;> simp <;> omega
  have two : ∀ ps, streamBins (grouperResFn k g pos) {} [] (p :: q :: ps) =
      streamBins (grouperResFn k g pos) { restart := some (k * pos y) } [timeBin g (k * pos x) (p ++ q)] ps := by
    intro ps
    rw [streamBins, h1]
    simp only [h1', List.isEmpty_nil, Bool.true_or, if_true, Option.getD_some]
    rw [streamBins, show glue [] [timeBin g (k * pos x) p] = [timeBin g (k * pos x) p] from rfl, h2]
    simp only [h2']
    rw [if_pos (by simp [timeBin])]
    rfl
  refine ⟨⟨_, by rw [two]; rfl⟩, ?_⟩
  rw [two, streamBins, h3]
  simp only [h3']
  rw [if_neg (by simpa using hlab)]

theorem chunkLoop_none (right : Bool) (on : List Int) (hne : on ≠ []) : ∀ (ends : List Int),
    (∀ e ∈ ends, ∀ v ∈ on, beyond right e v = true) → chunkLoop right on ends 0 0 = (ends.map fun _ => 0, ends.length, false) := by
  intro ends
  induction ends with
  | nil => intro _; rfl
  | cons e ends ih =>
    intro h
    have hsc : scan (beyond right e) 0 on = (0, false) := by
      cases on with
      | nil => exact absurd rfl hne
      | cons v on => rw [scan, h e (by simp) v (by simp)]; rfl
    rw [chunkLoop, List.drop_zero, hsc]
    simp only [Bool.and_false, Bool.false_eq_true, if_false, Nat.add_zero, if_true, ih (fun e he => h e (by simp [he]))]
    rfl

/-- Rows which come, as integers, after the time `t`. For dates before 1970 in microseconds or coarser, compared with nanoseconds, all of
them do, but those of the last months of 1969. -/
def Late (pos : R → Int) (t : Int) (p : List R) : Prop := ∀ r ∈ p, t < pos r

instance (pos : R → Int) (t : Int) (p : List R) : Decidable (Late pos t p) := by unfold Late; infer_instance

/-- **C82** Dates before 1970: the bins are those of the grid from that of the first row to that of the last one, but all of them are
empty: rows are in no bin, and nothing is raised. The buffer has the end of the last bin, and the time of the last row. -/
theorem C82_before_1970 (k : Int) (hk : 0 < k) (g : Grouper) (hg : Fixed g) (pos : R → Int) (p : List R) (hs : AscOn pos p) (x y : R)
    (hx : p.head? = some x) (hy : p.getLast? = some y) (hl : Late pos (k * pos y + g.freq) p) :
    ∃ (c0 c1 : Int) (r : BinRes), InCell (g.closed == .right) g.origin0 g.freq c0 (k * pos x) ∧
      InCell (g.closed == .right) g.origin0 g.freq c1 (k * pos y) ∧ c0 ≤ c1 ∧
      grouperResFn k g pos p (some {}) = .ok (r, some ⟨some (g.origin0 + g.freq * (c1 + 1)), some (k * pos y)⟩) ∧
      grouperResFn k g pos p none = .ok (r, none) ∧
      readBins r.starts r.labels r.ends r.unknownLast p =
        gridBins (g.closed == .right) g.labelRight g.origin0 g.freq c0 (c1 - c0 + 1).toNat pos [] := by
  obtain ⟨hf, hanc, hmoved⟩ := hg.anchored
  obtain ⟨t, ht⟩ := hanc (k * pos x)
  have h0 : (p.map pos).getD 0 0 = pos x := by
    cases p with
    | nil => simp at hx
    | cons z l => simp at hx; subst hx; rfl
  have hlst : (p.map pos).getLastD 0 = pos y := getLastD_eq (by rw [List.getLast?_map, hy]; rfl)
  obtain ⟨c0, hc0⟩ : ∃ c, cellOf (g.closed == .right) g.origin0 g.freq (k * pos x) = c := ⟨_, rfl⟩
  obtain ⟨c1, hc1⟩ : ∃ c, cellOf (g.closed == .right) g.origin0 g.freq (k * pos y) = c := ⟨_, rfl⟩
  have hle : c0 ≤ c1 := by
    rw [← hc0, ← hc1]
    exact cellOf_mono hf (Int.mul_le_mul_of_nonneg_left (head_le_last (h := []) hs hx hy) (by omega))
  have i1 := (inCell_iff (right := g.closed == .right) (a := g.origin0) (f := g.freq) (x := k * pos y) (c := c1) hf).2 hc1
  have hstart : gtreStart g.freq (g.anchor (k * pos x)) g.closed (k * pos x) = g.origin0 + g.freq * c0 := by
    rw [gtreStart_eq _ _ _ _ hf, ht, cellOf_shift _ _ _ _ _ hf, Int.mul_sub, hc0]; omega
  have hstop : gtreEnd g.freq (g.anchor (k * pos x)) g.closed (k * pos y) = g.origin0 + g.freq * (c1 + 1) := by
    rw [gtreEnd_eq _ _ _ _ hf, ht, cellOf_shift _ _ _ _ _ hf, show ∀ z : Int, z - t + 1 = z + 1 - t by intro z; omega, Int.mul_sub, hc1]
    omega
  obtain ⟨n, hn⟩ : ∃ n, (c1 - c0 + 1).toNat = n + 1 := ⟨(c1 - c0).toNat, by omega⟩
  have hlast : c0 + (n : Int) = c1 := by omega
  have hN : nextChunkStarts (p.map pos) ((List.range (n + 1)).map fun i => g.origin0 + g.freq * (c0 + ((i + 1 : Nat) : Int)))
      (g.closed == .right) = ((List.range (n + 1)).map fun _ => 0, n + 1, false) := by
    rw [nextChunkStarts, chunkLoop_none _ _ (by cases p <;> simp_all)]
    · rw [List.map_map, List.length_map, List.length_range]; rfl
    · intro e he v hv
      obtain ⟨i, hi, rfl⟩ := List.mem_map.1 he
      obtain ⟨r, hr, rfl⟩ := List.mem_map.1 hv
      have h1 := hl r hr
      have hi := List.mem_range.1 hi
      have h2 : g.freq * (c0 + ((i + 1 : Nat) : Int)) ≤ g.freq * (c1 + 1) := Int.mul_le_mul_of_nonneg_left (by omega) (by omega)
      rw [Int.mul_add g.freq c1 1] at h2
      unfold InCell at i1
      unfold beyond
      split at i1 <;> simp_all <;> omega
  have hmain : ∀ b : Option ScaleBuf, b = none ∨ b = some {} → byGrouperRes k g none (p.map pos) b =
      (⟨(List.range (n + 1)).map fun _ => 0, if g.labelRight then (List.range (n + 1)).map fun i => g.origin0 + g.freq * (c0 + ((i + 1 : Nat) : Int))
          else (List.range (n + 1)).map fun (i : Nat) => g.origin0 + g.freq * (c0 + i),
        n + 1, g.closed, (List.range (n + 1)).map fun i => g.origin0 + g.freq * (c0 + ((i + 1 : Nat) : Int)), false⟩,
       b.map fun _ => ⟨some (g.origin0 + g.freq * (c1 + 1)), some (k * pos y)⟩) := by
    intro b hb
    have hfst : (b.bind ScaleBuf.restart).getD (k * pos x) = k * pos x := by rcases hb with rfl | rfl <;> rfl
    simp only [byGrouperRes, hmoved, h0, hlst, hfst, Option.getD_none, hstart, hstop]
    rw [dateRange_eq _ _ _ _ hf hle, hn, tail_range_map, dropLast_range_map]
    simp only [resFinish, hN, Bool.false_eq_true, if_false, List.length_map, List.length_range, Nat.add_sub_cancel, hlst]
    have : ((List.range (n + 1)).map fun i => g.origin0 + g.freq * (c0 + ((i + 1 : Nat) : Int))).getD n 0 =
        g.origin0 + g.freq * (c1 + 1) := by
      simp [List.getD, List.getElem?_map, List.getElem?_range]
      rw [← hlast]; congr 1; omega
    rw [this]
  refine ⟨c0, c1, (byGrouperRes k g none (p.map pos) none).1.toRes, (inCell_iff hf).2 hc0, i1, hle, ?_, ?_, ?_⟩
  · rw [grouperResFn, hmain _ (Or.inr rfl), hmain _ (Or.inl rfl)]; rfl
  · rw [grouperResFn, hmain _ (Or.inl rfl)]; rfl
  · rw [hmain _ (Or.inl rfl), hn]
    simp only [Seg.toRes, readBins, stops, Bool.false_eq_true, if_false, cut_range, gridBins, List.filter_nil]
    cases g.labelRight <;>
      simp only [Bool.false_eq_true, if_false, if_true, List.map_map, List.zip_map', Nat.sub_self, List.take_zero, Function.comp_def,
        Int.add_assoc, Int.natCast_add, Int.cast_ofNat_Int, Nat.cast_one, ite_self]

/-- Two days of 1950, in microseconds (days shortened to 24): 2 bins without rows. -/
example : ∃ r, grouperResFn 1000 { freq := 24000, day := 24000 } id [-2000, -1990] none = .ok (r, none) ∧
    readBins r.starts r.labels r.ends r.unknownLast [-2000, -1990] =
      [⟨-2016000, some (-1992000), []⟩, ⟨-1992000, some (-1968000), []⟩] := ⟨_, rfl, by decide +kernel⟩
example : Late id (1000 * (-1990) + 24000) [-2000, -1990] := by decide

/-- **C82** Microseconds are not binned as nanoseconds: with a frequency of one microsecond, 3 rows at 11, 12 and 13
microseconds. -/
theorem C82_microseconds_fails : ∃ (g : Grouper) (p : List Int), Fixed g ∧ AscOn id p ∧
    (∃ r, grouperResFn 1000 g id p none = .ok (r, none) ∧ (readBins r.starts r.labels r.ends r.unknownLast p).length = 1) ∧
    (∃ r, grouperFn g (fun v => 1000 * v) p none = .ok (r, none) ∧ (readBins r.starts r.labels r.ends r.unknownLast p).length = 3) :=
  ⟨{ freq := 1000, origin := .epoch }, [11, 12, 13], ⟨by decide, Or.inl rfl⟩, by decide, ⟨_, rfl, by decide⟩, ⟨_, rfl, by decide⟩⟩

/-- Three days of microseconds (days shortened to 24), through one buffer. -/
example :
    let g : Grouper := { freq := 24000, day := 24000 }
    streamBins (grouperResFn 1000 g id) {} [] [[30, 60]] = .ok ([⟨24000, some 48000, [30, 60]⟩], ⟨some 30000, none⟩) ∧
    streamBins (grouperResFn 1000 g id) {} [] [[30, 60], [80]] = .ok ([⟨24000, some 48000, [30, 60, 80]⟩], ⟨some 80000, none⟩) ∧
    streamBins (grouperResFn 1000 g id) {} [] [[30, 60], [80], [81]] = .error .labelMismatch := by decide +kernel

/-- `C82_stream_right` and `C82_third_call_refused` apply to it. -/
example : ∃ b, streamBins (grouperResFn 1000 { freq := 24000, day := 24000, closed := .right } id) {} [] [[30, 60], [80], [81]] =
    .ok ([⟨24000, some 48000, [30, 60, 80, 81]⟩], b) :=
  C82_stream_right 1000 (by decide) { freq := 24000, day := 24000, closed := .right } ⟨by decide, Or.inr (Or.inr ⟨rfl, 1, rfl⟩)⟩ rfl id
    [[30, 60], [80], [81]] (by decide) (by decide) 30 rfl (by decide)
example : streamBins (grouperResFn 1000 { freq := 24000, day := 24000 } id) {} [] [[30, 60], [80], [81]] = .error .labelMismatch :=
  (C82_third_call_refused 1000 (by decide) { freq := 24000, day := 24000 } ⟨by decide, Or.inr (Or.inr ⟨rfl, 1, rfl⟩)⟩ rfl id
    [30, 60] [80] [81] 30 80 81 rfl rfl rfl (by decide) (by decide) (by
      intro c; simp only [InCell, Grouper.origin0, Bool.false_eq_true, if_false, id]; omega)).2

end Oups.Segment
