import Verif.Proofs.AggRefused
import Verif.Props.AggBuffer
import Verif.Props.Calendar
/-! C77: calls of `cumsegagg` refused by the segmentation, and the calls that follow. -/
set_option linter.unusedSimpArgs false
namespace Oups.Agg
open Oups.Segment Spec

section
variable {R B V D : Type} [DecidableEq D] (O : D → Ops V) (get : R → Nat → V)
variable {dtype : Nat → Option D}

/-! ### What refused calls change for the next ones -/

/-- **C77** Calls on one dict, exceptions being caught, after calls `ks0` that returned, one of them with rows; same output columns in
all calls, snapshots that may differ, no check of zeros; bins from a `TimeGrouper`. The calls that return give what they give if those
that raise are not made; hence their rows of bins are the aggregates over the bins of their rows. -/
theorem C77_time (g : Grouper) (hg : Fixed g) (pos : R → Int) (z : List (D × Group) → List (List V) → Bool)
    (left : List R → ScaleBuf → ScaleBuf) {outs : List Nat} {ks0 ks : List (DCall D R)}
    (hk : ∀ k ∈ ks0 ++ ks, k.Fair dtype ∧ k.outs = outs) (hc : ∀ k ∈ ks, k.check = false) (hw : withRows ks0 ≠ [])
    {rs : List (Option (Res (List (List V))))} {db : DictBuf ScaleBuf V}
    (h : dictRun O get z {} (grouperFn g pos) left (some pos) ks0 {} = .ok (rs, db))
    {ret : List (DCall D R × Option (Res (List (List V))))}
    (hret : ret = returned ks (dictTry O get z {} (grouperFn g pos) left (some pos) ks db).1)
    (hs : AscOn pos (callRows (ks0 ++ ret.map Prod.fst))) :
    (∃ db', dictRun O get z {} (grouperFn g pos) left (some pos) (ks0 ++ ret.map Prod.fst) {} =
      .ok (rs ++ ret.map Prod.snd, db')) ∧
    ∃ bins, IsGrid (g.closed == .right) g.labelRight g.origin0 g.freq pos (callRows (ks0 ++ ret.map Prod.fst)) bins ∧
      ∀ out i f d, (∀ k ∈ ks0 ++ ks, (out, i, some f) ∈ k.agg) → dtype i = some d →
        glueCol out (ks0 ++ ret.map Prod.fst) (rs ++ ret.map Prod.snd) [] = colBins (O d) f (fun r => get r i) bins := by
  subst hret
  obtain ⟨h1, h2⟩ := try_history O get (grouper_lawful g g.origin0 hg.anchored pos) (grouper_resumes g g.origin0 hg.anchored pos)
    (by
      intro q b hq hb
      unfold gridOk at hb
      rw [List.getLast?_eq_some_getLast hq] at hb
      obtain ⟨k, hk, _⟩ := hb
      rw [hk]; rfl)
    (fun _ => gridSpec_labels _ _ _ _ _ _ hg.1) (fun _ _ => gridSpec_sep _ _ _ _ _ _ hg.1) z left
    (fun k h => ⟨(hk k h).1.ok, (hk k h).2⟩) hc hw h hs
  exact ⟨h1, _, gridSpec_isGrid _ _ _ _ _ _ hg.1 hs, h2⟩

/-- **C77** The same with bins between dates, one date per bin or right-closed bins. -/
theorem C77_calendar (c : Calendar) (hcal : c.Ok) (hr : c.n = 1 ∨ c.closed = .right) (pos : R → Int)
    (z : List (D × Group) → List (List V) → Bool)
    (left : List R → ScaleBuf → ScaleBuf) {outs : List Nat} {ks0 ks : List (DCall D R)}
    (hk : ∀ k ∈ ks0 ++ ks, k.Fair dtype ∧ k.outs = outs) (hc : ∀ k ∈ ks, k.check = false) (hw : withRows ks0 ≠ [])
    {rs : List (Option (Res (List (List V))))} {db : DictBuf ScaleBuf V}
    (h : dictRun O get z {} (calendarFn c pos) left (some pos) ks0 {} = .ok (rs, db))
    {ret : List (DCall D R × Option (Res (List (List V))))}
    (hret : ret = returned ks (dictTry O get z {} (calendarFn c pos) left (some pos) ks db).1)
    (hs : AscOn pos (callRows (ks0 ++ ret.map Prod.fst))) :
    (∃ db', dictRun O get z {} (calendarFn c pos) left (some pos) (ks0 ++ ret.map Prod.fst) {} =
      .ok (rs ++ ret.map Prod.snd, db')) ∧
    ∃ bins, IsCalendar (c.closed == .right) c.labelRight c.off.date c.n c.day pos (callRows (ks0 ++ ret.map Prod.fst)) bins ∧
      ∀ out i f d, (∀ k ∈ ks0 ++ ks, (out, i, some f) ∈ k.agg) → dtype i = some d →
        glueCol out (ks0 ++ ret.map Prod.fst) (rs ++ ret.map Prod.snd) [] = colBins (O d) f (fun r => get r i) bins := by
  subst hret
  obtain ⟨h1, h2⟩ := try_history O get (calendar_lawful c hcal hr pos) (calendar_resumes c hcal pos)
    (by
      intro q b hq hb
      unfold calOk at hb
      rw [List.getLast?_eq_some_getLast hq, List.head?_eq_some_head hq] at hb
      obtain ⟨k, hk, _⟩ := hb
      rw [hk]; rfl)
    (fun _ => strictLabels_ok (calSpec_strict c hcal c.closed pos _)) (fun _ _ => calSpec_sep c hcal c.closed pos _) z left
    (fun k h => ⟨(hk k h).1.ok, (hk k h).2⟩) hc hw h hs
  exact ⟨h1, _, calSpec_isCalendar c hcal c.closed pos _ hs, h2⟩

/-- **C77** A call refused whose rows, ordered after those of previous calls, are all in the bin in progress (a cell of the grid): all
later calls, whatever they are, give what they give without it. -/
theorem C77_same_bin (g : Grouper) (hg : Fixed g) (pos : R → Int) (z : List (D × Group) → List (List V) → Bool)
    (left : List R → ScaleBuf → ScaleBuf) {ks0 : List (DCall D R)} (hk : ∀ k ∈ ks0, k.Fair dtype)
    {rs : List (Option (Res (List (List V))))} {db : DictBuf ScaleBuf V}
    (h : dictRun O get z {} (grouperFn g pos) left (some pos) ks0 {} = .ok (rs, db))
    {k : DCall D R} (hkf : k.Fair dtype) (hs : AscOn pos (callRows (ks0 ++ [k]))) (hc : k.check = false)
    (hcols : ∀ k1, (withRows ks0).getLast? = some k1 → ∀ n ∈ k.outs, n ∈ k1.outs)
    {c : Int} {y : R} (hy : (callRows ks0).getLast? = some y) (hcy : InCell (g.closed == .right) g.origin0 g.freq c (pos y))
    (hcell : ∀ r ∈ k.rows, InCell (g.closed == .right) g.origin0 g.freq c (pos r))
    {e : AggErr} (hr : (k.call O get z {} (grouperFn g pos) left (some pos) db).1 = .error e) (ks : List (DCall D R)) :
    (dictTry O get z {} (grouperFn g pos) left (some pos) ks (k.call O get z {} (grouperFn g pos) left (some pos) db).2).1 =
      (dictTry O get z {} (grouperFn g pos) left (some pos) ks db).1 := by
  have L := grouper_lawful g g.origin0 hg.anchored pos
  have hcr : callRows (ks0 ++ [k]) = callRows ks0 ++ k.rows := by simp [callRows]
  rw [hcr] at hs
  have hs0 : AscOn pos (callRows ks0) := hs.sublist (List.sublist_append_left _ _)
  obtain ⟨hI, _⟩ := dict_history O get L z left ks0 (fun k h => (hk k h).ok) hs0
    (fun _ _ => gridSpec_labels _ _ _ _ _ _ hg.1) (fun _ _ _ => gridSpec_sep _ _ _ _ _ _ hg.1) h
  have hw : withRows ks0 ≠ [] := by
    intro h0
    rw [← callRows_withRows, h0] at hy
    simp [callRows] at hy
  by_cases hp : k.rows = []
  · rw [call_nil O get k hp] at hr; cases hr
  obtain ⟨bi, hbi⟩ := Option.isSome_iff_exists.1 (hI.bin hw)
  have hoki : gridOk (g.closed == .right) g.origin0 g.freq pos (callRows ks0) bi := by
    have := hI.unit.bin
    simpa [unitBuf, segOf, hbi] using this
  obtain ⟨k0, hk0, hk0c⟩ : ∃ k, bi.restart = some k ∧ cellOf (g.closed == .right) g.origin0 g.freq k =
      cellOf (g.closed == .right) g.origin0 g.freq (pos y) := by
    unfold gridOk at hoki
    rw [hy] at hoki; exact hoki
  apply try_same O get (grouper_twins g g.origin0 hg.anchored pos)
  cases hx : segmentbyD ({} : ScaleBuf) (grouperFn g pos) left (some pos) k.snapBy k.rows db with
  | mk o d2 =>
    cases o with
    | ok s =>
      exfalso
      obtain ⟨ch, a, hch, hra⟩ := readable_of hkf.ok hI hw hcols
      have hsc := segmentbyD_chunk ({} : ScaleBuf) (grouperFn g pos) left (some pos) k.snapBy k.rows db
      unfold DCall.call cumsegaggD at hr
      rw [show k.rows.isEmpty = false by simpa using hp, hc, hx] at hr
      rw [hx] at hsc
      have hpc : prevChunk O k.cfg d2 = some a := by unfold prevChunk; rw [hsc, hch]; exact hra
      simp only [Bool.false_eq_true, if_false, Bool.false_and, hpc] at hr
      cases hr
    | error x =>
      have hcall : (k.call O get z {} (grouperFn g pos) left (some pos) db).2 = d2 := by
        unfold DCall.call cumsegaggD
        rw [show k.rows.isEmpty = false by simpa using hp, hx]
        rfl
      rw [hcall]
      rcases seg_left left (some pos) k.snapBy hbi hx with ⟨rfl, _⟩ | ⟨_, _, ⟨h1, _⟩ | ⟨r', b1', h1, rfl⟩⟩
      · exact ⟨rfl, rfl, rfl, bi, bi, hbi, hbi, k0, k0, hk0, hk0, rfl⟩
      · cases h1
      · obtain ⟨r1, b1, e1, e2, _, _⟩ := L.step (callRows ks0) k.rows bi hp hs hoki
        rw [h1] at e1
        simp only [Except.ok.injEq, Prod.mk.injEq] at e1
        obtain ⟨rfl, rfl⟩ := e1
        refine ⟨rfl, rfl, rfl, bi, b1, hbi, rfl, ?_⟩
        unfold gridOk at e2
        rw [List.getLast?_append, List.getLast?_eq_some_getLast hp] at e2
        obtain ⟨k1, hk1, hk1c⟩ := e2
        refine ⟨k0, k1, hk0, hk1, ?_⟩
        rw [hk0c, hk1c, (inCell_iff hg.1).1 hcy, (inCell_iff hg.1).1 (hcell _ (List.getLast_mem hp))]

/-! ### What the dict holds after a refusal -/

/-- **C77** Rows that are not ordered, whatever `bin_by`: always refused; a dict that has an entry for bins stays as it is. -/
theorem C77_order (k : DCall D R) (hp : k.rows ≠ []) (z : List (D × Group) → List (List V) → Bool)
    (b0 : B) (fn : BinFn R B) (left : List R → B → B) (pos : R → Int) (db : DictBuf B V) (ho : ¬ AscOn pos k.rows) :
    (∃ e, (k.call O get z b0 fn left (some pos) db).1 = .error (.seg e)) ∧
    (k.snapBy = none ∨ db.bin = none ∨ db.snap.isSome →
      (k.call O get z b0 fn left (some pos) db).1 = .error (.seg .notOrdered)) ∧
    (db.bin.isSome → (k.call O get z b0 fn left (some pos) db).2 = db) := by
  have hu : unordered (some pos) k.rows = true := by
    unfold unordered
    simp only [Bool.not_eq_true']
    rw [← Bool.not_eq_true, isOrdered_iff]
    intro h
    exact ho (by simpa [Asc, AscOn, List.pairwise_map] using h)
  unfold DCall.call cumsegaggD segmentbyD
  rw [show k.rows.isEmpty = false by simpa using hp, hu]
  simp only [Bool.false_eq_true, if_false, if_true]
  unfold setupMainbuffer
  cases hb : db.bin with
  | none =>
    cases hsn : k.snapBy with
    | none => simp
    | some x => simp
  | some b =>
    cases hsn : k.snapBy with
    | none => simp
    | some x =>
      cases hx : db.snap with
      | none => simp [hx]
      | some y => simp [hx]

/-- **C77** The same with a dict that has no entry for bins: each later call with rows, with snapshots if the one refused had some, gives
what it gives without it. -/
theorem C77_order_first (k k2 : DCall D R) (hp : k.rows ≠ []) (hp2 : k2.rows ≠ []) (z : List (D × Group) → List (List V) → Bool)
    (b0 : B) (fn : BinFn R B) (left : List R → B → B) (pos : R → Int) (db : DictBuf B V) (hb : db.bin = none)
    (ho : ¬ AscOn pos k.rows) (hsn : k2.snapBy.isSome = k.snapBy.isSome) :
    k2.call O get z b0 fn left (some pos) (k.call O get z b0 fn left (some pos) db).2 =
      k2.call O get z b0 fn left (some pos) db := by
  have hu : unordered (some pos) k.rows = true := by
    unfold unordered
    simp only [Bool.not_eq_true']
    rw [← Bool.not_eq_true, isOrdered_iff]
    intro h
    exact ho (by simpa [Asc, AscOn, List.pairwise_map] using h)
  have h1 : (k.call O get z b0 fn left (some pos) db).2 = setupMainbuffer b0 k.snapBy.isSome db := by
    unfold DCall.call cumsegaggD segmentbyD
    rw [show k.rows.isEmpty = false by simpa using hp, hu]
    simp only [Bool.false_eq_true, if_false, if_true]
    by_cases hc : (k.snapBy.isSome && (setupMainbuffer b0 k.snapBy.isSome db).snap.isNone) = true
    · simp only [hc, if_true]
    · simp only [hc, if_false, Bool.false_eq_true]
  have h2 : setupMainbuffer b0 k2.snapBy.isSome (setupMainbuffer b0 k.snapBy.isSome db) = setupMainbuffer b0 k2.snapBy.isSome db := by
    rw [hsn]; unfold setupMainbuffer; rw [hb]
  have h3 : (setupMainbuffer b0 k.snapBy.isSome db).label = db.label := by unfold setupMainbuffer; rw [hb]
  rw [h1]
  unfold DCall.call cumsegaggD segmentbyD
  rw [show k2.rows.isEmpty = false by simpa using hp2, h2, h3]
  rfl

/-- **C77** Any `bin_by`, a dict that has an entry for bins: when `segmentby` raises, the dict is as it was if rows are not ordered or if
snapshots have no entry; otherwise it has what `bin_by` left in its own dict, and nothing else is changed. -/
theorem C77_left (b0 : B) (fn : BinFn R B) (left : List R → B → B) (ordered : Option (R → Int)) (sn : Option Snaps)
    (p : List R) (d : DictBuf B V) {b : B} (hb : d.bin = some b) {e : Err}
    (h : (segmentbyD b0 fn left ordered sn p d).1 = .error e) :
    ((segmentbyD b0 fn left ordered sn p d).2 = d ∧
      ((sn.isSome ∧ d.snap = none ∧ e = .keyError) ∨ (unordered ordered p = true ∧ e = .notOrdered))) ∨
    ((sn.isSome → d.snap.isSome) ∧ unordered ordered p = false ∧
      ((fn p (some b) = .error e ∧ (segmentbyD b0 fn left ordered sn p d).2 = { d with bin := some (left p b) }) ∨
        ∃ r b1, fn p (some b) = .ok (r, b1) ∧ (segmentbyD b0 fn left ordered sn p d).2 = { d with bin := some (b1.getD b) })) := by
  cases hx : segmentbyD b0 fn left ordered sn p d with
  | mk o d1 =>
    rw [hx] at h
    simp only at h
    subst h
    exact seg_left left ordered sn hb hx

end

/-! ### Runs -/

def exV (l : List Int) : Option Snaps := some (.values l l)

/-- Bins each 10. -/
def exTry (ks : List (DCall Unit (Int × Int))) (db : DictBuf ScaleBuf Int) : List (Outcome Int) × DictBuf ScaleBuf Int :=
  dictTry (fun _ => intOps) ex_get (fun _ _ => false) ({} : ScaleBuf) (grouperFn { freq := 10 } Prod.fst) (fun _ b => b)
    (some Prod.fst) ks db

/-- Bins of 2 rows. -/
def exTryRows (ks : List (DCall Unit (Int × Int))) : List (Outcome Int) × DictBuf (Option RowsBuf) Int :=
  dictTry (fun _ => intOps) ex_get (fun _ _ => false) (none : Option RowsBuf) (rowsFn 2 .left Prod.fst) (fun _ b => b)
    (some Prod.fst) ks {}

-- the first call returns; the same rows are then refused twice, first because points of snapshots do not go back to the last one, then
-- because the label of the first bin is not the last one kept; the third time they are accepted, with the results of a single call
example : (exTry [exD [(1, 1)] (exV [5]) exSum, exD [(2, 2), (17, 4)] (exV [15]) exSum, exD [(2, 2), (17, 4)] (exV [5, 15, 25]) exSum,
      exD [(2, 2), (17, 4)] (exV [5, 15, 25]) exSum] {}).1 =
    [.ok (some ⟨[(0, some [[1]])], some [(5, some [[1]])]⟩), .error (.seg .restartKeyMissing), .error (.seg .labelMismatch),
      .ok (some ⟨[(0, some [[3]]), (10, some [[4]])], some [(5, some [[3]]), (15, none), (25, none)]⟩)] ∧
    (exTry [exD [(1, 1), (2, 2), (17, 4)] (exV [5, 15, 25]) exSum] {}).1 =
      [.ok (some ⟨[(0, some [[3]]), (10, some [[4]])], some [(5, some [[3]]), (15, none), (25, none)]⟩)] := ⟨rfl, rfl⟩

def exTry0 : List (DCall Unit (Int × Int)) := [exD [(1, 1)] (exV [5]) exSum]
def exTry1 : List (DCall Unit (Int × Int)) :=
  [exD [(2, 2), (17, 4)] (exV [15]) exSum, exD [(2, 2), (17, 4)] (exV [5, 15, 25]) exSum, exD [(2, 2), (17, 4)] (exV [5, 15, 25]) exSum]

theorem exV_fair (rows : List (Int × Int)) (l : List Int) (h : Asc l) :
    (exD rows (exV l) exSum).Fair (fun _ => some ()) ∧ (exD rows (exV l) exSum).outs = [0] := by
  refine ⟨⟨rfl, by simp [DCall.outs, exD, exSum], ?_⟩, rfl⟩
  intro x hx
  cases hx
  exact h

example {rs : List (Option (Res (List (List Int))))} {db : DictBuf ScaleBuf Int} (h : exRun exTry0 {} = .ok (rs, db)) :
    ∃ bins, IsGrid false false 0 10 Prod.fst (callRows (exTry0 ++ (returned exTry1 (exTry exTry1 db).1).map Prod.fst)) bins ∧
      glueCol 0 (exTry0 ++ (returned exTry1 (exTry exTry1 db).1).map Prod.fst)
        (rs ++ (returned exTry1 (exTry exTry1 db).1).map Prod.snd) [] = colBins intOps .sum Prod.snd bins := by
  have hk : ∀ k ∈ exTry0 ++ exTry1, k.Fair (fun _ => some ()) ∧ k.outs = [0] := by
    intro k hk
    simp only [exTry0, exTry1, List.cons_append, List.nil_append, List.mem_cons, List.not_mem_nil, or_false] at hk
    rcases hk with rfl | rfl | rfl | rfl <;> exact exV_fair _ _ (by decide)
  obtain ⟨_, bins, h1, h2⟩ := C77_time (fun _ : Unit => intOps) ex_get (dtype := fun _ => some ()) { freq := 10 } Oups.AggStream.exFixed
    Prod.fst (fun _ _ => false) (fun _ b => b) (outs := [0]) (ks0 := exTry0) (ks := exTry1) hk
    (by
      intro k hk
      simp only [exTry1, List.mem_cons, List.not_mem_nil, or_false] at hk
      rcases hk with rfl | rfl | rfl <;> rfl)
    (by simp [withRows, exTry0, exD]) h rfl
    (by
      have e : exRun exTry0 {} = .ok ([some ⟨[(0, some [[1]])], some [(5, some [[1]])]⟩], (exTry exTry0 {}).2) := rfl
      rw [e] at h
      cases h
      have e1 : (returned exTry1 (exTry exTry1 (exTry exTry0 {}).2).1).map (fun x => x.1.rows) = [[(2, 2), (17, 4)]] := rfl
      unfold callRows
      rw [List.flatMap_append, List.flatMap_map]
      have e2 : (returned exTry1 (exTry exTry1 (exTry exTry0 {}).2).1).flatMap (fun x => x.1.rows) = [(2, 2), (17, 4)] := by
        rw [List.flatMap_def, e1]; rfl
      have e3 : exTry0.flatMap DCall.rows = [(1, 1)] := rfl
      unfold exTry at e2
      rw [e3]
      first | rw [e2] | (erw [e2])
      decide)
  refine ⟨bins, h1, h2 0 0 .sum () ?_ rfl⟩
  intro k hk
  simp only [exTry0, exTry1, List.cons_append, List.nil_append, List.mem_cons, List.not_mem_nil, or_false] at hk
  rcases hk with rfl | rfl | rfl | rfl <;> simp [exD, exSum]

-- refused with rows of bin 0, which is in progress: no effect
example (db : DictBuf ScaleBuf Int) (rs : List (Option (Res (List (List Int))))) (h : exRun exTry0 {} = .ok (rs, db))
    (ks : List (DCall Unit (Int × Int))) :
    (exCall (exD [(2, 2), (9, 4)] (exV [15]) exSum) db).1 = .error (.seg .restartKeyMissing) ∧
    (exTry ks (exCall (exD [(2, 2), (9, 4)] (exV [15]) exSum) db).2).1 = (exTry ks db).1 := by
  have hr : (exCall (exD [(2, 2), (9, 4)] (exV [15]) exSum) db).1 = .error (.seg .restartKeyMissing) := by
    have e : exRun exTry0 {} = .ok ([some ⟨[(0, some [[1]])], some [(5, some [[1]])]⟩], (exTry exTry0 {}).2) := rfl
    rw [e] at h
    cases h
    rfl
  refine ⟨hr, ?_⟩
  refine C77_same_bin (fun _ : Unit => intOps) ex_get (dtype := fun _ => some ()) { freq := 10 } Oups.AggStream.exFixed
    Prod.fst (fun _ _ => false) (fun _ b => b) (ks0 := exTry0) ?_ h (exV_fair _ _ (by decide)).1 (by decide) rfl ?_ (c := 0) (y := (1, 1))
    rfl (by decide) ?_ hr ks
  · intro k hk
    simp only [exTry0, List.mem_cons, List.not_mem_nil, or_false] at hk
    rcases hk with rfl
    exact (exV_fair _ _ (by decide)).1
  · intro k1 h1 n hn
    have e : (withRows exTry0).getLast? = some (exD [(1, 1)] (exV [5]) exSum) := rfl
    rw [e] at h1
    cases h1
    exact hn
  · intro r hr
    simp only [exD, List.mem_cons, List.not_mem_nil, or_false] at hr
    rcases hr with rfl | rfl <;> decide

-- rows not ordered
example (db : DictBuf ScaleBuf Int) (hb : db.bin.isSome) :
    exCall (exD [(3, 1), (2, 2)] none exSum) db = (.error (.seg .notOrdered), db) := by
  obtain ⟨_, h1, h2⟩ := C77_order (fun _ : Unit => intOps) ex_get (exD [(3, 1), (2, 2)] none exSum) (by simp [exD]) (fun _ _ => false)
    ({} : ScaleBuf) (grouperFn { freq := 10 } Prod.fst) (fun _ b => b) Prod.fst db (by decide)
  exact Prod.ext (h1 (Or.inl rfl)) (h2 hb)

-- months, days of 24 hours: refused twice, then accepted
example : Calendar.Ok { off := monthBegin 24, day := 24 } ∧
    (dictTry (fun _ => intOps) ex_get (fun _ _ => false) ({} : ScaleBuf) (calendarFn { off := monthBegin 24, day := 24 } Prod.fst)
      (fun _ b => b) (some Prod.fst) [exD [(1, 1)] (exV [500]) exSum, exD [(2, 2), (750, 4)] (exV [1000]) exSum,
        exD [(2, 2), (750, 4)] (exV [500, 1000]) exSum, exD [(2, 2), (750, 4)] (exV [500, 1000]) exSum] {}).1.map Except.toOption =
      [some (some ⟨[(0, some [[1]])], some [(500, some [[1]])]⟩), none, none,
        some (some ⟨[(0, some [[3]]), (744, some [[4]])], some [(500, some [[3]]), (1000, some [[4]])]⟩)] :=
  ⟨(C67_offsets 24 (by decide) 1 (by decide) .left false 0).1, by decide +kernel⟩

-- rows not ordered in the first call
example (k2 : DCall Unit (Int × Int)) (hp : k2.rows ≠ []) (hsn : k2.snapBy.isSome = false) :
    exCall k2 (exCall (exD [(3, 1), (2, 2)] none exSum) {}).2 = exCall k2 {} :=
  C77_order_first (fun _ : Unit => intOps) ex_get (exD [(3, 1), (2, 2)] none exSum) k2 (by simp [exD]) hp (fun _ _ => false)
    ({} : ScaleBuf) (grouperFn { freq := 10 } Prod.fst) (fun _ b => b) Prod.fst {} rfl (by decide) hsn

-- the restart point of bins is moved, nothing else
example : (segmentbyD {} (grouperFn { freq := 10 } Prod.fst) (fun _ b => b) (some Prod.fst) (exV [15]) [(2, 2), (17, 4)]
      (exTry exTry0 {}).2).2 = { (exTry exTry0 {}).2 with bin := some { restart := some 10 } } ∧
    (exTry exTry0 {}).2.bin = some { restart := some 1 } := ⟨rfl, rfl⟩

/-- Without the condition on snapshots, this does not hold: after rows refused without snapshots as first call, calls with snapshots raise
`KeyError`. -/
theorem C77_order_fails :
    (exTry [exD [(3, 1), (2, 2)] none exSum, exD [(2, 2), (3, 1)] exS5 exSum] {}).1 =
      [.error (.seg .notOrdered), .error (.seg .keyError)] ∧
    (exTry [exD [(2, 2), (3, 1)] exS5 exSum] {}).1 = [.ok (some ⟨[(0, some [[3]])], some [(0, some [[3]])]⟩)] := ⟨rfl, rfl⟩

/-- Without a first call that returned, this does not hold: a first call refused, here because of a tuple of arrays of different sizes,
then the same rows accepted: rows of bin 0 are added to bin 10, and bin 0 is lost. -/
theorem C77_first_fails :
    (exTry [exD [(1, 1), (17, 4)] (some (.values [5] [5, 15])) exSum, exD [(1, 1), (17, 4)] (exV [5, 15]) exSum] {}).1 =
      [.error (.seg .tupleSizes), .ok (some ⟨[(10, some [[5]])], some [(5, some [[1]]), (15, some [[1]])]⟩)] ∧
    (exTry [exD [(1, 1), (17, 4)] (exV [5, 15]) exSum] {}).1 =
      [.ok (some ⟨[(0, some [[1]]), (10, some [[4]])], some [(5, some [[1]]), (15, none)]⟩)] := ⟨rfl, rfl⟩

/-- With bins of rows, this does not hold: rows of the call refused are counted. -/
theorem C77_rows_fails :
    (exTryRows [exD [(1, 1)] (exV [5]) exSum, exD [(2, 2)] (exV [15]) exSum, exD [(2, 2)] (exV [5, 15, 25]) exSum]).1 =
      [.ok (some ⟨[(1, some [[1]])], some [(5, some [[1]])]⟩), .error (.seg .restartKeyMissing),
        .ok (some ⟨[(1, some [[1]]), (2, some [[2]])], some [(5, some [[2]])]⟩)] ∧
    (exTryRows [exD [(1, 1)] (exV [5]) exSum, exD [(2, 2)] (exV [5, 15, 25]) exSum]).1 =
      [.ok (some ⟨[(1, some [[1]])], some [(5, some [[1]])]⟩),
        .ok (some ⟨[(1, some [[3]])], some [(5, some [[3]])]⟩)] := ⟨rfl, rfl⟩

end Oups.Agg
