import Verif.Props.SegmentSeries
import Verif.Props.Segment

/-! # C33: why `segmentby` raises

Every refusal of `segmentby` has one of the reasons below, each with its exception; and each of them is a refusal. In
particular the sorting of chunk starts never raises (no reason `mergeSizes`). -/

namespace Oups.Segment

variable {R B : Type}

/-- Why the result of a binning is refused, in the order in which it is looked at. -/
inductive BinReason (rows : Nat) (buffered : Bool) (prev : Option Int) (r : BinRes) : Err → Prop where
  | closed (h : r.closed = none) : BinReason rows buffered prev r .badClosed
  | labels (h : r.closed ≠ none) (h1 : r.labels.length ≠ r.starts.length) : BinReason rows buffered prev r .sizeLabels
  | ends (h : r.closed ≠ none) (h1 : r.labels.length = r.starts.length) (h2 : r.ends.length ≠ r.starts.length) :
      BinReason rows buffered prev r .sizeEnds
  | covers (h : r.closed ≠ none) (h1 : r.labels.length = r.starts.length) (h2 : r.ends.length = r.starts.length)
      (hb : buffered = true) (h3 : r.starts.getLast? ≠ some rows) : BinReason rows buffered prev r .notCovering
  | trailing (h : r.closed ≠ none) (h1 : r.labels.length = r.starts.length) (h2 : r.ends.length = r.starts.length)
      (hb : buffered = true) (h3 : r.starts.getLast? = some rows) (h4 : r.starts.dropLast.getLast? = some rows) :
      BinReason rows buffered prev r .emptyTrailing
  | label {l : Int} (h : r.closed ≠ none) (h1 : r.labels.length = r.starts.length) (h2 : r.ends.length = r.starts.length)
      (hb : buffered = true) (h3 : r.starts.getLast? = some rows) (h4 : r.starts.dropLast.getLast? ≠ some rows)
      (hp : prev = some l) (h5 : r.labels.head? ≠ some l) : BinReason rows buffered prev r .labelMismatch

/-- Why a call of `segmentby` is refused. -/
inductive SegReason (fn : BinFn R B) (ordered : Option (R → Int)) (snapBy : Option Snaps) (data : List R)
    (buf : Option (MainBuf B)) : Err → Prop where
  /-- The column is not ordered. -/
  | notOrdered {o : R → Int} (ho : ordered = some o) (h : ¬ AscOn o data) : SegReason fn ordered snapBy data buf .notOrdered
  /-- `bin_by` raises. -/
  | binBy {e : Err} (ho : ∀ o, ordered = some o → AscOn o data) (hf : fn data (buf.map MainBuf.bin) = .error e) :
      SegReason fn ordered snapBy data buf e
  /-- Its result is not consistent. -/
  | bins {e : Err} {r : BinRes} {b' : Option B} (ho : ∀ o, ordered = some o → AscOn o data)
      (hf : fn data (buf.map MainBuf.bin) = .ok (r, b'))
      (hr : BinReason data.length buf.isSome (buf.bind MainBuf.lastBinLabel) r e) : SegReason fn ordered snapBy data buf e
  /-- Snapshots without a column to order on. -/
  | noColumn {r : BinRes} {b' : Option B} {s : Snaps} (ho : ordered = none) (hf : fn data (buf.map MainBuf.bin) = .ok (r, b'))
      (hr : Consistent data.length buf.isSome (buf.bind MainBuf.lastBinLabel) r) (hs : snapBy = some s) :
      SegReason fn ordered snapBy data buf .keyError
  /-- Points of snapshots are refused. -/
  | points {e : Err} {r : BinRes} {b' : Option B} {o : R → Int} {c : Closed} {labels ends : List Int} (ho : ordered = some o)
      (ha : AscOn o data) (hf : fn data (buf.map MainBuf.bin) = .ok (r, b'))
      (hr : Consistent data.length buf.isSome (buf.bind MainBuf.lastBinLabel) r) (hc : r.closed = some c)
      (hs : snapBy = some (.values labels ends))
      (hp : bySeries labels ends (some c) (data.map o) (buf.map MainBuf.snap) = .error e) :
      SegReason fn ordered snapBy data buf e

theorem checkBins_error (rows : Nat) (buffered : Bool) (prev : Option Int) (r : BinRes) (e : Err) :
    checkBins rows buffered prev r = .error e ↔ BinReason rows buffered prev r e := by
  unfold checkBins
  constructor
  · intro h
    split at h
    · rename_i hc; cases h; exact .closed hc
    · rename_i c hc
      have hc : r.closed ≠ none := by rw [hc]; simp
      simp only at h
      split at h
      · rename_i h1; cases h; exact .labels hc (Ne.symm h1)
      · rename_i h1
        have h1 : r.labels.length = r.starts.length := by simpa [eq_comm] using h1
        split at h
        · rename_i h2; cases h; exact .ends hc h1 (Ne.symm h2)
        · rename_i h2
          have h2 : r.ends.length = r.starts.length := by simpa [eq_comm] using h2
          split at h
          · rename_i h3; cases h
            simp only [Bool.and_eq_true, decide_eq_true_eq] at h3
            exact .covers hc h1 h2 h3.1 h3.2
          · rename_i h3
            split at h
            · rename_i h4; cases h
              rw [Bool.and_assoc, Bool.and_eq_true, trailing_iff] at h4
              exact .trailing hc h1 h2 h4.1 (by simpa [h4.1] using h3) h4.2
            · rename_i h4
              rw [Bool.and_assoc, Bool.and_eq_true, trailing_iff] at h4
              split at h
              · rename_i h5; cases h
                simp only [Bool.and_eq_true, decide_eq_true_eq] at h5
                obtain ⟨⟨hb, hp⟩, h5⟩ := h5
                obtain ⟨l, hl⟩ := Option.isSome_iff_exists.1 hp
                exact .label hc h1 h2 hb (by simpa [hb] using h3) (fun h => h4 ⟨hb, h⟩) hl (by rw [hl] at h5; exact Ne.symm h5)
              · cases h
  · intro h
    cases h with
    | closed h => rw [h]
    | labels h h1 =>
      obtain ⟨c, hc⟩ := Option.ne_none_iff_exists'.1 h
      simp only [hc]; rw [if_pos (Ne.symm h1)]
    | ends h h1 h2 =>
      obtain ⟨c, hc⟩ := Option.ne_none_iff_exists'.1 h
      simp only [hc]; rw [if_neg (by simp [h1]), if_pos (Ne.symm h2)]
    | covers h h1 h2 hb h3 =>
      obtain ⟨c, hc⟩ := Option.ne_none_iff_exists'.1 h
      simp only [hc]; rw [if_neg (by simp [h1]), if_neg (by simp [h2]), if_pos (by simp [hb, h3])]
    | trailing h h1 h2 hb h3 h4 =>
      obtain ⟨c, hc⟩ := Option.ne_none_iff_exists'.1 h
      simp only [hc]
      rw [if_neg (by simp [h1]), if_neg (by simp [h2]), if_neg (by simp [h3]),
        if_pos (by rw [Bool.and_assoc, Bool.and_eq_true, trailing_iff]; exact ⟨hb, h4⟩)]
    | label h h1 h2 hb h3 h4 hp h5 =>
      obtain ⟨c, hc⟩ := Option.ne_none_iff_exists'.1 h
      simp only [hc]
      rw [if_neg (by simp [h1]), if_neg (by simp [h2]), if_neg (by simp [h3]),
        if_neg (by rw [Bool.and_assoc, Bool.and_eq_true, trailing_iff]; exact fun h => h4 h.2),
        if_pos (by simp only [hb, hp, Option.isSome_some, Bool.and_self, Bool.true_and, decide_eq_true_eq]; exact Ne.symm h5)]

theorem scaleFinish_sizes (isG : Bool) (on labels ends : List Int) (closed : Closed) (buf : Option ScaleBuf) :
    (scaleFinish isG on labels ends closed buf).1.ends.length = (scaleFinish isG on labels ends closed buf).1.starts.length := by
  obtain ⟨h1, h2, h3⟩ := chunkLoop_count (closed == .right) on ends 0 0
  simp only [scaleFinish, nextChunkStarts]
  obtain ⟨starts, nn, tr, hq⟩ : ∃ a b c, chunkLoop (closed == .right) on ends 0 0 = (a, b, c) := ⟨_, _, _, rfl⟩
  simp only [hq] at h1 h2 h3 ⊢
  cases tr with
  | true => simp; omega
  | false => simp [h3 rfl]

theorem runSnaps_counts {s : Snaps} {c : Closed} {on : List Int} {buf sb : Option ScaleBuf} {ss : Seg}
    (h : runSnaps s c on buf = .ok (ss, sb)) : ss.ends.length = ss.starts.length := by
  cases s with
  | grouper g =>
    simp only [runSnaps, Except.ok.injEq] at h
    unfold byGrouper at h
    rw [show ss = _ from (congrArg Prod.fst h).symm]
    exact scaleFinish_sizes _ _ _ _ _ _
  | calendar g =>
    simp only [runSnaps, Except.ok.injEq] at h
    unfold byCalendar at h
    rw [show ss = _ from (congrArg Prod.fst h).symm]
    exact scaleFinish_sizes _ _ _ _ _ _
  | values l e =>
    simp only [runSnaps, bySeries] at h
    have hf : ∀ l e buf, (seriesFinish l e c on buf).1.ends.length = (seriesFinish l e c on buf).1.starts.length := by
      intro l e buf
      unfold seriesFinish
      split
      · rename_i he; simp [List.isEmpty_iff.1 he]
      · exact scaleFinish_sizes _ _ _ _ _ _
    split at h
    · cases h
    · split at h
      · simp only [Except.ok.injEq] at h; rw [show ss = _ from (congrArg Prod.fst h).symm]; exact hf _ _ _
      · split at h
        · split at h
          · cases h
          · simp only [Except.ok.injEq] at h; rw [show ss = _ from (congrArg Prod.fst h).symm]; exact hf _ _ _
        · simp only [Except.ok.injEq] at h; rw [show ss = _ from (congrArg Prod.fst h).symm]; exact hf _ _ _

/-- **C33** A call of `segmentby` is refused exactly for one of these reasons, with the exception that goes with it. -/
theorem C33_raises (fn : BinFn R B) (ordered : Option (R → Int)) (snapBy : Option Snaps) (data : List R)
    (buf : Option (MainBuf B)) (e : Err) :
    segmentby fn ordered snapBy data buf = .error e ↔ SegReason fn ordered snapBy data buf e := by
  have hu := unordered_iff ordered data
  constructor
  · intro h
    unfold segmentby at h
    split at h
    · rename_i h0; cases h
      cases ordered with
      | none => simp [unordered] at h0
      | some o =>
        refine .notOrdered rfl fun ha => ?_
        rw [hu.2 (by rintro o' h; cases h; exact ha)] at h0; cases h0
    · rename_i h0
      have ho := hu.1 (by simpa using h0)
      split at h
      · rename_i e' hf; cases h; exact .binBy ho hf
      · rename_i r b' hf
        split at h
        · rename_i e' hc; cases h; exact .bins ho hf ((checkBins_error _ _ _ _ _).1 hc)
        · rename_i c hc
          obtain ⟨hc, hr⟩ := (checkBins_iff _ _ _ _ c).1 hc
          simp only at h
          split at h
          · cases h
          · rename_i s
            split at h
            · cases h; exact .noColumn rfl hf hr rfl
            · rename_i o
              split at h
              · rename_i e' hs; cases h
                cases s with
                | grouper g => simp [runSnaps] at hs
                | calendar g => simp [runSnaps] at hs
                | values l e => exact .points rfl (ho o rfl) hf hr hc rfl hs
              · rename_i ss snap hs
                have hsz := runSnaps_counts hs
                have : ∃ x, mergesort (ss.starts, r.starts) (ss.ends, r.ends) r.unknownLast = .ok x := by
                  unfold mergesort
                  rw [if_neg (by simp [hsz]), if_neg (by simp [hr.ends_len])]
                  exact ⟨_, rfl⟩
                obtain ⟨x, hx⟩ := this
                rw [hx] at h; cases h
  · intro h
    unfold segmentby
    cases h with
    | notOrdered ho h =>
      subst ho
      rw [if_pos]
      by_contra hn
      exact h (hu.1 (by simpa using hn) _ rfl)
    | binBy ho hf => rw [hu.2 ho, hf]; rfl
    | bins ho hf hr =>
      rw [hu.2 ho, hf]
      simp only [Bool.false_eq_true, if_false, (checkBins_error _ _ _ _ _).2 hr]
    | noColumn ho hf hr hs =>
      obtain ⟨c, hc⟩ := Option.ne_none_iff_exists'.1 hr.closed
      subst ho hs
      rw [hu.2 (by simp), hf]
      simp only [Bool.false_eq_true, if_false, (checkBins_iff _ _ _ _ c).2 ⟨hc, hr⟩]
    | points ho ha hf hr hc hs hp =>
      subst ho hs
      rw [hu.2 (by rintro o' h; cases h; exact ha), hf]
      simp only [Bool.false_eq_true, if_false, (checkBins_iff _ _ _ _ _).2 ⟨hc, hr⟩, runSnaps, hp]

/-- **C33** In particular, for a binning that does not raise, snapshots of periods on an ordered column never make the call raise: only
the result of the binning can. -/
theorem C33_raises_periods (fn : BinFn R B) (o : R → Int) (g : Grouper) (data : List R) (buf : Option (MainBuf B)) (e : Err)
    (h : segmentby fn (some o) (some (.grouper g)) data buf = .error e) : segmentby fn (some o) none data buf = .error e := by
  rw [C33_raises] at h ⊢
  cases h with
  | notOrdered ho h => exact .notOrdered ho h
  | binBy ho hf => exact .binBy ho hf
  | bins ho hf hr => exact .bins ho hf hr
  | noColumn ho => cases ho
  | points _ _ _ _ _ hs => cases hs

/-- Snapshots without a column; with a point already passed; bins which leave a row. -/
example :
    let fn (r : BinRes) : BinFn Int Unit := fun _ b => .ok (r, b)
    let good : BinRes := ⟨[1, 3], [10, 20], 0, some .left, [2, 9], false⟩
    segmentby (fn good) none (some (.values [2] [2])) [1, 2, 3] none = .error .keyError ∧
    segmentby (fn good) (some id) (some (.values [2] [2])) [1, 2, 3] (some ⟨(), ⟨some 5, none⟩, none⟩) = .error .keyError ∧
    segmentby (fn good) (some id) (some (.values [2] [2])) [1, 2, 3, 4] (some ⟨(), {}, none⟩) = .error .notCovering := by
  intro fn good
  refine ⟨?_, ?_, ?_⟩ <;> rw [C33_raises]
  · exact .noColumn (r := good) (b' := none) rfl rfl ⟨by decide, rfl, rfl, by simp, by simp, by simp⟩ rfl
  · exact .points (r := good) (b' := some ()) (c := .left) rfl (by simp [AscOn]) rfl
      ⟨by decide, rfl, rfl, by decide, by decide, by simp⟩ rfl rfl (by decide)
  · exact .bins (r := good) (b' := some ()) (by rintro o ⟨⟩; simp [AscOn]) rfl (.covers (by decide) rfl rfl rfl (by decide))

end Oups.Segment
