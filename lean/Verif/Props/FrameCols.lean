import Verif.Spec.FrameCols
import Verif.Proofs.WriterMap
import Verif.Props.Writer
/-! Property C86: columns of a dataset are those of its first frame. -/
namespace Oups.FrameCols
open Writer

theorem lookup_zip_isSome (cols : List Col) (row : List Int) (h : row.length = cols.length) {c : Col} (hc : c ∈ cols) :
    (cell cols row c).isSome = true := by
  unfold cell
  induction cols generalizing row with
  | nil => simp at hc
  | cons a cols ih =>
    cases row with
    | nil => simp at h
    | cons x row =>
      simp only [List.zip_cons_cons, List.lookup_cons]
      by_cases hca : c = a
      · simp [hca]
      · have : (c == a) = false := by simpa using hca
        rw [this]
        exact ih row (by simpa using h) (by simpa [hca] using hc)

/-- Value read back from a restricted row. -/
theorem cell_map (cols : List Col) (g : Col → Int) {c : Col} (hc : c ∈ cols) : cell cols (cols.map g) c = some (g c) := by
  unfold cell
  induction cols with
  | nil => simp at hc
  | cons a cols ih =>
    simp only [List.map_cons, List.zip_cons_cons, List.lookup_cons]
    by_cases hca : c = a
    · simp [hca]
    · have : (c == a) = false := by simpa using hca
      rw [this]
      exact ih (by simpa [hca] using hc)

theorem cell_of_not_mem (cols : List Col) (row : List Int) {c : Col} (hc : c ∉ cols) : cell cols row c = none := by
  unfold cell
  induction cols generalizing row with
  | nil => rfl
  | cons a cols ih =>
    cases row with
    | nil => rfl
    | cons x row =>
      have : (c == a) = false := by simpa using fun h : c = a => hc (by simp [h])
      simp only [List.zip_cons_cons, List.lookup_cons, this]
      exact ih row fun h => hc (by simp [h])

/-- A row is made of its values. -/
theorem narrow_cell (cols : List Col) (hn : cols.Nodup) (row : List Int) (h : row.length = cols.length) :
    narrow cols (cell cols row) = row := by
  unfold narrow
  induction cols generalizing row with
  | nil => cases row with
    | nil => rfl
    | cons _ _ => simp at h
  | cons a cols ih =>
    cases row with
    | nil => simp at h
    | cons x row =>
      have hn' := List.nodup_cons.1 hn
      have htail : (cols.map fun c => (cell (a :: cols) (x :: row) c).getD 0) = cols.map fun c => (cell cols row c).getD 0 := by
        refine List.map_congr_left fun c hc => ?_
        have : (c == a) = false := by simpa using fun h : c = a => hn'.1 (h ▸ hc)
        simp only [cell, List.zip_cons_cons, List.lookup_cons, this]
      rw [List.map_cons, htail, ih hn'.2 row (by simpa using h)]
      simp [cell]

/-- Rows with a value in all the columns. -/
abbrev Full (cols : List Col) : Type := { w : Wide // ∀ c ∈ cols, (w c).isSome = true }

def lift (cols : List Col) (w : Wide) : Full cols :=
  if h : ∀ c ∈ cols, (w c).isSome = true then ⟨w, h⟩ else ⟨fun _ => some 0, fun _ _ => rfl⟩

theorem lift_val {cols : List Col} {w : Wide} (h : ∀ c ∈ cols, (w c).isSome = true) : (lift cols w).1 = w := by
  unfold lift; rw [dif_pos h]

def fullTable (cols all : List Col) : Table (Full cols) := ⟨all, fun c w => code (w.1 c)⟩

theorem sees_val (cols all : List Col) (p : Params) :
    Sees (fullTable cols all) (wideTable all) Subtype.val id p :=
  ⟨strictMono_id, rfl, fun _ _ => ⟨Iff.rfl, fun _ _ => rfl⟩, fun _ _ _ _ => ⟨rfl, fun _ _ => ⟨Iff.rfl, fun _ _ => rfl⟩⟩⟩

theorem mem_concat {a b : List Col} {c : Col} : c ∈ concatCols a b ↔ c ∈ a ∨ c ∈ b := by
  simp only [concatCols, List.mem_append, List.mem_filter, decide_eq_true_eq]
  tauto

theorem sees_narrow {cols new : List Col} {p : Params}
    (hc : ∀ c ∈ compared p, c ∈ new → c ∈ cols)
    (hall : p.dupOn = some (.many []) → ∀ c ∈ new, c ∈ cols) :
    Sees (fullTable cols (concatCols cols new)) (rowTable cols) (fun w => narrow cols w.1) (fun v => 2 * v) p := by
  have hmem : ∀ c ∈ compared p, (c ∈ concatCols cols new ↔ c ∈ cols) := fun c h => by
    rw [mem_concat]; exact ⟨fun x => x.elim id (hc c h), Or.inl⟩
  have hget : ∀ c ∈ cols, ∀ w : Full cols, code (w.1 c) = 2 * (rowTable cols).get c (narrow cols w.1) := by
    intro c h w
    show _ = 2 * (cell cols (narrow cols w.1) c).getD 0
    rw [narrow, cell_map cols _ h]
    have := w.2 c h
    cases hw : w.1 c with
    | none => rw [hw] at this; simp at this
    | some v => rfl
  refine ⟨fun a b h => by show 2 * a < 2 * b; omega, rfl, ?_, ?_⟩
  · intro c ho
    have h := hmem c (by simp [compared, ho])
    exact ⟨h, fun hin => hget c (h.1 hin)⟩
  · intro c d ho hd
    have hon : c ∈ compared p := by simp [compared, ho]
    have hkey : dupCols cols c d = dupCols (concatCols cols new) c d := by
      cases d with
      | one x => rfl
      | many l =>
        cases l with
        | nil =>
          have : new.filter (fun c => decide (c ∉ cols)) = [] :=
            List.filter_eq_nil_iff.2 fun x hx => by simpa using hall hd x hx
          show cols = concatCols cols new
          rw [concatCols, this, List.append_nil]
        | cons _ _ => rfl
    refine ⟨hkey, fun x hx => ?_⟩
    have hxi : x ∈ concatCols cols new ↔ x ∈ cols := by
      cases d with
      | one y =>
        refine hmem x ?_
        simp only [dupCols] at hx
        have : x = y ∨ x = c := by split at hx <;> simp at hx <;> tauto
        rcases this with rfl | rfl
        · simp [compared, hd]
        · exact hon
      | many l =>
        cases l with
        | nil => exact mem_concat.trans ⟨fun h => h.elim id (hall hd x), Or.inl⟩
        | cons y l =>
          refine hmem x ?_
          simp only [dupCols] at hx
          have : x ∈ y :: l ∨ x = c := by
            split at hx
            · exact Or.inl hx
            · rcases List.mem_append.1 hx with h | h
              · exact Or.inl h
              · exact Or.inr (by simpa using h)
          rcases this with h | rfl
          · simp only [compared, hd, List.mem_append]; exact Or.inr h
          · exact hon
    exact ⟨hxi, fun hin => hget x (hxi.1 hin)⟩

/-- Rows of the dataset as rows of the concatenation, and back. -/
theorem full_rgs {d : Data} (h : d.Ok) :
    d.rgs.map (mapRG (cell d.cols)) = (d.rgs.map (mapRG fun r => lift d.cols (cell d.cols r))).map (mapRG Subtype.val) ∧
    d.rgs = (d.rgs.map (mapRG fun r => lift d.cols (cell d.cols r))).map (mapRG fun w => narrow d.cols w.1) := by
  have hl : ∀ g ∈ d.rgs, ∀ r ∈ g.rows, (lift d.cols (cell d.cols r)).1 = cell d.cols r := fun g hg r hr =>
    lift_val fun c hc => lookup_zip_isSome _ _ ((h.2 g hg).2 r hr) hc
  constructor
  · rw [List.map_map]
    refine List.map_congr_left fun g hg => ?_
    simp only [Function.comp, mapRG, List.map_map, RG.mk.injEq, true_and]
    exact List.map_congr_left fun r hr => (hl g hg r hr).symm
  · rw [List.map_map]
    refine (List.map_id _).symm.trans (List.map_congr_left fun g hg => ?_)
    simp only [Function.comp, mapRG, List.map_map]
    cases g with
    | mk i rows =>
      simp only [id, RG.mk.injEq, true_and]
      refine (List.map_id _).symm.trans (List.map_congr_left fun r hr => ?_)
      show r = narrow d.cols (lift d.cols (cell d.cols r)).1
      rw [hl _ hg r hr, narrow_cell _ h.1 r ((h.2 _ hg).2 r hr)]

theorem full_rows {cols : List Col} {f : Frame} (h : f.Ok) (hsub : ∀ c ∈ cols, c ∈ f.cols) :
    f.rows.map (cell f.cols) = (f.rows.map fun r => lift cols (cell f.cols r)).map Subtype.val ∧
    f.restrict cols = (f.rows.map fun r => lift cols (cell f.cols r)).map fun w => narrow cols w.1 := by
  have hl : ∀ r ∈ f.rows, (lift cols (cell f.cols r)).1 = cell f.cols r := fun r hr =>
    lift_val fun c hc => lookup_zip_isSome _ _ (h.2 r hr) (hsub c hc)
  constructor
  · rw [List.map_map]
    exact List.map_congr_left fun r hr => (hl r hr).symm
  · rw [List.map_map]
    refine List.map_congr_left fun r hr => ?_
    show _ = narrow cols (lift cols (cell f.cols r)).1
    rw [hl r hr]
    rfl

/-- Exceptions of `write`. -/
def lifted (d : Data) : Except Writer.Err (List (RG (List Int))) → Except Err Data
  | .error e => .error (.write e)
  | .ok rgs => .ok { d with rgs := rgs }

/-- **C86** A frame having the columns of the dataset, in any order, and others that `write` is not told to compare,
is written as its restriction to the columns of the dataset: the other columns are dropped silently. -/
theorem C86_others_dropped {p : Params} {d : Data} {f : Frame} (hd : d.Ok) (hf : f.Ok) (h0 : d.rgs ≠ [])
    (hsub : ∀ c ∈ d.cols, c ∈ f.cols)
    (hc : ∀ c ∈ compared p, c ∈ f.cols → c ∈ d.cols)
    (hall : p.dupOn = some (.many []) → ∀ c ∈ f.cols, c ∈ d.cols) :
    writeFrame p d f = lifted d (Writer.write (rowTable d.cols) p d.rgs (f.restrict d.cols)) := by
  obtain ⟨h1, h2⟩ := full_rgs hd
  obtain ⟨h3, h4⟩ := full_rows (cols := d.cols) hf hsub
  have hmem : ∀ c ∈ compared p, (c ∈ f.cols ↔ c ∈ d.cols) := fun c h => ⟨hc c h, hsub c⟩
  have w1 := write_map (sees_val d.cols (concatCols d.cols f.cols) p)
    (d.rgs.map (mapRG fun r => lift d.cols (cell d.cols r))) (f.rows.map fun r => lift d.cols (cell f.cols r))
  have w2 := write_map (sees_narrow hc hall)
    (d.rgs.map (mapRG fun r => lift d.cols (cell d.cols r))) (f.rows.map fun r => lift d.cols (cell f.cols r))
  rw [← h1, ← h3] at w1
  rw [← h2, ← h4] at w2
  have hemp : d.rgs.isEmpty = false := by simpa using h0
  have hin : d.cols.all (fun c => decide (c ∈ f.cols)) = true := by simpa using hsub
  have hch : checkOrderedOn (wideTable f.cols) p.orderedOn = checkOrderedOn (rowTable d.cols) p.orderedOn := by
    cases ho : p.orderedOn with
    | none => rfl
    | some o =>
      cases o with
      | tuple => rfl
      | col c =>
        have := hmem c (by simp [compared, ho])
        show (if c ∈ f.cols then _ else _) = (if c ∈ d.cols then _ else _)
        by_cases hin : c ∈ d.cols
        · rw [if_pos hin, if_pos (this.2 hin)]
        · rw [if_neg hin, if_neg fun h => hin (this.1 h)]
  have hch2 : ∀ o, checkOrderedOn (rowTable d.cols) p.orderedOn = .ok o →
      o.any (fun c => decide (c ∉ d.cols)) = false := by
    intro o h
    cases ho : p.orderedOn with
    | none => rw [ho] at h; cases h; rfl
    | some q =>
      cases q with
      | tuple => rw [ho] at h; simp [checkOrderedOn] at h
      | col c =>
        rw [ho] at h
        simp only [checkOrderedOn] at h
        split at h <;> cases h
        rename_i hin
        have hin : c ∈ d.cols := hin
        simpa using hin
  unfold writeFrame
  rw [hch]
  cases hco : checkOrderedOn (rowTable d.cols) p.orderedOn with
  | error e =>
    have : Writer.write (rowTable d.cols) p d.rgs (f.restrict d.cols) = .error e := by
      unfold Writer.write; rw [hco]; rfl
    rw [this]
    rfl
  | ok o =>
    simp only [hemp, hch2 o hco, hin, Bool.false_eq_true, if_false, if_true]
    rw [w2, w1]
    cases Writer.write (fullTable d.cols (concatCols d.cols f.cols)) p
      (d.rgs.map (mapRG fun r => lift d.cols (cell d.cols r))) (f.rows.map fun r => lift d.cols (cell f.cols r)) with
    | error e => rfl
    | ok rgs =>
      show Except.ok _ = Except.ok _
      simp [mapRG, Function.comp_def]

theorem narrow_ok (cols : List Col) {rgs : List (RG Wide)} (h : ∀ g ∈ rgs, g.rows ≠ []) :
    ∀ g ∈ rgs.map (mapRG (narrow cols)), g.rows ≠ [] ∧ ∀ r ∈ g.rows, r.length = cols.length := by
  intro g hg
  obtain ⟨g', hg', rfl⟩ := List.mem_map.1 hg
  refine ⟨by simpa [mapRG] using h g' hg', fun r hr => ?_⟩
  obtain ⟨w, _, rfl⟩ := List.mem_map.1 hr
  simp [narrow]

/-- A dataset that has rows keeps some. -/
theorem write_keeps {R : Type} {T : Table R} {p : Params} {rgs rgs' : List (RG R)} {data : List R}
    (h0 : readRows rgs ≠ []) (h : Writer.write T p rgs data = .ok rgs') : rgs' ≠ [] := by
  obtain ⟨x, hx⟩ := List.exists_mem_of_ne_nil _ h0
  have : ∃ y, y ∈ readRows rgs' := by
    cases hd : p.dupOn with
    | none => exact ⟨x, (C16_perm hd h).mem_iff.2 (by simp [hx])⟩
    | some d =>
      obtain ⟨on, hon, ⟨rfl, _⟩ | ⟨_, hnone, _⟩⟩ := write_cases h
      · exact absurd rfl h0
      · cases hp : p.orderedOn with
        | none =>
          rw [hp] at hon
          cases hon
          rw [hnone rfl] at hd
          cases hd
        | some o =>
          cases o with
          | tuple => rw [hp] at hon; simp [checkOrderedOn] at hon
          | col c =>
            obtain ⟨y, hy, _⟩ := C17_identifier_kept hp hd h (Or.inl hx)
            exact ⟨y, hy⟩
  rintro rfl
  simp [readRows] at this

/-- **C86** The first frame gives the dataset its columns, and its rows. -/
theorem C86_first {p : Params} {d d' : Data} {f : Frame} (hf : f.Ok) (h0 : d.rgs = []) (h : writeFrame p d f = .ok d') :
    d'.cols = f.cols ∧ readRows d'.rgs = f.rows ∧ d'.Ok := by
  unfold writeFrame at h
  cases hco : checkOrderedOn (wideTable f.cols) p.orderedOn with
  | error e => rw [hco] at h; simp at h
  | ok o =>
    rw [hco] at h
    simp only [h0, List.isEmpty_nil, if_true] at h
    cases hw : Writer.write (wideTable f.cols) p [] (f.rows.map (cell f.cols)) with
    | error e => rw [hw] at h; simp at h
    | ok rgs =>
      rw [hw] at h
      simp only [Except.ok.injEq] at h
      subst h
      have hrows : readRows rgs = f.rows.map (cell f.cols) := by
        obtain ⟨_, _, ⟨_, chunks, hit, rfl⟩ | ⟨hne, _⟩⟩ := write_cases hw
        · rw [readRows_numberFrom, iter_plain_flatten hit]
        · exact absurd rfl hne
      have hback : (readRows rgs).map (narrow f.cols) = f.rows := by
        rw [hrows, List.map_map]
        refine (List.map_congr_left fun r hr => ?_).trans (List.map_id _)
        exact narrow_cell _ hf.1 r (hf.2 r hr)
      refine ⟨rfl, ?_, hf.1, ?_⟩
      · rw [readRows_map, hback]
      · exact narrow_ok f.cols (write_nonempty (by simp) hw)

/-- Writes of frames on a dataset keep its columns. -/
theorem writeFrame_cols {p : Params} {d d' : Data} {f : Frame} (hd : d.Ok) (hf : f.Ok) (h0 : d.rgs ≠ [])
    (h : writeFrame p d f = .ok d') : d'.cols = d.cols ∧ d'.rgs ≠ [] ∧ d'.Ok := by
  have hemp : d.rgs.isEmpty = false := by simpa using h0
  unfold writeFrame at h
  cases hco : checkOrderedOn (wideTable f.cols) p.orderedOn with
  | error e => rw [hco] at h; simp at h
  | ok o =>
    rw [hco] at h
    simp only [hemp, Bool.false_eq_true, if_false] at h
    split at h
    · simp at h
    · cases hw : Writer.write (wideTable (concatCols d.cols f.cols)) p (d.rgs.map (mapRG (cell d.cols)))
        (f.rows.map (cell f.cols)) with
      | error e => rw [hw] at h; simp at h
      | ok rgs =>
        rw [hw] at h
        have hne : ∀ g ∈ d.rgs.map (mapRG (cell d.cols)), g.rows ≠ [] := by
          intro g hg
          obtain ⟨g', hg', rfl⟩ := List.mem_map.1 hg
          simpa [mapRG] using (hd.2 g' hg').1
        have h1 : readRows (d.rgs.map (mapRG (cell d.cols))) ≠ [] := by
          rw [readRows_map]
          cases hr : d.rgs with
          | nil => exact absurd hr h0
          | cons g l =>
            have := (hd.2 g (by simp [hr])).1
            simp [readRows, this]
        simp only at h
        split at h
        · simp only [Except.ok.injEq] at h
          subst h
          exact ⟨rfl, by simpa using write_keeps h1 hw, hd.1, narrow_ok d.cols (write_nonempty hne hw)⟩
        · split at h
          · simp at h
          · split at h
            · simp only [Except.ok.injEq] at h
              subst h
              exact ⟨rfl, h0, hd⟩
            · simp at h

/-- **C86** No later write changes the columns of a dataset, whatever the columns of the frames. -/
theorem C86_columns {d : Data} (hd : d.Ok) (h0 : d.rgs ≠ []) {l : List (Params × Frame)} (hl : ∀ x ∈ l, x.2.Ok) :
    (writeAll d l).cols = d.cols ∧ (writeAll d l).Ok := by
  induction l generalizing d with
  | nil => exact ⟨rfl, hd⟩
  | cons x l ih =>
    obtain ⟨p, f⟩ := x
    unfold writeAll
    cases hw : writeFrame p d f with
    | error e => exact ih hd h0 fun y hy => hl y (by simp [hy])
    | ok d' =>
      obtain ⟨h1, h2, h3⟩ := writeFrame_cols hd (hl (p, f) (by simp)) h0 hw
      rw [← h1]
      exact ih h3 h2 fun y hy => hl y (by simp [hy])

/-- **C86** A frame lacking a column of the dataset cannot be appended: `KeyError`. -/
theorem C86_missing {p : Params} {d : Data} {f : Frame} {c : Col} (h0 : d.rgs ≠ []) (hr : f.rows ≠ [])
    (hc : c ∈ d.cols) (hcf : c ∉ f.cols) (ho : p.orderedOn = none) (hd : p.dupOn = none) (hn : p.maxNirgs = none)
    (hm : p.maxRg ≠ some 0) : writeFrame p d f = .error .missing := by
  have hemp : d.rgs.isEmpty = false := by simpa using h0
  have hin : d.cols.all (fun c => decide (c ∈ f.cols)) = false := by
    rw [List.all_eq_false]
    exact ⟨c, hc, by simpa using hcf⟩
  obtain ⟨rgs, hw⟩ := C14_append_succeeds (T := wideTable (concatCols d.cols f.cols)) (rgs := d.rgs.map (mapRG (cell d.cols)))
    (data := f.rows.map (cell f.cols)) ho hd hn hm
  unfold writeFrame
  simp only [ho, checkOrderedOn, hemp, Option.any_none, Bool.false_eq_true, if_false, hw, hin, appends, overlapWindow, hn]
  simp [hr]

/-- **C86** Same with `max_nirgs`, when incomplete row groups at the end are too few to be merged and do not make a complete one with the frame. -/
theorem C86_missing_max_nirgs {p : Params} {d : Data} {f : Frame} {c : Col} {k m : Nat} (h0 : d.rgs ≠ []) (hr : f.rows ≠ [])
    (hc : c ∈ d.cols) (hcf : c ∉ f.cols) (ho : p.orderedOn = none) (hd : p.dupOn = none) (hn : p.maxNirgs = some k)
    (hm : p.maxRg = some m)
    (hk : (d.rgs.reverse.takeWhile fun g => g.rows.length ≤ m * 9 / 10).length < k)
    (ht : f.rows.length + ((d.rgs.reverse.takeWhile fun g => g.rows.length ≤ m * 9 / 10).map fun g => g.rows.length).sum < m) :
    writeFrame p d f = .error .missing := by
  have hemp : d.rgs.isEmpty = false := by simpa using h0
  have hin : d.cols.all (fun c => decide (c ∈ f.cols)) = false := by
    rw [List.all_eq_false]
    exact ⟨c, hc, by simpa using hcf⟩
  have htr : trailing (m * 9 / 10) (d.rgs.map (mapRG (cell d.cols))) =
      (d.rgs.reverse.takeWhile fun g => g.rows.length ≤ m * 9 / 10).map (mapRG (cell d.cols)) := by
    unfold trailing
    rw [← List.map_reverse, List.takeWhile_map]
    congr 2
    funext g
    simp [mapRG]
  have hle : (d.rgs.reverse.takeWhile fun g => g.rows.length ≤ m * 9 / 10).length ≤ d.rgs.length := by
    have := (List.takeWhile_prefix (fun g : RG (List Int) => decide (g.rows.length ≤ m * 9 / 10)) (l := d.rgs.reverse)).length_le
    simpa using this
  have hco : coalesce m k (d.rgs.map (mapRG (cell d.cols))) (f.rows.map (cell f.cols)).length none none = none := by
    unfold coalesce
    simp only [htr, List.length_map, List.map_map]
    have hs : (((d.rgs.reverse.takeWhile fun g => g.rows.length ≤ m * 9 / 10).map
        ((fun g => g.rows.length) ∘ mapRG (cell d.cols))).sum) =
        ((d.rgs.reverse.takeWhile fun g => g.rows.length ≤ m * 9 / 10).map fun g => g.rows.length).sum := by
      congr 1
      refine List.map_congr_left fun g _ => ?_
      simp [mapRG]
    rw [hs]
    rw [if_neg]
    simp only [Bool.or_eq_true, decide_eq_true_eq, not_or, ge_iff_le, not_le]
    omega
  have hm0 : p.maxRg ≠ some 0 := by
    rw [hm]
    rintro h
    injection h with h
    omega
  have hw : ∃ rgs, Writer.write (wideTable (concatCols d.cols f.cols)) p (d.rgs.map (mapRG (cell d.cols)))
      (f.rows.map (cell f.cols)) = .ok rgs := by
    have hemp' : (d.rgs.map (mapRG (cell d.cols))).isEmpty = false := by simpa using h0
    simp only [Writer.write, ho, checkOrderedOn, bind, Except.bind, hd, hn, hm, overlapWindow, pure, Except.pure, hemp',
      Option.isSome_none, Bool.false_and, Bool.false_eq_true, if_false, hco]
    rw [← hm, iter_plain hm0]
    exact ⟨_, rfl⟩
  obtain ⟨rgs, hw⟩ := hw
  unfold writeFrame
  simp only [ho, checkOrderedOn, hemp, Option.any_none, Bool.false_eq_true, if_false, hw, hin, appends, overlapWindow, hn, hm, hco]
  simp [hr]

/-- **C86** Same with `ordered_on`, when the frame lies after the recorded rows. -/
theorem C86_missing_after {p : Params} {d : Data} {f : Frame} {c on : Col} {a : List Int} (hd : d.Ok) (hf : f.Ok) (h0 : d.rgs ≠ [])
    (hc : c ∈ d.cols) (hcf : c ∉ f.cols) (ho : p.orderedOn = some (.col on)) (hon : on ∈ d.cols) (honf : on ∈ f.cols)
    (hn : p.maxNirgs = none) (hm : p.maxRg ≠ some 0) (ha : f.rows.head? = some a)
    (hlt : ∀ r ∈ readRows d.rgs, (cell d.cols r on).getD 0 < (cell f.cols a on).getD 0) :
    writeFrame p d f = .error .missing := by
  have hemp : d.rgs.isEmpty = false := by simpa using h0
  have hin : d.cols.all (fun c => decide (c ∈ f.cols)) = false := by
    rw [List.all_eq_false]
    exact ⟨c, hc, by simpa using hcf⟩
  have hr : f.rows ≠ [] := by rintro e; simp [e] at ha
  have hmem : ∀ cols, on ∈ cols → checkOrderedOn (wideTable cols) p.orderedOn = .ok (some on) := by
    intro cols h
    rw [ho]
    exact if_pos h
  have hwin : overlapWindow (wideTable (concatCols d.cols f.cols)) (d.rgs.map (mapRG (cell d.cols)))
      (f.rows.map (cell f.cols)) (some on) = .ok (none, none) := by
    obtain ⟨b, hb⟩ : ∃ b, f.rows.getLast? = some b := by
      cases h : f.rows.getLast? with
      | none => exact absurd (List.getLast?_eq_none_iff.1 h) hr
      | some b => exact ⟨b, rfl⟩
    unfold overlapWindow
    rw [List.head?_map, List.getLast?_map, ha, hb]
    show Except.ok (windowOf _ (filterRowGroups _ _ _ _ _)) = _
    have : filterRowGroups (wideTable (concatCols d.cols f.cols)) on (code (cell f.cols a on)) (code (cell f.cols b on))
        (d.rgs.map (mapRG (cell d.cols))) = [] := by
      unfold filterRowGroups
      rw [List.map_eq_nil_iff, List.filter_eq_nil_iff]
      rintro ⟨g, i⟩ hg hov
      have hg := List.fst_mem_of_mem_zipIdx hg
      obtain ⟨g', hg', rfl⟩ := List.mem_map.1 hg
      have hne : (mapRG (cell d.cols) g').rows ≠ [] := by simpa [mapRG] using (hd.2 g' hg').1
      obtain ⟨⟨x, hx, hle⟩, _⟩ := (overlaps_iff hne).1 hov
      obtain ⟨r, hrr, rfl⟩ := List.mem_map.1 hx
      have hlt' := hlt r (List.mem_flatten.2 ⟨g'.rows, List.mem_map.2 ⟨g', hg', rfl⟩, hrr⟩)
      have h1 := lookup_zip_isSome d.cols r ((hd.2 g' hg').2 r hrr) hon
      have h2 := lookup_zip_isSome f.cols a (hf.2 a (List.mem_of_head? ha)) honf
      have hle : code (cell f.cols a on) ≤ code (cell d.cols r on) := hle
      obtain ⟨v, hv⟩ := Option.isSome_iff_exists.1 h1
      obtain ⟨u, hu⟩ := Option.isSome_iff_exists.1 h2
      rw [hv, hu] at hle hlt'
      simp only [code, Option.getD_some] at hle hlt'
      omega
    show Except.ok (windowOf _ (filterRowGroups (wideTable (concatCols d.cols f.cols)) on (code (cell f.cols a on))
      (code (cell f.cols b on)) (d.rgs.map (mapRG (cell d.cols))))) = _
    rw [this]
    rfl
  have hcc : on ∈ concatCols d.cols f.cols := mem_concat.2 (Or.inl hon)
  obtain ⟨rgs, hw⟩ : ∃ rgs, Writer.write (wideTable (concatCols d.cols f.cols)) p (d.rgs.map (mapRG (cell d.cols)))
      (f.rows.map (cell f.cols)) = .ok rgs := by
    unfold Writer.write
    rw [hmem _ hcc]
    simp only [bind, Except.bind, List.isEmpty_map, hemp, Bool.false_eq_true, if_false, Option.isNone_some, Bool.and_false,
      hwin, hn, pure, Except.pure, iter_plain hm]
    exact ⟨_, rfl⟩
  unfold writeFrame
  rw [hmem _ honf]
  simp only [hemp, Bool.false_eq_true, if_false, hw, hin, appends, hmem _ hcc, hwin, hn]
  simp [hr, hon]

theorem slices_sublist {α : Type} (l : List α) (s : List Nat) : ∀ c ∈ slices l s, c.Sublist l := by
  induction s with
  | nil => simp [slices]
  | cons a s ih =>
    cases s with
    | nil =>
      intro c hc
      have : c = l.drop a := by simpa [slices] using hc
      rw [this]
      exact List.drop_sublist _ _
    | cons b s =>
      intro c hc
      rcases List.mem_cons.1 hc with rfl | hc
      · exact (List.take_sublist _ _).trans (List.drop_sublist _ _)
      · exact ih c hc

theorem iter_distinct {R : Type} {T : Table R} {l : List R} {m : Option Nat} {on : Col} {d : DupOn}
    (hc : ∀ c ∈ dupCols T.cols on d, c ∈ T.cols) (hn : (l.map (T.key (dupCols T.cols on d))).Nodup) :
    iterDataframe T l true m (some on) (some d) = iterDataframe T l true m (some on) none := by
  have ha : (dupCols T.cols on d).all (fun c => decide (c ∈ T.cols)) = true := by simpa using hc
  have hs : ∀ s, (slices l s).map (dropDupLast (T.key (dupCols T.cols on d))) = slices l s := fun s =>
    (List.map_congr_left fun c h => dropDupLast_of_nodup _ c
      (hn.sublist ((slices_sublist l s c h).map _))).trans (List.map_id _)
  by_cases hz : m.getD defaultMaxRg = 0 <;> by_cases hl : l.length = 0 <;> cases d <;>
    simp only [iterDataframe, ha, hs, if_true] <;>
    simp only [hz, hl, ite_true, ite_false, decide_true, decide_false, ne_eq, not_true, not_false_eq_true] <;> rfl

theorem flatten_sublist {α : Type} {a b : List (List α)} (h : a.Sublist b) : a.flatten.Sublist b.flatten := by
  induction h with
  | slnil => exact List.Sublist.refl _
  | cons x _ ih => exact ih.trans (List.sublist_append_right _ _)
  | cons_cons x _ ih => exact (List.Sublist.refl _).append ih

/-- **C17** If no two rows, recorded or new, have the same identifier, `duplicates_on` changes nothing. -/
theorem C17_distinct {R : Type} {T : Table R} {p : Params} {rgs : List (RG R)} {data : List R} {on : Col} {d : DupOn}
    (hp : p.orderedOn = some (.col on)) (hd : p.dupOn = some d) (hc : ∀ c ∈ dupCols T.cols on d, c ∈ T.cols)
    (hn : ((readRows rgs ++ data).map (T.key (dupCols T.cols on d))).Nodup) :
    Writer.write T p rgs data = Writer.write T { p with dupOn := none } rgs data := by
  have hup : ∀ a b, writeUpdate T p rgs data (some on) a b = writeUpdate T { p with dupOn := none } rgs data (some on) a b := by
    intro a b
    rw [writeUpdate_cases, writeUpdate_cases, hd]
    split
    · rfl
    · rw [iter_distinct hc]
      show ((stableSort (T.get on) _).map _).Nodup
      refine (((stableSort_perm _ _).map _).nodup_iff).2 (hn.sublist (List.Sublist.map _ ?_))
      refine List.Sublist.append ?_ (List.Sublist.refl _)
      exact flatten_sublist (((List.drop_sublist _ _).trans (List.take_sublist _ _)).map _)
  unfold Writer.write
  rw [hp]
  by_cases hin : on ∈ T.cols
  · have : checkOrderedOn T (some (OrdOn.col on)) = .ok (some on) := if_pos hin
    simp only [this, bind, Except.bind, Option.isNone_some, Bool.and_false, hup, hp]
  · have : checkOrderedOn T (some (OrdOn.col on)) = .error .valueError := if_neg hin
    simp only [this, bind, Except.bind]

/-- Rows of two columns, identified by both. -/
example : Writer.write exT { orderedOn := some (.col 0), dupOn := some (.many [1]) } (exRgs [[1, 2], [4]]) (exRows [2, 3]) =
    .ok [⟨0, [(1, 0), (2, 0), (2, 1), (3, 1), (4, 0)]⟩] := by
  decide +kernel

example : ((readRows (exRgs [[1, 2], [4]]) ++ exRows [2, 3]).map (exT.key (dupCols exT.cols 0 (.many [1])))).Nodup := by
  decide

theorem code_injective : Function.Injective code := by
  intro a b h
  cases a <;> cases b <;> simp only [code] at h <;> first | rfl | (exfalso; omega) | (congr 1; omega)

theorem cell_ext {cols : List Col} (hn : cols.Nodup) {a b : List Int} (ha : a.length = cols.length) (hb : b.length = cols.length)
    (h : ∀ c ∈ cols, cell cols a c = cell cols b c) : a = b := by
  rw [← narrow_cell cols hn a ha, ← narrow_cell cols hn b hb]
  exact List.map_congr_left fun c hc => by rw [h c hc]

/-- **C86** With `duplicates_on=[]` (all columns) and a frame that has an additional column, no recorded row is seen as a duplicate
of a new one: all are kept, even if equal in all columns of the dataset. -/
theorem C86_all_columns {p : Params} {d d' : Data} {f : Frame} {on c : Col} (hd : d.Ok) (hf : f.Ok) (h0 : d.rgs ≠ [])
    (hsub : ∀ c ∈ d.cols, c ∈ f.cols) (hc : c ∈ f.cols) (hcd : c ∉ d.cols)
    (hp : p.orderedOn = some (.col on)) (hdup : p.dupOn = some (.many []))
    (hn1 : (readRows d.rgs).Nodup) (hn2 : f.rows.Nodup) (h : writeFrame p d f = .ok d') :
    (readRows d'.rgs).Perm (readRows d.rgs ++ f.restrict d.cols) := by
  have hemp : d.rgs.isEmpty = false := by simpa using h0
  have hin : d.cols.all (fun c => decide (c ∈ f.cols)) = true := by simpa using hsub
  have hok : ∀ r ∈ readRows d.rgs, r.length = d.cols.length := by
    intro r hr
    obtain ⟨l, hl, hrl⟩ := List.mem_flatten.1 hr
    obtain ⟨g, hg, rfl⟩ := List.mem_map.1 hl
    exact (hd.2 g hg).2 r hrl
  have hback : (readRows d.rgs).map (fun r => narrow d.cols (cell d.cols r)) = readRows d.rgs :=
    (List.map_congr_left fun r hr => narrow_cell _ hd.1 r (hok r hr)).trans (List.map_id _)
  unfold writeFrame at h
  cases hco : checkOrderedOn (wideTable f.cols) p.orderedOn with
  | error e => rw [hco] at h; simp at h
  | ok o =>
    rw [hco] at h
    simp only [hemp, hin, Bool.false_eq_true, if_false, if_true] at h
    split at h
    · simp at h
    · have hkey : ((readRows (d.rgs.map (mapRG (cell d.cols))) ++ f.rows.map (cell f.cols)).map
          ((wideTable (concatCols d.cols f.cols)).key (dupCols (concatCols d.cols f.cols) on (.many [])))).Nodup := by
        have hk : ∀ w w' : Wide, (wideTable (concatCols d.cols f.cols)).key (concatCols d.cols f.cols) w =
            (wideTable (concatCols d.cols f.cols)).key (concatCols d.cols f.cols) w' →
            ∀ x ∈ concatCols d.cols f.cols, w x = w' x := by
          intro w w' e x hx
          exact code_injective (List.map_inj_left.1 e x hx)
        rw [readRows_map, List.map_append, List.map_map, List.map_map, List.nodup_append]
        refine ⟨?_, ?_, ?_⟩
        · refine List.Nodup.map_on ?_ hn1
          intro a ha b hb e
          exact cell_ext hd.1 (hok a ha) (hok b hb) fun x hx => hk _ _ e x (mem_concat.2 (Or.inl hx))
        · refine List.Nodup.map_on ?_ hn2
          intro a ha b hb e
          exact cell_ext hf.1 (hf.2 a ha) (hf.2 b hb) fun x hx => hk _ _ e x (mem_concat.2 (Or.inr hx))
        · intro u hu v hv e
          obtain ⟨a, ha, rfl⟩ := List.mem_map.1 hu
          obtain ⟨b, hb, rfl⟩ := List.mem_map.1 hv
          have := hk _ _ e c (mem_concat.2 (Or.inr hc))
          rw [cell_of_not_mem _ _ hcd] at this
          have hs := lookup_zip_isSome f.cols b (hf.2 b hb) hc
          rw [← this] at hs
          simp at hs
      have hwr := C17_distinct (T := wideTable (concatCols d.cols f.cols)) hp hdup (fun c h => h) hkey
      rw [hwr] at h
      cases hw : Writer.write (wideTable (concatCols d.cols f.cols)) { p with dupOn := none } (d.rgs.map (mapRG (cell d.cols)))
        (f.rows.map (cell f.cols)) with
      | error e => rw [hw] at h; simp at h
      | ok rgs =>
        rw [hw] at h
        simp only [Except.ok.injEq] at h
        subst h
        have := (C16_perm rfl hw).map (narrow d.cols)
        rw [List.map_append, readRows_map, List.map_map, List.map_map] at this
        rw [readRows_map]
        refine this.trans (List.Perm.of_eq ?_)
        have h1 : (readRows d.rgs).map (narrow d.cols ∘ cell d.cols) = readRows d.rgs := hback
        rw [h1]
        rfl

/-! Columns 0 (ordering), 1, recorded; 2 is not. -/

def exData : Data := ⟨[0, 1], [⟨0, [[1, 10], [2, 20]]⟩, ⟨1, [[5, 50]]⟩]⟩

/-- Columns in another order, with another one: the row of 5 is replaced, column 2 is not written. -/
example : writeFrame { orderedOn := some (.col 0), dupOn := some (.one 0) } exData ⟨[2, 1, 0], [[7, 51, 5], [8, 60, 6]]⟩ =
    .ok ⟨[0, 1], [⟨0, [[1, 10], [2, 20]]⟩, ⟨1, [[5, 51], [6, 60]]⟩]⟩ := by decide +kernel

example : exData.Ok ∧ (⟨[2, 1, 0], [[7, 51, 5], [8, 60, 6]]⟩ : Frame).Ok ∧
    (∀ c ∈ exData.cols, c ∈ [2, 1, 0]) ∧
    (∀ c ∈ compared { orderedOn := some (.col 0), dupOn := some (.one 0) }, c ∈ [2, 1, 0] → c ∈ exData.cols) ∧
    (⟨[2, 1, 0], [[7, 51, 5], [8, 60, 6]]⟩ : Frame).restrict exData.cols = [[5, 51], [6, 60]] := by
  refine ⟨⟨by decide, by decide⟩, ⟨by decide, by decide⟩, by decide, by decide, by decide⟩

/-- Without column 1, an append is refused. -/
example : writeFrame {} exData ⟨[0], [[6]]⟩ = .error .missing := by decide +kernel
example : writeFrame { orderedOn := some (.col 0) } exData ⟨[0, 2], [[6, 1]]⟩ = .error .missing := by decide +kernel
example : writeFrame { maxRg := some 5, maxNirgs := some 3 } exData ⟨[0], [[6]]⟩ = .error .missing ∧
    (exData.rgs.reverse.takeWhile fun g => g.rows.length ≤ 5 * 9 / 10).length < 3 := by decide +kernel

/-- The first frame sets the columns. -/
example : writeAll {} [({}, ⟨[1, 0], [[10, 1]]⟩), ({}, ⟨[0, 1, 2], [[2, 20, 7]]⟩), ({}, ⟨[0], [[3]]⟩)] =
    ⟨[1, 0], [⟨0, [[10, 1]]⟩, ⟨1, [[20, 2]]⟩]⟩ := by decide +kernel

/-- **C86** With `duplicates_on=[]` (all columns), a row written again with one more column is not taken as a duplicate, and
is then recorded twice, with the same values in all columns; without this column, it is recorded once. -/
theorem C86_all_columns_fails :
    writeFrame { orderedOn := some (.col 0), dupOn := some (.many []) } exData ⟨[0, 1, 2], [[5, 50, 7]]⟩ =
      .ok ⟨[0, 1], [⟨0, [[1, 10], [2, 20]]⟩, ⟨1, [[5, 50], [5, 50]]⟩]⟩ ∧
    writeFrame { orderedOn := some (.col 0), dupOn := some (.many []) } exData ⟨[0, 1], [[5, 50]]⟩ =
      .ok ⟨[0, 1], [⟨0, [[1, 10], [2, 20]]⟩, ⟨1, [[5, 50]]⟩]⟩ := by
  constructor <;> decide +kernel

/-- **C86** Same with a list naming the additional column, writing the same frame twice records its row twice. -/
theorem C86_new_key_fails :
    writeAll exData [({ orderedOn := some (.col 0), dupOn := some (.many [0, 2]) }, ⟨[0, 1, 2], [[6, 60, 7]]⟩),
      ({ orderedOn := some (.col 0), dupOn := some (.many [0, 2]) }, ⟨[0, 1, 2], [[6, 60, 7]]⟩)] =
      ⟨[0, 1], [⟨0, [[1, 10], [2, 20]]⟩, ⟨1, [[5, 50]]⟩, ⟨2, [[6, 60], [6, 60]]⟩]⟩ := by
  decide +kernel

end Oups.FrameCols
