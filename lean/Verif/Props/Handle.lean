import Verif.Model.Handle
import Verif.Spec.Handle
import Verif.Props.Writer
import Mathlib.Data.List.Induction
/-!
# C73 Handles kept over writes
-/
set_option linter.unusedSimpArgs false
namespace Oups.Writer

variable {R M : Type}

/-- The directory is that of the dataset. -/
structure DirInv (d : Dir R M) (s : Snap R M) : Prop where
  exact : Exact d.disk.part s.rgs
  ids : IdsInc s.rgs
  holds : s.rgs ≠ [] → Holds d.disk s.rgs
  absent : s.kv = none → d.disk.md = none ∧ s.rgs = []
  present : ∀ m, s.kv = some m → d.kv = m ∧ d.disk.view = some s.rgs

theorem DirInv.view {d : Dir R M} {s : Snap R M} (h : DirInv d s) :
    d.openPf = s.kv.map fun m => ⟨s.rgs, m⟩ := by
  cases hk : s.kv with
  | none => simp [Dir.openPf, Disk.view, (h.absent hk).1]
  | some m => simp [Dir.openPf, (h.present m hk).2, (h.present m hk).1]

theorem DirInv.getD {d : Dir R M} {s : Snap R M} (h : DirInv d s) : d.disk.view.getD [] = s.rgs := by
  cases hk : s.kv with
  | none => simp [Disk.view, (h.absent hk).1, (h.absent hk).2]
  | some m => simp [(h.present m hk).2]

/-- After a successful write, the dataset can be opened. -/
theorem written_view {T : Table R} {p : Params} {d : Disk R} {rgs rgs' : List (RG R)} {data : List R}
    (hh : rgs ≠ [] → Holds d rgs) (hi : IdsInc rgs) (h : write T p rgs data = .ok rgs') :
    (exec d (writeTrace T p rgs data).1).view = some rgs' := (write_holds hh hi h).view

theorem DirInv.write {T : Table R} {kv0 : M} {d : Dir R M} {s : Snap R M} (h : DirInv d s) (p : Params) (data : List R)
    (upd : M → M) : DirInv (d.write T kv0 p data upd).1 (s.after T kv0 (.write p data upd)) := by
  simp only [Dir.write, h.getD, Snap.after]
  cases hw : Writer.write T p s.rgs data with
  | error e =>
    have h1 := (trace_result (T := T) (p := p) (rgs := s.rgs) (data := data) e).2 hw
    have h2 : writeTrace T p s.rgs data = ([], some e) :=
      Prod.ext (trace_error (e := e) (Prod.ext rfl h1 : writeTrace T p s.rgs data = (_, some e))) h1
    rw [h2]
    exact h
  | ok rgs' =>
    have h1 : (writeTrace T p s.rgs data).2 = none := by
      cases he : (writeTrace T p s.rgs data).2 with
      | none => rfl
      | some e =>
        rw [(trace_result (T := T) (p := p) (rgs := s.rgs) (data := data) e).1 he] at hw
        cases hw
    have hx := written_view (p := p) h.holds h.ids hw
    have h2 : writeTrace T p s.rgs data = ((writeTrace T p s.rgs data).1, none) := Prod.ext rfl h1
    rw [h2]
    refine ⟨exact_write h.exact h.ids hw, write_ids h.ids hw, fun _ => write_holds h.holds h.ids hw, nofun, ?_⟩
    rintro m ⟨⟩
    refine ⟨?_, hx⟩
    simp only
    cases hk : s.kv with
    | none => simp [(h.absent hk).2]
    | some m => simp [(h.present m hk).1]

theorem DirInv.mark {d : Dir R M} {s : Snap R M} {pf : Pf R M} (h : DirInv d s) (hp : d.openPf = some pf)
    (T : Table R) (kv0 : M) (upd : M → M) :
    DirInv (d.writeMetadata pf upd).1 (s.after T kv0 (.mark upd)) := by
  rw [h.view] at hp
  cases hk : s.kv with
  | none => rw [hk] at hp; cases hp
  | some m =>
    rw [hk] at hp
    simp only [Option.map_some, Option.some.injEq] at hp
    subst hp
    have hparts : ∀ g ∈ s.rgs, d.disk.part g.id = some g.rows := fun g hg => (h.exact g.id g.rows).2 hg
    have hh : Holds (execStep d.disk (.putMeta (s.rgs.map RG.id))) s.rgs := ⟨rfl, hparts⟩
    refine ⟨h.exact, h.ids, fun _ => hh, ?_, ?_⟩
    · simp [Snap.after, hk]
    · intro m' hm'
      simp only [Snap.after, hk, Option.map_some, Option.some.injEq] at hm'
      exact ⟨hm', hh.view⟩

theorem start_inv (kv0 : M) : DirInv (St.start (R := R) kv0).dir ⟨[], none⟩ :=
  ⟨fun i rows => by simp [St.start], by simp [IdsInc], by simp, fun _ => ⟨rfl, rfl⟩, nofun⟩

theorem dataset_snoc (T : Table R) (kv0 : M) (evs : List (Ev R M)) (e : Ev R M) :
    dataset T kv0 (evs ++ [e]) = (dataset T kv0 evs).after T kv0 e := by simp [dataset]

theorem run_snoc (T : Table R) (kv0 : M) (s : St R M) (evs : List (Ev R M)) (e : Ev R M) :
    s.run T kv0 (evs ++ [e]) = (s.run T kv0 evs).step T kv0 e := by simp [St.run]

theorem run_inv (T : Table R) (kv0 : M) {evs : List (Ev R M)} (hn : NoMarkBy evs) :
    DirInv ((St.start kv0).run T kv0 evs).dir (dataset T kv0 evs) := by
  induction evs using List.reverseRecOn with
  | nil => exact start_inv kv0
  | append_singleton evs e ih =>
    have ih := ih fun i upd hi => hn i upd (by simp [hi])
    rw [dataset_snoc, run_snoc]
    cases e with
    | write p data upd => exact ih.write p data upd
    | get => exact ih
    | look i => exact ih
    | mark upd =>
      simp only [St.step]
      cases hp : ((St.start kv0).run T kv0 evs).dir.openPf with
      | none =>
        have : (dataset T kv0 evs).kv = none := by
          rw [ih.view] at hp
          simpa using hp
        simp only [Snap.after, this, Option.map_none]
        have h2 : (⟨(dataset T kv0 evs).rgs, none⟩ : Snap R M) = dataset T kv0 evs := by rw [← this]
        rw [h2]
        exact ih
      | some pf => exact ih.mark hp T kv0 upd
    | markBy i upd => exact absurd (by simp) (hn i upd)

/-- **C73** Rows are read from the directory at each use: any handle, whenever obtained and whatever it was used for,
gives the rows of the last write. -/
theorem C73_rows (T : Table R) (kv0 : M) {evs : List (Ev R M)} (hn : NoMarkBy evs) (h : Handle R M) (c : Col)
    (hx : (dataset T kv0 evs).kv.isSome) :
    let d := ((St.start kv0).run T kv0 evs).dir
    h.pdf d = some (readRows (dataset T kv0 evs).rgs) ∧ h.minMax T c d = minMax T c (dataset T kv0 evs).rgs ∧
    ∀ scan : List (RG R), scan.Nodup → (∀ g, g ∈ scan ↔ d.disk.part g.id = some g.rows) →
      vdfRows scan = readRows (dataset T kv0 evs).rgs := by
  have hi := run_inv T kv0 hn
  obtain ⟨m, hm⟩ := Option.isSome_iff_exists.1 hx
  refine ⟨by simp [Handle.pdf, hi.view, hm, pdfRows], by simp [Handle.minMax, hi.view, hm], fun scan hs hmem => ?_⟩
  have hnd : (dataset T kv0 evs).rgs.Nodup := List.Nodup.of_map _ hi.ids.nodup
  rw [vdfRows, vdf_sorted hi.ids ((List.perm_ext_iff_of_nodup hs hnd).2 fun g => (hmem g).trans (hi.exact _ _))]

/-- **C73** A write raises the exception that the dataset and the data cause, whatever the handles are used for before, and then
leaves the directory as it was; it raises nothing otherwise. -/
theorem C73_write (T : Table R) (kv0 : M) {evs : List (Ev R M)} (hn : NoMarkBy evs) (p : Params) (data : List R) (upd : M → M) :
    let d := ((St.start kv0).run T kv0 evs).dir
    (∀ e, write T p (dataset T kv0 evs).rgs data = .error e → d.write T kv0 p data upd = (d, some e)) ∧
    (∀ rgs, write T p (dataset T kv0 evs).rgs data = .ok rgs → (d.write T kv0 p data upd).2 = none) := by
  have hi := run_inv T kv0 hn
  refine ⟨fun e he => ?_, fun rgs hw => ?_⟩
  · have h1 := (trace_result (T := T) (p := p) (rgs := (dataset T kv0 evs).rgs) (data := data) e).2 he
    have h2 : writeTrace T p (dataset T kv0 evs).rgs data = ([], some e) :=
      Prod.ext (trace_error (e := e) (Prod.ext rfl h1 : writeTrace T p (dataset T kv0 evs).rgs data = (_, some e))) h1
    simp only [Dir.write, hi.getD, h2]
    rfl
  · have h1 : (writeTrace T p (dataset T kv0 evs).rgs data).2 = none := by
      cases he : (writeTrace T p (dataset T kv0 evs).rgs data).2 with
      | none => rfl
      | some e =>
        rw [(trace_result (T := T) (p := p) (rgs := (dataset T kv0 evs).rgs) (data := data) e).1 he] at hw
        cases hw
    have h2 : writeTrace T p (dataset T kv0 evs).rgs data = ((writeTrace T p (dataset T kv0 evs).rgs data).1, none) := Prod.ext rfl h1
    simp only [Dir.write, hi.getD]
    rw [h2]

/-- **C73** A handle obtained now has the rows and the metadata of the last write, if the dataset exists; no
metadata otherwise. -/
theorem C73_new [DecidableEq R] (T : Table R) (kv0 : M) {evs : List (Ev R M)} (hn : NoMarkBy evs) :
    let d := ((St.start kv0).run T kv0 evs).dir
    Handle.metadata none d = (dataset T kv0 evs).kv ∧
    ∀ pf, (Handle.pf none d).1 = some pf → pf.toPandas d = some (readRows (dataset T kv0 evs).rgs) := by
  have hi := run_inv T kv0 hn
  refine ⟨?_, fun pf hp => ?_⟩
  · simp only [Handle.metadata, Handle.pf, hi.view, Option.map_map]
    cases (dataset T kv0 evs).kv <;> rfl
  · simp only [Handle.pf, hi.view] at hp
    cases hk : (dataset T kv0 evs).kv with
    | none => rw [hk] at hp; cases hp
    | some m =>
      rw [hk] at hp
      simp only [Option.map_some, Option.some.injEq] at hp
      subst hp
      simp only [Pf.toPandas]
      exact if_pos fun (g : RG R) hg => (hi.exact g.id g.rows).2 hg

theorem kept_step (T : Table R) (kv0 : M) {s : St R M} {i : Nat} {pf : Pf R M} (h : s.handles[i]? = some (some pf))
    {e : Ev R M} (he : ∀ i upd, e ≠ .markBy i upd) : (s.step T kv0 e).handles[i]? = some (some pf) := by
  cases e with
  | write p data upd => exact h
  | get =>
    have hi := (List.getElem?_eq_some_iff.1 h).1
    simp only [St.step]
    rw [List.getElem?_append_left hi]
    exact h
  | look j =>
    simp only [St.step, List.getElem?_modify, h]
    by_cases hj : j = i <;> simp [hj, Handle.pf]
  | mark upd =>
    simp only [St.step]
    split <;> exact h
  | markBy j upd => exact absurd rfl (he j upd)

theorem kept_run (T : Table R) (kv0 : M) {s : St R M} {i : Nat} {pf : Pf R M} (h : s.handles[i]? = some (some pf))
    {evs : List (Ev R M)} (hn : NoMarkBy evs) : (s.run T kv0 evs).handles[i]? = some (some pf) := by
  induction evs generalizing s with
  | nil => exact h
  | cons e evs ih =>
    exact ih (kept_step T kv0 h fun i upd he => hn i upd (by simp [he])) fun i upd hi => hn i upd (by simp [hi])

theorem not_looked (T : Table R) (kv0 : M) {i : Nat} {evs : List (Ev R M)} (hn : NoMarkBy evs) (hl : NotLooked i evs)
    (hi : i < ((St.start kv0).run T kv0 evs).handles.length) :
    ((St.start kv0).run T kv0 evs).handles[i]? = some none := by
  induction evs using List.reverseRecOn with
  | nil => simp [St.run, St.start] at hi
  | append_singleton evs e ih =>
    have hn' : NoMarkBy evs := fun i upd h => hn i upd (by simp [h])
    have ih := ih hn' ⟨fun h => hl.1 (by simp [h]), fun upd h => hl.2 upd (by simp [h])⟩
    rw [run_snoc] at hi ⊢
    cases e with
    | write p data upd => exact ih hi
    | get =>
      simp only [St.step, List.length_append, List.length_cons, List.length_nil] at hi ⊢
      by_cases hlt : i < ((St.start kv0).run T kv0 evs).handles.length
      · rw [List.getElem?_append_left hlt]
        exact ih hlt
      · have : i = ((St.start kv0).run T kv0 evs).handles.length := by omega
        subst this
        simp
    | look j =>
      have hj : j ≠ i := by
        rintro rfl
        exact hl.1 (by simp)
      simp only [St.step, List.length_modify] at hi
      simp only [St.step, List.getElem?_modify, ih hi, hj, if_false]
      rfl
    | mark upd =>
      simp only [St.step] at hi ⊢
      cases hp : ((St.start kv0).run T kv0 evs).dir.openPf with
      | none => rw [hp] at hi; exact ih hi
      | some pf => rw [hp] at hi; exact ih hi
    | markBy j upd => exact absurd (by simp) (hn j upd)

theorem run_append (T : Table R) (kv0 : M) (s : St R M) (a b : List (Ev R M)) :
    s.run T kv0 (a ++ b) = (s.run T kv0 a).run T kv0 b := by simp [St.run]

/-- **C73** `pf` and metadata of a handle are those of the dataset when the handle was first asked for them, whatever is
written afterwards. -/
theorem C73_kept (T : Table R) (kv0 : M) {a b : List (Ev R M)} {i : Nat} {m : M} (hn : NoMarkBy (a ++ b))
    (hl : NotLooked i a) (hi : i < ((St.start kv0).run T kv0 a).handles.length)
    (hm : (dataset T kv0 a).kv = some m) :
    let s := (St.start kv0).run T kv0 (a ++ .look i :: b)
    ∃ h, s.handles[i]? = some h ∧ (h.pf s.dir).1 = some ⟨(dataset T kv0 a).rgs, m⟩ ∧ h.metadata s.dir = some m := by
  have hna : NoMarkBy a := fun i upd h => hn i upd (by simp [h])
  have hnb : NoMarkBy b := fun i upd h => hn i upd (by simp [h])
  have hv := (run_inv T kv0 hna).view
  rw [hm] at hv
  have h1 : (((St.start kv0).run T kv0 a).step T kv0 (.look i)).handles[i]? =
      some (some ⟨(dataset T kv0 a).rgs, m⟩) := by
    simp [St.step, List.getElem?_modify, not_looked T kv0 hna hl hi, Handle.pf, hv]
  have h2 := kept_run T kv0 h1 hnb
  refine ⟨some ⟨(dataset T kv0 a).rgs, m⟩, ?_, rfl, rfl⟩
  rw [run_append]
  exact h2

theorem dataset_prefix (T : Table R) (kv0 : M) {a b : List (Ev R M)} (hn : NoMarkBy (a ++ b))
    (hb : AppendsAfter T kv0 a b) : (dataset T kv0 a).rgs <+: (dataset T kv0 (a ++ b)).rgs := by
  induction b using List.reverseRecOn with
  | nil => simp
  | append_singleton b e ih =>
    have hn' : NoMarkBy (a ++ b) := fun i upd h => hn i upd (by
      rw [← List.append_assoc]
      exact List.mem_append_left _ h)
    have ih := ih hn' fun b1 p data upd b2 h => hb b1 p data upd (b2 ++ [e]) (by simp [h])
    rw [← List.append_assoc, dataset_snoc]
    cases e with
    | write p data upd =>
      have hap := hb b p data upd [] rfl
      simp only [Snap.after]
      cases hw : write T p (dataset T kv0 (a ++ b)).rgs data with
      | error e => exact ih
      | ok rgs' =>
        by_cases hne : (dataset T kv0 (a ++ b)).rgs = []
        · rw [hne] at ih
          rw [List.prefix_nil.1 ih]
          exact List.nil_prefix
        · obtain ⟨new, hr, _⟩ := append_trace hne hap.1 (hap.2.imp id fun ⟨on, h1, h2⟩ => ⟨on, h1, fun x hx y hy => by
            obtain ⟨l, hl, hx⟩ := List.mem_flatten.1 hx
            obtain ⟨g, hg, rfl⟩ := List.mem_map.1 hl
            exact h2 g hg x hx y hy⟩) hw
          simp only [hr]
          exact ih.trans (List.prefix_append _ _)
    | get => exact ih
    | look i => exact ih
    | mark upd => exact ih
    | markBy i upd => exact ih

/-- **C73** As long as only appends are made, a kept `pf` reads the rows of the dataset when the handle was first asked
for it. -/
theorem C73_kept_rows [DecidableEq R] (T : Table R) (kv0 : M) {a b : List (Ev R M)} {i : Nat} {m : M}
    (hn : NoMarkBy (a ++ b)) (hl : NotLooked i a) (hi : i < ((St.start kv0).run T kv0 a).handles.length)
    (hm : (dataset T kv0 a).kv = some m) (hb : AppendsAfter T kv0 a b) :
    let s := (St.start kv0).run T kv0 (a ++ .look i :: b)
    ∃ h pf, s.handles[i]? = some h ∧ (h.pf s.dir).1 = some pf ∧
      pf.toPandas s.dir = some (readRows (dataset T kv0 a).rgs) := by
  obtain ⟨h, h1, h2, _⟩ := C73_kept T kv0 hn hl hi hm
  refine ⟨h, _, h1, h2, if_pos fun (g : RG R) hg => ?_⟩
  have hn2 : NoMarkBy (a ++ .look i :: b) := fun j upd h => by
    rcases List.mem_append.1 h with h | h
    · exact hn j upd (by simp [h])
    · rcases List.mem_cons.1 h with h | h
      · cases h
      · exact hn j upd (by simp [h])
  have hd : dataset T kv0 (a ++ .look i :: b) = dataset T kv0 (a ++ b) := by simp [dataset, Snap.after]
  exact ((run_inv T kv0 hn2).exact g.id g.rows).2 (by rw [hd]; exact (dataset_prefix T kv0 hn hb).subset hg)

/-- **C73** Metadata written through a kept handle put the dataset back: what has been appended since the handle was first
asked for `pf` is not in the dataset any more, nor are metadata written since. -/
theorem C73_kept_mark (T : Table R) (kv0 : M) {a b : List (Ev R M)} {i : Nat} {m : M} (upd : M → M)
    (hn : NoMarkBy (a ++ b)) (hl : NotLooked i a) (hi : i < ((St.start kv0).run T kv0 a).handles.length)
    (hm : (dataset T kv0 a).kv = some m) (hb : AppendsAfter T kv0 a b) :
    let s := (St.start kv0).run T kv0 (a ++ .look i :: b ++ [.markBy i upd])
    s.dir.openPf = some ⟨(dataset T kv0 a).rgs, upd m⟩ := by
  obtain ⟨h, h1, h2, _⟩ := C73_kept T kv0 hn hl hi hm
  have hn2 : NoMarkBy (a ++ .look i :: b) := fun j upd h => by
    rcases List.mem_append.1 h with h | h
    · exact hn j upd (by simp [h])
    · rcases List.mem_cons.1 h with h | h
      · cases h
      · exact hn j upd (by simp [h])
  have hd : dataset T kv0 (a ++ .look i :: b) = dataset T kv0 (a ++ b) := by simp [dataset, Snap.after]
  have hparts := fun (g : RG R) hg => ((run_inv T kv0 hn2).exact g.id g.rows).2
    (by rw [hd]; exact (dataset_prefix T kv0 hn hb).subset hg)
  simp only [run_snoc, St.step, h1, Option.bind_some, h2, Dir.writeMetadata]
  have hh : Holds (execStep ((St.start kv0).run T kv0 (a ++ .look i :: b)).dir.disk
      (.putMeta ((dataset T kv0 a).rgs.map RG.id))) (dataset T kv0 a).rgs := ⟨rfl, hparts⟩
  simp only [Dir.openPf, hh.view, Option.map_some]

/-- **C73** The handle used to write metadata has these metadata from then on, with the row groups it had, whatever is written
afterwards by others. -/
theorem C73_own_mark (T : Table R) (kv0 : M) {a b e : List (Ev R M)} {i : Nat} {m : M} (upd : M → M)
    (hn : NoMarkBy (a ++ b)) (he : NoMarkBy e) (hl : NotLooked i a)
    (hi : i < ((St.start kv0).run T kv0 a).handles.length) (hm : (dataset T kv0 a).kv = some m) :
    let s := (St.start kv0).run T kv0 (a ++ .look i :: b ++ .markBy i upd :: e)
    ∃ h, s.handles[i]? = some h ∧ (h.pf s.dir).1 = some ⟨(dataset T kv0 a).rgs, upd m⟩ ∧ h.metadata s.dir = some (upd m) := by
  obtain ⟨h, h1, h2, _⟩ := C73_kept T kv0 hn hl hi hm
  have hlt := (List.getElem?_eq_some_iff.1 h1).1
  have h3 : (((St.start kv0).run T kv0 (a ++ .look i :: b)).step T kv0 (.markBy i upd)).handles[i]? =
      some (some ⟨(dataset T kv0 a).rgs, upd m⟩) := by
    simp only [St.step, h1, Option.bind_some, h2, Dir.writeMetadata]
    simp [hlt]
  refine ⟨some ⟨(dataset T kv0 a).rgs, upd m⟩, ?_, rfl, rfl⟩
  rw [run_append]
  exact kept_run T kv0 h3 he

/-! ### Examples -/

/-- A write with two row groups, one handle, asked for `pf`. -/
def exBefore : List (Ev (Int × Int) Nat) := [.write { maxRg := some 1 } (exRows [1, 2]) (· + 1), .get]

/-- Two appends, the second ordered and with `max_nirgs`, and metadata. -/
def exAppends : List (Ev (Int × Int) Nat) :=
  [.write {} (exRows [3]) (· + 1), .mark (· + 1), .write { orderedOn := some (.col 0), maxRg := some 10, maxNirgs := some 4 } (exRows [4, 5]) (· + 1)]

theorem exAppends_after : AppendsAfter exT 0 exBefore exAppends := by
  intro b1 p data upd b2 h
  match b1 with
  | [] =>
    simp only [exAppends, List.nil_append, List.cons.injEq, Ev.write.injEq] at h
    obtain ⟨⟨rfl, rfl, _⟩, _⟩ := h
    exact ⟨fun _ _ h => (nomatch h), .inl rfl⟩
  | [_] => simp [exAppends] at h
  | [x, y] =>
    simp only [exAppends, List.cons_append, List.nil_append, List.cons.injEq, Ev.write.injEq] at h
    obtain ⟨rfl, rfl, ⟨rfl, rfl, _⟩, _⟩ := h
    refine ⟨fun k m hk hm => ?_, .inr ⟨0, rfl, by decide⟩⟩
    cases hk
    cases hm
    decide
  | _ :: _ :: _ :: _ => simp [exAppends] at h

example : (dataset exT 0 exBefore).rgs.map (·.rows.map Prod.fst) = [[1], [2]] ∧ (dataset exT 0 exBefore).kv = some 1 ∧
    (dataset exT 0 (exBefore ++ exAppends)).rgs.map (·.rows.map Prod.fst) = [[1], [2], [3], [4, 5]] ∧
    (dataset exT 0 (exBefore ++ exAppends)).kv = some 4 := ⟨rfl, rfl, rfl, rfl⟩

/-- `duplicates_on` without `ordered_on`: refused, the directory being as it was. -/
example : ((St.start 0).run exT 0 exBefore).dir.write exT 0 { dupOn := some (.one 0) } (exRows [3]) (· + 1) =
    (((St.start 0).run exT 0 exBefore).dir, some .valueError) :=
  (C73_write exT 0 (evs := exBefore) (by intro i upd h; simp [exBefore] at h) _ _ _).1 _ rfl

/-- The kept handle has the rows of then; a new one those of now. -/
example : ∃ h pf, ((St.start 0).run exT 0 (exBefore ++ .look 0 :: exAppends)).handles[0]? = some h ∧
    (h.pf ((St.start 0).run exT 0 (exBefore ++ .look 0 :: exAppends)).dir).1 = some pf ∧
    pf.toPandas ((St.start 0).run exT 0 (exBefore ++ .look 0 :: exAppends)).dir = some (exRows [1, 2]) := by
  have hn : NoMarkBy (exBefore ++ exAppends) := by
    intro i upd h
    simp [exBefore, exAppends] at h
  have hl : NotLooked 0 exBefore := by simp [NotLooked, exBefore]
  obtain ⟨h, pf, h1, h2, h3⟩ := C73_kept_rows exT 0 hn hl (by decide) (m := 1) rfl exAppends_after
  exact ⟨h, pf, h1, h2, h3⟩

/-- Metadata written through the kept handle: rows 3, 4 and 5 are no longer in the dataset. -/
example : ((St.start 0).run exT 0 (exBefore ++ .look 0 :: exAppends ++ [.markBy 0 (· + 1)])).dir.openPf.map
    (fun pf => (readRows pf.rgs, pf.kv)) = some (exRows [1, 2], 2) := by
  have hn : NoMarkBy (exBefore ++ exAppends) := by
    intro i upd h
    simp [exBefore, exAppends] at h
  have hl : NotLooked 0 exBefore := by simp [NotLooked, exBefore]
  rw [C73_kept_mark exT 0 (· + 1) hn hl (by decide) (m := 1) rfl exAppends_after]
  rfl

/-- The handle used to write metadata has them still after an append with others. -/
example : ∃ h, ((St.start 0).run exT 0 (exBefore ++ .look 0 :: exAppends ++
      .markBy 0 (· + 10) :: [.write {} (exRows [9]) (· + 100)])).handles[0]? = some h ∧
    h.metadata ((St.start 0).run exT 0 (exBefore ++ .look 0 :: exAppends ++
      .markBy 0 (· + 10) :: [.write {} (exRows [9]) (· + 100)])).dir = some 11 ∧
    Handle.metadata none ((St.start 0).run exT 0 (exBefore ++ .look 0 :: exAppends ++
      .markBy 0 (· + 10) :: [.write {} (exRows [9]) (· + 100)])).dir = some 111 := by
  have hn : NoMarkBy (exBefore ++ exAppends) := by
    intro i upd h
    simp [exBefore, exAppends] at h
  have hl : NotLooked 0 exBefore := by simp [NotLooked, exBefore]
  obtain ⟨h, h1, -, h2⟩ := C73_own_mark exT 0 (e := [.write {} (exRows [9]) (· + 100)]) (· + 10) hn (by simp [NoMarkBy]) hl (by decide)
    (m := 1) rfl
  exact ⟨h, h1, h2, rfl⟩

/-- **C73** fails for other writes: after an update of the last row group, the kept `pf` has a row group whose file has
another content; after a coalescing, one whose file does not exist. -/
theorem C73_rewritten_fails :
    (∃ s pf, s = (St.start 0).run exT 0 (exBefore ++ [.look 0, .write { orderedOn := some (.col 0) } (exRows [2]) id]) ∧
      s.handles = [some pf] ∧ s.dir.openPf.map (fun pf => readRows pf.rgs) = some (exRows [1, 2, 2]) ∧
      pf.toPandas s.dir = none) ∧
    (∃ s pf, s = (St.start 0).run exT 0
        (exBefore ++ [.look 0, .write { maxRg := some 9, maxNirgs := some 1 } (exRows [3]) id]) ∧
      s.handles = [some pf] ∧ s.dir.openPf.map (fun pf => readRows pf.rgs) = some (exRows [1, 2, 3]) ∧
      pf.toPandas s.dir = none ∧ pf.rgs.map (fun g => s.dir.disk.part g.id) = [some (exRows [1, 2, 3]), none]) :=
  ⟨⟨_, ⟨[⟨0, exRows [1]⟩, ⟨1, exRows [2]⟩], 1⟩, rfl, rfl, rfl, rfl⟩,
    ⟨_, ⟨[⟨0, exRows [1]⟩, ⟨1, exRows [2]⟩], 1⟩, rfl, rfl, rfl, rfl, rfl⟩⟩

/-- **C73** fails for metadata written through a kept handle: the pandas view loses the rows appended since, the vaex view
has them still, and the next append overwrites their file. -/
theorem C73_lost_fails :
    (∃ s, s = (St.start 0).run exT 0 (exBefore ++ [.look 0, .write {} (exRows [3]) id, .markBy 0 id]) ∧
      s.dir.openPf.map (fun pf => readRows pf.rgs) = some (exRows [1, 2]) ∧
      s.dir.disk.part 2 = some (exRows [3])) ∧
    ∃ s, s = (St.start 0).run exT 0
        (exBefore ++ [.look 0, .write {} (exRows [3]) id, .markBy 0 id, .write {} (exRows [4]) id]) ∧
      s.dir.openPf.map (fun pf => readRows pf.rgs) = some (exRows [1, 2, 4]) ∧
      (List.range 4).map s.dir.disk.part = [some (exRows [1]), some (exRows [2]), some (exRows [4]), none] :=
  ⟨⟨_, rfl, rfl, rfl⟩, ⟨_, rfl, rfl, rfl⟩⟩

/-- **C73** Metadata of a kept handle are not those of the dataset, although its rows are. -/
theorem C73_metadata_fails : ∃ s h, s = (St.start 0).run exT 0
      (exBefore ++ [.look 0, .write {} (exRows [3]) (· + 1)]) ∧ s.handles = [h] ∧
    h.pdf s.dir = some (exRows [1, 2, 3]) ∧ h.metadata s.dir = some 1 ∧ Handle.metadata none s.dir = some 2 :=
  ⟨_, some ⟨[⟨0, exRows [1]⟩, ⟨1, exRows [2]⟩], 1⟩, rfl, rfl, rfl, rfl, rfl⟩

end Oups.Writer
