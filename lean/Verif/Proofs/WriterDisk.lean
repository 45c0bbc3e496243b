import Verif.Proofs.WriterHistory
import Verif.Model.Router
/-! The files after `write`, and after an interrupted `write`. -/
set_option linter.unusedSimpArgs false
namespace Oups.Writer
variable {R : Type}

/-- `disk` holds the dataset `rgs`. -/
def Holds (d : Disk R) (rgs : List (RG R)) : Prop :=
  d.md = some (rgs.map RG.id) ∧ ∀ g ∈ rgs, d.part g.id = some g.rows

theorem view_of_parts {part : Nat → Option (List R)} {rgs : List (RG R)}
    (h : ∀ g ∈ rgs, part g.id = some g.rows) :
    (rgs.map RG.id).mapM (fun i => (part i).map fun rows => (⟨i, rows⟩ : RG R)) = some rgs := by
  induction rgs with
  | nil => rfl
  | cons g rgs ih =>
    rw [List.map_cons, List.mapM_cons, h g (by simp), ih (fun g hg => h g (by simp [hg]))]
    rfl

theorem Holds.view {d : Disk R} {rgs : List (RG R)} (h : Holds d rgs) : d.view = some rgs := by
  rw [Disk.view, h.1]
  exact view_of_parts h.2

theorem exec_append (d : Disk R) (a b : List (Step R)) : exec d (a ++ b) = exec (exec d a) b := by
  simp [exec, List.foldl_append]

/-! ### Writing part files -/

theorem exec_putRgs_md (d : Disk R) (gs : List (RG R)) : (exec d (putRgs gs)).md = d.md := by
  induction gs generalizing d with
  | nil => rfl
  | cons g gs ih => exact ih _

theorem exec_putRgs_other (d : Disk R) (gs : List (RG R)) (i : Nat) (h : ∀ g ∈ gs, g.id ≠ i) :
    (exec d (putRgs gs)).part i = d.part i := by
  induction gs generalizing d with
  | nil => rfl
  | cons g gs ih =>
    have h1 := ih (execStep d (.putPart g.id g.rows)) (fun g hg => h g (by simp [hg]))
    have h2 : (execStep d (.putPart g.id g.rows)).part i = d.part i := by
      simp [execStep, setAt, (h g (by simp)).symm]
    exact h1.trans h2

theorem exec_putRgs_mem (d : Disk R) (gs : List (RG R)) (hi : IdsInc gs) :
    ∀ g ∈ gs, (exec d (putRgs gs)).part g.id = some g.rows := by
  induction gs generalizing d with
  | nil => simp
  | cons g gs ih =>
    rw [IdsInc, List.map_cons, List.pairwise_cons] at hi
    intro g' hg'
    rcases List.mem_cons.1 hg' with rfl | hg'
    · have := exec_putRgs_other (execStep d (.putPart g'.id g'.rows)) gs g'.id (fun h hh => by
        have := hi.1 h.id (List.mem_map.2 ⟨h, hh, rfl⟩); omega)
      exact this.trans (by simp [execStep, setAt])
    · exact ih _ hi.2 g' hg'

theorem new_ids_fresh (rgs : List (RG R)) (chunks : List (List R)) :
    ∀ g ∈ rgs, ∀ n ∈ numberFrom (nextId rgs) chunks, n.id ≠ g.id := by
  intro g hg n hn
  have := lt_nextId rgs g hg
  have := numberFrom_ids_ge _ _ n hn
  omega

theorem prefix_putRgs {gs : List (RG R)} {pre : List (Step R)} (h : pre <+: putRgs gs) :
    ∃ gs', gs' <+: gs ∧ pre = putRgs gs' := by
  refine ⟨gs.take pre.length, List.take_prefix _ _, ?_⟩
  have h1 := List.prefix_iff_eq_take.1 h
  rw [putRgs] at h1 ⊢
  rw [List.map_take]
  exact h1

/-! ### Traces and results -/

theorem trace_error {T : Table R} {p : Params} {rgs : List (RG R)} {data : List R} {ss e}
    (h : writeTrace T p rgs data = (ss, some e)) : ss = [] := by
  simp only [writeTrace] at h
  repeat' split at h
  all_goals first
    | (simp only [Prod.mk.injEq] at h; exact h.1.symm)
    | (simp only [Prod.mk.injEq, reduceCtorEq, and_false] at h)
    | skip
  simp only [updateTrace] at h
  repeat' split at h
  all_goals first
    | (simp only [Prod.mk.injEq] at h; exact h.1.symm)
    | (simp only [Prod.mk.injEq, reduceCtorEq, and_false] at h)

theorem update_trace_result {T : Table R} {p : Params} {rgs : List (RG R)} {data : List R} {on s stop} (e : Err) :
    (updateTrace T p rgs data on s stop).2 = some e ↔ writeUpdate T p rgs data on s stop = .error e := by
  simp only [updateTrace, writeUpdate, bind, Except.bind]
  by_cases hem : ((rgs.take (stop.getD rgs.length)).drop s).isEmpty = true
  · simp [hem, throw, throwThe, MonadExceptOf.throw]
  · simp only [hem, Bool.false_eq_true, if_false, pure, Except.pure]
    cases on with
    | none =>
      cases hit : iterDataframe T (readRows ((rgs.take (stop.getD rgs.length)).drop s) ++ data) true
        p.maxRg none p.dupOn <;> simp
    | some c =>
      cases hit : iterDataframe T (stableSort (T.get c) (readRows ((rgs.take (stop.getD rgs.length)).drop s) ++ data))
        true p.maxRg (some c) p.dupOn <;> simp

/-- The step-by-step and the functional versions raise the same exceptions. -/
theorem trace_result {T : Table R} {p : Params} {rgs : List (RG R)} {data : List R} (e : Err) :
    (writeTrace T p rgs data).2 = some e ↔ write T p rgs data = .error e := by
  simp only [writeTrace, write, bind, Except.bind]
  cases hon : checkOrderedOn T p.orderedOn with
  | error e' => simp
  | ok on =>
    simp only
    by_cases hemp : rgs.isEmpty = true
    · simp only [hemp, if_true]
      cases hit : iterDataframe T data false p.maxRg none none <;> simp [pure, Except.pure]
    · simp only [hemp, Bool.false_eq_true, if_false]
      by_cases hd : (p.dupOn.isSome && on.isNone) = true
      · simp [hd, throw, throwThe, MonadExceptOf.throw]
      · simp only [hd, Bool.false_eq_true, if_false, pure, Except.pure]
        cases hw : overlapWindow T rgs data on with
        | error e' => simp
        | ok w =>
          simp only
          have hupd := fun s => update_trace_result (T := T) (p := p) (rgs := rgs) (data := data) (on := on) (s := s) (stop := w.2) e
          cases hn : p.maxNirgs with
          | none =>
            simp only
            cases hs : w.1 with
            | none => cases hit : iterDataframe T data false p.maxRg none none <;> simp
            | some s => exact hupd s
          | some k =>
            cases hm : p.maxRg with
            | none => simp [throw, throwThe, MonadExceptOf.throw]
            | some m =>
              simp only
              cases hs : coalesce m k rgs data.length w.1 w.2 with
              | none => cases hit : iterDataframe T data false (some m) none none <;> simp
              | some s => exact hupd s

/-! ### Deleting and renaming -/

theorem exec_del_other (d : Disk R) (gs : List (RG R)) (i : Nat) (h : ∀ g ∈ gs, g.id ≠ i) :
    (exec d (gs.map fun g => .delPart g.id)).part i = d.part i := by
  induction gs generalizing d with
  | nil => rfl
  | cons g gs ih =>
    have h1 := ih (execStep d (.delPart g.id)) (fun g hg => h g (by simp [hg]))
    have h2 : (execStep d (.delPart g.id)).part i = d.part i := by
      simp [execStep, setAt, (h g (by simp)).symm]
    exact h1.trans h2

theorem pass1_part_other (d : Disk R) (m : List (RG R × Nat)) (i : Nat) (h : ∀ p ∈ m, p.1.id ≠ i) :
    (exec d (m.map fun p => .toTmp p.1.id p.2)).part i = d.part i := by
  induction m generalizing d with
  | nil => rfl
  | cons q m ih =>
    have h1 := ih (execStep d (.toTmp q.1.id q.2)) (fun g hg => h g (by simp [hg]))
    exact h1.trans (by simp [execStep, setAt, (h q (by simp)).symm])

theorem pass1_tmp_other (d : Disk R) (m : List (RG R × Nat)) (j : Nat) (h : ∀ p ∈ m, p.2 ≠ j) :
    (exec d (m.map fun p => .toTmp p.1.id p.2)).tmp j = d.tmp j := by
  induction m generalizing d with
  | nil => rfl
  | cons q m ih =>
    have h1 := ih (execStep d (.toTmp q.1.id q.2)) (fun g hg => h g (by simp [hg]))
    exact h1.trans (by simp [execStep, setAt, (h q (by simp)).symm])

theorem pass1_tmp (d : Disk R) (m : List (RG R × Nat)) (h1 : (m.map fun p => p.1.id).Nodup)
    (h2 : (m.map Prod.snd).Nodup) :
    ∀ p ∈ m, (exec d (m.map fun p => .toTmp p.1.id p.2)).tmp p.2 = d.part p.1.id := by
  induction m generalizing d with
  | nil => simp
  | cons q m ih =>
    rw [List.map_cons, List.nodup_cons] at h1 h2
    intro p hp
    rcases List.mem_cons.1 hp with rfl | hp
    · have := pass1_tmp_other (execStep d (.toTmp p.1.id p.2)) m p.2 (fun r hr he =>
        h2.1 (List.mem_map.2 ⟨r, hr, he⟩))
      exact this.trans (by simp [execStep, setAt])
    · have := ih (execStep d (.toTmp q.1.id q.2)) h1.2 h2.2 p hp
      refine this.trans ?_
      have hne : p.1.id ≠ q.1.id := fun he => h1.1 (List.mem_map.2 ⟨p, hp, he⟩)
      simp [execStep, setAt, hne]

theorem pass2_part_other (d : Disk R) (m : List (RG R × Nat)) (j : Nat) (h : ∀ p ∈ m, p.2 ≠ j) :
    (exec d (m.map fun p => .fromTmp p.2)).part j = d.part j := by
  induction m generalizing d with
  | nil => rfl
  | cons q m ih =>
    have h1 := ih (execStep d (.fromTmp q.2)) (fun g hg => h g (by simp [hg]))
    exact h1.trans (by simp [execStep, setAt, (h q (by simp)).symm])

theorem pass2_part (d : Disk R) (m : List (RG R × Nat)) (h2 : (m.map Prod.snd).Nodup) :
    ∀ p ∈ m, (exec d (m.map fun p => .fromTmp p.2)).part p.2 = d.tmp p.2 := by
  induction m generalizing d with
  | nil => simp
  | cons q m ih =>
    rw [List.map_cons, List.nodup_cons] at h2
    intro p hp
    rcases List.mem_cons.1 hp with rfl | hp
    · have := pass2_part_other (execStep d (.fromTmp p.2)) m p.2 (fun r hr he =>
        h2.1 (List.mem_map.2 ⟨r, hr, he⟩))
      exact this.trans (by simp [execStep, setAt])
    · have := ih (execStep d (.fromTmp q.2)) h2.2 p hp
      refine this.trans ?_
      have hne : p.2 ≠ q.2 := fun he => h2.1 (List.mem_map.2 ⟨p, hp, he⟩)
      simp [execStep, setAt, hne]

theorem exec_rename (d : Disk R) (rgs : List (RG R)) (hn : (rgs.map RG.id).Nodup)
    (hh : ∀ g ∈ rgs, d.part g.id = some g.rows) :
    ∀ g ∈ renumber rgs, (exec d (renameSteps rgs)).part g.id = some g.rows := by
  intro g hg
  simp only [renumber, List.mem_map] at hg
  obtain ⟨p, hp, rfl⟩ := hg
  have hmem : p.1 ∈ rgs := by
    have := List.mem_map_of_mem (f := Prod.fst) hp
    rwa [List.zipIdx_map_fst] at this
  simp only [renameSteps, exec_append]
  have hid : (rgs.zipIdx.map fun p => p.1.id).Nodup := by
    have : (rgs.zipIdx.map fun p => p.1.id) = rgs.map RG.id := by
      rw [show (fun p : RG R × Nat => p.1.id) = RG.id ∘ Prod.fst from rfl, ← List.map_map, List.zipIdx_map_fst]
    rw [this]; exact hn
  have hpos : (rgs.zipIdx.map Prod.snd).Nodup := by
    rw [List.zipIdx_map_snd]; exact List.nodup_range'
  have hinj1 : ∀ q ∈ rgs.zipIdx, q.1.id = p.1.id → q = p := fun q hq he =>
    List.inj_on_of_nodup_map hid hq hp he
  have hinj2 : ∀ q ∈ rgs.zipIdx, q.2 = p.2 → q = p := fun q hq he =>
    List.inj_on_of_nodup_map hpos hq hp he
  by_cases hmv : p.1.id ≠ p.2
  · have hpm : p ∈ rgs.zipIdx.filter (fun p => decide (p.1.id ≠ p.2)) := List.mem_filter.2 ⟨hp, by simpa using hmv⟩
    have hn1 : ((rgs.zipIdx.filter (fun p => decide (p.1.id ≠ p.2))).map fun p => p.1.id).Nodup :=
      hid.sublist (List.Sublist.map _ List.filter_sublist)
    have hn2 : ((rgs.zipIdx.filter (fun p => decide (p.1.id ≠ p.2))).map Prod.snd).Nodup :=
      hpos.sublist (List.Sublist.map _ List.filter_sublist)
    rw [pass2_part _ _ hn2 p hpm, pass1_tmp _ _ hn1 hn2 p hpm]
    exact hh p.1 hmem
  · rw [not_not] at hmv
    have hnot : ∀ q ∈ rgs.zipIdx.filter (fun p => decide (p.1.id ≠ p.2)), q ≠ p := by
      rintro q hq rfl
      have := (List.mem_filter.1 hq).2
      simp [hmv] at this
    rw [pass2_part_other _ _ _ (fun q hq he => hnot q hq (hinj2 q (List.mem_filter.1 hq).1 he)),
      pass1_part_other _ _ _ (fun q hq he => hnot q hq (hinj1 q (List.mem_filter.1 hq).1 (he.trans hmv.symm))),
      ← hmv]
    exact hh p.1 hmem

/-! ### Files after a complete write -/

theorem IdsInc.nodup {rgs : List (RG R)} (h : IdsInc rgs) : (rgs.map RG.id).Nodup :=
  List.Pairwise.imp (fun h => ne_of_lt h) h

theorem ids_append_new {rgs : List (RG R)} (chunks : List (List R)) (hi : IdsInc rgs) :
    IdsInc (rgs ++ numberFrom (nextId rgs) chunks) := by
  rw [IdsInc, List.map_append, List.pairwise_append]
  refine ⟨hi, numberFrom_ids _ _, ?_⟩
  intro a ha b hb
  obtain ⟨g, hg, rfl⟩ := List.mem_map.1 ha
  obtain ⟨g', hg', rfl⟩ := List.mem_map.1 hb
  have := lt_nextId rgs g hg
  have := numberFrom_ids_ge _ _ g' hg'
  omega

theorem exec_append_holds {d : Disk R} {rgs : List (RG R)} (chunks : List (List R)) (hh : Holds d rgs) :
    Holds (exec d (putRgs (numberFrom (nextId rgs) chunks) ++
      [.putMeta ((rgs ++ numberFrom (nextId rgs) chunks).map RG.id)])) (rgs ++ numberFrom (nextId rgs) chunks) := by
  refine ⟨by rw [exec_append]; rfl, ?_⟩
  intro g hg
  rw [exec_append]
  show (exec d (putRgs (numberFrom (nextId rgs) chunks))).part g.id = _
  rcases List.mem_append.1 hg with hg | hg
  · rw [exec_putRgs_other _ _ _ (fun n hn => new_ids_fresh rgs chunks g hg n hn)]
    exact hh.2 g hg
  · exact exec_putRgs_mem _ _ (numberFrom_ids _ _) g hg

theorem numberFrom_prefix (i : Nat) (cs : List (List R)) (n : Nat) :
    numberFrom i (cs.take n) <+: numberFrom i cs := by
  induction cs generalizing i n with
  | nil => simp [numberFrom]
  | cons c cs ih =>
    cases n with
    | zero => simp [numberFrom]
    | succ n =>
      simp only [List.take_succ_cons, numberFrom]
      split
      · exact ih _ _
      · exact List.prefix_cons_inj _ |>.2 (ih _ _)

theorem update_holds {T : Table R} {p : Params} {d : Disk R} {rgs rgs' : List (RG R)} {data on s stop}
    (hh : Holds d rgs) (hi : IdsInc rgs) (he : stop.getD rgs.length ≤ rgs.length)
    (h : writeUpdate T p rgs data on s stop = .ok rgs') :
    Holds (exec d (updateTrace T p rgs data on s stop).1) rgs' := by
  have hlt := update_ok_lt h
  simp only [writeUpdate, bind, Except.bind] at h
  simp only [updateTrace]
  by_cases hem : ((rgs.take (stop.getD rgs.length)).drop s).isEmpty = true
  · simp [hem, throw, throwThe, MonadExceptOf.throw] at h
  simp only [hem, Bool.false_eq_true, if_false, pure, Except.pure] at h ⊢
  generalize hE : stop.getD rgs.length = e at *
  have key : ∀ chunks (sorted : List (RG R)),
      sorted.Perm ((rgs ++ numberFrom (nextId rgs) chunks).take s ++ (rgs ++ numberFrom (nextId rgs) chunks).drop e) →
      Holds (exec d (putRgs (numberFrom (nextId rgs) chunks) ++
        ((rgs.take e).drop s).map (fun g => .delPart g.id) ++ renameSteps sorted
        ++ [.putMeta ((renumber sorted).map RG.id)])) (renumber sorted) := by
    intro chunks sorted hperm
    refine ⟨by rw [exec_append]; rfl, ?_⟩
    intro g hg
    have hnd := (ids_append_new chunks hi).nodup
    have hsp : rgs ++ numberFrom (nextId rgs) chunks = rgs.take s ++ (rgs.take e).drop s ++
        (rgs.drop e ++ numberFrom (nextId rgs) chunks) := by
      rw [← List.append_assoc, ← take_drop_split rgs (le_of_lt hlt.1)]
    have htk : (rgs ++ numberFrom (nextId rgs) chunks).take s = rgs.take s := by
      rw [List.take_append_of_le_length (by omega)]
    have hdr : (rgs ++ numberFrom (nextId rgs) chunks).drop e = rgs.drop e ++ numberFrom (nextId rgs) chunks := by
      rw [List.drop_append_of_le_length he]
    rw [htk, hdr] at hperm
    have hsnd : (sorted.map RG.id).Nodup := by
      rw [(hperm.map RG.id).nodup_iff]
      refine hnd.sublist (List.Sublist.map _ ?_)
      rw [hsp, List.append_assoc]
      exact List.Sublist.append (List.Sublist.refl _) (List.sublist_append_right _ _)
    rw [exec_append]
    show (exec d (putRgs (numberFrom (nextId rgs) chunks) ++
        ((rgs.take e).drop s).map (fun g => .delPart g.id) ++ renameSteps sorted)).part g.id = _
    rw [exec_append]
    refine exec_rename _ _ hsnd ?_ g hg
    intro g' hg'
    have hg2 := hperm.mem_iff.1 hg'
    rw [exec_append, exec_del_other]
    · -- file of a kept or new row group
      by_cases hnew : g' ∈ numberFrom (nextId rgs) chunks
      · exact exec_putRgs_mem _ _ (numberFrom_ids _ _) g' hnew
      · have hold : g' ∈ rgs := by
          rcases List.mem_append.1 hg2 with h | h
          · exact List.mem_of_mem_take h
          · rcases List.mem_append.1 h with h | h
            · exact List.mem_of_mem_drop h
            · exact absurd h hnew
        rw [exec_putRgs_other _ _ _ (fun n hn => new_ids_fresh rgs chunks g' hold n hn)]
        exact hh.2 g' hold
    · intro r hr heq
      rw [hsp, List.map_append, List.map_append] at hnd
      obtain ⟨h1, h2, h3⟩ := List.nodup_append.1 hnd
      obtain ⟨_, _, h4⟩ := List.nodup_append.1 h1
      have hrid : r.id ∈ ((rgs.take e).drop s).map RG.id := List.mem_map.2 ⟨r, hr, rfl⟩
      rcases List.mem_append.1 hg2 with h | h
      · exact h4 g'.id (List.mem_map.2 ⟨g', h, rfl⟩) r.id hrid heq.symm
      · exact h3 r.id (List.mem_append_right _ hrid) g'.id (List.mem_map.2 ⟨g', h, rfl⟩) heq
  cases on with
  | none =>
    simp only at h ⊢
    cases hit : iterDataframe T (readRows ((rgs.take e).drop s) ++ data) true p.maxRg none p.dupOn with
    | error e => rw [hit] at h; simp at h
    | ok chunks =>
      rw [hit] at h
      simp only [Except.ok.injEq] at h
      subst h
      cases stop <;> exact key chunks _ (List.Perm.refl _)
  | some c =>
    simp only at h ⊢
    cases hit : iterDataframe T (stableSort (T.get c) (readRows ((rgs.take e).drop s) ++ data)) true p.maxRg
        (some c) p.dupOn with
    | error e => rw [hit] at h; simp at h
    | ok chunks =>
      rw [hit] at h
      simp only [Except.ok.injEq] at h
      subst h
      cases stop with
      | none => exact key chunks _ (List.Perm.refl _)
      | some e => exact key chunks _ (stableSort_perm _ _)

theorem init_holds (d : Disk R) (chunks : List (List R)) :
    Holds (exec d (putRgs (numberFrom 0 (chunks.take 1)) ++ [.putMeta ((numberFrom 0 (chunks.take 1)).map RG.id)] ++
      putRgs ((numberFrom 0 chunks).drop (numberFrom 0 (chunks.take 1)).length)
      ++ [.putMeta ((numberFrom 0 chunks).map RG.id)])) (numberFrom 0 chunks) := by
  refine ⟨by rw [exec_append]; rfl, ?_⟩
  intro g hg
  rw [exec_append]
  show (exec d (putRgs (numberFrom 0 (chunks.take 1)) ++ [.putMeta ((numberFrom 0 (chunks.take 1)).map RG.id)] ++
      putRgs ((numberFrom 0 chunks).drop (numberFrom 0 (chunks.take 1)).length))).part g.id = _
  obtain ⟨rest, hrest⟩ := numberFrom_prefix 0 chunks 1
  have hinc := numberFrom_ids 0 chunks
  rw [← hrest] at hg hinc ⊢
  rw [List.drop_left]
  rw [IdsInc, List.map_append, List.pairwise_append] at hinc
  rw [exec_append, exec_append]
  rcases List.mem_append.1 hg with hg | hg
  · rw [exec_putRgs_other]
    · exact exec_putRgs_mem _ _ hinc.1 g hg
    · intro r hr he
      have := hinc.2.2 g.id (List.mem_map.2 ⟨g, hg, rfl⟩) r.id (List.mem_map.2 ⟨r, hr, rfl⟩)
      omega
  · exact exec_putRgs_mem _ _ hinc.2.1 g hg

theorem write_holds {T : Table R} {p : Params} {d : Disk R} {rgs rgs' : List (RG R)} {data}
    (hh : rgs ≠ [] → Holds d rgs) (hi : IdsInc rgs)
    (h : write T p rgs data = .ok rgs') : Holds (exec d (writeTrace T p rgs data).1) rgs' := by
  obtain ⟨on, hon, hcase⟩ := write_cases h
  simp only [writeTrace, hon]
  rcases hcase with ⟨rfl, chunks, hit, rfl⟩ | ⟨hne, hd, w, hw, hcase⟩
  · simp only [List.isEmpty_nil, if_true, hit]
    exact init_holds d chunks
  · have hemp : rgs.isEmpty = false := by cases rgs <;> simp_all
    have hd' : (p.dupOn.isSome && on.isNone) = false := by
      cases on with
      | none => simp [hd rfl]
      | some c => simp
    simp only [hemp, Bool.false_eq_true, if_false, hd', hw]
    rcases hcase with ⟨hw1, hs, chunks, hit, rfl⟩ | ⟨s, hup, hs⟩
    · rcases hs with hn | ⟨m, k, hm, hn, hco⟩
      · simp only [hn, hw1, hit]
        exact exec_append_holds chunks (hh hne)
      · rw [hm] at hit
        simp only [hn, hm, hco, hit]
        exact exec_append_holds chunks (hh hne)
    · rcases hs with ⟨hn, hw1⟩ | ⟨m, k, hm, hn, hco⟩
      · simp only [hn, hw1]
        exact update_holds (hh hne) hi (overlapWindow_le hw) hup
      · simp only [hn, hm, hco]
        exact update_holds (hh hne) hi (overlapWindow_le hw) hup

/-! ### No other files -/

/-- The part files of the directory are those of the row groups. -/
def Exact (part : Nat → Option (List R)) (rgs : List (RG R)) : Prop :=
  ∀ i rows, part i = some rows ↔ (⟨i, rows⟩ : RG R) ∈ rgs

theorem Exact.ids {part : Nat → Option (List R)} {rgs : List (RG R)} (h : Exact part rgs) :
    ∀ g ∈ rgs, part g.id = some g.rows := fun g hg => (h _ _).2 hg

theorem Exact.none {part : Nat → Option (List R)} {rgs : List (RG R)} (h : Exact part rgs) {i : Nat}
    (hi : ∀ g ∈ rgs, g.id ≠ i) : part i = none := by
  cases hp : part i with
  | none => rfl
  | some rows => exact absurd rfl (hi _ ((h _ _).1 hp))

theorem exact_of {part : Nat → Option (List R)} {rgs : List (RG R)}
    (h1 : ∀ g ∈ rgs, part g.id = some g.rows) (h2 : ∀ i, (∀ g ∈ rgs, g.id ≠ i) → part i = none) : Exact part rgs := by
  intro i rows
  constructor
  · intro hp
    by_cases hi : ∀ g ∈ rgs, g.id ≠ i
    · rw [h2 i hi] at hp; cases hp
    · push Not at hi
      obtain ⟨g, hg, rfl⟩ := hi
      rw [h1 g hg] at hp
      cases hp
      exact hg
  · intro hg; exact h1 _ hg

theorem exact_puts {d : Disk R} {a new : List (RG R)} (h : Exact d.part a) (hi : IdsInc (a ++ new)) :
    Exact (exec d (putRgs new)).part (a ++ new) := by
  rw [IdsInc, List.map_append, List.pairwise_append] at hi
  apply exact_of
  · intro g hg
    rcases List.mem_append.1 hg with hg | hg
    · rw [exec_putRgs_other, h.ids g hg]
      intro n hn he
      have := hi.2.2 g.id (List.mem_map.2 ⟨g, hg, rfl⟩) n.id (List.mem_map.2 ⟨n, hn, rfl⟩)
      omega
    · exact exec_putRgs_mem _ _ hi.2.1 g hg
  · intro i hi'
    rw [exec_putRgs_other _ _ _ (fun g hg => hi' g (List.mem_append_right _ hg))]
    exact h.none (fun g hg => hi' g (List.mem_append_left _ hg))

theorem exec_del_mem (d : Disk R) (gs : List (RG R)) :
    ∀ g ∈ gs, (exec d (gs.map fun g => .delPart g.id)).part g.id = none := by
  induction gs generalizing d with
  | nil => simp
  | cons g gs ih =>
    intro g' hg'
    by_cases hr : ∃ r ∈ gs, r.id = g'.id
    · obtain ⟨r, hr, he⟩ := hr
      rw [← he]; exact ih _ r hr
    · push Not at hr
      rcases List.mem_cons.1 hg' with rfl | hg'
      · exact (exec_del_other (execStep d (.delPart g'.id)) gs g'.id hr).trans (by simp [execStep, setAt])
      · exact absurd rfl (hr g' hg')

theorem pass1_part_mem (d : Disk R) (m : List (RG R × Nat)) :
    ∀ p ∈ m, (exec d (m.map fun p => .toTmp p.1.id p.2)).part p.1.id = none := by
  induction m generalizing d with
  | nil => simp
  | cons q m ih =>
    intro p hp
    by_cases hr : ∃ r ∈ m, r.1.id = p.1.id
    · obtain ⟨r, hr, he⟩ := hr
      rw [← he]; exact ih _ r hr
    · push Not at hr
      rcases List.mem_cons.1 hp with rfl | hp
      · exact (pass1_part_other (execStep d (.toTmp p.1.id p.2)) m p.1.id hr).trans (by simp [execStep, setAt])
      · exact absurd rfl (hr p hp)

theorem exact_rename {d : Disk R} {rgs : List (RG R)} (hn : (rgs.map RG.id).Nodup) (h : Exact d.part rgs) :
    Exact (exec d (renameSteps rgs)).part (renumber rgs) := by
  apply exact_of (exec_rename d rgs hn h.ids)
  intro i hi
  have hi' : ∀ p ∈ rgs.zipIdx, p.2 ≠ i := fun p hp he =>
    hi ⟨p.2, p.1.rows⟩ (List.mem_map.2 ⟨p, hp, rfl⟩) he
  simp only [renameSteps, exec_append]
  rw [pass2_part_other _ _ _ (fun p hp => hi' p (List.mem_filter.1 hp).1)]
  by_cases hm : ∃ p ∈ rgs.zipIdx.filter (fun p => decide (p.1.id ≠ p.2)), p.1.id = i
  · obtain ⟨p, hp, rfl⟩ := hm
    exact pass1_part_mem _ _ p hp
  · push Not at hm
    rw [pass1_part_other _ _ _ hm]
    apply h.none
    intro g hg he
    have hz : g ∈ rgs.zipIdx.map Prod.fst := by rw [List.zipIdx_map_fst]; exact hg
    obtain ⟨p, hp, rfl⟩ := List.mem_map.1 hz
    by_cases hmv : p.1.id = p.2
    · exact hi' p hp (hmv.symm.trans he)
    · exact hm p (List.mem_filter.2 ⟨hp, by simpa using hmv⟩) he

theorem Exact.perm {part : Nat → Option (List R)} {a b : List (RG R)} (h : Exact part a) (hp : a.Perm b) :
    Exact part b := fun i rows => (h i rows).trans hp.mem_iff

theorem exact_update {T : Table R} {p : Params} {d : Disk R} {rgs rgs' : List (RG R)} {data on s stop}
    (hh : Exact d.part rgs) (hi : IdsInc rgs) (he : stop.getD rgs.length ≤ rgs.length)
    (h : writeUpdate T p rgs data on s stop = .ok rgs') :
    Exact (exec d (updateTrace T p rgs data on s stop).1).part rgs' := by
  have hlt := update_ok_lt h
  simp only [writeUpdate, bind, Except.bind] at h
  simp only [updateTrace]
  by_cases hem : ((rgs.take (stop.getD rgs.length)).drop s).isEmpty = true
  · simp [hem, throw, throwThe, MonadExceptOf.throw] at h
  simp only [hem, Bool.false_eq_true, if_false, pure, Except.pure] at h ⊢
  generalize hE : stop.getD rgs.length = e at *
  have key : ∀ chunks (sorted : List (RG R)),
      sorted.Perm ((rgs ++ numberFrom (nextId rgs) chunks).take s ++ (rgs ++ numberFrom (nextId rgs) chunks).drop e) →
      Exact (exec d (putRgs (numberFrom (nextId rgs) chunks) ++
        ((rgs.take e).drop s).map (fun g => .delPart g.id) ++ renameSteps sorted
        ++ [.putMeta ((renumber sorted).map RG.id)])).part (renumber sorted) := by
    intro chunks sorted hperm
    have hinc := ids_append_new chunks hi
    have hnd := hinc.nodup
    have hsp : rgs ++ numberFrom (nextId rgs) chunks = rgs.take s ++ (rgs.take e).drop s ++
        (rgs.drop e ++ numberFrom (nextId rgs) chunks) := by
      rw [← List.append_assoc, ← take_drop_split rgs (le_of_lt hlt.1)]
    have htk : (rgs ++ numberFrom (nextId rgs) chunks).take s = rgs.take s := by
      rw [List.take_append_of_le_length (by omega)]
    have hdr : (rgs ++ numberFrom (nextId rgs) chunks).drop e = rgs.drop e ++ numberFrom (nextId rgs) chunks := by
      rw [List.drop_append_of_le_length he]
    rw [htk, hdr] at hperm
    have hsnd : (sorted.map RG.id).Nodup := by
      rw [(hperm.map RG.id).nodup_iff]
      refine hnd.sublist (List.Sublist.map _ ?_)
      rw [hsp, List.append_assoc]
      exact List.Sublist.append (List.Sublist.refl _) (List.sublist_append_right _ _)
    rw [exec_append]
    show Exact (exec d (putRgs (numberFrom (nextId rgs) chunks) ++
        ((rgs.take e).drop s).map (fun g => .delPart g.id) ++ renameSteps sorted)).part _
    rw [exec_append]
    refine exact_rename hsnd (Exact.perm ?_ hperm.symm)
    rw [exec_append]
    have hput := exact_puts hh hinc
    rw [hsp, List.map_append, List.map_append] at hnd
    obtain ⟨h1, h2, h3⟩ := List.nodup_append.1 hnd
    obtain ⟨_, _, h4⟩ := List.nodup_append.1 h1
    apply exact_of
    · intro g hg
      rw [exec_del_other]
      · apply hput.ids
        rw [hsp]
        rcases List.mem_append.1 hg with h | h
        · exact List.mem_append_left _ (List.mem_append_left _ h)
        · exact List.mem_append_right _ h
      · intro r hr heq
        have hrid : r.id ∈ ((rgs.take e).drop s).map RG.id := List.mem_map.2 ⟨r, hr, rfl⟩
        rcases List.mem_append.1 hg with h | h
        · exact h4 g.id (List.mem_map.2 ⟨g, h, rfl⟩) r.id hrid heq.symm
        · exact h3 r.id (List.mem_append_right _ hrid) g.id (List.mem_map.2 ⟨g, h, rfl⟩) heq
    · intro i hno
      by_cases hdel : ∃ r ∈ (rgs.take e).drop s, r.id = i
      · obtain ⟨r, hr, rfl⟩ := hdel
        exact exec_del_mem _ _ r hr
      · push Not at hdel
        rw [exec_del_other _ _ _ hdel]
        apply hput.none
        intro g hg
        rw [hsp] at hg
        rcases List.mem_append.1 hg with hg | hg
        · rcases List.mem_append.1 hg with hg | hg
          · exact hno g (List.mem_append_left _ hg)
          · exact hdel g hg
        · exact hno g (List.mem_append_right _ hg)
  cases on with
  | none =>
    simp only at h ⊢
    cases hit : iterDataframe T (readRows ((rgs.take e).drop s) ++ data) true p.maxRg none p.dupOn with
    | error e => rw [hit] at h; simp at h
    | ok chunks =>
      rw [hit] at h
      simp only [Except.ok.injEq] at h
      subst h
      cases stop <;> exact key chunks _ (List.Perm.refl _)
  | some c =>
    simp only at h ⊢
    cases hit : iterDataframe T (stableSort (T.get c) (readRows ((rgs.take e).drop s) ++ data)) true p.maxRg
        (some c) p.dupOn with
    | error e => rw [hit] at h; simp at h
    | ok chunks =>
      rw [hit] at h
      simp only [Except.ok.injEq] at h
      subst h
      cases stop with
      | none => exact key chunks _ (List.Perm.refl _)
      | some e => exact key chunks _ (stableSort_perm _ _)

theorem exact_write {T : Table R} {p : Params} {d : Disk R} {rgs rgs' : List (RG R)} {data}
    (hh : Exact d.part rgs) (hi : IdsInc rgs)
    (h : write T p rgs data = .ok rgs') : Exact (exec d (writeTrace T p rgs data).1).part rgs' := by
  obtain ⟨on, hon, hcase⟩ := write_cases h
  simp only [writeTrace, hon]
  rcases hcase with ⟨rfl, chunks, hit, rfl⟩ | ⟨hne, hd, w, hw, hcase⟩
  · simp only [List.isEmpty_nil, if_true, hit]
    obtain ⟨rest, hrest⟩ := numberFrom_prefix 0 chunks 1
    have hinc := numberFrom_ids 0 chunks
    rw [← hrest] at hinc ⊢
    rw [List.drop_left, exec_append, exec_append, exec_append]
    have h1 := exact_puts (new := numberFrom 0 (chunks.take 1)) hh (by
      rw [IdsInc, List.map_append, List.pairwise_append] at hinc; exact hinc.1)
    exact exact_puts (d := exec _ [_]) h1 hinc
  · have hemp : rgs.isEmpty = false := by cases rgs <;> simp_all
    have hd' : (p.dupOn.isSome && on.isNone) = false := by
      cases on with
      | none => simp [hd rfl]
      | some c => simp
    simp only [hemp, Bool.false_eq_true, if_false, hd', hw]
    rcases hcase with ⟨hw1, hs, chunks, hit, rfl⟩ | ⟨s, hup, hs⟩
    · have key : Exact (exec d (putRgs (numberFrom (nextId rgs) chunks) ++
          [.putMeta ((rgs ++ numberFrom (nextId rgs) chunks).map RG.id)])).part (writeRowGroups rgs chunks) := by
        rw [exec_append]
        exact exact_puts hh (ids_append_new chunks hi)
      rcases hs with hn | ⟨m, k, hm, hn, hco⟩
      · simp only [hn, hw1, hit]
        exact key
      · rw [hm] at hit
        simp only [hn, hm, hco, hit]
        exact key
    · rcases hs with ⟨hn, hw1⟩ | ⟨m, k, hm, hn, hco⟩
      · simp only [hn, hw1]
        exact exact_update hh hi (overlapWindow_le hw) hup
      · simp only [hn, hm, hco]
        exact exact_update hh hi (overlapWindow_le hw) hup

/-- Any sequence of writes, successful or not, from an empty directory. -/
inductive DiskHist (T : Table R) : Disk R → List (RG R) → Prop
  | empty {d} : (∀ i, d.part i = none) → DiskHist T d []
  | write {d rgs rgs'} (p : Params) (data : List R) : DiskHist T d rgs → write T p rgs data = .ok rgs' →
      DiskHist T (exec d (writeTrace T p rgs data).1) rgs'
  | rejected {d rgs e} (p : Params) (data : List R) : DiskHist T d rgs → write T p rgs data = .error e →
      DiskHist T (exec d (writeTrace T p rgs data).1) rgs

theorem DiskHist.inv {T : Table R} {d : Disk R} {rgs : List (RG R)} (h : DiskHist T d rgs) :
    Exact d.part rgs ∧ IdsInc rgs ∧ (rgs ≠ [] → Holds d rgs) := by
  induction h with
  | empty h => exact ⟨fun i rows => by simp [h i], by simp [IdsInc], by simp⟩
  | write p data _ hw ih =>
    exact ⟨exact_write ih.1 ih.2.1 hw, write_ids ih.2.1 hw, fun _ => write_holds ih.2.2 ih.2.1 hw⟩
  | @rejected d rgs e p data _ hw ih =>
    have h1 := (trace_result (T := T) (p := p) (rgs := rgs) (data := data) e).2 hw
    have h2 : (writeTrace T p rgs data).1 = [] :=
      trace_error (e := e) (Prod.ext rfl h1 : writeTrace T p rgs data = (_, some e))
    rw [h2]
    exact ih

/-- Row groups are never empty. -/
theorem write_nonempty {T : Table R} {p : Params} {rgs rgs' : List (RG R)} {data}
    (hne : ∀ g ∈ rgs, g.rows ≠ []) (h : write T p rgs data = .ok rgs') : ∀ g ∈ rgs', g.rows ≠ [] := by
  have hnum : ∀ i (cs : List (List R)), ∀ g ∈ numberFrom i cs, g.rows ≠ [] := by
    intro i cs g hg
    have : g.rows ∈ rowsOf (numberFrom i cs) := List.mem_map.2 ⟨g, hg, rfl⟩
    rw [numberFrom_rows, List.mem_filter] at this
    intro e
    simp [e] at this
  obtain ⟨on, hon, hcase⟩ := write_cases h
  rcases hcase with ⟨rfl, chunks, hit, rfl⟩ | ⟨_, hd, w, hw, hcase⟩
  · exact hnum _ _
  · rcases hcase with ⟨_, _, chunks, hit, rfl⟩ | ⟨s, hup, _⟩
    · intro g hg
      rcases List.mem_append.1 hg with hg | hg
      · exact hne g hg
      · exact hnum _ _ g hg
    · simp only [writeUpdate] at hup
      by_cases hem : ((rgs.take (w.2.getD rgs.length)).drop s).isEmpty = true
      · simp [hem, bind, Except.bind, throw, throwThe, MonadExceptOf.throw] at hup
      simp only [hem, Bool.false_eq_true, if_false, bind, Except.bind, pure, Except.pure] at hup
      have fin : ∀ chunks (sorted : List (RG R)),
          sorted.Perm ((writeRowGroups rgs chunks).take s ++ (writeRowGroups rgs chunks).drop (w.2.getD rgs.length)) →
          ∀ g ∈ renumber sorted, g.rows ≠ [] := by
        intro chunks sorted hperm g hg
        have hr : g.rows ∈ rowsOf sorted := by
          rw [← rowsOf_renumber]; exact List.mem_map.2 ⟨g, hg, rfl⟩
        obtain ⟨g', hg', he⟩ := List.mem_map.1 hr
        rw [← he]
        have : g' ∈ writeRowGroups rgs chunks := by
          rcases List.mem_append.1 (hperm.mem_iff.1 hg') with h | h
          · exact List.mem_of_mem_take h
          · exact List.mem_of_mem_drop h
        rcases List.mem_append.1 this with h | h
        · exact hne g' h
        · exact hnum _ _ g' h
      cases on with
      | none =>
        simp only at hup
        split at hup
        · simp at hup
        · rename_i v _
          simp only [Except.ok.injEq] at hup
          subst hup
          refine fin v _ ?_
          cases w.2 <;> exact List.Perm.refl _
      | some c =>
        simp only at hup
        split at hup
        · simp at hup
        · rename_i v _
          simp only [Except.ok.injEq] at hup
          subst hup
          refine fin v _ ?_
          cases w.2 with
          | none => exact List.Perm.refl _
          | some e => exact stableSort_perm _ _

theorem vdf_sorted {rgs scan : List (RG R)} (hi : IdsInc rgs) (hp : scan.Perm rgs) :
    stableSort (fun g => (g.id : Int)) scan = rgs := by
  have hnd : (scan.map RG.id).Nodup := by rw [(hp.map RG.id).nodup_iff]; exact hi.nodup
  have h2 : (stableSort (fun g : RG R => (g.id : Int)) scan).Perm rgs := (stableSort_perm _ _).trans hp
  have h3 : rgs.Pairwise (fun a b => (a.id : Int) ≤ (b.id : Int)) := by
    rw [IdsInc, List.pairwise_map] at hi
    exact hi.imp (fun h => by omega)
  apply sorted_ext (fun g : RG R => (g.id : Int)) _ _ (stableSort_sorted _ _) h3
  intro v
  have hpf := h2.filter (fun r => decide ((r.id : Int) = v))
  have hlen : (rgs.filter (fun r => decide ((r.id : Int) = v))).length ≤ 1 := by
    by_contra hc
    rw [not_le] at hc
    have hsub : ((rgs.filter (fun r => decide ((r.id : Int) = v))).map RG.id).Pairwise (· < ·) :=
      List.Pairwise.sublist (List.Sublist.map _ List.filter_sublist) hi
    match hl : rgs.filter (fun r => decide ((r.id : Int) = v)) with
    | [] => rw [hl] at hc; simp at hc
    | [a] => rw [hl] at hc; simp at hc
    | a :: b :: r =>
      rw [hl] at hsub
      have ha : a ∈ rgs.filter (fun r => decide ((r.id : Int) = v)) := by rw [hl]; simp
      have hb : b ∈ rgs.filter (fun r => decide ((r.id : Int) = v)) := by rw [hl]; simp
      simp only [List.mem_filter, decide_eq_true_eq] at ha hb
      simp only [List.map_cons, List.pairwise_cons, List.mem_cons, forall_eq_or_imp] at hsub
      have := hsub.1.1
      omega
  match hl : rgs.filter (fun r => decide ((r.id : Int) = v)) with
  | [] => rw [hl] at hpf; exact hl ▸ hpf.eq_nil
  | [a] => rw [hl] at hpf; exact hl ▸ List.perm_singleton.1 hpf
  | a :: b :: r => rw [hl] at hlen; simp at hlen

/-! ### Interrupted appends -/

theorem coalesce_not {m k : Nat} {rgs : List (RG R)} {data : List R} (start stop : Option Nat)
    (h : ((rgs.map RG.rows).reverse.takeWhile fun l => decide (l.length ≤ m * 9 / 10)).length < k)
    (ht : data.length + (((rgs.map RG.rows).reverse.takeWhile fun l => decide (l.length ≤ m * 9 / 10)).map List.length).sum < m) :
    coalesce m k rgs data.length start stop = start := by
  have htr : ((rgs.map RG.rows).reverse.takeWhile fun l => decide (l.length ≤ m * 9 / 10)) =
      (trailing (m * 9 / 10) rgs).map RG.rows := by
    unfold trailing
    rw [← List.map_reverse, List.takeWhile_map]
    rfl
  rw [htr] at h ht
  rw [List.length_map] at h
  rw [List.map_map] at ht
  have hle : (trailing (m * 9 / 10) rgs).length ≤ rgs.length := by
    have := (List.takeWhile_prefix (fun g : RG R => decide (g.rows.length ≤ m * 9 / 10)) (l := rgs.reverse)).length_le
    simpa [trailing] using this
  unfold coalesce
  simp only
  rw [if_neg]
  have ht' : data.length + ((trailing (m * 9 / 10) rgs).map fun g => g.rows.length).sum < m := ht
  simp only [Bool.or_eq_true, decide_eq_true_eq, not_or, ge_iff_le, not_le]
  omega

theorem append_trace {T : Table R} {p : Params} {rgs rgs' : List (RG R)} {data : List R}
    (hne : rgs ≠ []) (hn : NotCoalesced p.maxRg p.maxNirgs (rgs.map RG.rows) data)
    (hov : p.orderedOn = none ∨ ∃ on, p.orderedOn = some (.col on) ∧
      ∀ x ∈ readRows rgs, ∀ y ∈ data, T.get on x < T.get on y)
    (h : write T p rgs data = .ok rgs') :
    ∃ new, rgs' = rgs ++ new ∧ readRows new = data ∧ (∀ g ∈ rgs, ∀ n ∈ new, n.id ≠ g.id) ∧
      (writeTrace T p rgs data).1 = putRgs new ++ [.putMeta ((rgs ++ new).map RG.id)] := by
  obtain ⟨on, hon, hcase⟩ := write_cases h
  rcases hcase with ⟨rfl, _⟩ | ⟨_, hd, w, hw, hcase⟩
  · exact absurd rfl hne
  have hw1 : w.1 = none := by
    rcases hov with ho | ⟨c, ho, hlt⟩
    · rw [ho] at hon
      simp only [checkOrderedOn, Except.ok.injEq] at hon
      subst hon
      simp only [overlapWindow, Except.ok.injEq] at hw
      subst hw; rfl
    · rw [ho] at hon
      simp only [checkOrderedOn] at hon
      split at hon
      swap
      · simp at hon
      simp only [Except.ok.injEq] at hon
      subst hon
      simp only [overlapWindow] at hw
      cases ha : data.head? with
      | none => rw [ha] at hw; simp at hw
      | some a =>
        cases hb : data.getLast? with
        | none => rw [ha, hb] at hw; simp at hw
        | some b =>
          rw [ha, hb] at hw
          simp only [Except.ok.injEq] at hw
          have hnil : filterRowGroups T c (T.get c a) (T.get c b) rgs = [] := by
            simp only [filterRowGroups, List.map_eq_nil_iff, List.filter_eq_nil_iff]
            intro q hq
            have hmem : q.1 ∈ rgs := by
              have := List.mem_map_of_mem (f := Prod.fst) hq
              rwa [List.zipIdx_map_fst] at this
            by_cases hqe : q.1.rows = []
            · simp [overlaps, rgMin, hqe]
            · intro ho
              obtain ⟨⟨x, hx, hle⟩, _⟩ := (overlaps_iff hqe).1 ho
              have := hlt x (List.mem_flatten.2 ⟨q.1.rows, List.mem_map.2 ⟨q.1, hmem, rfl⟩, hx⟩) a
                (List.mem_of_head? ha)
              omega
          rw [hnil] at hw
          subst hw; rfl
  have hemp : rgs.isEmpty = false := by cases rgs <;> simp_all
  have hd' : (p.dupOn.isSome && on.isNone) = false := by
    cases on with
    | none => simp [hd rfl]
    | some c => simp
  rcases hcase with ⟨_, _, chunks, hit, rfl⟩ | ⟨s, hup, hs⟩
  · refine ⟨numberFrom (nextId rgs) chunks, rfl, ?_, new_ids_fresh _ _, ?_⟩
    · rw [readRows_numberFrom, iter_plain_flatten hit]
    · cases hk : p.maxNirgs with
      | none => simp only [writeTrace, hon, hemp, Bool.false_eq_true, if_false, hd', hw, hk, hw1, hit]
      | some k =>
        cases hm : p.maxRg with
        | none =>
          rename_i hz
          rcases hz with hz | ⟨m, k, hz, _⟩
          · rw [hk] at hz; cases hz
          · rw [hm] at hz; cases hz
        | some m =>
          have hco := coalesce_not w.1 w.2 (hn k m hk hm).1 (hn k m hk hm).2
          rw [hw1] at hco
          rw [hm] at hit
          simp only [writeTrace, hon, hemp, Bool.false_eq_true, if_false, hd', hw, hk, hm, hw1, hit, hco]
  · rcases hs with ⟨_, hs⟩ | ⟨m, k, hm, hk, hs⟩
    · rw [hw1] at hs; cases hs
    · rw [coalesce_not w.1 w.2 (hn k m hk hm).1 (hn k m hk hm).2, hw1] at hs
      cases hs

theorem append_prefix {d : Disk R} {rgs new : List (RG R)} (hh : Holds d rgs)
    (hf : ∀ g ∈ rgs, ∀ n ∈ new, n.id ≠ g.id) {pre : List (Step R)} {ids : List Nat}
    (hp : pre <+: putRgs new ++ [.putMeta ids]) (hlt : pre ≠ putRgs new ++ [.putMeta ids]) :
    Holds (exec d pre) rgs := by
  have hp' : pre <+: putRgs new := by
    rw [List.prefix_concat_iff] at hp
    rcases hp with h | h
    · exact absurd h hlt
    · exact h
  obtain ⟨gs, hgs, rfl⟩ := prefix_putRgs hp'
  refine ⟨by rw [exec_putRgs_md]; exact hh.1, fun g hg => ?_⟩
  rw [exec_putRgs_other _ _ _ (fun n hn => hf g hg n (hgs.subset hn))]
  exact hh.2 g hg

end Oups.Writer
