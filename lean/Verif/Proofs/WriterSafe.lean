import Verif.Proofs.WriterDisk
import Verif.Spec.WriterDisk
/-! At each point of a write, the rows of before or those of after are in the files. -/
namespace Oups.Writer
variable {R : Type}

/-- From a location for each item. -/
theorem saved_of {α : Type} {d : Disk R} {l : List α} {rgs : List (RG R)} (loc : α → File) (row : α → List R)
    (hr : rgs.map RG.rows = l.map row) (hf : ∀ a ∈ l, d.file (loc a) = some (row a)) (hn : l.Nodup)
    (hi : ∀ a ∈ l, ∀ b ∈ l, loc a = loc b → a = b) : Saved d rgs := by
  refine ⟨l.map loc, hn.map_on hi, ?_⟩
  clear hn hi
  induction l generalizing rgs with
  | nil =>
    rw [List.map_nil, List.map_eq_nil_iff] at hr
    subst hr
    exact .nil
  | cons a l ih =>
    cases rgs with
    | nil => simp at hr
    | cons g rgs =>
      rw [List.map_cons, List.map_cons, List.cons.injEq] at hr
      exact .cons ((hf a (by simp)).trans (by rw [hr.1])) (ih hr.2 fun b hb => hf b (by simp [hb]))

theorem saved_parts {d : Disk R} {rgs : List (RG R)} (hn : (rgs.map RG.id).Nodup)
    (h : ∀ g ∈ rgs, d.part g.id = some g.rows) : Saved d rgs :=
  saved_of (l := rgs) (fun g : RG R => .part g.id) RG.rows rfl h hn.of_map
    fun a ha b hb e => List.inj_on_of_nodup_map hn ha hb (File.part.inj e)

theorem Saved.rows {d : Disk R} {rgs rgs' : List (RG R)} (h : Saved d rgs) (he : rgs.map RG.rows = rgs'.map RG.rows) :
    Saved d rgs' := by
  obtain ⟨fs, h1, h2⟩ := h
  refine ⟨fs, h1, ?_⟩
  clear h1
  induction h2 generalizing rgs' with
  | nil =>
    rw [List.map_nil, eq_comm, List.map_eq_nil_iff] at he
    subst he
    exact .nil
  | cons h _ ih =>
    cases rgs' with
    | nil => simp at he
    | cons g rgs' =>
      rw [List.map_cons, List.map_cons, List.cons.injEq] at he
      exact .cons (h.trans (by rw [he.1])) (ih he.2)

theorem pass2_tmp_other (d : Disk R) (m : List (RG R × Nat)) (j : Nat) (h : ∀ p ∈ m, p.2 ≠ j) :
    (exec d (m.map fun p => .fromTmp p.2)).tmp j = d.tmp j := by
  induction m generalizing d with
  | nil => rfl
  | cons q m ih =>
    have h1 := ih (execStep d (.fromTmp q.2)) (fun g hg => h g (by simp [hg]))
    exact h1.trans (by simp [execStep, setAt, (h q (by simp)).symm])

theorem prefix_map {α β : Type} {f : α → β} {l : List α} {pre : List β} (h : pre <+: l.map f) :
    ∃ l', l' <+: l ∧ pre = l'.map f := by
  refine ⟨l.take pre.length, List.take_prefix _ _, ?_⟩
  rw [List.map_take]
  exact List.prefix_iff_eq_take.1 h

theorem prefix_append_cases {α : Type} {a b pre : List α} (h : pre <+: a ++ b) :
    pre <+: a ∨ ∃ c, c <+: b ∧ pre = a ++ c := by
  obtain ⟨t, ht⟩ := h
  rcases List.append_eq_append_iff.1 ht with ⟨a', h1, h2⟩ | ⟨c, h1, h2⟩
  · exact Or.inl ⟨a', h1.symm⟩
  · exact Or.inr ⟨c, ⟨t, h2.symm⟩, h1⟩

/-- During renaming. -/
theorem rename_saved {d : Disk R} {rgs : List (RG R)} (hn : (rgs.map RG.id).Nodup)
    (hh : ∀ g ∈ rgs, d.part g.id = some g.rows) {pre : List (Step R)} (hp : pre <+: renameSteps rgs) :
    Saved (exec d pre) rgs := by
  classical
  have hid : (rgs.zipIdx.map fun p => p.1.id).Nodup := by
    have : (rgs.zipIdx.map fun p => p.1.id) = rgs.map RG.id := by
      rw [show (fun p : RG R × Nat => p.1.id) = RG.id ∘ Prod.fst from rfl, ← List.map_map, List.zipIdx_map_fst]
    rw [this]; exact hn
  have hpos : (rgs.zipIdx.map Prod.snd).Nodup := by
    rw [List.zipIdx_map_snd]; exact List.nodup_range'
  have hinj1 : ∀ p ∈ rgs.zipIdx, ∀ q ∈ rgs.zipIdx, p.1.id = q.1.id → p = q := fun p hp q hq he =>
    List.inj_on_of_nodup_map hid hp hq he
  have hinj2 : ∀ p ∈ rgs.zipIdx, ∀ q ∈ rgs.zipIdx, p.2 = q.2 → p = q := fun p hp q hq he =>
    List.inj_on_of_nodup_map hpos hp hq he
  have hrows : rgs.map RG.rows = rgs.zipIdx.map fun p => p.1.rows := by
    rw [show (fun p : RG R × Nat => p.1.rows) = RG.rows ∘ Prod.fst from rfl, ← List.map_map, List.zipIdx_map_fst]
  have hmem : ∀ p ∈ rgs.zipIdx, p.1 ∈ rgs := fun p hp => by
    have := List.mem_map_of_mem (f := Prod.fst) hp
    rwa [List.zipIdx_map_fst] at this
  have hnd : rgs.zipIdx.Nodup := hpos.of_map
  simp only [renameSteps] at hp
  generalize hm : rgs.zipIdx.filter (fun p => decide (p.1.id ≠ p.2)) = m at hp
  have hsub : ∀ p ∈ m, p ∈ rgs.zipIdx ∧ p.1.id ≠ p.2 := fun p hp => by
    rw [← hm, List.mem_filter] at hp
    simpa using hp
  have hm1 : (m.map fun p => p.1.id).Nodup := hid.sublist (List.Sublist.map _ (hm ▸ List.filter_sublist))
  have hm2 : (m.map Prod.snd).Nodup := hpos.sublist (List.Sublist.map _ (hm ▸ List.filter_sublist))
  rcases prefix_append_cases hp with hp | ⟨c, hc, rfl⟩
  · obtain ⟨m', hm', rfl⟩ := prefix_map hp
    have hs' := hm'.subset
    refine saved_of (l := rgs.zipIdx) (fun p => if p ∈ m' then .tmp p.2 else .part p.1.id) (fun p => p.1.rows) hrows ?_ hnd ?_
    · intro p hp
      by_cases hpm : p ∈ m'
      · rw [if_pos hpm]
        exact (pass1_tmp d m' (hm1.sublist (hm'.sublist.map _)) (hm2.sublist (hm'.sublist.map _)) p hpm).trans (hh _ (hmem p hp))
      · rw [if_neg hpm]
        exact (pass1_part_other d m' p.1.id fun q hq e =>
          hpm (hinj1 q (hsub q (hs' hq)).1 p hp e ▸ hq)).trans (hh _ (hmem p hp))
    · intro p hp q hq e
      by_cases h1 : p ∈ m' <;> by_cases h2 : q ∈ m' <;> simp only [h1, h2, if_true, if_false, reduceCtorEq] at e
      · exact hinj2 p hp q hq (File.tmp.inj e)
      · exact hinj1 p hp q hq (File.part.inj e)
  · obtain ⟨m', hm', rfl⟩ := prefix_map hc
    have hs' := hm'.subset
    rw [exec_append]
    refine saved_of (l := rgs.zipIdx) (fun p => if p ∈ m' then .part p.2 else if p ∈ m then .tmp p.2 else .part p.1.id)
      (fun p => p.1.rows) hrows ?_ hnd ?_
    · intro p hp
      by_cases hpm' : p ∈ m'
      · rw [if_pos hpm']
        refine (pass2_part _ m' (hm2.sublist (hm'.sublist.map _)) p hpm').trans ?_
        exact (pass1_tmp d m hm1 hm2 p (hs' hpm')).trans (hh _ (hmem p hp))
      · rw [if_neg hpm']
        by_cases hpm : p ∈ m
        · rw [if_pos hpm]
          refine (pass2_tmp_other _ m' p.2 fun q hq e => hpm' (hinj2 q (hsub q (hs' hq)).1 p hp e ▸ hq)).trans ?_
          exact (pass1_tmp d m hm1 hm2 p hpm).trans (hh _ (hmem p hp))
        · rw [if_neg hpm]
          have heq : p.1.id = p.2 := by
            by_contra h
            exact hpm (hm ▸ List.mem_filter.2 ⟨hp, by simpa using h⟩)
          refine (pass2_part_other _ m' p.1.id fun q hq e =>
            hpm' (hinj2 q (hsub q (hs' hq)).1 p hp (e.trans heq) ▸ hq)).trans ?_
          exact (pass1_part_other d m p.1.id fun q hq e => hpm (hinj1 q (hsub q hq).1 p hp e ▸ hq)).trans (hh _ (hmem p hp))
    · have hun : ∀ p ∈ rgs.zipIdx, p ∉ m → p.1.id = p.2 := fun p hp hpm => by
        by_contra h
        exact hpm (hm ▸ List.mem_filter.2 ⟨hp, by simpa using h⟩)
      intro p hp q hq e
      by_cases h1 : p ∈ m' <;> by_cases h2 : q ∈ m' <;> by_cases h3 : p ∈ m <;> by_cases h4 : q ∈ m <;>
        simp only [h1, h2, h3, h4, if_true, if_false, reduceCtorEq, File.part.injEq, File.tmp.injEq] at e
      all_goals first
        | exact hinj2 p hp q hq e
        | exact hinj2 p hp q hq (e.trans (hun q hq h4))
        | exact hinj2 p hp q hq ((hun p hp h3).symm.trans e)
        | exact hinj1 p hp q hq e

theorem renumber_rows (rgs : List (RG R)) : (renumber rgs).map RG.rows = rgs.map RG.rows := by
  rw [renumber, List.map_map, show RG.rows ∘ (fun p : RG R × Nat => (⟨p.2, p.1.rows⟩ : RG R)) = RG.rows ∘ Prod.fst from rfl,
    ← List.map_map, List.zipIdx_map_fst]

theorem update_saved {T : Table R} {p : Params} {d : Disk R} {rgs rgs' : List (RG R)} {data on s stop}
    (hh : Holds d rgs) (hi : IdsInc rgs) (he : stop.getD rgs.length ≤ rgs.length)
    (h : writeUpdate T p rgs data on s stop = .ok rgs') {pre : List (Step R)}
    (hp : pre <+: (updateTrace T p rgs data on s stop).1) : Saved (exec d pre) rgs ∨ Saved (exec d pre) rgs' := by
  have hfull := update_holds hh hi he h
  have hlt := update_ok_lt h
  simp only [writeUpdate, bind, Except.bind] at h
  simp only [updateTrace] at hp hfull
  by_cases hem : ((rgs.take (stop.getD rgs.length)).drop s).isEmpty = true
  · simp [hem, throw, throwThe, MonadExceptOf.throw] at h
  simp only [hem, Bool.false_eq_true, if_false, pure, Except.pure] at h hp hfull
  generalize hE : stop.getD rgs.length = e at *
  have key : ∀ chunks (sorted : List (RG R)),
      sorted.Perm ((rgs ++ numberFrom (nextId rgs) chunks).take s ++ (rgs ++ numberFrom (nextId rgs) chunks).drop e) →
      pre <+: putRgs (numberFrom (nextId rgs) chunks) ++
        ((rgs.take e).drop s).map (fun g => .delPart g.id) ++ renameSteps sorted
        ++ [.putMeta ((renumber sorted).map RG.id)] →
      Holds (exec d (putRgs (numberFrom (nextId rgs) chunks) ++
        ((rgs.take e).drop s).map (fun g => .delPart g.id) ++ renameSteps sorted
        ++ [.putMeta ((renumber sorted).map RG.id)])) (renumber sorted) →
      Saved (exec d pre) rgs ∨ Saved (exec d pre) (renumber sorted) := by
    intro chunks sorted hperm hp hfull
    have hnd := (ids_append_new chunks hi).nodup
    have hsp : rgs ++ numberFrom (nextId rgs) chunks = rgs.take s ++ (rgs.take e).drop s ++
        (rgs.drop e ++ numberFrom (nextId rgs) chunks) := by
      rw [← List.append_assoc, ← take_drop_split rgs (le_of_lt hlt.1)]
    have htk : (rgs ++ numberFrom (nextId rgs) chunks).take s = rgs.take s := by
      rw [List.take_append_of_le_length (by omega)]
    have hdr : (rgs ++ numberFrom (nextId rgs) chunks).drop e = rgs.drop e ++ numberFrom (nextId rgs) chunks := by
      rw [List.drop_append_of_le_length he]
    rw [htk, hdr] at hperm
    have hsnd : (sorted.map RG.id).Nodup := by
      rw [(hperm.map RG.id).nodup_iff]
      refine hnd.sublist (List.Sublist.map _ ?_)
      rw [hsp, List.append_assoc]
      exact List.Sublist.append (List.Sublist.refl _) (List.sublist_append_right _ _)
    -- files of kept and new row groups, whatever has been removed
    have hkept : ∀ gs, gs <+: (rgs.take e).drop s → ∀ g ∈ sorted,
        (exec d (putRgs (numberFrom (nextId rgs) chunks) ++ gs.map fun g => .delPart g.id)).part g.id = some g.rows := by
      intro gs hgs g' hg'
      have hg2 := hperm.mem_iff.1 hg'
      rw [exec_append, exec_del_other]
      · by_cases hnew : g' ∈ numberFrom (nextId rgs) chunks
        · exact exec_putRgs_mem _ _ (numberFrom_ids _ _) g' hnew
        · have hold : g' ∈ rgs := by
            rcases List.mem_append.1 hg2 with h | h
            · exact List.mem_of_mem_take h
            · rcases List.mem_append.1 h with h | h
              · exact List.mem_of_mem_drop h
              · exact absurd h hnew
          rw [exec_putRgs_other _ _ _ (fun n hn => new_ids_fresh rgs chunks g' hold n hn)]
          exact hh.2 g' hold
      · intro r hr heq
        have hr := hgs.subset hr
        rw [hsp, List.map_append, List.map_append] at hnd
        obtain ⟨h1, h2, h3⟩ := List.nodup_append.1 hnd
        obtain ⟨_, _, h4⟩ := List.nodup_append.1 h1
        have hrid : r.id ∈ ((rgs.take e).drop s).map RG.id := List.mem_map.2 ⟨r, hr, rfl⟩
        rcases List.mem_append.1 hg2 with h | h
        · exact h4 g'.id (List.mem_map.2 ⟨g', h, rfl⟩) r.id hrid heq.symm
        · exact h3 r.id (List.mem_append_right _ hrid) g'.id (List.mem_map.2 ⟨g', h, rfl⟩) heq
    have hren := renumber_rows sorted
    rcases List.prefix_concat_iff.1 hp with rfl | hp
    · exact Or.inr (saved_parts (by simp [renumber, List.map_map, Function.comp_def, List.nodup_range', List.zipIdx_map_snd]) hfull.2)
    · rcases prefix_append_cases hp with hp | ⟨c, hc, rfl⟩
      · rcases prefix_append_cases hp with hp | ⟨c, hc, rfl⟩
        · left
          obtain ⟨gs, hgs, rfl⟩ := prefix_putRgs hp
          refine saved_parts hi.nodup fun g hg => ?_
          rw [exec_putRgs_other _ _ _ fun n hn => new_ids_fresh rgs chunks g hg n (hgs.subset hn)]
          exact hh.2 g hg
        · right
          obtain ⟨gs, hgs, rfl⟩ := prefix_map hc
          exact (saved_parts hsnd (hkept gs hgs)).rows hren.symm
      · right
        rw [exec_append]
        exact (rename_saved hsnd (hkept _ (List.prefix_refl _)) hc).rows hren.symm
  cases on with
  | none =>
    simp only at h hp hfull
    cases hit : iterDataframe T (readRows ((rgs.take e).drop s) ++ data) true p.maxRg none p.dupOn with
    | error e => rw [hit] at h; simp at h
    | ok chunks =>
      rw [hit] at h hp hfull
      simp only [Except.ok.injEq] at h
      subst h
      cases stop <;> exact key chunks _ (List.Perm.refl _) hp hfull
  | some c =>
    simp only at h hp hfull
    cases hit : iterDataframe T (stableSort (T.get c) (readRows ((rgs.take e).drop s) ++ data)) true p.maxRg
        (some c) p.dupOn with
    | error e => rw [hit] at h; simp at h
    | ok chunks =>
      rw [hit] at h hp hfull
      simp only [Except.ok.injEq] at h
      subst h
      cases stop with
      | none => exact key chunks _ (List.Perm.refl _) hp hfull
      | some e => exact key chunks _ (stableSort_perm _ _) hp hfull

theorem append_saved {d : Disk R} {rgs : List (RG R)} (chunks : List (List R)) (hh : Holds d rgs) (hi : IdsInc rgs)
    {pre : List (Step R)} (hp : pre <+: putRgs (numberFrom (nextId rgs) chunks) ++
      [.putMeta ((rgs ++ numberFrom (nextId rgs) chunks).map RG.id)]) : Saved (exec d pre) rgs := by
  refine saved_parts hi.nodup fun g hg => ?_
  rcases List.prefix_concat_iff.1 hp with rfl | hp
  · exact (exec_append_holds chunks hh).2 g (List.mem_append_left _ hg)
  · obtain ⟨gs, hgs, rfl⟩ := prefix_putRgs hp
    rw [exec_putRgs_other _ _ _ fun n hn => new_ids_fresh rgs chunks g hg n (hgs.subset hn)]
    exact hh.2 g hg

theorem write_saved {T : Table R} {p : Params} {d : Disk R} {rgs rgs' : List (RG R)} {data}
    (hh : rgs ≠ [] → Holds d rgs) (hi : IdsInc rgs) (h : write T p rgs data = .ok rgs') {pre : List (Step R)}
    (hp : pre <+: (writeTrace T p rgs data).1) : Saved (exec d pre) rgs ∨ Saved (exec d pre) rgs' := by
  obtain ⟨on, hon, hcase⟩ := write_cases h
  simp only [writeTrace, hon] at hp
  rcases hcase with ⟨rfl, chunks, hit, rfl⟩ | ⟨hne, hd, w, hw, hcase⟩
  · exact Or.inl ⟨[], List.nodup_nil, .nil⟩
  · have hemp : rgs.isEmpty = false := by cases rgs <;> simp_all
    have hd' : (p.dupOn.isSome && on.isNone) = false := by
      cases on with
      | none => simp [hd rfl]
      | some c => simp
    simp only [hemp, Bool.false_eq_true, if_false, hd', hw] at hp
    rcases hcase with ⟨hw1, hs, chunks, hit, rfl⟩ | ⟨s, hup, hs⟩
    · left
      rcases hs with hn | ⟨m, k, hm, hn, hco⟩
      · simp only [hn, hw1, hit] at hp
        exact append_saved chunks (hh hne) hi hp
      · rw [hm] at hit
        simp only [hn, hm, hco, hit] at hp
        exact append_saved chunks (hh hne) hi hp
    · rcases hs with ⟨hn, hw1⟩ | ⟨m, k, hm, hn, hco⟩
      · simp only [hn, hw1] at hp
        exact update_saved (hh hne) hi (overlapWindow_le hw) hup hp
      · simp only [hn, hm, hco] at hp
        exact update_saved (hh hne) hi (overlapWindow_le hw) hup hp

theorem del_shape (a : List (Step R)) (g : RG R) (gs : List (RG R)) (b c : List (Step R)) :
    ∃ rest, a ++ (g :: gs).map (fun g => .delPart g.id) ++ b ++ c = a ++ .delPart g.id :: rest :=
  ⟨gs.map (fun g => .delPart g.id) ++ b ++ c, by simp⟩

/-- A write on an existing dataset starts with new files, then either replaces `_metadata`, or removes a file. -/
theorem trace_shape {T : Table R} {p : Params} {rgs rgs' : List (RG R)} {data} (hne : rgs ≠ [])
    (h : write T p rgs data = .ok rgs') : ∃ chunks rest,
      (writeTrace T p rgs data).1 = putRgs (numberFrom (nextId rgs) chunks) ++ rest ∧
        ((∃ ids, rest = [.putMeta ids]) ∨ ∃ i rest', rest = .delPart i :: rest') := by
  have hup : ∀ on s stop, writeUpdate T p rgs data on s stop = .ok rgs' → ∃ chunks rest,
      (updateTrace T p rgs data on s stop).1 = putRgs (numberFrom (nextId rgs) chunks) ++ rest ∧
        ((∃ ids, rest = [.putMeta ids]) ∨ ∃ i rest', rest = .delPart i :: rest') := by
    intro on s stop h
    simp only [writeUpdate, bind, Except.bind] at h
    simp only [updateTrace]
    cases hem : (rgs.take (stop.getD rgs.length)).drop s with
    | nil => simp [hem, throw, throwThe, MonadExceptOf.throw] at h
    | cons g gs =>
      rw [hem] at h
      simp only [List.isEmpty_cons, Bool.false_eq_true, if_false, pure, Except.pure] at h ⊢
      cases on with
      | none =>
        simp only at h ⊢
        cases hit : iterDataframe T (readRows (g :: gs) ++ data) true p.maxRg none p.dupOn with
        | error e => rw [hit] at h; simp at h
        | ok chunks =>
          obtain ⟨rest', hr⟩ := del_shape (putRgs (numberFrom (nextId rgs) chunks)) g gs _ _
          exact ⟨chunks, _, hr, Or.inr ⟨g.id, rest', rfl⟩⟩
      | some c =>
        simp only at h ⊢
        cases hit : iterDataframe T (stableSort (T.get c) (readRows (g :: gs) ++ data)) true p.maxRg (some c) p.dupOn with
        | error e => rw [hit] at h; simp at h
        | ok chunks =>
          obtain ⟨rest', hr⟩ := del_shape (putRgs (numberFrom (nextId rgs) chunks)) g gs _ _
          exact ⟨chunks, _, hr, Or.inr ⟨g.id, rest', rfl⟩⟩
  obtain ⟨on, hon, hcase⟩ := write_cases h
  simp only [writeTrace, hon]
  rcases hcase with ⟨rfl, -⟩ | ⟨-, hd, w, hw, hcase⟩
  · exact absurd rfl hne
  · have hemp : rgs.isEmpty = false := by cases rgs <;> simp_all
    have hd' : (p.dupOn.isSome && on.isNone) = false := by
      cases on with
      | none => simp [hd rfl]
      | some c => simp
    simp only [hemp, Bool.false_eq_true, if_false, hd', hw]
    rcases hcase with ⟨hw1, hs, chunks, hit, rfl⟩ | ⟨s, h2, hs⟩
    · rcases hs with hn | ⟨m, k, hm, hn, hco⟩
      · simp only [hn, hw1, hit]
        exact ⟨chunks, _, rfl, Or.inl ⟨_, rfl⟩⟩
      · rw [hm] at hit
        simp only [hn, hm, hco, hit]
        exact ⟨chunks, _, rfl, Or.inl ⟨_, rfl⟩⟩
    · rcases hs with ⟨hn, hw1⟩ | ⟨m, k, hm, hn, hco⟩
      · simp only [hn, hw1]
        exact hup _ _ _ h2
      · simp only [hn, hm, hco]
        exact hup _ _ _ h2

theorem before_removal {T : Table R} {p : Params} {d : Disk R} {rgs rgs' : List (RG R)} {data} (hh : Holds d rgs)
    (hne : rgs ≠ []) (h : write T p rgs data = .ok rgs') {pre : List (Step R)} (hp : pre <+: (writeTrace T p rgs data).1)
    (hlt : pre ≠ (writeTrace T p rgs data).1) (hdel : ∀ i, .delPart i ∉ pre) : Holds (exec d pre) rgs := by
  obtain ⟨chunks, rest, ht, hr⟩ := trace_shape hne h
  rw [ht] at hp hlt
  have hpre : pre <+: putRgs (numberFrom (nextId rgs) chunks) := by
    rcases prefix_append_cases hp with hp | ⟨c, hc, rfl⟩
    · exact hp
    · cases c with
      | nil => simp
      | cons a c =>
        rcases hr with ⟨ids, rfl⟩ | ⟨i, rest', rfl⟩
        · rw [List.cons_prefix_cons, List.prefix_nil] at hc
          exact absurd (by rw [hc.1, hc.2]) hlt
        · rw [List.cons_prefix_cons] at hc
          exact absurd (by simp [hc.1]) (hdel i)
  obtain ⟨gs, hgs, rfl⟩ := prefix_putRgs hpre
  refine ⟨by rw [exec_putRgs_md]; exact hh.1, fun g hg => ?_⟩
  rw [exec_putRgs_other _ _ _ fun n hn => new_ids_fresh rgs chunks g hg n (hgs.subset hn)]
  exact hh.2 g hg

end Oups.Writer
