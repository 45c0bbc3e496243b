import Verif.Props.WriteWhen
/-! Property C17: the row groups that a write with `duplicates_on` rewrites, on any layout. -/
set_option linter.unusedSimpArgs false
namespace Oups.Writer
variable {R : Type}

/-- Row groups of an update: those outside the window, and the pieces of the merged rows. -/
theorem update_groups {T : Table R} {p : Params} {rgs rgs' : List (RG R)} {data : List R} {c : Col} {s stop} {d : DupOn}
    (hc : c ∈ T.cols) (hdup : p.dupOn = some d) (he : stop.getD rgs.length ≤ rgs.length)
    (h : writeUpdate T p rgs data (some c) s stop = .ok rgs') :
    s < stop.getD rgs.length ∧ ∃ news : List (List R),
      (rgs'.map RG.rows).Perm ((rgs.take s).map RG.rows ++ news ++ (rgs.drop (stop.getD rgs.length)).map RG.rows) ∧
      OrderedLayout (T.get c) news ∧
      news.flatten = dropDupLast (T.key (dupCols T.cols c d))
        (stableSort (T.get c) (readRows ((rgs.take (stop.getD rgs.length)).drop s) ++ data)) := by
  have hlt := (update_ok_lt h)
  refine ⟨hlt.1, ?_⟩
  simp only [writeUpdate] at h
  by_cases hem : ((rgs.take (stop.getD rgs.length)).drop s).isEmpty = true
  · simp [hem, bind, Except.bind, throw, throwThe, MonadExceptOf.throw] at h
  simp only [hem, Bool.false_eq_true, if_false, bind, Except.bind, hdup, pure, Except.pure] at h
  generalize hE : stop.getD rgs.length = e at *
  cases hit : iterDataframe T (stableSort (T.get c) (readRows ((rgs.take e).drop s) ++ data)) true p.maxRg
      (some c) (some d) with
  | error e => rw [hit] at h; simp at h
  | ok chunks =>
    rw [hit] at h
    simp only [Except.ok.injEq] at h
    subst h
    obtain ⟨hlay, hfl⟩ := iter_sharp_layout hc (stableSort_sorted _ _) hit
    refine ⟨chunks, ?_, hlay, hfl⟩
    have hne : chunks.filter (fun c => !c.isEmpty) = chunks := by
      rw [List.filter_eq_self]
      intro x hx
      have := (hlay.1 x hx).1
      simpa using this
    have hkept : ((writeRowGroups rgs chunks).take s ++ (writeRowGroups rgs chunks).drop e) =
        rgs.take s ++ (rgs.drop e ++ numberFrom (nextId rgs) chunks) := by
      rw [writeRowGroups, List.take_append_of_le_length (by omega), List.drop_append_of_le_length he]
    have hrows : (rgs.take s ++ (rgs.drop e ++ numberFrom (nextId rgs) chunks)).map RG.rows =
        (rgs.take s).map RG.rows ++ ((rgs.drop e).map RG.rows ++ chunks) := by
      have := numberFrom_rows (nextId rgs) chunks
      rw [hne] at this
      simp only [rowsOf] at this
      simp [this]
    have hperm : ∀ sorted : List (RG R),
        sorted.Perm ((writeRowGroups rgs chunks).take s ++ (writeRowGroups rgs chunks).drop e) →
        ((renumber sorted).map RG.rows).Perm ((rgs.take s).map RG.rows ++ chunks ++ (rgs.drop e).map RG.rows) := by
      intro sorted hs
      have h1 := rowsOf_renumber sorted
      simp only [rowsOf] at h1
      rw [h1]
      refine (hs.map RG.rows).trans ?_
      rw [hkept, hrows, List.append_assoc]
      exact List.Perm.append_left _ List.perm_append_comm
    apply hperm
    cases stop with
    | none => exact List.Perm.refl _
    | some e => exact stableSort_perm _ _

/-- What touches the new rows is in the window. -/
theorem window_holds {n : Nat} {idxs : List Nat} (hs : idxs.Pairwise (· < ·)) (hlt : ∀ i ∈ idxs, i < n) {s : Nat}
    (hw : (windowOf n idxs).1 = some s) : s ∈ idxs ∧ ∀ i ∈ idxs, s ≤ i ∧ i < (windowOf n idxs).2.getD n := by
  match idxs with
  | [] => simp [windowOf] at hw
  | [i] =>
    simp only [windowOf, Option.some.injEq] at hw
    subst hw
    simpa [windowOf] using hlt
  | i :: j :: rest =>
    simp only [windowOf, Option.some.injEq] at hw
    subst hw
    refine ⟨List.mem_cons_self, fun x hx => ⟨?_, ?_⟩⟩
    · rcases List.mem_cons.1 hx with rfl | hx
      · exact Nat.le_refl _
      · exact Nat.le_of_lt ((List.pairwise_cons.1 hs).1 x hx)
    · have hlast : ∀ y ∈ i :: j :: rest, y ≤ (j :: rest).getLast (by simp) := by
        intro y hy
        have hl : (i :: j :: rest).getLast (by simp) = (j :: rest).getLast (by simp) := List.getLast_cons _
        rw [← hl]
        have hd := List.dropLast_append_getLast (l := i :: j :: rest) (by simp)
        rw [← hd] at hs hy
        rcases List.mem_append.1 hy with h | h
        · exact Nat.le_of_lt ((List.pairwise_append.1 hs).2.2 y h _ (List.mem_singleton.2 rfl))
        · exact Nat.le_of_eq (List.mem_singleton.1 h)
      have h1 := hlast x hx
      have h2 := hlt x hx
      simp only [windowOf]
      split
      · simpa using h2
      · simp only [Option.getD_some]; omega

theorem window_last {n : Nat} {idxs : List Nat} {e : Nat} (hw : (windowOf n idxs).2 = some e) : 0 < e ∧ e - 1 ∈ idxs := by
  match idxs with
  | [] => simp [windowOf] at hw
  | [i] => simp [windowOf] at hw
  | i :: j :: rest =>
    simp only [windowOf] at hw
    split at hw
    · cases hw
    · simp only [Option.some.injEq] at hw
      subst hw
      exact ⟨by omega, List.mem_cons_of_mem _ (by simpa using List.getLast_mem (l := j :: rest) (by simp))⟩

theorem coalesce_start {m k n s s' : Nat} {rgs : List (RG R)} {stop : Option Nat} (hs : 0 < s)
    (h : coalesce m k rgs n (some s) stop = some s') : s' ≤ s := by
  obtain ⟨s, rfl⟩ : ∃ t, s = t + 1 := ⟨s - 1, by omega⟩
  simp only [coalesce] at h
  split at h
  · cases stop with
    | none =>
      simp only [Option.some.injEq] at h
      omega
    | some e =>
      simp only at h
      split at h <;> simp only [Option.some.injEq] at h <;> omega
  · simp only [Option.some.injEq] at h
    omega

/-- **C17** On any dataset, ordered or not: when new rows touch row groups (with `max_nirgs`, not the first one), consecutive row groups
`W` are rewritten, among which those touched. They begin with one of those (without `max_nirgs`), and end with one of those or with the
dataset. Others are kept as they are. In the rewritten ones, which are ordered and do not share
values, each identifier has one row, the last of those of `W` followed by the new rows, and no identifier is lost nor added. -/
theorem C17_window {T : Table R} {p : Params} {on : Col} {d : DupOn} {rgs rgs' : List (RG R)} {data : List R}
    (hp : p.orderedOn = some (.col on)) (hd : p.dupOn = some d)
    (ht : ∃ g ∈ rgs, Touches (T.get on) data g.rows)
    (hn : p.maxNirgs = none ∨ ∀ g, rgs.head? = some g → ¬ Touches (T.get on) data g.rows)
    (h : write T p rgs data = .ok rgs') :
    ∃ (A W B : List (RG R)) (news : List (List R)), rgs = A ++ W ++ B ∧ (∀ g ∈ A ++ B, ¬ Touches (T.get on) data g.rows) ∧
      (p.maxNirgs = none → ∃ g, W.head? = some g ∧ Touches (T.get on) data g.rows) ∧
      (B ≠ [] → ∃ g, W.getLast? = some g ∧ Touches (T.get on) data g.rows) ∧
      (rgs'.map RG.rows).Perm (A.map RG.rows ++ news ++ B.map RG.rows) ∧ OrderedLayout (T.get on) news ∧
      ∀ u, news.flatten.filter (fun r => T.key (dupCols T.cols on d) r = u) =
        ((readRows W ++ data).filter (fun r => T.key (dupCols T.cols on d) r = u)).getLast?.toList := by
  obtain ⟨g0, hg0, ht0⟩ := ht
  obtain ⟨a, ha⟩ : ∃ a, data.head? = some a := by obtain ⟨⟨_, _, a, ha, _⟩, _⟩ := ht0; exact ⟨a, ha⟩
  obtain ⟨b, hb⟩ : ∃ b, data.getLast? = some b := by obtain ⟨_, _, _, b, hb, _⟩ := ht0; exact ⟨b, hb⟩
  obtain ⟨o, ho, hcase⟩ := write_cases h
  have hon : on ∈ T.cols ∧ o = some on := by
    rw [hp] at ho
    simp only [checkOrderedOn] at ho
    split at ho
    · simp only [Except.ok.injEq] at ho
      exact ⟨by assumption, ho.symm⟩
    · simp at ho
  obtain ⟨hon, rfl⟩ := hon
  rcases hcase with ⟨rfl, _⟩ | ⟨_, _, w, hw, hcase⟩
  · cases hg0
  have hle := overlapWindow_le hw
  simp only [overlapWindow, ha, hb, Except.ok.injEq] at hw
  have hsorted : (filterRowGroups T on (T.get on a) (T.get on b) rgs).Pairwise (· < ·) := by
    have h1 : (rgs.zipIdx.map Prod.snd).Pairwise (· < ·) := by
      rw [List.zipIdx_map_snd]; exact List.pairwise_lt_range'
    exact h1.sublist (List.Sublist.map _ (List.filter_sublist))
  have hmem : ∀ i, i ∈ filterRowGroups T on (T.get on a) (T.get on b) rgs ↔
      ∃ g, rgs[i]? = some g ∧ Touches (T.get on) data g.rows := by
    intro i
    rw [mem_filterRowGroups]
    simp only [overlaps_touches ha hb]
  obtain ⟨i0, hi0⟩ := List.mem_iff_getElem?.1 hg0
  have hi0 := (hmem i0).2 ⟨g0, hi0, ht0⟩
  obtain ⟨s, hs⟩ : ∃ s, w.1 = some s := by
    rw [← hw]
    match filterRowGroups T on (T.get on a) (T.get on b) rgs, hi0 with
    | [i], _ => exact ⟨i, rfl⟩
    | i :: j :: rest, _ => exact ⟨i, rfl⟩
  have hwin := window_holds hsorted (fun i hi => filterRowGroups_lt i hi) (s := s) (by rw [hw]; exact hs)
  rw [hw] at hwin
  have hend : ∀ e, w.2 = some e → 0 < e ∧ e - 1 ∈ filterRowGroups T on (T.get on a) (T.get on b) rgs :=
    fun e he => window_last (by rw [hw]; exact he)
  rcases hcase with ⟨hnone, _⟩ | ⟨s', hup, hst⟩
  · rw [hs] at hnone; cases hnone
  have hss : s' ≤ s := by
    rcases hst with ⟨_, h1⟩ | ⟨m, k, _, hk, hco⟩
    · rw [hs] at h1
      simp only [Option.some.injEq] at h1
      omega
    · rcases hn with hn | hn
      · rw [hk] at hn; cases hn
      · rw [hs] at hco
        refine coalesce_start (Nat.pos_of_ne_zero fun h0 => ?_) hco
        subst h0
        obtain ⟨g, h1, h2⟩ := (hmem 0).1 hwin.1
        exact hn g (by rw [List.head?_eq_getElem?]; exact h1) h2
  obtain ⟨hlt, news, hperm, hlay, hfl⟩ := update_groups hon hd hle hup
  refine ⟨rgs.take s', (rgs.take (w.2.getD rgs.length)).drop s', rgs.drop (w.2.getD rgs.length), news,
    take_drop_split rgs hlt.le, ?_, fun hm => ?_, fun hB => ?_, hperm, hlay, fun u => ?_⟩
  · intro g hg htg
    rcases List.mem_append.1 hg with hg | hg
    · obtain ⟨i, hi⟩ := List.mem_iff_getElem?.1 hg
      rw [List.getElem?_take] at hi
      split at hi
      · have := (hwin.2 i ((hmem i).2 ⟨g, hi, htg⟩)).1
        omega
      · cases hi
    · obtain ⟨i, hi⟩ := List.mem_iff_getElem?.1 hg
      rw [List.getElem?_drop] at hi
      have := (hwin.2 _ ((hmem _).2 ⟨g, hi, htg⟩)).2
      omega
  · obtain ⟨g, h1, h2⟩ := (hmem s).1 hwin.1
    rcases hst with ⟨_, h3⟩ | ⟨m, k, _, hk, _⟩
    · rw [hs] at h3
      simp only [Option.some.injEq] at h3
      subst h3
      exact ⟨g, by rw [List.head?_eq_getElem?, List.getElem?_drop, List.getElem?_take, if_pos (by omega)]; simpa using h1, h2⟩
    · rw [hk] at hm; cases hm
  · cases he : w.2 with
    | none => simp [he] at hB
    | some e =>
      obtain ⟨h0, h1⟩ := hend e he
      obtain ⟨g, h1, h2⟩ := (hmem _).1 h1
      simp only [he, Option.getD_some] at hlt hle
      refine ⟨g, ?_, h2⟩
      simp only [Option.getD_some]
      rw [List.getLast?_eq_getElem?, List.getElem?_drop, List.getElem?_take, List.length_drop, List.length_take,
        Nat.min_eq_left hle, if_pos (by omega), show s' + (e - s' - 1) = e - 1 by omega]
      exact h1
  · rw [hfl, dropDupLast_filter]
    congr 2
    by_cases hu : ∃ x ∈ readRows ((rgs.take (w.2.getD rgs.length)).drop s') ++ data, T.key (dupCols T.cols on d) x = u
    · obtain ⟨x, _, rfl⟩ := hu
      refine stableSort_filter _ _ (T.get on x) (fun r hr => ?_) _
      simp only [decide_eq_true_eq] at hr
      exact dupCols_sep hon hr
    · have hx : ∀ x, x ∈ readRows ((rgs.take (w.2.getD rgs.length)).drop s') ++ data → ¬ T.key (dupCols T.cols on d) x = u :=
        fun x hx he => hu ⟨x, hx, he⟩
      rw [List.filter_eq_nil_iff.2 fun x hm => by simpa using hx x ((mem_stableSort _ _ _).1 hm),
        List.filter_eq_nil_iff.2 fun x hm => by simpa using hx x hm]

/-- Rows that are not ordered, with a duplicate in a row group: the row group touched and those after it are rewritten. -/
example : write exT { orderedOn := some (.col 0), dupOn := some (.one 0), maxRg := some 2 }
      [⟨0, exRows [9, 9]⟩, ⟨1, exRows [4, 2]⟩] [(4, 70)] =
    .ok [⟨0, exRows [9, 9]⟩, ⟨1, [(2, 1)]⟩, ⟨2, [(4, 70)]⟩] ∧
    Touches (exT.get 0) [(4, 70)] (exRows [4, 2]) ∧ ¬ Touches (exT.get 0) [(4, 70)] (exRows [9, 9]) := by
  refine ⟨by decide +kernel, by simp [Touches, exRows, exT], by simp [Touches, exRows, exT]⟩

end Oups.Writer
