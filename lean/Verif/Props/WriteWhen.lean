import Verif.Spec.WriteWhen
import Verif.Props.Writer
/-! Properties C14 and C17: the writes that succeed, exactly. -/
set_option linter.unusedSimpArgs false
namespace Oups.Writer
variable {R : Type}

theorem trailing_le (m : Nat) (rgs : List (RG R)) : (trailing m rgs).length ≤ rgs.length := by
  have := (List.takeWhile_prefix (fun g : RG R => decide (g.rows.length ≤ m)) (l := rgs.reverse)).length_le
  simpa [trailing] using this

/-- Nothing incomplete at the end: the last row group is complete. -/
theorem trailing_nil_iff {m : Nat} {rgs : List (RG R)} (hne : rgs ≠ []) :
    (trailing m rgs).length = 0 ↔ ∃ l, (rgs.map RG.rows).getLast? = some l ∧ m < l.length := by
  obtain ⟨A, g, rfl⟩ : ∃ A g, rgs = A ++ [g] := ⟨rgs.dropLast, rgs.getLast hne, (List.dropLast_append_getLast hne).symm⟩
  rw [List.length_eq_zero_iff, trailing, List.reverse_append]
  simp only [List.reverse_cons, List.reverse_nil, List.nil_append, List.cons_append, List.takeWhile_cons, List.map_append,
    List.map_cons, List.map_nil, List.getLast?_append, List.getLast?_singleton, Option.some_or, Option.some.injEq]
  by_cases h : g.rows.length ≤ m
  · simp only [h, decide_true, if_true]
    simp only [reduceCtorEq, false_iff, not_exists, not_and]
    rintro l rfl; omega
  · simp only [h, decide_false, Bool.false_eq_true, if_false, true_iff]
    exact ⟨_, rfl, by omega⟩

/-- Row groups to merge with exist, unless coalescing is decided with nothing incomplete at the end, and no row group or the
first one overlaps with the new rows. -/
theorem start_in_window {m k n : Nat} {rgs : List (RG R)} {idxs : List Nat} (hne : rgs ≠ []) (hs : idxs.Pairwise (· < ·))
    (hlt : ∀ i ∈ idxs, i < rgs.length) (hm : 0 < m) :
    (∀ s, coalesce m k rgs n (windowOf rgs.length idxs).1 (windowOf rgs.length idxs).2 = some s →
      s < (windowOf rgs.length idxs).2.getD rgs.length) ↔
    ((trailing (m * 9 / 10) rgs).length = 0 → m ≤ n ∨ k = 0 →
      idxs ≠ [] ∧ (0 ∈ idxs → idxs ≠ [0] ∧ rgs.length - 1 ∉ idxs)) := by
  have hle := trailing_le (m * 9 / 10) rgs
  have hpos : 0 < rgs.length := List.length_pos_iff.2 hne
  have hz : (trailing (m * 9 / 10) rgs).length = 0 → ((trailing (m * 9 / 10) rgs).map fun g => g.rows.length).sum = 0 := by
    intro h; rw [List.length_eq_zero_iff.1 h]; rfl
  simp only [coalesce]
  generalize hT : (trailing (m * 9 / 10) rgs).length = t at *
  generalize hS : ((trailing (m * 9 / 10) rgs).map fun g => g.rows.length).sum = u at *
  generalize rgs.length = N at *
  simp only [Bool.or_eq_true, decide_eq_true_eq, ge_iff_le]
  match idxs with
  | [] =>
    simp only [windowOf]
    by_cases hc : m ≤ n + u ∨ k ≤ N - (N - t)
    · simp only [hc, if_true, Option.some.injEq, forall_eq', Option.getD_none]
      constructor
      · intro h h0 _; omega
      · intro h
        by_contra hcon
        have h0 : t = 0 := by omega
        have := hz h0
        have := (h h0 (by omega)).1
        simp at this
    · simp only [hc, if_false, reduceCtorEq, false_implies, implies_true, true_iff]
      intro h0 h1
      have := hz h0
      omega
  | [i] =>
    have hi := hlt i (by simp)
    simp only [windowOf]
    cases i with
    | zero =>
      by_cases hc : m ≤ n + u ∨ k ≤ N - (N - t)
      · simp only [hc, if_true, Option.some.injEq, forall_eq', Option.getD_none]
        constructor
        · intro h h0 _; omega
        · intro h
          by_contra hcon
          have h0 : t = 0 := by omega
          have := hz h0
          have := ((h h0 (by omega)).2 (by simp)).1
          simp at this
      · simp only [hc, if_false, Option.some.injEq, forall_eq', Option.getD_none]
        constructor
        · intro _ h0 h1
          have := hz h0
          omega
        · intro _; exact hi
    | succ i =>
      by_cases hc : m ≤ n + u ∨ k ≤ N - (N - t)
      · simp only [hc, if_true, Option.some.injEq, forall_eq', Option.getD_none]
        constructor
        · intro _ _ _; simp
        · intro _; omega
      · simp only [hc, if_false, Option.some.injEq, forall_eq', Option.getD_none]
        constructor
        · intro _ _ _; simp
        · intro _; exact hi
  | i :: j :: rest =>
    have hi := hlt i (by simp)
    have hlast := List.getLast_mem (l := j :: rest) (by simp)
    have hL := hlt _ (List.mem_cons_of_mem i hlast)
    have hiL := (List.pairwise_cons.1 hs).1 _ hlast
    have hmax : ∀ x ∈ i :: j :: rest, x ≤ (j :: rest).getLast (by simp) := by
      intro x hx
      rcases List.mem_cons.1 hx with rfl | hx
      · exact hiL.le
      · have hd := List.dropLast_append_getLast (l := j :: rest) (by simp)
        rw [← hd] at hx
        rcases List.mem_append.1 hx with hx | hx
        · have hp := (List.pairwise_cons.1 hs).2
          rw [← hd] at hp
          exact ((List.pairwise_append.1 hp).2.2 x hx _ (by simp)).le
        · rw [List.mem_singleton.1 hx]
    have hmem : N - 1 ∈ i :: j :: rest ↔ (j :: rest).getLast (by simp) + 1 = N := by
      constructor
      · intro h; have := hmax _ h; omega
      · intro h
        have : N - 1 = (j :: rest).getLast (by simp) := by omega
        rw [this]; exact List.mem_cons_of_mem _ hlast
    rw [hmem]
    simp only [windowOf]
    generalize (j :: rest).getLast (by simp) = L at *
    have h0i : 0 ∈ i :: j :: rest ↔ i = 0 := by
      constructor
      · intro h
        rcases List.mem_cons.1 h with h | h
        · exact h.symm
        · have := (List.pairwise_cons.1 hs).1 _ h; omega
      · rintro rfl; simp
    rw [h0i]
    by_cases hN : L + 1 = N
    · simp only [hN, if_true, not_true_eq_false, and_false]
      cases i with
      | zero =>
        by_cases hc : m ≤ n + u ∨ k ≤ N - (N - t)
        · simp only [hc, if_true, Option.some.injEq, forall_eq', Option.getD_none]
          constructor
          · intro h h0 _; omega
          · intro h
            by_contra hcon
            have h0 : t = 0 := by omega
            have := hz h0
            exact (h h0 (by omega)).2 trivial
        · simp only [hc, if_false, Option.some.injEq, forall_eq', Option.getD_none]
          constructor
          · intro _ h0 h1
            have := hz h0
            omega
          · intro _; exact hi
      | succ i =>
        by_cases hc : m ≤ n + u ∨ k ≤ N - (N - t)
        · simp only [hc, if_true, Option.some.injEq, forall_eq', Option.getD_none]
          constructor
          · intro _ _ _; simp
          · intro _; omega
        · simp only [hc, if_false, Option.some.injEq, forall_eq', Option.getD_none]
          constructor
          · intro _ _ _; simp
          · intro _; exact hi
    · simp only [hN, if_false, not_false_eq_true, and_true]
      constructor
      · intro _ _ _; simp
      · intro _ s hs'
        rw [Option.getD_some]
        split at hs'
        · cases i with
          | zero => have : 0 = s := Option.some.inj hs'; omega
          | succ i =>
            simp only at hs'
            split at hs'
            · have := Option.some.inj hs'; omega
            · have := Option.some.inj hs'; omega
        · simp only [Option.some.injEq] at hs'; omega

/-- Row groups merged with the new rows: there must be one. -/
theorem update_iff {T : Table R} {p : Params} {rgs : List (RG R)} {data : List R} {on : Option Col} {s : Nat} {stop : Option Nat}
    (hle : stop.getD rgs.length ≤ rgs.length)
    (hd : on = none ∨ data ≠ [])
    (hi : ∀ l : List R, on = none ∨ l ≠ [] → ∃ chunks, iterDataframe T l true p.maxRg on p.dupOn = .ok chunks) :
    (∃ rgs', writeUpdate T p rgs data on s stop = .ok rgs') ↔ s < stop.getD rgs.length := by
  unfold writeUpdate
  by_cases h : ((rgs.take (stop.getD rgs.length)).drop s) = []
  · have h' := h
    rw [List.drop_eq_nil_iff, List.length_take] at h'
    simp only [h, List.isEmpty_nil, if_true, bind, Except.bind, throw, throwThe, MonadExceptOf.throw, reduceCtorEq, exists_false,
      false_iff]
    omega
  · have h' := h
    rw [List.drop_eq_nil_iff, List.length_take] at h'
    have he : ((rgs.take (stop.getD rgs.length)).drop s).isEmpty = false := by simpa using h
    have hlt : s < stop.getD rgs.length := by omega
    simp only [he, Bool.false_eq_true, if_false, bind, Except.bind, pure, Except.pure, hlt, iff_true]
    cases on with
    | none =>
      obtain ⟨chunks, hch⟩ := hi (readRows ((rgs.take (stop.getD rgs.length)).drop s) ++ data) (Or.inl rfl)
      simp only [hch]
      exact ⟨_, rfl⟩
    | some c =>
      have hne : data ≠ [] := by simpa using hd
      obtain ⟨chunks, hch⟩ := hi (stableSort (T.get c) (readRows ((rgs.take (stop.getD rgs.length)).drop s) ++ data))
        (Or.inr (stableSort_ne_nil (by simp [hne])))
      simp only [hch]
      exact ⟨_, rfl⟩

/-- **C14** Without `ordered_on` nor `duplicates_on`, a write succeeds if and only if the dataset is new, or `max_nirgs` is not used,
or it is used with `max_row_group_size` and it is not the case that the last row group is complete while the frame has
`max_row_group_size` rows or more (or `max_nirgs` is 0). -/
theorem C14_succeeds_iff {T : Table R} {p : Params} {rgs : List (RG R)} {data : List R}
    (ho : p.orderedOn = none) (hd : p.dupOn = none) (hm : p.maxRg ≠ some 0) :
    (∃ rgs', write T p rgs data = .ok rgs') ↔
    rgs = [] ∨ p.maxNirgs = none ∨ ∃ m k, p.maxRg = some m ∧ p.maxNirgs = some k ∧ ¬ FullAtEnd m k (rgs.map RG.rows) data := by
  by_cases hne : rgs = []
  · simp only [hne, true_or, iff_true]
    simp only [write, ho, checkOrderedOn, bind, Except.bind, List.isEmpty_nil, if_true, iter_plain hm, pure, Except.pure]
    exact ⟨_, rfl⟩
  cases hn : p.maxNirgs with
  | none => simp only [true_or, or_true, iff_true]; exact C14_append_succeeds ho hd hn hm
  | some k =>
    cases hmr : p.maxRg with
    | none =>
      obtain ⟨e, he⟩ := C14_max_nirgs_alone_fails (T := T) (data := data) hne hn hmr
      simp [he, hne]
    | some m =>
      have hm0 : 0 < m := by rw [hmr] at hm; have : m ≠ 0 := fun h => hm (by rw [h]); omega
      have hemp : rgs.isEmpty = false := by simpa using hne
      have hst := start_in_window (m := m) (k := k) (n := data.length) (rgs := rgs) (idxs := []) hne (by simp) (by simp) hm0
      have hup := fun s => update_iff (T := T) (p := p) (rgs := rgs) (data := data) (on := none) (s := s) (stop := none) (by simp)
        (Or.inl rfl) (fun l _ => ⟨_, by rw [hd]; exact iter_plain hm⟩)
      rw [trailing_nil_iff hne] at hst
      simp only [write, ho, checkOrderedOn, bind, Except.bind, hemp, Bool.false_eq_true, if_false, hd, Option.isSome_none,
        Bool.false_and, pure, Except.pure, overlapWindow, hn, hmr, Option.some.injEq, reduceCtorEq, hne, false_or,
        ↓existsAndEq, true_and]
      simp only [windowOf, Option.getD_none, ne_eq, not_true_eq_false, false_and, imp_false] at hst
      rw [show (¬ FullAtEnd m k (rgs.map RG.rows) data) ↔ _ from by unfold FullAtEnd; exact not_and, ← hst]
      cases hc : coalesce m k rgs data.length none none with
      | none => 
        rw [hmr] at hm
        simp [iter_plain hm]
      | some s => simp [hup]

theorem overlaps_touches {T : Table R} {on : Col} {data : List R} {a b : R} (ha : data.head? = some a) (hb : data.getLast? = some b)
    (g : RG R) : overlaps T on (T.get on a) (T.get on b) g = true ↔ Touches (T.get on) data g.rows := by
  by_cases hg : g.rows = []
  · simp [overlaps, rgMin, rgMax, hg, Touches]
  · rw [overlaps_iff hg]
    simp [Touches, ha, hb]

theorem mem_filterRowGroups {T : Table R} {on : Col} {x y : Int} {rgs : List (RG R)} {i : Nat} :
    i ∈ filterRowGroups T on x y rgs ↔ ∃ g, rgs[i]? = some g ∧ overlaps T on x y g = true := by
  simp only [filterRowGroups, List.mem_map, List.mem_filter, Prod.exists, exists_eq_right, List.mem_zipIdx_iff_getElem?]

theorem noneOrFirst_iff {T : Table R} {on : Col} {data : List R} {a b : R} {rgs : List (RG R)} (ha : data.head? = some a)
    (hb : data.getLast? = some b) (hne : rgs ≠ []) :
    (filterRowGroups T on (T.get on a) (T.get on b) rgs ≠ [] ∧ (0 ∈ filterRowGroups T on (T.get on a) (T.get on b) rgs →
      filterRowGroups T on (T.get on a) (T.get on b) rgs ≠ [0] ∧
      rgs.length - 1 ∉ filterRowGroups T on (T.get on a) (T.get on b) rgs)) ↔
    ¬ NoneOrFirst (Touches (T.get on) data) (rgs.map RG.rows) := by
  have hmem : ∀ i, i ∈ filterRowGroups T on (T.get on a) (T.get on b) rgs ↔
      ∃ l, (rgs.map RG.rows)[i]? = some l ∧ Touches (T.get on) data l := by
    intro i
    rw [mem_filterRowGroups]
    simp only [overlaps_touches ha hb, List.getElem?_map, Option.map_eq_some_iff]
    constructor
    · rintro ⟨g, h1, h2⟩; exact ⟨_, ⟨g, h1, rfl⟩, h2⟩
    · rintro ⟨l, ⟨g, h1, rfl⟩, h2⟩; exact ⟨g, h1, h2⟩
  have hsorted : (filterRowGroups T on (T.get on a) (T.get on b) rgs).Pairwise (· < ·) := by
    have h1 : (rgs.zipIdx.map Prod.snd).Pairwise (· < ·) := by
      rw [List.zipIdx_map_snd]; exact List.pairwise_lt_range'
    exact h1.sublist (List.Sublist.map _ (List.filter_sublist))
  have hls : rgs.map RG.rows ≠ [] := by simpa using hne
  have hlen : rgs.length = (rgs.map RG.rows).length := by simp
  rw [hlen]
  generalize filterRowGroups T on (T.get on a) (T.get on b) rgs = idxs at *
  generalize rgs.map RG.rows = ls at *
  generalize Touches (T.get on) data = touch at *
  have e1 : idxs = [] ↔ ∀ l ∈ ls, ¬ touch l := by
    rw [List.eq_nil_iff_forall_not_mem]
    simp only [hmem, not_exists, not_and, List.mem_iff_getElem?]
    constructor
    · rintro h l ⟨i, hi⟩; exact h i l hi
    · intro h i l hi; exact h l ⟨i, hi⟩
  have e2 : 0 ∈ idxs ↔ ∃ l, ls.head? = some l ∧ touch l := by rw [hmem, List.head?_eq_getElem?]
  have e3 : ls.length - 1 ∈ idxs ↔ ∃ l, ls.getLast? = some l ∧ touch l := by rw [hmem, List.getLast?_eq_getElem?]
  have e4 : 0 ∈ idxs → (idxs = [0] ↔ ∀ l ∈ ls.tail, ¬ touch l) := by
    intro h0
    have e5 : idxs = [0] ↔ ∀ i, i + 1 ∉ idxs := by
      constructor
      · rintro rfl i; simp
      · intro h
        match idxs with
        | [] => simp at h0
        | i :: rest =>
          have hi : ∀ j ∈ i :: rest, j = 0 := fun j hj => by
            cases j with
            | zero => rfl
            | succ j => exact absurd hj (h j)
          have hi0 := hi i (by simp)
          subst hi0
          cases rest with
          | nil => rfl
          | cons j rest =>
            have := (List.pairwise_cons.1 hsorted).1 j (by simp)
            have := hi j (by simp)
            omega
    rw [e5]
    simp only [hmem, not_exists, not_and, List.mem_iff_getElem?, List.getElem?_tail]
    constructor
    · rintro h l ⟨i, hi⟩; exact h i l hi
    · intro h i l hi; exact h l ⟨i, hi⟩
  unfold NoneOrFirst
  rw [← e1, ← e2, ← e3]
  constructor
  · rintro ⟨h1, h2⟩ (h | ⟨h, h' | h'⟩)
    · exact h1 h
    · exact (h2 h).1 ((e4 h).2 h')
    · exact (h2 h).2 h'
  · intro h
    refine ⟨fun h' => h (Or.inl h'), fun h0 => ⟨fun h' => h (Or.inr ⟨h0, Or.inl ((e4 h0).1 h')⟩), fun h' => h (Or.inr ⟨h0, Or.inr h'⟩)⟩⟩

/-- **C17** With `ordered_on`, and known columns for `duplicates_on`, a write of a frame succeeds if and only if the dataset is new, or `max_nirgs`
is not used, or it is used with `max_row_group_size` and it is not the case that coalescing is decided while the last row group is
complete and that the frame touches no row group, or the first one, alone or with the last one. -/
theorem C17_succeeds_iff {T : Table R} {p : Params} {rgs : List (RG R)} {data : List R} {on : Col}
    (hp : p.orderedOn = some (.col on)) (hon : on ∈ T.cols) (hd : data ≠ []) (hm : p.maxRg ≠ some 0) (hk : DupKnown T p.dupOn) :
    (∃ rgs', write T p rgs data = .ok rgs') ↔
    rgs = [] ∨ p.maxNirgs = none ∨ ∃ m k, p.maxRg = some m ∧ p.maxNirgs = some k ∧
      ¬ (FullAtEnd m k (rgs.map RG.rows) data ∧ NoneOrFirst (Touches (T.get on) data) (rgs.map RG.rows)) := by
  by_cases hne : rgs = []
  · simp only [hne, true_or, iff_true]
    simp only [write, hp, checkOrderedOn, hon, if_true, bind, Except.bind, List.isEmpty_nil, iter_plain hm, pure, Except.pure]
    exact ⟨_, rfl⟩
  cases hn : p.maxNirgs with
  | none => simp only [true_or, or_true, iff_true]; exact C17_succeeds hp hon hd hm hn hk
  | some k =>
    cases hmr : p.maxRg with
    | none =>
      obtain ⟨e, he⟩ := C14_max_nirgs_alone_fails (T := T) (data := data) hne hn hmr
      simp [he, hne]
    | some m =>
      have hm0 : 0 < m := by rw [hmr] at hm; have : m ≠ 0 := fun h => hm (by rw [h]); omega
      have hemp : rgs.isEmpty = false := by simpa using hne
      obtain ⟨a, ha⟩ : ∃ a, data.head? = some a := by
        cases data with
        | nil => exact absurd rfl hd
        | cons a _ => exact ⟨a, rfl⟩
      obtain ⟨b, hb⟩ : ∃ b, data.getLast? = some b := by
        cases hx : data.getLast? with
        | none => simp at hx; exact absurd hx hd
        | some b => exact ⟨b, rfl⟩
      have hlt := filterRowGroups_lt (T := T) (on := on) (s := T.get on a) (e := T.get on b) (rgs := rgs)
      have hsorted : (filterRowGroups T on (T.get on a) (T.get on b) rgs).Pairwise (· < ·) := by
        have h1 : (rgs.zipIdx.map Prod.snd).Pairwise (· < ·) := by
          rw [List.zipIdx_map_snd]; exact List.pairwise_lt_range'
        exact h1.sublist (List.Sublist.map _ (List.filter_sublist))
      have hst := start_in_window (m := m) (k := k) (n := data.length) (rgs := rgs) hne hsorted hlt hm0
      rw [trailing_nil_iff hne, noneOrFirst_iff ha hb hne] at hst
      have hup := fun s => update_iff (T := T) (p := p) (rgs := rgs) (data := data) (on := some on) (s := s)
        (stop := (windowOf rgs.length (filterRowGroups T on (T.get on a) (T.get on b) rgs)).2) (windowOf_le _ _ hlt)
        (Or.inr hd) (fun l hl => ⟨_, iter_sharp (by simpa using hl) hm fun d hd => dupCols_known hon (hd ▸ hk)⟩)
      simp only [write, hp, checkOrderedOn, hon, if_true, bind, Except.bind, hemp, Bool.false_eq_true, if_false, Option.isNone_some,
        Bool.and_false, pure, Except.pure, overlapWindow, ha, hb, hn, hmr, Option.some.injEq, reduceCtorEq, hne, false_or,
        ↓existsAndEq, true_and]
      rw [show (¬ (FullAtEnd m k (rgs.map RG.rows) data ∧ NoneOrFirst (Touches (T.get on) data) (rgs.map RG.rows))) ↔ _ from by
        unfold FullAtEnd; rw [not_and, and_imp], ← hst]
      generalize windowOf rgs.length (filterRowGroups T on (T.get on a) (T.get on b) rgs) = w at *
      cases hc : coalesce m k rgs data.length w.1 w.2 with
      | none =>
        rw [hmr] at hm
        simp [iter_plain hm]
      | some s => simp [hup]

/-- Last row group complete, frame of `max_row_group_size` rows: after all row groups the frame is refused; on the last row group of
two it is merged; on the only row group it is refused. -/
example : write exT { orderedOn := some (.col 0), maxRg := some 2, maxNirgs := some 3 } (exRgs [[1, 2], [5, 6]]) (exRows [7, 8]) =
    .error .noFiles ∧
    (∃ rgs', write exT { orderedOn := some (.col 0), maxRg := some 2, maxNirgs := some 3 } (exRgs [[1, 2], [5, 6]]) (exRows [6, 8]) =
      .ok rgs' ∧ rgs'.map (·.rows.map Prod.fst) = [[1, 2], [5], [6, 6, 8]]) ∧
    write exT { orderedOn := some (.col 0), maxRg := some 2, maxNirgs := some 3 } (exRgs [[5, 6]]) (exRows [6, 8]) = .error .noFiles :=
  ⟨rfl, ⟨_, rfl, rfl⟩, rfl⟩

/-- On the first of two row groups, it is merged; on both of them it is refused; one row is enough for success. -/
example : (∃ rgs', write exT { orderedOn := some (.col 0), maxRg := some 2, maxNirgs := some 3 } (exRgs [[1, 2], [5, 6], [9, 9]])
      (exRows [2, 5]) = .ok rgs') ∧
    write exT { orderedOn := some (.col 0), maxRg := some 2, maxNirgs := some 3 } (exRgs [[1, 2], [5, 6]]) (exRows [2, 5]) =
      .error .noFiles ∧
    ∃ rgs', write exT { orderedOn := some (.col 0), maxRg := some 2, maxNirgs := some 3 } (exRgs [[1, 2], [5, 6]]) (exRows [2]) =
      .ok rgs' := ⟨⟨_, rfl⟩, rfl, ⟨_, rfl⟩⟩

/-- `FullAtEnd` and `NoneOrFirst` on a dataset of two row groups. -/
example : FullAtEnd 2 3 [exRows [1, 2], exRows [5, 6]] (exRows [7, 8]) ∧ ¬ FullAtEnd 2 3 [exRows [1, 2], exRows [5]] (exRows [7, 8]) ∧
    ¬ FullAtEnd 2 3 [exRows [1, 2], exRows [5, 6]] (exRows [7]) := by
  simp [FullAtEnd, exRows]

end Oups.Writer
