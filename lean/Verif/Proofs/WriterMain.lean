import Verif.Proofs.WriterUpdate
/-! Effect of `write` with `ordered_on`. -/
set_option linter.unusedSimpArgs false
namespace Oups.Writer
variable {R : Type}

/-! ### Overlap window -/

theorem filterRowGroups_window {T : Table R} {on : Col} {s e : Int} {A W B : List (RG R)}
    (hA : ∀ g ∈ A, overlaps T on s e g = false) (hW : ∀ g ∈ W, overlaps T on s e g = true)
    (hB : ∀ g ∈ B, overlaps T on s e g = false) :
    filterRowGroups T on s e (A ++ W ++ B) = List.range' A.length W.length := by
  have hno : ∀ (L : List (RG R)) (n : Nat), (∀ g ∈ L, overlaps T on s e g = false) →
      (L.zipIdx n).filter (fun p => overlaps T on s e p.1) = [] := by
    intro L n h
    rw [List.filter_eq_nil_iff]
    intro p hp
    have : p.1 ∈ L := by
      have := List.mem_map_of_mem (f := Prod.fst) hp
      rwa [List.zipIdx_map_fst] at this
    simp [h p.1 this]
  have hyes : (W.zipIdx A.length).filter (fun p => overlaps T on s e p.1) = W.zipIdx A.length := by
    rw [List.filter_eq_self]
    intro p hp
    have : p.1 ∈ W := by
      have := List.mem_map_of_mem (f := Prod.fst) hp
      rwa [List.zipIdx_map_fst] at this
    exact hW p.1 this
  simp only [filterRowGroups, List.zipIdx_append, List.filter_append]
  rw [hno A 0 hA, hno B _ hB]
  simp only [List.nil_append, List.append_nil, Nat.zero_add]
  rw [hyes, List.zipIdx_map_snd]

theorem windowOf_range' (n a w : Nat) :
    windowOf n (List.range' a w) =
      if w = 0 then (none, none)
      else if w = 1 then (some a, none)
      else (some a, if a + w = n then none else some (a + w)) := by
  match w with
  | 0 => rfl
  | 1 => rfl
  | w + 2 =>
    have h : List.range' a (w + 2) = a :: (a + 1) :: List.range' (a + 2) w := by
      simp [List.range'_succ]
    rw [h]
    simp only [windowOf]
    have hl : ((a + 1) :: List.range' (a + 2) w).getLast (by simp) = a + 1 + w := by
      have : (a + 1) :: List.range' (a + 2) w = List.range' (a + 1) (w + 1) := by simp [List.range'_succ]
      simp only [this]
      rw [List.getLast_range']
      omega
    rw [hl]
    simp only [show a + 1 + w + 1 = a + (w + 2) by omega]
    simp

/-- Row groups before, overlapping and after. -/
theorem overlap_decomp {k : R → Int} {rgs : List (RG R)} (hl : OrderedLayout k (rowsOf rgs)) (s e : Int) :
    ∃ A W B, rgs = A ++ W ++ B ∧ (∀ g ∈ A, ∀ x ∈ g.rows, k x < s) ∧
      (∀ g ∈ W, (∃ x ∈ g.rows, s ≤ k x) ∧ (∃ x ∈ g.rows, k x ≤ e)) ∧
      (∀ g ∈ B, ∀ x ∈ g.rows, e < k x) := by
  classical
  let pA : RG R → Bool := fun g => decide (∀ x ∈ g.rows, k x < s)
  let pB : RG R → Bool := fun g => decide (∃ x ∈ g.rows, k x ≤ e)
  refine ⟨rgs.takeWhile pA, (rgs.dropWhile pA).takeWhile pB, (rgs.dropWhile pA).dropWhile pB, ?_, ?_, ?_, ?_⟩
  · rw [List.append_assoc, List.takeWhile_append_dropWhile, List.takeWhile_append_dropWhile]
  · intro g hg
    have := mem_takeWhile_imp' hg
    simpa [pA] using this
  · -- row groups after the first one reaching `s` also reach it
    have hsep : (rgs.dropWhile pA).Pairwise (fun g h => ∀ x ∈ g.rows, ∀ y ∈ h.rows, k x < k y) := by
      have := hl.2
      rw [Separated, rowsOf, List.pairwise_map] at this
      exact this.sublist (List.dropWhile_sublist _)
    have hne : ∀ g ∈ rgs.dropWhile pA, g.rows ≠ [] := fun g hg =>
      (hl.1 g.rows (List.mem_map.2 ⟨g, (List.dropWhile_sublist _).mem hg, rfl⟩)).1
    have hhead : ∀ g, (rgs.dropWhile pA).head? = some g → pA g = false := by
      intro g hg
      have := List.head?_dropWhile_not pA rgs
      rw [hg] at this
      simpa using this
    have hreach : ∀ g ∈ rgs.dropWhile pA, ∃ x ∈ g.rows, s ≤ k x := by
      cases hdw : rgs.dropWhile pA with
      | nil => simp
      | cons g0 rest =>
        rw [hdw] at hsep hne hhead
        have h0 := hhead g0 rfl
        simp only [pA, decide_eq_false_iff_not, not_forall, not_lt] at h0
        obtain ⟨x0, hx0, hs0⟩ := h0
        intro g hg
        rcases List.mem_cons.1 hg with rfl | hg'
        · exact ⟨x0, hx0, hs0⟩
        · obtain ⟨y, hy⟩ := List.exists_mem_of_ne_nil _ (hne g hg)
          have := (List.pairwise_cons.1 hsep).1 g hg' x0 hx0 y hy
          exact ⟨y, hy, by omega⟩
    intro g hg
    refine ⟨hreach g ((List.takeWhile_sublist _).mem hg), ?_⟩
    have := mem_takeWhile_imp' hg
    simpa [pB] using this
  · have hsep : ((rgs.dropWhile pA).dropWhile pB).Pairwise (fun g h => ∀ x ∈ g.rows, ∀ y ∈ h.rows, k x < k y) := by
      have := hl.2
      rw [Separated, rowsOf, List.pairwise_map] at this
      exact (this.sublist (List.dropWhile_sublist _)).sublist (List.dropWhile_sublist _)
    have hne : ∀ g ∈ (rgs.dropWhile pA).dropWhile pB, g.rows ≠ [] := fun g hg =>
      (hl.1 g.rows (List.mem_map.2 ⟨g, (List.dropWhile_sublist _).mem ((List.dropWhile_sublist _).mem hg), rfl⟩)).1
    have hhead : ∀ g, ((rgs.dropWhile pA).dropWhile pB).head? = some g → pB g = false := by
      intro g hg
      have := List.head?_dropWhile_not pB (rgs.dropWhile pA)
      rw [hg] at this
      simpa using this
    cases hdw : (rgs.dropWhile pA).dropWhile pB with
    | nil => simp
    | cons g0 rest =>
      rw [hdw] at hsep hne hhead
      have h0 := hhead g0 rfl
      simp only [pB, decide_eq_false_iff_not, not_exists, not_and, not_le] at h0
      intro g hg
      rcases List.mem_cons.1 hg with rfl | hg'
      · exact h0
      · intro y hy
        obtain ⟨x0, hx0⟩ := List.exists_mem_of_ne_nil _ (hne g0 (by simp))
        have := (List.pairwise_cons.1 hsep).1 g hg' x0 hx0 y hy
        have := h0 x0 hx0
        omega

/-! ### Coalescing -/

theorem coalesce_tmp_le {m : Nat} {rgs : List (RG R)} :
    rgs.length - (trailing (m * 9 / 10) rgs).length ≤ rgs.length := Nat.sub_le _ _

theorem trailing_all {m : Nat} {rgs : List (RG R)} (h : ∀ g ∈ rgs, g.rows.length ≤ m) :
    (trailing m rgs).length = rgs.length := by
  have : trailing m rgs = rgs.reverse := by
    have hall : ∀ (l : List (RG R)), (∀ g ∈ l, g.rows.length ≤ m) →
        l.takeWhile (fun g => decide (g.rows.length ≤ m)) = l := by
      intro l
      induction l with
      | nil => simp
      | cons g l ih =>
        intro h
        rw [List.takeWhile_cons_of_pos (by simpa using h g (by simp)), ih (fun g hg => h g (by simp [hg]))]
    exact hall _ (fun g hg => h g (List.mem_reverse.1 hg))
  simp [this]

theorem coalesce_some {m n : Nat} {rgs : List (RG R)} {nd a : Nat} {stop : Option Nat}
    (hsafe : a ≠ 0 ∨ ∀ g ∈ rgs, g.rows.length ≤ m * 9 / 10) :
    ∃ s, coalesce m n rgs nd (some a) stop = some s ∧ s ≤ a := by
  simp only [coalesce]
  split
  · cases a with
    | zero =>
      rcases hsafe with h | h
      · exact absurd rfl h
      · cases stop with
        | none => exact ⟨_, rfl, by simp [trailing_all h]⟩
        | some e => exact ⟨_, rfl, le_refl _⟩
    | succ a =>
      cases stop with
      | none => exact ⟨_, rfl, min_le_right _ _⟩
      | some e =>
        by_cases ht : rgs.length - (trailing (m * 9 / 10) rgs).length < e
        · simp only [ht, if_true]; exact ⟨_, rfl, min_le_right _ _⟩
        · simp only [ht, if_false]; exact ⟨_, rfl, le_refl _⟩
  · exact ⟨a, rfl, le_refl _⟩

theorem coalesce_none {m n : Nat} {rgs : List (RG R)} {nd : Nat} {s : Nat}
    (h : coalesce m n rgs nd none none = some s) : s ≤ rgs.length := by
  simp only [coalesce] at h
  split at h
  · simp only [Option.some.injEq] at h
    omega
  · simp at h

/-! ### Main lemma -/

/-- What an ordered write does: a window of recorded row groups is merged with the new rows. -/
structure Merged (T : Table R) (on : Col) (dup : Option DupOn) (before data : List R)
    (rgs' : List (RG R)) : Prop where
  layout : OrderedLayout (T.get on) (rowsOf rgs')
  window : ∃ a w b, before = a ++ w ++ b ∧ Separated (T.get on) [a, w, b] ∧
    (∀ x ∈ a, ∀ y ∈ data, T.get on x < T.get on y) ∧ (∀ x ∈ b, ∀ y ∈ data, T.get on y < T.get on x) ∧
    readRows rgs' = a ++ dedup T on dup (stableSort (T.get on) (w ++ data)) ++ b

theorem separated_window {k : R → Int} {A W B : List (RG R)} (hl : OrderedLayout k (rowsOf (A ++ W ++ B))) :
    Separated k [readRows A, readRows W, readRows B] := by
  rw [rowsOf_append, rowsOf_append] at hl
  obtain ⟨h1, _, h3⟩ := OrderedLayout.append_iff.1 hl
  obtain ⟨_, _, h4⟩ := OrderedLayout.append_iff.1 h1
  simp only [Separated, List.pairwise_cons, List.mem_cons, List.not_mem_nil, or_false, forall_eq_or_imp,
    forall_eq, List.Pairwise.nil, and_true, readRows, List.mem_flatten]
  refine ⟨⟨?_, ?_⟩, ?_, by simp⟩
  · rintro x ⟨l, hl, hx⟩ y ⟨m, hm, hy⟩; exact h4 l hl m hm x hx y hy
  · rintro x ⟨l, hl, hx⟩ y ⟨m, hm, hy⟩; exact h3 l (List.mem_append_left _ hl) m hm x hx y hy
  · rintro x ⟨l, hl, hx⟩ y ⟨m, hm, hy⟩; exact h3 l (List.mem_append_right _ hl) m hm x hx y hy

theorem separated_left {k : R → Int} (a : List R) : Separated k [a, [], []] := by
  simp [Separated]

theorem dedup_strict {T : Table R} {on : Col} (hon : on ∈ T.cols) (dup : Option DupOn) {l : List R}
    (h : StrictOn (T.get on) l) : dedup T on dup l = l := by
  cases dup with
  | none => rfl
  | some d =>
    apply dropDupLast_of_nodup
    rw [List.nodup_iff_pairwise_ne, List.pairwise_map]
    refine List.Pairwise.imp ?_ h
    intro a b hab he
    have := dupCols_sep hon he
    omega

theorem mem_bounds {k : R → Int} {l : List R} (h : SortedOn k l) {a b : R} (ha : l.head? = some a)
    (hb : l.getLast? = some b) : ∀ y ∈ l, k a ≤ k y ∧ k y ≤ k b := by
  intro y hy
  constructor
  · cases l with
    | nil => simp at ha
    | cons x xs =>
      simp at ha; subst ha
      rcases List.mem_cons.1 hy with rfl | hy
      · exact le_refl _
      · exact (List.pairwise_cons.1 h).1 y hy
  · rcases List.eq_nil_or_concat l with rfl | ⟨xs, x, rfl⟩
    · simp at hb
    · simp at hb; subst hb
      rw [List.concat_eq_append] at hy h
      rcases List.mem_append.1 hy with hy | hy
      · exact (List.pairwise_append.1 h).2.2 y hy x (by simp)
      · simp at hy; simp [hy]

theorem iter_strict_layout {T : Table R} {data : List R} {v : Bool} {m : Option Nat} {chunks} {k : R → Int}
    (hne : data ≠ []) (hs : StrictOn k data) (h : iterDataframe T data v m none none = .ok chunks) :
    OrderedLayout k chunks ∧ chunks.flatten = data := by
  have hf := iter_plain_flatten h
  obtain ⟨h1, rfl⟩ := iter_plain_ok h
  obtain ⟨_, h2, _⟩ := plain_slices data _ (Nat.pos_of_ne_zero (h1 hne)) hne
  refine ⟨strict_layout (fun l hl => (h2 l hl).1) (hf.symm ▸ hs), hf⟩

theorem iter_short_layout {T : Table R} {data : List R} {v : Bool} {m : Option Nat} {chunks} {k : R → Int}
    (hne : data ≠ []) (hs : SortedOn k data) (hl : data.length ≤ m.getD defaultMaxRg)
    (h : iterDataframe T data v m none none = .ok chunks) : OrderedLayout k chunks ∧ chunks.flatten = data := by
  have hf := iter_plain_flatten h
  obtain ⟨h1, rfl⟩ := iter_plain_ok h
  have hone : slices data (partStarts data.length (m.getD defaultMaxRg)) = [data] := by
    have hpos : 0 < data.length := List.length_pos_of_ne_nil hne
    have h2 : (data.length - 1) / m.getD defaultMaxRg = 0 := Nat.div_eq_of_lt (by omega)
    have h3 : (data.length + data.length - 1) / data.length = 1 := by
      rw [show data.length + data.length - 1 = data.length * 1 + (data.length - 1) by omega, Nat.mul_add_div hpos,
        Nat.div_eq_of_lt (by omega)]
    simp only [partStarts, if_neg (show ¬ data.length = 0 by omega), h2, Nat.zero_add, Nat.div_one]
    rw [show min (data.length - 1 + 1) data.length = data.length by omega, rangeStep, h3]
    simp [slices]
  rw [hone]
  exact ⟨⟨by simp [hne, hs], by simp [Separated]⟩, by simp⟩

theorem iter_tied_layout {T : Table R} {data : List R} {v : Bool} {m : Option Nat} {chunks} {k : R → Int} {ls : List (List R)}
    (hne : data ≠ []) (ht : TiesKept k m ls data) (ha : AfterAll k ls data)
    (h : iterDataframe T data v m none none = .ok chunks) : OrderedLayout k chunks ∧ chunks.flatten = data := by
  rcases ht.2 ha with hs | hs
  · exact iter_strict_layout hne hs h
  · exact iter_short_layout hne ht.1 hs h

theorem dedup_nodup {T : Table R} {on : Col} {dup : Option DupOn} {l : List R}
    (h : ∀ d, dup = some d → (l.map (T.key (dupCols T.cols on d))).Nodup) : dedup T on dup l = l := by
  cases dup with
  | none => rfl
  | some d => exact dropDupLast_of_nodup _ _ (h d rfl)

theorem StrictOn.tied {k : R → Int} {m : Option Nat} {ls : List (List R)} {data : List R} (h : StrictOn k data) :
    TiesKept k m ls data := ⟨h.sorted, fun _ => Or.inl h⟩

theorem strict_ids {T : Table R} {on : Col} (hon : on ∈ T.cols) {dup : Option DupOn} {ls : List (List R)} {data : List R}
    (h : StrictOn (T.get on) data) : IdsDistinct T on dup ls data := by
  intro _ d _
  rw [List.nodup_iff_pairwise_ne, List.pairwise_map]
  refine List.Pairwise.imp ?_ h
  intro a b hab he
  have := dupCols_sep hon he
  omega

theorem write_ordered {T : Table R} {p : Params} {rgs rgs' : List (RG R)} {data : List R} {on : Col}
    (hp : p.orderedOn = some (.col on))
    (hl : OrderedLayout (T.get on) (rowsOf rgs)) (hne : data ≠ []) (hs : TiesKept (T.get on) p.maxRg (rowsOf rgs) data)
    (hid : IdsDistinct T on p.dupOn (rowsOf rgs) data)
    (hgap : NoGap (T.get on) (rowsOf rgs) data)
    (hsafe : CoalescingSafe (T.get on) p.maxRg p.maxNirgs (rowsOf rgs) data)
    (h : write T p rgs data = .ok rgs') :
    on ∈ T.cols ∧ Merged T on p.dupOn (readRows rgs) data rgs' := by
  simp only [write, hp, checkOrderedOn] at h
  by_cases hon : on ∈ T.cols
  swap
  · simp [hon, bind, Except.bind] at h
  refine ⟨hon, ?_⟩
  simp only [hon, if_true] at h
  by_cases hempty : rgs = []
  · -- creation
    subst hempty
    simp only [List.isEmpty_nil, if_true, bind, Except.bind] at h
    cases hit : iterDataframe T data false p.maxRg none none with
    | error e => rw [hit] at h; simp at h
    | ok chunks =>
      rw [hit] at h
      simp only [pure, Except.pure, Except.ok.injEq] at h
      have haa : AfterAll (T.get on) (rowsOf ([] : List (RG R))) data := by simp [AfterAll, rowsOf]
      obtain ⟨h1, h2⟩ := iter_tied_layout hne hs haa hit
      have hr := numberFrom_rows_nonempty 0 chunks (fun c hc => (h1.1 c hc).1)
      subst h
      refine ⟨hr.symm ▸ h1, [], [], [], by simp [readRows], separated_left _, by simp, by simp, ?_⟩
      rw [readRows_numberFrom, h2]
      simp only [List.nil_append, List.append_nil]
      rw [stableSort_of_sorted _ _ hs.1, dedup_nodup (hid haa)]
  · have hemp : rgs.isEmpty = false := by cases rgs <;> simp_all
    obtain ⟨a, ha⟩ : ∃ a, data.head? = some a := by
      cases data with
      | nil => exact absurd rfl hne
      | cons a _ => exact ⟨a, rfl⟩
    obtain ⟨b, hb⟩ : ∃ b, data.getLast? = some b := by
      cases hx : data.getLast? with
      | none => simp at hx; exact absurd hx hne
      | some b => exact ⟨b, rfl⟩
    have hbd := mem_bounds hs.1 ha hb
    have hamem : a ∈ data := List.mem_of_head? ha
    have hbmem : b ∈ data := List.mem_of_getLast? hb
    have hrne : ∀ g ∈ rgs, g.rows ≠ [] := fun g hg => (hl.1 g.rows (List.mem_map.2 ⟨g, hg, rfl⟩)).1
    obtain ⟨A, W, B, rfl, hA, hW, hB⟩ := overlap_decomp hl (T.get on a) (T.get on b)
    have hfilter : filterRowGroups T on (T.get on a) (T.get on b) (A ++ W ++ B) =
        List.range' A.length W.length := by
      apply filterRowGroups_window
      · intro g hg
        rw [Bool.eq_false_iff, ne_eq, overlaps_iff (hrne g (by simp [hg]))]
        rintro ⟨⟨x, hx, h1⟩, _⟩
        have := hA g hg x hx
        omega
      · intro g hg
        rw [overlaps_iff (hrne g (by simp [hg]))]
        exact hW g hg
      · intro g hg
        rw [Bool.eq_false_iff, ne_eq, overlaps_iff (hrne g (by simp [hg]))]
        rintro ⟨_, ⟨x, hx, h1⟩⟩
        have := hB g hg x hx
        omega
    have hAdata : ∀ g ∈ A, ∀ x ∈ g.rows, ∀ y ∈ data, T.get on x < T.get on y := by
      intro g hg x hx y hy
      have := hA g hg x hx
      have := (hbd y hy).1
      omega
    have hBdata : ∀ g ∈ B, ∀ x ∈ g.rows, ∀ y ∈ data, T.get on y < T.get on x := by
      intro g hg x hx y hy
      have := hB g hg x hx
      have := (hbd y hy).2
      omega
    -- without overlap, new rows are after all row groups
    have hafter : W = [] → ∀ g ∈ A ++ W ++ B, ∀ x ∈ g.rows, ∀ y ∈ data, T.get on x < T.get on y := by
      intro hW0
      rcases hgap with hg | ⟨l, hlm, ⟨x, hx, a', ha', h1⟩, ⟨x', hx', b', hb', h2⟩⟩
      · intro g hgm x hx y hy
        exact hg g.rows (List.mem_map.2 ⟨g, hgm, rfl⟩) x hx y hy
      · exfalso
        obtain ⟨g, hgm, rfl⟩ := List.mem_map.1 hlm
        rw [ha] at ha'; cases ha'
        rw [hb] at hb'; cases hb'
        subst hW0
        simp only [List.append_nil, List.mem_append] at hgm
        rcases hgm with hgm | hgm
        · have := hA g hgm x hx; omega
        · have := hB g hgm x' hx'; omega
    simp only [hemp, Bool.false_eq_true, if_false, bind, Except.bind, Option.isNone_some, Bool.and_false,
      overlapWindow, ha, hb, hfilter, windowOf_range', pure, Except.pure] at h
    -- final window
    have key : ∀ (s : Nat) (stop : Option Nat),
        ((s ≤ A.length ∧ W ≠ [] ∧ (stop = none ∨ stop = some (A.length + W.length))) ∨
          (W = [] ∧ stop = none ∧ s ≤ (A ++ W ++ B).length)) →
        writeUpdate T p (A ++ W ++ B) data (some on) s stop = .ok rgs' →
        Merged T on p.dupOn (readRows (A ++ W ++ B)) data rgs' := by
      intro s stop hcase hup
      rcases hcase with ⟨hsA, hWne, hst⟩ | ⟨hW0, hst, hsn⟩
      · rcases hst with hst | hst
        · -- up to the end
          subst hst
          have e1 : A ++ W ++ B = A.take s ++ (A.drop s ++ W ++ B) ++ [] := by
            rw [List.append_nil, ← List.append_assoc, ← List.append_assoc, List.take_append_drop]
          have hlen : (A.take s).length = s := by simp [hsA]
          rw [e1] at hup hl
          have hup' : writeUpdate T p (A.take s ++ (A.drop s ++ W ++ B) ++ []) data (some on) (A.take s).length
              none = .ok rgs' := by
            rw [hlen]; exact hup
          obtain ⟨h1, h2⟩ := writeUpdate_window hon hl
            (fun g hg => hAdata g (List.mem_of_mem_take hg)) (by simp) (Or.inr ⟨rfl, rfl⟩) hup'
          refine ⟨h1, readRows (A.take s), readRows (A.drop s ++ W ++ B), [], ?_, separated_window hl, ?_, by simp, ?_⟩
          · rw [e1, readRows_append, readRows_append]; simp [readRows]
          · intro x hx y hy
            obtain ⟨l, hl, hxl⟩ := List.mem_flatten.1 hx
            obtain ⟨g, hg, rfl⟩ := List.mem_map.1 hl
            exact hAdata g (List.mem_of_mem_take hg) x hxl y hy
          · rw [h2]; simp [readRows]
        · subst hst
          have e1 : A ++ W ++ B = A.take s ++ (A.drop s ++ W) ++ B := by
            rw [← List.append_assoc, List.take_append_drop]
          have hlen : (A.take s).length = s := by simp [hsA]
          have hlen2 : A.length + W.length = (A.take s).length + (A.drop s ++ W).length := by
            simp; omega
          rw [e1] at hup hl
          rw [hlen2] at hup
          have hup' : writeUpdate T p (A.take s ++ (A.drop s ++ W) ++ B) data (some on) (A.take s).length
              (some ((A.take s).length + (A.drop s ++ W).length)) = .ok rgs' := by
            rw [hlen] at hup ⊢; exact hup
          obtain ⟨h1, h2⟩ := writeUpdate_window hon hl
            (fun g hg => hAdata g (List.mem_of_mem_take hg)) hBdata (Or.inl rfl) hup'
          refine ⟨h1, readRows (A.take s), readRows (A.drop s ++ W), readRows B, ?_, separated_window hl, ?_, ?_, h2⟩
          · rw [e1, readRows_append, readRows_append]
          · intro x hx y hy
            obtain ⟨l, hl, hxl⟩ := List.mem_flatten.1 hx
            obtain ⟨g, hg, rfl⟩ := List.mem_map.1 hl
            exact hAdata g (List.mem_of_mem_take hg) x hxl y hy
          · intro x hx y hy
            obtain ⟨l, hl, hxl⟩ := List.mem_flatten.1 hx
            obtain ⟨g, hg, rfl⟩ := List.mem_map.1 hl
            exact hBdata g hg x hxl y hy
      · subst hst
        have haft := hafter hW0
        generalize A ++ W ++ B = rgs at *
        have e1 : rgs = rgs.take s ++ rgs.drop s ++ [] := by simp
        have hlen : (rgs.take s).length = s := by simp [hsn]
        have hup' : writeUpdate T p (rgs.take s ++ rgs.drop s ++ []) data (some on) (rgs.take s).length none
            = .ok rgs' := by rw [← e1, hlen]; exact hup
        obtain ⟨h1, h2⟩ := writeUpdate_window hon (e1 ▸ hl)
          (fun g hg => haft g (List.mem_of_mem_take hg)) (by simp) (Or.inr ⟨rfl, rfl⟩) hup'
        refine ⟨h1, readRows (rgs.take s), readRows (rgs.drop s), [], ?_, separated_window (B := []) (e1 ▸ hl), ?_, by simp, ?_⟩
        · rw [← readRows_append]; simp
        · intro x hx y hy
          obtain ⟨l, hl, hxl⟩ := List.mem_flatten.1 hx
          obtain ⟨g, hg, rfl⟩ := List.mem_map.1 hl
          exact haft g (List.mem_of_mem_take hg) x hxl y hy
        · rw [h2]; simp [readRows]
    -- append
    have happend : W = [] → (iterDataframe T data false p.maxRg none none).map (writeRowGroups (A ++ W ++ B)) = .ok rgs' →
        Merged T on p.dupOn (readRows (A ++ W ++ B)) data rgs' := by
      intro hW0 hap
      cases hit : iterDataframe T data false p.maxRg none none with
      | error e => rw [hit] at hap; simp [Except.map] at hap
      | ok chunks =>
        rw [hit] at hap
        simp only [Except.map, Except.ok.injEq] at hap
        have haa : AfterAll (T.get on) (rowsOf (A ++ W ++ B)) data := by
          intro l hlm
          obtain ⟨g, hg, rfl⟩ := List.mem_map.1 hlm
          exact hafter hW0 g hg
        obtain ⟨h1, h2⟩ := iter_tied_layout hne hs haa hit
        have hnd := hid haa
        have haft := hafter hW0
        generalize A ++ W ++ B = rgs at *
        have hr := numberFrom_rows_nonempty (nextId rgs) chunks (fun c hc => (h1.1 c hc).1)
        subst hap
        refine ⟨?_, readRows rgs, [], [], by simp, separated_left _, ?_, by simp, ?_⟩
        · rw [writeRowGroups, rowsOf_append, hr, OrderedLayout.append_iff]
          refine ⟨hl, h1, ?_⟩
          intro l hlm c hc x hx y hy
          obtain ⟨g, hg, rfl⟩ := List.mem_map.1 hlm
          refine haft g hg x hx y ?_
          rw [← h2]; exact List.mem_flatten.2 ⟨c, hc, hy⟩
        · intro x hx y hy
          obtain ⟨l, hl, hxl⟩ := List.mem_flatten.1 hx
          obtain ⟨g, hg, rfl⟩ := List.mem_map.1 hl
          exact haft g hg x hxl y hy
        · rw [writeRowGroups, readRows_append, readRows_numberFrom, h2]
          simp only [List.nil_append, List.append_nil]
          rw [stableSort_of_sorted _ _ hs.1, dedup_nodup hnd]
    by_cases hW0 : W = []
    · -- no overlap
      have hw : W.length = 0 := by simp [hW0]
      simp only [hw, if_true] at h
      cases hn : p.maxNirgs with
      | none =>
        simp only [hn] at h
        refine happend hW0 ?_
        cases hit : iterDataframe T data false p.maxRg none none <;> rw [hit] at h <;> first | (simp at h; done) | (simpa [Except.map] using h)
      | some k =>
        cases hm : p.maxRg with
        | none => simp [hn, hm, throw, throwThe, MonadExceptOf.throw] at h
        | some m =>
          simp only [hn, hm] at h
          cases hco : coalesce m k (A ++ W ++ B) data.length none none with
          | none =>
            simp only [hco] at h
            rw [← hm] at h
            refine happend hW0 ?_
            cases hit : iterDataframe T data false p.maxRg none none <;> rw [hit] at h <;> first | (simp at h; done) | (simpa [Except.map] using h)
          | some s =>
            simp only [hco] at h
            exact key s none (Or.inr ⟨hW0, rfl, coalesce_none hco⟩) h
    · have hw : W.length ≠ 0 := by simpa using hW0
      -- window given by the overlap
      obtain ⟨stop, hstop, hwin⟩ : ∃ stop, (stop = none ∨ stop = some (A.length + W.length)) ∧
          (if W.length = 0 then ((none, none) : Option Nat × Option Nat)
            else if W.length = 1 then (some A.length, none)
            else (some A.length, if A.length + W.length = (A ++ W ++ B).length then none
              else some (A.length + W.length))) = (some A.length, stop) := by
        simp only [hw, if_false]
        by_cases h1 : W.length = 1
        · exact ⟨none, Or.inl rfl, by simp [h1]⟩
        · by_cases h2 : A.length + W.length = (A ++ W ++ B).length
          · exact ⟨none, Or.inl rfl, by rw [if_neg h1, if_pos h2]⟩
          · exact ⟨some (A.length + W.length), Or.inr rfl, by rw [if_neg h1, if_neg h2]⟩
      rw [hwin] at h
      cases hn : p.maxNirgs with
      | none =>
        simp only [hn] at h
        exact key A.length stop (Or.inl ⟨le_refl _, hW0, hstop⟩) h
      | some k =>
        cases hm : p.maxRg with
        | none => simp [hn, hm, throw, throwThe, MonadExceptOf.throw] at h
        | some m =>
          simp only [hn, hm] at h
          have hsafe' : A.length ≠ 0 ∨ ∀ g ∈ A ++ W ++ B, g.rows.length ≤ m * 9 / 10 := by
            rcases hsafe with h' | h' | h'
            · rw [hn] at h'; cases h'
            · left
              intro hA0
              have hA0' : A = [] := List.length_eq_zero_iff.1 hA0
              subst hA0'
              cases W with
              | nil => exact hW0 rfl
              | cons g W =>
                obtain ⟨⟨x, hx, h1⟩, _⟩ := hW g (by simp)
                have := h' g.rows (by simp [rowsOf]) x hx a hamem
                omega
            · right
              intro g hg
              exact h' m hm g.rows (List.mem_map.2 ⟨g, hg, rfl⟩)
          obtain ⟨s, hco, hsle⟩ := coalesce_some (n := k) (nd := data.length) (stop := stop) hsafe'
          simp only [hco] at h
          exact key s stop (Or.inl ⟨hsle, hW0, hstop⟩) h

end Oups.Writer
