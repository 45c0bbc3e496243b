import Verif.Props.Writer
/-! Writes after a first row group that is complete: this row group stays. -/
set_option linter.unusedSimpArgs false
namespace Oups.Writer
variable {R : Type}

theorem trailing_length_lt {m : Nat} {g : RG R} {gs : List (RG R)} (hg : m < g.rows.length) :
    (trailing m (g :: gs)).length < (g :: gs).length := by
  have hp := List.takeWhile_prefix (fun g : RG R => decide (g.rows.length ≤ m)) (l := (g :: gs).reverse)
  rcases lt_or_eq_of_le hp.length_le with h | h
  · rw [List.length_reverse] at h; exact h
  · exfalso
    have hm : g ∈ (g :: gs).reverse.takeWhile (fun g : RG R => decide (g.rows.length ≤ m)) := by
      rw [hp.eq_of_length h]; simp
    have := mem_takeWhile_imp' hm
    simp only [decide_eq_true_eq] at this
    omega

theorem window_not_zero {T : Table R} {on : Col} {g : RG R} {gs : List (RG R)} {data : List R} {w : Option Nat × Option Nat}
    (hg : g.rows ≠ []) (hlt : ∀ x ∈ g.rows, ∀ y ∈ data, T.get on x < T.get on y)
    (h : overlapWindow T (g :: gs) data (some on) = .ok w) : w.1 ≠ some 0 := by
  simp only [overlapWindow] at h
  cases ha : data.head? with
  | none => simp [ha] at h
  | some a =>
    cases hb : data.getLast? with
    | none => simp [ha, hb] at h
    | some b =>
      simp only [ha, hb, Except.ok.injEq] at h
      have hno : overlaps T on (T.get on a) (T.get on b) g = false := by
        rw [Bool.eq_false_iff, ne_eq, overlaps_iff hg]
        rintro ⟨⟨x, hx, h1⟩, -⟩
        have := hlt x hx a (List.mem_of_head? ha)
        omega
      have hpos : ∀ i ∈ filterRowGroups T on (T.get on a) (T.get on b) (g :: gs), i ≠ 0 := by
        intro i hi
        simp only [filterRowGroups, List.zipIdx_cons, List.filter_cons, hno, Bool.false_eq_true, if_false,
          List.mem_map, List.mem_filter] at hi
        obtain ⟨p, ⟨hp, -⟩, rfl⟩ := hi
        have := List.mem_map_of_mem (f := Prod.snd) hp
        rw [List.zipIdx_map_snd] at this
        have := List.mem_range'_1.1 this
        omega
      subst h
      generalize filterRowGroups T on (T.get on a) (T.get on b) (g :: gs) = l at hpos
      match l with
      | [] => simp [windowOf]
      | [i] => simp only [windowOf]; intro e; cases e; exact hpos 0 (by simp) rfl
      | i :: j :: rest => simp only [windowOf]; intro e; cases e; exact hpos 0 (by simp) rfl

/-- The first row group is among those left by a write of rows that come after it, if it is complete or if `max_nirgs` is not
used. -/
theorem write_keeps_head {T : Table R} {p : Params} {on : Col} {g : RG R} {gs rgs' : List (RG R)} {data : List R}
    (hp : p.orderedOn = some (.col on)) (hg : g.rows ≠ []) (hlt : ∀ x ∈ g.rows, ∀ y ∈ data, T.get on x < T.get on y)
    (hc : p.maxNirgs = none ∨ ∀ m, p.maxRg = some m → m * 9 / 10 < g.rows.length)
    (h : write T p (g :: gs) data = .ok rgs') : g.rows ∈ rgs'.map RG.rows := by
  obtain ⟨o, ho, ⟨h0, -⟩ | ⟨-, -, w, hw, ⟨-, -, chunks, -, rfl⟩ | ⟨s, hs, hco⟩⟩⟩ := write_cases h
  · cases h0
  · simp [writeRowGroups]
  · have ho' : o = some on := by
      simp only [hp, checkOrderedOn] at ho
      split at ho
      · exact (Except.ok.inj ho).symm
      · cases ho
    subst ho'
    have hw0 := window_not_zero hg hlt hw
    have hs0 : s ≠ 0 := by
      rcases hco with ⟨-, hws⟩ | ⟨m, k, hm, hk, hco⟩
      · rintro rfl; exact hw0 hws
      · have hlt' := trailing_length_lt (gs := gs) ((hc.resolve_left (by simp [hk])) m hm)
        simp only [coalesce] at hco
        split at hco
        · cases h1 : w.1 with
          | none =>
            rw [h1] at hco
            cases h2 : w.2 <;> simp [h2] at hco
            simp only [List.length_cons] at hlt'
            omega
          | some a =>
            cases a with
            | zero => exact absurd h1 hw0
            | succ a =>
              rw [h1] at hco
              simp only [List.length_cons] at hlt'
              cases h2 : w.2 with
              | none => simp [h2] at hco; omega
              | some e =>
                simp only [h2] at hco
                split at hco <;> simp at hco <;> omega
        · rintro rfl; exact hw0 hco
    simp only [writeUpdate, bind, Except.bind] at hs
    split at hs
    · cases hs
    · rename_i hx
      cases hit : iterDataframe T (stableSort (T.get on) (readRows (((g :: gs).take (w.2.getD (g :: gs).length)).drop s) ++ data)) true
          p.maxRg (some on) p.dupOn with
      | error e => rw [hit] at hs; cases hs
      | ok chunks =>
        simp only [hit, pure, Except.pure, Except.ok.injEq] at hs
        subst hs
        rw [renumber_rows]
        refine List.mem_map.2 ⟨g, ?_, rfl⟩
        have hkept : g ∈ (writeRowGroups (g :: gs) chunks).take s ++
            (writeRowGroups (g :: gs) chunks).drop (w.2.getD (g :: gs).length) := by
          refine List.mem_append_left _ ?_
          obtain ⟨s, rfl⟩ := Nat.exists_eq_succ_of_ne_zero hs0
          simp [writeRowGroups]
        cases h2 : w.2 with
        | none => rw [h2] at hkept; exact hkept
        | some e =>
          rw [h2] at hkept
          exact (mem_stableSort _ _ _).2 hkept

/-- In an ordered dataset, the row group that has the first row is the first one. -/
theorem head_of_mem {k : R → Int} {l : List R} {rgs : List (RG R)} (hl : OrderedLayout k (rgs.map RG.rows))
    (hm : l ∈ rgs.map RG.rows) (hne : l ≠ []) (hp : l <+: readRows rgs) : ∃ i gs, rgs = ⟨i, l⟩ :: gs := by
  cases rgs with
  | nil => simp at hm
  | cons g gs =>
    refine ⟨g.id, gs, ?_⟩
    rcases List.mem_cons.1 (by simpa using hm : l ∈ g.rows :: gs.map RG.rows) with h | h
    · rw [h]
    · exfalso
      have hg : g.rows ≠ [] := (hl.1 g.rows (by simp)).1
      obtain ⟨a, l', rfl⟩ := List.exists_cons_of_ne_nil hne
      obtain ⟨b, r', hr⟩ := List.exists_cons_of_ne_nil hg
      have hab : a = b := by
        obtain ⟨t, ht⟩ := hp
        simp only [readRows, List.map_cons, List.flatten_cons, hr, List.cons_append, List.cons.injEq] at ht
        exact ht.1
      have hs := hl.2
      simp only [Separated, List.map_cons, List.pairwise_cons] at hs
      have := hs.1 _ h b (by rw [hr]; simp) a (by simp)
      rw [hab] at this
      exact lt_irrefl _ this

end Oups.Writer
