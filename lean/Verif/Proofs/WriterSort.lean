import Verif.Proofs.WriterChunks
/-! Stable sort, removal of duplicates. -/
set_option linter.unusedSimpArgs false
namespace Oups.Writer
variable {R : Type}

/-! ### Stable sort -/

theorem stableSort_sorted (k : R → Int) (l : List R) : SortedOn k (stableSort k l) := by
  have : Std.Total (fun a b : R => k a ≤ k b) := ⟨fun a b => le_total (k a) (k b)⟩
  have : IsTrans R (fun a b : R => k a ≤ k b) := ⟨fun _ _ _ h1 h2 => le_trans h1 h2⟩
  exact List.pairwise_insertionSort _ l

theorem stableSort_perm (k : R → Int) (l : List R) : (stableSort k l).Perm l :=
  List.perm_insertionSort _ l

theorem mem_stableSort (k : R → Int) (l : List R) (x : R) : x ∈ stableSort k l ↔ x ∈ l :=
  (stableSort_perm k l).mem_iff

theorem stableSort_of_sorted (k : R → Int) (l : List R) (h : SortedOn k l) : stableSort k l = l :=
  h.insertionSort_eq

theorem orderedInsert_filter (k : R → Int) (p : R → Bool) (v : Int) (hp : ∀ r, p r = true → k r = v)
    (a : R) (l : List R) (hs : SortedOn k l) :
    (l.orderedInsert (fun a b => k a ≤ k b) a).filter p = (a :: l).filter p := by
  induction l with
  | nil => simp
  | cons b l ih =>
    simp only [List.orderedInsert]
    split
    · rfl
    · rename_i h
      have hs' := List.pairwise_cons.1 hs
      rw [List.filter_cons, ih hs'.2]
      by_cases ha : p a = true
      · have hb : p b = false := by
          by_contra hb
          simp only [Bool.not_eq_false] at hb
          have := hp a ha; have := hp b hb; omega
        simp [ha, hb]
      · simp only [Bool.not_eq_true] at ha
        simp [List.filter_cons, ha]

/-- Stability: rows with the same key keep their order. -/
theorem stableSort_filter (k : R → Int) (p : R → Bool) (v : Int) (hp : ∀ r, p r = true → k r = v)
    (l : List R) : (stableSort k l).filter p = l.filter p := by
  induction l with
  | nil => rfl
  | cons a l ih =>
    have : stableSort k (a :: l) = (stableSort k l).orderedInsert (fun a b => k a ≤ k b) a := rfl
    rw [this, orderedInsert_filter k p v hp a _ (stableSort_sorted k l), List.filter_cons, ih,
      List.filter_cons]

/-- A sorted list is determined by its rows at each key. -/
theorem sorted_ext (k : R → Int) (a b : List R) (ha : SortedOn k a) (hb : SortedOn k b)
    (h : ∀ v, a.filter (fun r => k r = v) = b.filter (fun r => k r = v)) : a = b := by
  induction a generalizing b with
  | nil =>
    cases b with
    | nil => rfl
    | cons y b => have := h (k y); simp at this
  | cons x a ih =>
    cases b with
    | nil => have := h (k x); simp at this
    | cons y b =>
      have ha' := List.pairwise_cons.1 ha
      have hb' := List.pairwise_cons.1 hb
      have hxy : k x = k y := by
        have h1 : y ∈ x :: a := by
          have : y ∈ (x :: a).filter (fun r => k r = k y) := by rw [h]; simp
          exact (List.mem_filter.1 this).1
        have h2 : x ∈ y :: b := by
          have : x ∈ (y :: b).filter (fun r => k r = k x) := by rw [← h]; simp
          exact (List.mem_filter.1 this).1
        have h3 : k x ≤ k y := by
          rcases List.mem_cons.1 h1 with h | h
          · rw [h]
          · exact ha'.1 y h
        have h4 : k y ≤ k x := by
          rcases List.mem_cons.1 h2 with h | h
          · rw [h]
          · exact hb'.1 x h
        omega
      have he : x = y := by
        have := h (k x)
        simp only [List.filter_cons, hxy, decide_true, if_true] at this
        exact (List.cons.inj this).1
      subst he
      congr 1
      apply ih b ha'.2 hb'.2
      intro v
      have := h v
      simp only [List.filter_cons] at this
      split at this
      · exact (List.cons.inj this).2
      · exact this

/-! ### Removal of duplicates -/

section
variable {κ : Type} [DecidableEq κ]

theorem dropDupLast_sublist (d : R → κ) (l : List R) : (dropDupLast d l).Sublist l := by
  induction l with
  | nil => exact List.Sublist.refl _
  | cons a l ih =>
    simp only [dropDupLast]
    split
    · exact List.Sublist.cons a ih
    · exact List.Sublist.cons_cons a ih

theorem dropDupLast_ne_nil (d : R → κ) (l : List R) (h : l ≠ []) : dropDupLast d l ≠ [] := by
  induction l with
  | nil => exact absurd rfl h
  | cons a l ih =>
    simp only [dropDupLast]
    split
    · rename_i h1
      apply ih
      rintro rfl
      simp at h1
    · simp

theorem dropDupLast_append (d : R → κ) (a b : List R) (h : ∀ x ∈ a, ∀ y ∈ b, d x ≠ d y) :
    dropDupLast d (a ++ b) = dropDupLast d a ++ dropDupLast d b := by
  induction a with
  | nil => rfl
  | cons x a ih =>
    have h1 := ih (fun x hx => h x (by simp [hx]))
    have h2 : b.any (fun y => d y == d x) = false := by
      rw [List.any_eq_false]
      intro y hy
      have := h x (by simp) y hy
      simp [Ne.symm this]
    simp only [List.cons_append, dropDupLast, List.any_append, h2, Bool.or_false, h1]
    split <;> rfl

theorem dropDupLast_flatten (d : R → κ) (ls : List (List R))
    (h : ls.Pairwise (fun a b => ∀ x ∈ a, ∀ y ∈ b, d x ≠ d y)) :
    (ls.map (dropDupLast d)).flatten = dropDupLast d ls.flatten := by
  induction ls with
  | nil => rfl
  | cons a ls ih =>
    rw [List.pairwise_cons] at h
    simp only [List.map_cons, List.flatten_cons, ih h.2]
    rw [dropDupLast_append]
    intro x hx y hy
    obtain ⟨b, hb, hyb⟩ := List.mem_flatten.1 hy
    exact h.1 b hb x hx y hyb

/-- For each identifier, only the last row is kept. -/
theorem dropDupLast_filter (d : R → κ) (l : List R) (u : κ) :
    (dropDupLast d l).filter (fun r => d r = u) = (l.filter (fun r => d r = u)).getLast?.toList := by
  induction l with
  | nil => rfl
  | cons a l ih =>
    simp only [dropDupLast]
    by_cases ha : d a = u
    · subst ha
      split
      · rename_i h1
        rw [ih]
        simp only [List.filter_cons, decide_true, if_true]
        rw [List.getLast?_cons_of_ne_nil]
        intro hn
        rw [List.any_eq_true] at h1
        obtain ⟨y, hy, he⟩ := h1
        rw [List.filter_eq_nil_iff] at hn
        have := hn y hy
        simp at this he
        exact this he
      · rename_i h1
        have hn : l.filter (fun r => decide (d r = d a)) = [] := by
          rw [List.filter_eq_nil_iff]
          intro y hy
          simp only [Bool.not_eq_true] at h1
          rw [List.any_eq_false] at h1
          have := h1 y hy
          simpa using this
        simp only [List.filter_cons, decide_true, if_true, ih, hn]
        simp
    · split
      · rw [ih]; simp [List.filter_cons, ha]
      · simp only [List.filter_cons, ha, decide_false, ih]; simp

theorem dropDupLast_nodup (d : R → κ) (l : List R) : ((dropDupLast d l).map d).Nodup := by
  induction l with
  | nil => simp [dropDupLast]
  | cons a l ih =>
    simp only [dropDupLast]
    split
    · exact ih
    · rename_i h
      rw [List.map_cons, List.nodup_cons]
      refine ⟨?_, ih⟩
      simp only [Bool.not_eq_true, List.any_eq_false] at h
      intro hm
      obtain ⟨y, hy, he⟩ := List.mem_map.1 hm
      have := h y ((dropDupLast_sublist d l).mem hy)
      simp [he] at this

theorem dropDupLast_of_nodup (d : R → κ) (l : List R) (h : (l.map d).Nodup) : dropDupLast d l = l := by
  induction l with
  | nil => rfl
  | cons a l ih =>
    rw [List.map_cons, List.nodup_cons] at h
    simp only [dropDupLast, ih h.2]
    split
    · rename_i h1
      rw [List.any_eq_true] at h1
      obtain ⟨y, hy, he⟩ := h1
      simp only [beq_iff_eq] at he
      exact absurd (List.mem_map.2 ⟨y, hy, he⟩) h.1
    · rfl

/-- Membership after removal of duplicates. -/
theorem mem_dropDupLast (d : R → κ) (l : List R) (x : R) :
    x ∈ dropDupLast d l ↔ (l.filter (fun r => d r = d x)).getLast? = some x := by
  have h : x ∈ dropDupLast d l ↔ x ∈ (dropDupLast d l).filter (fun r => d r = d x) := by simp
  rw [h, dropDupLast_filter]
  cases (l.filter (fun r => decide (d r = d x))).getLast? <;> simp [eq_comm]

end
end Oups.Writer
