import Verif.Model.KeysConfig
set_option linter.unusedSimpArgs false
namespace Oups.KeysConfig
open Oups.Segment (BinBy SnapBy SegConfig setupSegmentby)

theorem has_iff (d : Dict) (k : String) : d.has k = (d.get k).isSome := by
  simp only [Dict.has, Dict.get, Option.isSome_map]
  induction d with
  | nil => rfl
  | cons x d ih =>
    simp only [List.any_cons, List.find?_cons]
    cases h : x.1 == k <;> simp [h, ih]

theorem get_nil (k : String) : Dict.get [] k = none := rfl

theorem get_cons (x : String × Val) (d : Dict) (k : String) :
    Dict.get (x :: d) k = if x.1 = k then some x.2 else d.get k := by
  simp only [Dict.get, List.find?_cons]
  by_cases h : x.1 = k
  · simp [h]
  · rw [show (x.1 == k) = false by simpa using h]; simp [h]

theorem get_append (a b : Dict) (k : String) : Dict.get (a ++ b) k = (a.get k).or (b.get k) := by
  simp only [Dict.get, List.find?_append]
  cases a.find? fun x => x.1 == k <;> simp

theorem get_drop (d : Dict) (k j : String) : (d.drop k).get j = if j = k then none else d.get j := by
  induction d with
  | nil => simp [Dict.drop, get_nil]
  | cons x d ih =>
    simp only [Dict.drop, List.filter_cons] at ih ⊢
    by_cases hx : x.1 = k
    · simp only [hx, bne_self_eq_false, Bool.false_eq_true, if_false]
      rw [ih, get_cons]
      by_cases hj : j = k
      · simp [hj]
      · simp [hj, hx, Ne.symm hj]
    · have : (x.1 != k) = true := by simpa using hx
      simp only [this, if_true]
      rw [get_cons, get_cons, ih]
      by_cases hj : j = k
      · subst hj; simp [hx]
      · simp [hj]

theorem get_set (d : Dict) (k j : String) (v : Val) : (d.set k v).get j = if j = k then some v else d.get j := by
  have hmap : ∀ l : Dict, l.has k = true → Dict.get (l.map fun x => if x.1 == k then (k, v) else x) j =
      if j = k then some v else l.get j := by
    intro l
    by_cases hj : j = k
    · subst hj
      simp only [if_true]
      induction l with
      | nil => intro h; simp [Dict.has] at h
      | cons x l ih =>
        intro h
        rw [List.map_cons, get_cons]
        by_cases hx : x.1 = j
        · simp [hx]
        · have : Dict.has l j = true := by simpa [Dict.has, hx] using h
          have := ih this
          simp only [beq_iff_eq] at this
          simp [hx, this]
    · intro h
      clear h
      simp only [hj, if_false]
      induction l with
      | nil => rfl
      | cons x l ih =>
        rw [List.map_cons, get_cons, get_cons, ih]
        by_cases hx : x.1 = k
        · have : ¬ x.1 = j := by rw [hx]; exact Ne.symm hj
          simp [hx, Ne.symm hj]
        · simp [hx]
  simp only [Dict.set]
  split
  · rename_i h; exact hmap d h
  · rename_i h
    rw [has_iff] at h
    rw [get_append, get_cons, get_nil]
    by_cases hj : j = k
    · subst hj
      cases hd : d.get j with
      | none => simp
      | some v => simp [hd] at h
    · simp [hj, Ne.symm hj]

theorem get_merge (a b : Dict) (k : String) : (a.merge b).get k = (b.get k).or (a.get k) := by
  have h1 : ∀ l : Dict, Dict.get (l.map fun x => (x.1, (b.get x.1).getD x.2)) k =
      (l.get k).map fun v => (b.get k).getD v := by
    intro l
    induction l with
    | nil => rfl
    | cons x l ih =>
      rw [List.map_cons, get_cons, get_cons, ih]
      by_cases hx : x.1 = k
      · simp [hx]
      · simp [hx]
  have h2 : ∀ l : Dict, Dict.get (l.filter fun x => !a.has x.1) k = if a.has k then none else l.get k := by
    intro l
    induction l with
    | nil => simp [get_nil]
    | cons x l ih =>
      rw [List.filter_cons]
      by_cases hx : x.1 = k
      · rw [hx]
        cases ha : a.has k with
        | true => simp [ha, ih]
        | false => simp [ha, get_cons, hx]
      · split
        · rw [get_cons, get_cons, ih]; simp [hx]
        · rw [get_cons, ih]; simp [hx]
  rw [Dict.merge, get_append, h1, h2, has_iff]
  cases a.get k <;> cases b.get k <;> simp

theorem any_params (d : Dict) (l : List String) :
    (d.find? fun x => !l.contains x.1) = none ↔ ∀ p, (d.get p).isSome → p ∈ l := by
  simp only [List.find?_eq_none, Bool.not_eq_true', Bool.not_eq_false, List.contains_iff_mem]
  constructor
  · intro h p hp
    rw [← has_iff] at hp
    simp only [Dict.has, List.any_eq_true, beq_iff_eq] at hp
    obtain ⟨x, hx, rfl⟩ := hp
    exact h x hx
  · intro h x hx
    apply h
    rw [← has_iff]
    simp only [Dict.has, List.any_eq_true, beq_iff_eq]
    exact ⟨x, hx, rfl⟩

end Oups.KeysConfig
