import Mathlib.Data.List.Sort
import Mathlib.Tactic.Linarith
/-! List lemmas without oups content. -/
namespace Oups

theorem takeWhile_append_dropWhile' {α} (p : α → Bool) (l : List α) :
    l.takeWhile p ++ l.dropWhile p = l := List.takeWhile_append_dropWhile

theorem take_length_takeWhile {α} (p : α → Bool) (l : List α) :
    l.take (l.takeWhile p).length = l.takeWhile p := by
  induction l with
  | nil => simp
  | cons a l ih => simp only [List.takeWhile]; split <;> simp [ih]

theorem drop_length_takeWhile {α} (p : α → Bool) (l : List α) :
    l.drop (l.takeWhile p).length = l.dropWhile p := by
  induction l with
  | nil => simp
  | cons a l ih => simp only [List.takeWhile, List.dropWhile]; split <;> simp [ih]

theorem mem_takeWhile_imp' {α} {p : α → Bool} {l : List α} {x : α} (h : x ∈ l.takeWhile p) : p x = true := by
  induction l with
  | nil => simp at h
  | cons a l ih =>
    simp only [List.takeWhile] at h
    split at h
    · rcases List.mem_cons.1 h with rfl | h
      · assumption
      · exact ih h
    · simp at h

/-- In an ascending list, `dropWhile (< v)` has only values at least `v`. -/
theorem mem_dropWhile_lt {α} {k : α → Int} {v : Int} {l : List α} (hs : l.Pairwise (fun a b => k a ≤ k b))
    {x : α} (h : x ∈ l.dropWhile (fun a => k a < v)) : v ≤ k x := by
  induction l with
  | nil => simp at h
  | cons a l ih =>
    rw [List.pairwise_cons] at hs
    simp only [List.dropWhile] at h
    split at h
    · exact ih hs.2 h
    · rename_i h'
      simp only [decide_eq_false_iff_not, not_lt] at h'
      rcases List.mem_cons.1 h with rfl | h
      · exact h'
      · exact le_trans h' (hs.1 x h)

theorem pairwise_flatten_of {α} {r : α → α → Prop} {ls : List (List α)}
    (h1 : ∀ l ∈ ls, l.Pairwise r) (h2 : ls.Pairwise (fun a b => ∀ x ∈ a, ∀ y ∈ b, r x y)) :
    ls.flatten.Pairwise r := by
  rw [List.pairwise_flatten]
  exact ⟨h1, h2⟩

theorem filter_eq_nil_of {α} {p : α → Bool} {l : List α} (h : ∀ x ∈ l, p x = false) : l.filter p = [] := by
  rw [List.filter_eq_nil_iff]
  intro x hx; simp [h x hx]

end Oups
