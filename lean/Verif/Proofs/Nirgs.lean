import Mathlib.Tactic.Ring
import Mathlib.Data.List.Induction
import Verif.Props.WriteWhen
/-! Runs of incomplete row groups: lemmas for property C88. -/
namespace Oups.Writer
variable {R : Type}

/-! ### Runs in a list -/

/-- Length of the run (of elements that are not `c`) at the end of a list, `r` being that of the run before it. -/
def runEnd {α : Type} (c : α → Bool) : Nat → List α → Nat
  | r, [] => r
  | r, x :: l => if c x then runEnd c 0 l else runEnd c (r + 1) l

/-- Runs followed by an element that is `c` are of `h` elements or fewer. -/
def RunsIn {α : Type} (c : α → Bool) (h : Nat) : Nat → List α → Prop
  | _, [] => True
  | r, x :: l => if c x then r ≤ h ∧ RunsIn c h 0 l else RunsIn c h (r + 1) l

theorem runEnd_append {α : Type} (c : α → Bool) (a b : List α) (r : Nat) : runEnd c r (a ++ b) = runEnd c (runEnd c r a) b := by
  induction a generalizing r with
  | nil => rfl
  | cons x a ih => simp only [List.cons_append, runEnd]; split <;> exact ih _

theorem runsIn_append {α : Type} (c : α → Bool) (h : Nat) (a b : List α) (r : Nat) :
    RunsIn c h r (a ++ b) ↔ RunsIn c h r a ∧ RunsIn c h (runEnd c r a) b := by
  induction a generalizing r with
  | nil => simp [RunsIn, runEnd]
  | cons x a ih =>
    simp only [List.cons_append, RunsIn, runEnd]
    split
    · rw [ih, and_assoc]
    · exact ih _

theorem RunsIn.mono {α : Type} {c : α → Bool} {h h' : Nat} (hh : h ≤ h') {l : List α} {r : Nat} (hr : RunsIn c h r l) :
    RunsIn c h' r l := by
  induction l generalizing r with
  | nil => trivial
  | cons x l ih =>
    simp only [RunsIn] at hr ⊢
    split at hr
    · rename_i hx; rw [if_pos hx]; exact ⟨hr.1.trans hh, ih hr.2⟩
    · rename_i hx; rw [if_neg hx]; exact ih hr

theorem runEnd_none {α : Type} {c : α → Bool} {l : List α} (hl : ∀ x ∈ l, c x = false) (r : Nat) : runEnd c r l = r + l.length := by
  induction l generalizing r with
  | nil => rfl
  | cons x l ih =>
    simp only [runEnd, hl x (by simp), Bool.false_eq_true, if_false, List.length_cons]
    rw [ih (fun y hy => hl y (by simp [hy]))]; omega

theorem runsIn_none {α : Type} {c : α → Bool} {h : Nat} {l : List α} (hl : ∀ x ∈ l, c x = false) (r : Nat) : RunsIn c h r l := by
  induction l generalizing r with
  | nil => trivial
  | cons x l ih =>
    simp only [RunsIn, hl x (by simp), Bool.false_eq_true, if_false]
    exact ih (fun y hy => hl y (by simp [hy])) _

theorem runEnd_all {α : Type} {c : α → Bool} {l : List α} (hl : ∀ x ∈ l, c x = true) : runEnd c 0 l = 0 := by
  induction l with
  | nil => rfl
  | cons x l ih =>
    simp only [runEnd, hl x (by simp), if_true]
    exact ih (fun y hy => hl y (by simp [hy]))

theorem runsIn_all {α : Type} {c : α → Bool} {h : Nat} {l : List α} (hl : ∀ x ∈ l, c x = true) : RunsIn c h 0 l := by
  induction l with
  | nil => trivial
  | cons x l ih =>
    simp only [RunsIn, hl x (by simp), if_true]
    exact ⟨Nat.zero_le _, ih (fun y hy => hl y (by simp [hy]))⟩

theorem runs_le {α : Type} {c : α → Bool} {h b : Nat} {l : List α} {r : Nat} (hb : h ≤ b) (hr : RunsIn c h r l)
    (he : runEnd c r l ≤ b) : r ≤ b := by
  induction l generalizing r with
  | nil => exact he
  | cons x l ih =>
    simp only [RunsIn, runEnd] at hr he
    split at hr
    · exact hr.1.trans hb
    · rename_i hx; rw [if_neg hx] at he; exact Nat.le_of_succ_le (ih hr he)

/-- Any elements in a row that are not `c`. -/
theorem runs_row {α : Type} {c : α → Bool} {h b : Nat} {A W B : List α} (hb : h ≤ b) (hr : RunsIn c h 0 (A ++ W ++ B))
    (he : runEnd c 0 (A ++ W ++ B) ≤ b) (hW : ∀ x ∈ W, c x = false) : W.length ≤ b := by
  rw [runsIn_append] at hr
  rw [runEnd_append] at he
  have := runs_le hb hr.2 he
  rw [runEnd_append, runEnd_none hW] at this
  omega

theorem runs_count {α : Type} {c : α → Bool} {h b : Nat} {l : List α} {r : Nat} (hb : h ≤ b) (hr : RunsIn c h r l)
    (he : runEnd c r l ≤ b) : l.length + r ≤ (b + 1) * l.countP c + b := by
  induction l generalizing r with
  | nil => simpa [runEnd] using he
  | cons x l ih =>
    simp only [RunsIn, runEnd] at hr he
    by_cases hx : c x = true
    · simp only [hx, if_true] at hr he
      have := ih hr.2 he
      rw [List.countP_cons_of_pos hx, Nat.mul_succ, List.length_cons]
      have := hr.1
      omega
    · rw [if_neg hx] at hr he
      have := ih hr he
      rw [List.countP_cons_of_neg hx, List.length_cons]
      omega

/-- The run at the end, as `coalesce` counts it. -/
theorem runEnd_takeWhile {α : Type} (c : α → Bool) (l : List α) : runEnd c 0 l = (l.reverse.takeWhile fun x => !c x).length := by
  induction l using List.reverseRecOn with
  | nil => rfl
  | append_singleton l x ih =>
    rw [runEnd_append, ih, List.reverse_append]
    simp only [runEnd, List.reverse_cons, List.reverse_nil, List.nil_append, List.cons_append]
    cases hx : c x <;> simp [hx]

/-! ### Pieces of a frame -/

theorem slices_steps {α : Type} (l : List α) (s : Nat) (q j : Nat) (h1 : (j + q) * s ≤ l.length) (h2 : l.length ≤ (j + q + 1) * s) :
    (∀ c ∈ (slices l ((List.range' j (q + 1)).map (· * s))).dropLast, c.length = s) ∧
    ∀ c ∈ slices l ((List.range' j (q + 1)).map (· * s)), c.length ≤ s := by
  induction q generalizing j with
  | zero =>
    simp only [List.range', List.map_cons, List.map_nil, slices]
    refine ⟨by simp, fun c hc => ?_⟩
    rw [List.mem_singleton] at hc
    subst hc
    rw [List.length_drop]
    rw [Nat.add_zero, Nat.add_mul] at h2
    omega
  | succ q ih =>
    obtain ⟨h3, h4⟩ := ih (j + 1) (by rwa [show j + 1 + q = j + (q + 1) by omega]) (by rwa [show j + 1 + q = j + (q + 1) by omega])
    rw [List.range'_succ]
    generalize hL : (List.range' (j + 1) (q + 1)).map (· * s) = L at h3 h4
    have hL' : ∃ r, L = (j + 1) * s :: r := by rw [← hL, List.range'_succ]; exact ⟨_, rfl⟩
    have hlen : ((l.drop (j * s)).take ((j + 1) * s - j * s)).length = s := by
      rw [List.length_take, List.length_drop, Nat.succ_mul]
      have : (j + (q + 1)) * s = j * s + s + q * s := by ring
      omega
    obtain ⟨r, rfl⟩ := hL'
    rw [List.map_cons, hL]
    simp only [slices]
    constructor
    · intro c hc
      rw [List.dropLast_cons_of_ne_nil] at hc
      · rcases List.mem_cons.1 hc with rfl | hc
        · exact hlen
        · exact h3 c hc
      · intro h0
        have := congrArg List.length h0
        rw [slices_length] at this
        simp at this
    · intro c hc
      rcases List.mem_cons.1 hc with rfl | hc
      · exact hlen.le
      · exact h4 c hc

/-- Pieces of the same size, the last one possibly smaller. -/
theorem plain_sizes {α : Type} (l : List α) (m : Nat) (hl : l ≠ []) :
    (∀ c ∈ (slices l (partStarts l.length m)).dropLast, c.length = rgSizeOf l.length m) ∧
    ∀ c ∈ slices l (partStarts l.length m), c.length ≤ rgSizeOf l.length m := by
  have hn : l.length ≠ 0 := by simpa using hl
  have hp := rgSizeOf_pos l.length m hn
  rw [partStarts_eq _ _ hn, rangeStep]
  generalize rgSizeOf l.length m = s at hp
  obtain ⟨q, hq⟩ : ∃ q, (l.length + s - 1) / s = q + 1 := by
    have : 0 < (l.length + s - 1) / s := Nat.div_pos (by omega) hp
    exact ⟨(l.length + s - 1) / s - 1, by omega⟩
  rw [hq, List.range_eq_range']
  have h1 := Nat.div_mul_le_self (l.length + s - 1) s
  have h2 := Nat.lt_div_mul_add (a := l.length + s - 1) hp
  rw [hq] at h1 h2
  rw [Nat.succ_mul] at h1 h2
  refine slices_steps l s q 0 (by rw [Nat.zero_add]; omega) (by rw [Nat.zero_add, Nat.succ_mul]; omega)

/-- Nine pieces at most when they are incomplete. -/
theorem small_pieces (n m : Nat) (hn : n ≠ 0) (h : rgSizeOf n m ≤ m * 9 / 10) : (partStarts n m).length ≤ 9 := by
  refine (rgSizeOf_count n m hn).trans ?_
  by_contra hc
  have hp := rgSizeOf_pos n m hn
  have hm : 0 < m := by omega
  generalize hq : (n - 1) / m + 1 = q at hc
  have hq1 : (q - 1) * m ≤ n - 1 := by rw [← hq]; exact Nat.div_mul_le_self _ _
  have hq0 : 0 < q := by omega
  have hnq : n ≤ q * rgSizeOf n m := by
    simp only [rgSizeOf, hq]
    rcases Nat.le_total ((n - 1) / q + 1) n with h | h
    · rw [min_eq_left h]
      have := Nat.lt_div_mul_add (a := n - 1) hq0
      rw [Nat.mul_add, Nat.mul_comm q]
      omega
    · rw [min_eq_right h]
      exact Nat.le_mul_of_pos_left n hq0
  have h1 : q * rgSizeOf n m ≤ q * (m * 9 / 10) := Nat.mul_le_mul_left _ h
  have h2 : 10 * (q * (m * 9 / 10)) ≤ 9 * (q * m) := by
    have := Nat.mul_le_mul_left q (Nat.mul_div_le (m * 9) 10)
    calc 10 * (q * (m * 9 / 10)) = q * (10 * (m * 9 / 10)) := by ring
      _ ≤ q * (m * 9) := this
      _ = 9 * (q * m) := by ring
  have h3 : (q - 1) * m + m = q * m := by
    rw [← Nat.succ_mul]; congr 1; omega
  have h4 : 10 * m ≤ q * m := Nat.mul_le_mul_right m (by omega)
  omega

/-- Row groups of a frame. -/
def piecesOf (m : Nat) (l : List R) : List (List R) := if l = [] then [] else slices l (partStarts l.length m)

def complete (m : Nat) (l : List R) : Bool := decide (m * 9 / 10 < l.length)

theorem pieces_runs (m : Nat) (l : List R) : RunsIn (complete m) 0 0 (piecesOf m l) ∧ runEnd (complete m) 0 (piecesOf m l) ≤ 9 := by
  unfold piecesOf
  split
  · exact ⟨trivial, by simp [runEnd]⟩
  · rename_i hl
    have hn : l.length ≠ 0 := by simpa using hl
    obtain ⟨h1, h2⟩ := plain_sizes l m hl
    rcases Nat.lt_or_ge (m * 9 / 10) (rgSizeOf l.length m) with hs | hs
    · have hall : ∀ c ∈ (slices l (partStarts l.length m)).dropLast, complete m c = true := fun c hc => by
        simp only [complete, decide_eq_true_eq, h1 c hc]; exact hs
      rcases List.eq_nil_or_concat (slices l (partStarts l.length m)) with h0 | ⟨L, x, h0⟩
      · rw [h0]; exact ⟨trivial, by simp [runEnd]⟩
      · rw [List.concat_eq_append] at h0
        rw [h0, List.dropLast_concat] at hall
        rw [h0, runsIn_append, runEnd_append, runEnd_all hall]
        refine ⟨⟨runsIn_all hall, ?_⟩, ?_⟩
        · simp only [RunsIn]; split <;> simp
        · simp only [runEnd]; split <;> simp
    · have hall : ∀ c ∈ slices l (partStarts l.length m), complete m c = false := fun c hc => by
        simp only [complete, decide_eq_false_iff_not, not_lt]; exact (h2 c hc).trans hs
      refine ⟨runsIn_none hall 0, ?_⟩
      rw [runEnd_none hall, Nat.zero_add, slices_length]
      exact small_pieces _ _ hn hs

/-- A frame that fits in a row group. -/
theorem pieces_one {m : Nat} {l : List R} (h : l.length < m) : piecesOf m l = [] ∨ piecesOf m l = [l] := by
  unfold piecesOf
  split
  · exact Or.inl rfl
  · rename_i hl
    have hn : l.length ≠ 0 := by simpa using hl
    have : (l.length - 1) / m = 0 := Nat.div_eq_of_lt (by omega)
    right
    rw [partStarts_eq _ _ hn]
    have hs : rgSizeOf l.length m = l.length := by
      simp [rgSizeOf, this]; omega
    rw [hs, rangeStep, Nat.div_eq_of_lt_le (k := 1) (by omega) (by omega)]
    simp [slices]

end Oups.Writer
