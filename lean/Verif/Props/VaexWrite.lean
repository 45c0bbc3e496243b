import Verif.Model.VaexWrite
import Verif.Props.Writer
/-! Property C85: data given as vaex DataFrames. -/
namespace Oups.Writer
variable {R : Type}

theorem vaexBound_nat (n s : Nat) : (vaexBound n (some (s : Int)) 0).toNat = s := by
  simp only [vaexBound, Option.getD_some]
  repeat' split
  all_goals omega

theorem vaexBound_stop (n : Nat) (b : Option Int) (hb : b.getD 0 = 0) : (vaexBound n b n).toNat = n := by
  simp only [vaexBound, hb, if_true]
  split <;> omega

theorem vaexBound_last (n : Nat) : (vaexBound n (some (-1)) 0).toNat = n - 1 := by
  simp only [vaexBound, Option.getD_some]
  repeat' split
  all_goals omega

theorem vaexSlice_nat {α : Type} (l : List α) (s : Nat) (e : Option Nat) (he : e ≠ some 0) :
    vaexSlice l (some s) (e.map Int.ofNat) = (l.take (e.getD l.length)).drop s := by
  rw [vaexSlice, vaexBound_nat]
  congr 2
  cases e with
  | none => exact vaexBound_stop _ _ rfl
  | some e =>
    have : e ≠ 0 := fun h => he (by rw [h])
    simp only [vaexBound, Option.map_some, Option.getD_some, Int.ofNat_eq_natCast]
    rw [if_neg (by omega : ¬ (e : Int) = 0), if_neg (by omega : ¬ (e : Int) < 0)]
    omega

theorem slices_vaex {α : Type} (l : List α) : ∀ starts : List Nat, starts.Pairwise (· < ·) →
    (pairsOf starts).map (fun se => vaexSlice l (some se.1) (se.2.map Int.ofNat)) = slices l starts
  | [], _ => rfl
  | [s], _ => by
    have := vaexSlice_nat l s none (by simp)
    simp only [pairsOf, List.map_cons, List.map_nil, slices]
    rw [this]; simp
  | s :: e :: r, h => by
    have hse : s < e := (List.pairwise_cons.1 h).1 e (by simp)
    simp only [pairsOf, List.map_cons, slices]
    rw [vaexSlice_nat l s (some e) (by simp; omega), slices_vaex l (e :: r) (List.pairwise_cons.1 h).2]
    simp [List.drop_take]

theorem partStarts_sorted (n m : Nat) : (partStarts n m).Pairwise (· < ·) := by
  by_cases hn : n = 0
  · simp [partStarts, hn]
  · rw [partStarts_eq _ _ hn]
    exact rangeStep_sorted _ _ (rgSizeOf_pos _ _ hn)

theorem evaluate_eq (l : List R) (k : R → Int) (i : Nat) : ((l.take (i + 1)).drop i).head?.map k = (l.map k)[i]? := by
  rw [List.head?_drop, List.getElem?_take_of_lt (by omega), List.getElem?_map]

theorem iterVaex_eq (T : Table R) (data : List R) (m : Option Nat) (sharp : Option Col) (dup : Option DupOn) :
    iterVaex T data m sharp dup = iterDataframe T data true m sharp dup := by
  have h1 := slices_vaex data (partStarts data.length (m.getD defaultMaxRg)) (partStarts_sorted _ _)
  have h2 := fun l => slices_vaex data (npUnique l) (npUnique_sorted l)
  cases sharp with
  | none =>
    simp only [iterVaex, iterDataframe, bind, Except.bind, pure, Except.pure, h1, Bool.not_true, Bool.false_and]
    rfl
  | some on =>
    simp only [iterVaex, iterDataframe, bind, Except.bind, pure, Except.pure, Bool.not_true, Bool.false_and, evaluate_eq]
    by_cases hd : data.length = 0
    · simp [hd, throw, throwThe, MonadExceptOf.throw]
    · by_cases hm : m.getD defaultMaxRg = 0
      · simp [hd, hm, throw, throwThe, MonadExceptOf.throw]
      · simp only [hd, hm, h2]
        cases dup <;> simp

theorem vaex_ends (T : Table R) (on : Col) (rows : List R) : frameEnds T on (.vaex rows) = frameEnds T on (.pandas rows) := by
  have h1 : vaexSlice (rows.map (T.get on)) none (some 0) = rows.map (T.get on) := by
    rw [vaexSlice, vaexBound_stop _ _ rfl, List.take_length]
    rfl
  have h2 : vaexSlice (rows.map (T.get on)) (some (-1)) none = (rows.map (T.get on)).drop (rows.length - 1) := by
    rw [vaexSlice, vaexBound_stop _ _ rfl, List.take_length, vaexBound_last, List.length_map]
  simp only [frameEnds, h1, h2, bind, Except.bind]
  rcases List.eq_nil_or_concat rows with rfl | ⟨xs, x, rfl⟩
  · rfl
  · rw [List.concat_eq_append]
    simp only [List.map_append, List.length_append, List.map_cons, List.map_nil, List.length_cons, List.length_nil,
      Nat.zero_add, Nat.add_sub_cancel]
    rw [List.drop_left' (by simp)]
    rw [show (xs ++ [x]).getLast? = some x by simp]
    cases xs <;> simp [firstOfArray]

theorem frameWindow_eq (T : Table R) (rgs : List (RG R)) (f : Frame R) (on : Option Col) :
    frameWindow T rgs f on = overlapWindow T rgs f.rows on := by
  have h : ∀ c, frameEnds T c f = frameEnds T c (.pandas f.rows) := fun c => by
    cases f with
    | pandas l => rfl
    | vaex l => exact vaex_ends T c l
  cases on with
  | none => rfl
  | some c =>
    rw [frameWindow, h]
    simp only [overlapWindow, frameEnds, bind, Except.bind]
    cases f.rows.head? <;> cases f.rows.getLast? <;> rfl

theorem iterFrame_plain (T : Table R) (f : Frame R) (m : Option Nat) :
    iterFrame T f m none none = iterDataframe T f.rows false m none none := by
  cases f with
  | pandas l => rfl
  | vaex l => rw [iterFrame, iterVaex_eq]; rfl

theorem frameUpdate_eq (T : Table R) (p : Params) (rgs : List (RG R)) (f : Frame R) (on : Option Col) (s : Nat) (e : Option Nat) :
    frameUpdate T p rgs f on s e = writeUpdate T p rgs f.rows on s e := by
  cases f <;> simp only [frameUpdate, writeUpdate, iterFrame, iterVaex_eq, Frame.rows] <;> rfl

/-- **C85** Data given as a vaex DataFrame, or as a pandas one, is written as said by `write` for the list of its rows: all that is proved of
`write` holds for both. -/
theorem C85_write (T : Table R) (p : Params) (rgs : List (RG R)) (f : Frame R) :
    writeFrame T p rgs f = write T p rgs f.rows := by
  simp only [writeFrame, write, frameWindow_eq, iterFrame_plain, frameUpdate_eq, Frame.len]
  rfl

/-- **C85** Data given as a vaex DataFrame is written as the pandas DataFrame of the same rows: same row groups, in the same files, or same
error; for any parameters, any recorded dataset and any rows. -/
theorem C85_same (T : Table R) (p : Params) (rgs : List (RG R)) (rows : List R) :
    writeFrame T p rgs (.vaex rows) = writeFrame T p rgs (.pandas rows) := by
  rw [C85_write, C85_write]; rfl

/-- Rows inserted in the middle of a dataset, duplicates being dropped, in row groups of two rows; no row at all; and the bounds of the rows. -/
example : (writeFrame exT { maxRg := some 2, orderedOn := some (.col 0), dupOn := some (.many [0]) } (exRgs [[1, 2], [5, 6], [8, 9]])
      (.vaex (exRows [2, 3, 6]))).toOption.map (List.map RG.rows) =
      some [[(1, 0)], [(2, 1), (3, 1)], [(5, 0)], [(6, 1)], [(8, 0), (9, 0)]] ∧
    writeFrame exT { orderedOn := some (.col 0) } (exRgs [[1, 2]]) (.vaex []) = .error .indexError ∧
    frameEnds exT 0 (.vaex (exRows [2, 3, 6])) = .ok (2, 6) := by
  refine ⟨?_, rfl, rfl⟩
  rfl

/-- **C85** rests on how vaex reads the slice `[:0]`: read as Python reads it, it holds no row, and any write of a vaex DataFrame with
`ordered_on` to a recorded dataset would raise. -/
theorem C85_python_slice_fails (l : List Int) : firstOfArray (l.take 0) = .error .indexError ∧
    (l ≠ [] → ∃ v, firstOfArray (vaexSlice l none (some 0)) = .ok v) := by
  refine ⟨rfl, fun h => ?_⟩
  obtain ⟨x, xs, rfl⟩ := List.exists_cons_of_ne_nil h
  refine ⟨x, ?_⟩
  rw [vaexSlice, vaexBound_stop _ _ rfl, List.take_length]
  rfl

end Oups.Writer
