import Verif.Basic.ListLemmas
import Verif.Model.Writer
import Verif.Spec.Writer
/-! Lemmas on `iter_dataframe`. -/
namespace Oups.Writer
variable {R : Type}

/-! ### slices -/

theorem slices_flatten {α : Type} (l : List α) (s : Nat) (r : List Nat)
    (h : (s :: r).Pairwise (· ≤ ·)) : (slices l (s :: r)).flatten = l.drop s := by
  induction r generalizing s with
  | nil => simp [slices]
  | cons e r ih =>
    rw [List.pairwise_cons] at h
    have hse : s ≤ e := h.1 e (by simp)
    simp only [slices, List.flatten_cons, ih e h.2]
    rw [show l.drop e = (l.drop s).drop (e - s) by rw [List.drop_drop]; congr 1; omega]
    exact List.take_append_drop _ _

theorem slices_length {α : Type} (l : List α) (starts : List Nat) :
    (slices l starts).length = starts.length := by
  match starts with
  | [] => rfl
  | [s] => rfl
  | s :: e :: r => simp [slices, slices_length l (e :: r)]

/-- Each slice goes from a start to the next one (or to the end). -/
theorem mem_slices {α : Type} (l : List α) (starts : List Nat) (hs : starts.Pairwise (· < ·))
    (hn : ∀ s ∈ starts, s < l.length) {c : List α} (hc : c ∈ slices l starts) :
    ∃ b ∈ starts, ∃ e, c = (l.drop b).take (e - b) ∧ b < e ∧ e ≤ l.length ∧
      ∀ b' ∈ starts, b < b' → e ≤ b' := by
  match starts with
  | [] => simp [slices] at hc
  | [s] =>
    simp only [slices, List.mem_singleton] at hc
    have := hn s (by simp)
    refine ⟨s, by simp, l.length, ?_, this, le_refl _, ?_⟩
    · rw [hc, List.take_of_length_le (by simp)]
    · intro b' hb' hlt
      simp at hb'; omega
  | s :: e :: r =>
    rw [List.pairwise_cons] at hs
    have hse := hs.1 e (by simp)
    simp only [slices, List.mem_cons] at hc
    rcases hc with hc | hc
    · refine ⟨s, by simp, e, hc, hse, le_of_lt (hn e (by simp)), ?_⟩
      intro b' hb' hlt
      rcases List.mem_cons.1 hb' with rfl | hb'
      · omega
      · rcases List.mem_cons.1 hb' with rfl | hb''
        · exact le_refl _
        · have := (List.pairwise_cons.1 hs.2).1 b' hb''
          omega
    · obtain ⟨b, hb, e', h1, h2, h3, h4⟩ := mem_slices l (e :: r) hs.2
        (fun s hs => hn s (by simp [hs])) hc
      refine ⟨b, by simp [hb], e', h1, h2, h3, ?_⟩
      intro b' hb' hlt
      rcases List.mem_cons.1 hb' with rfl | hb'
      · have := hs.1 b hb; omega
      · exact h4 b' hb' hlt

theorem slices_nonempty {α : Type} (l : List α) (starts : List Nat) (hs : starts.Pairwise (· < ·))
    (hn : ∀ s ∈ starts, s < l.length) : ∀ c ∈ slices l starts, c ≠ [] := by
  intro c hc
  obtain ⟨b, _, e, rfl, h1, h2, _⟩ := mem_slices l starts hs hn hc
  intro h
  have := congrArg List.length h
  simp at this
  omega

theorem slices_subset_drop {α : Type} (l : List α) (s : Nat) (r : List Nat) (h : (s :: r).Pairwise (· ≤ ·))
    {c : List α} (hc : c ∈ slices l (s :: r)) {x : α} (hx : x ∈ c) : x ∈ l.drop s := by
  rw [← slices_flatten l s r h]
  exact List.mem_flatten.2 ⟨c, hc, hx⟩

/-- If each boundary separates values, slices are separated. -/
theorem slices_separated {α : Type} (k : α → Int) (l : List α) (starts : List Nat)
    (hs : starts.Pairwise (· < ·))
    (hb : ∀ b ∈ starts, ∀ x ∈ l.take b, ∀ y ∈ l.drop b, k x < k y) :
    Separated k (slices l starts) := by
  match starts with
  | [] => simp [slices, Separated]
  | [s] => simp [slices, Separated]
  | s :: e :: r =>
    rw [List.pairwise_cons] at hs
    simp only [slices, Separated, List.pairwise_cons]
    refine ⟨?_, slices_separated k l (e :: r) hs.2 (fun b h => hb b (by simp [h]))⟩
    intro c hc x hx y hy
    have hle : (e :: r).Pairwise (· ≤ ·) := hs.2.imp (fun h => le_of_lt h)
    refine hb e (by simp) x ?_ y (slices_subset_drop l e r hle hc hy)
    have hse := hs.1 e (by simp)
    rw [List.take_drop] at hx
    have := List.mem_of_mem_drop hx
    rwa [show s + (e - s) = e by omega] at this

/-! ### starts -/

theorem mem_rangeStep {n size s : Nat} (hs : 0 < size) : s ∈ rangeStep n size ↔ s < n ∧ s % size = 0 := by
  simp only [rangeStep, List.mem_map, List.mem_range]
  constructor
  · rintro ⟨i, hi, rfl⟩
    refine ⟨?_, by simp⟩
    have h1 : i + 1 ≤ (n + size - 1) / size := hi
    rw [Nat.le_div_iff_mul_le hs] at h1
    rw [Nat.add_mul] at h1
    omega
  · rintro ⟨h1, h2⟩
    refine ⟨s / size, ?_, ?_⟩
    · have h3 : s / size * size = s := Nat.div_mul_cancel (Nat.dvd_of_mod_eq_zero h2)
      have : s / size + 1 ≤ (n + size - 1) / size := by
        rw [Nat.le_div_iff_mul_le hs, Nat.add_mul]
        omega
      exact this
    · exact Nat.div_mul_cancel (Nat.dvd_of_mod_eq_zero h2)

theorem rangeStep_sorted (n size : Nat) (hs : 0 < size) : (rangeStep n size).Pairwise (· < ·) := by
  simp only [rangeStep, List.pairwise_map]
  exact List.pairwise_lt_range.imp (fun h => Nat.mul_lt_mul_of_pos_right h hs)

theorem rangeStep_head (n size : Nat) (hs : 0 < size) (hn : 0 < n) :
    ∃ r, rangeStep n size = 0 :: r := by
  have : 0 < (n + size - 1) / size := Nat.div_pos (by omega) hs
  obtain ⟨m, hm⟩ : ∃ m, (n + size - 1) / size = m + 1 := ⟨(n + size - 1) / size - 1, by omega⟩
  exact ⟨_, by rw [rangeStep, hm, List.range_succ_eq_map]; simp; rfl⟩

/-- Size of the slices. -/
def rgSizeOf (n maxRg : Nat) : Nat := min ((n - 1) / ((n - 1) / maxRg + 1) + 1) n

theorem partStarts_eq (n maxRg : Nat) (hn : n ≠ 0) : partStarts n maxRg = rangeStep n (rgSizeOf n maxRg) := by
  simp [partStarts, hn, rgSizeOf]

theorem rgSizeOf_pos (n maxRg : Nat) (hn : n ≠ 0) : 0 < rgSizeOf n maxRg := by
  simp [rgSizeOf]; omega

theorem rgSizeOf_le (n maxRg : Nat) (hm : 0 < maxRg) : rgSizeOf n maxRg ≤ maxRg := by
  have h1 : (n - 1) / ((n - 1) / maxRg + 1) < maxRg := by
    rw [Nat.div_lt_iff_lt_mul (Nat.succ_pos _)]
    have := Nat.lt_div_mul_add (a := n - 1) hm
    rw [Nat.mul_succ, Nat.mul_comm maxRg]
    omega
  simp only [rgSizeOf]
  omega

theorem rgSizeOf_count (n maxRg : Nat) (hn : n ≠ 0) :
    (partStarts n maxRg).length ≤ (n - 1) / maxRg + 1 := by
  rw [partStarts_eq n maxRg hn]
  have hp := rgSizeOf_pos n maxRg hn
  simp only [rangeStep, List.length_map, List.length_range]
  rw [← Nat.lt_succ_iff, Nat.div_lt_iff_lt_mul hp]
  generalize hq : (n - 1) / maxRg + 1 = q
  have hq0 : 0 < q := by rw [← hq]; exact Nat.succ_pos _
  have hsz : rgSizeOf n maxRg = min ((n - 1) / q + 1) n := by simp [rgSizeOf, hq]
  generalize rgSizeOf n maxRg = z at hsz hp
  have h1 : n ≤ q * z := by
    rw [hsz]
    rcases Nat.le_total ((n - 1) / q + 1) n with h | h
    · rw [min_eq_left h]
      have := Nat.lt_div_mul_add (a := n - 1) hq0
      rw [Nat.mul_add, Nat.mul_comm q]
      omega
    · rw [min_eq_right h]
      exact Nat.le_mul_of_pos_left n hq0
  have : q.succ * z = q * z + z := Nat.succ_mul q z
  omega

/-- Without `sharp_on`: pieces, for a non-empty frame. -/
theorem plain_slices {α : Type} (l : List α) (maxRg : Nat) (hm : 0 < maxRg) (hl : l ≠ []) :
    (slices l (partStarts l.length maxRg)).flatten = l ∧
    (∀ c ∈ slices l (partStarts l.length maxRg), c ≠ [] ∧ c.length ≤ maxRg) ∧
    (slices l (partStarts l.length maxRg)).length ≤ (l.length - 1) / maxRg + 1 := by
  have hn : l.length ≠ 0 := by simpa using hl
  have hp := rgSizeOf_pos l.length maxRg hn
  have hsort := rangeStep_sorted l.length _ hp
  have hmem : ∀ s ∈ rangeStep l.length (rgSizeOf l.length maxRg), s < l.length :=
    fun s h => ((mem_rangeStep hp).1 h).1
  rw [slices_length]
  refine ⟨?_, ?_, rgSizeOf_count _ _ hn⟩
  · rw [partStarts_eq _ _ hn]
    obtain ⟨r, hr⟩ := rangeStep_head l.length _ hp (by omega)
    rw [hr] at hsort ⊢
    rw [slices_flatten l 0 r (hsort.imp (fun h => le_of_lt h))]
    simp
  · rw [partStarts_eq _ _ hn]
    intro c hc
    refine ⟨slices_nonempty l _ hsort hmem c hc, ?_⟩
    obtain ⟨b, hb, e, rfl, h1, h2, h3⟩ := mem_slices l _ hsort hmem hc
    have hle := rgSizeOf_le l.length maxRg hm
    have hb' := (mem_rangeStep hp).1 hb
    have : e ≤ b + rgSizeOf l.length maxRg := by
      by_cases hlt : b + rgSizeOf l.length maxRg < l.length
      · exact h3 _ ((mem_rangeStep hp).2 ⟨hlt, by simp [hb'.2]⟩) (by omega)
      · omega
    simp
    omega

/-! ### unique, searchsorted -/

theorem mem_insertUnique (x y : Nat) (l : List Nat) : y ∈ insertUnique x l ↔ y = x ∨ y ∈ l := by
  induction l with
  | nil => simp [insertUnique]
  | cons a l ih =>
    simp only [insertUnique]
    split
    · simp
    · split
      · rename_i h; subst h; simp
      · simp only [List.mem_cons, ih]; tauto

theorem insertUnique_sorted (x : Nat) (l : List Nat) (h : l.Pairwise (· < ·)) :
    (insertUnique x l).Pairwise (· < ·) := by
  induction l with
  | nil => simp [insertUnique]
  | cons a l ih =>
    rw [List.pairwise_cons] at h
    simp only [insertUnique]
    split
    · rename_i hx
      simp only [List.pairwise_cons, List.mem_cons, forall_eq_or_imp]
      exact ⟨⟨hx, fun b hb => lt_trans hx (h.1 b hb)⟩, h⟩
    · split
      · exact List.pairwise_cons.2 h
      · rw [List.pairwise_cons]
        refine ⟨?_, ih h.2⟩
        intro b hb
        rcases (mem_insertUnique x b l).1 hb with rfl | hb
        · omega
        · exact h.1 b hb

theorem mem_npUnique (x : Nat) (l : List Nat) : x ∈ npUnique l ↔ x ∈ l := by
  induction l with
  | nil => simp [npUnique]
  | cons a l ih =>
    simp only [npUnique, List.foldr_cons, mem_insertUnique, List.mem_cons]
    simp only [npUnique] at ih
    rw [ih]

theorem npUnique_sorted (l : List Nat) : (npUnique l).Pairwise (· < ·) := by
  induction l with
  | nil => simp [npUnique]
  | cons a l ih => exact insertUnique_sorted a _ ih

theorem searchsorted_map (k : R → Int) (l : List R) (v : Int) :
    searchsortedLeft (l.map k) v = (l.takeWhile (fun r => k r < v)).length := by
  simp [searchsortedLeft, List.takeWhile_map, Function.comp_def]

/-- Starts used with `sharp_on`. -/
def sharpStarts (k : R → Int) (l : List R) (maxRg : Nat) : List Nat :=
  npUnique (((partStarts l.length maxRg).filterMap (fun i => (l.map k)[i]?)).map
    (searchsortedLeft (l.map k)))

theorem mem_sharpStarts (k : R → Int) (l : List R) (maxRg : Nat) (hl : l ≠ []) (b : Nat) :
    b ∈ sharpStarts k l maxRg ↔ ∃ s, ∃ h : s < l.length, s % rgSizeOf l.length maxRg = 0 ∧
      b = (l.takeWhile (fun r => k r < k l[s])).length := by
  have hn : l.length ≠ 0 := by simpa using hl
  have hp := rgSizeOf_pos l.length maxRg hn
  simp only [sharpStarts, mem_npUnique, List.mem_map, List.mem_filterMap, partStarts_eq _ _ hn,
    mem_rangeStep hp]
  constructor
  · rintro ⟨v, ⟨s, ⟨h1, h2⟩, h3⟩, rfl⟩
    refine ⟨s, h1, h2, ?_⟩
    simp [h1] at h3
    rw [searchsorted_map, ← h3]
  · rintro ⟨s, h, h2, rfl⟩
    exact ⟨k l[s], ⟨s, ⟨h, h2⟩, by simp [h]⟩, searchsorted_map k l _⟩

/-- A rank separates an ascending list. -/
theorem rank_boundary (k : R → Int) (l : List R) (hs : SortedOn k l) (v : Int) :
    ∀ x ∈ l.take (l.takeWhile (fun r => k r < v)).length,
    ∀ y ∈ l.drop (l.takeWhile (fun r => k r < v)).length, k x < k y := by
  intro x hx y hy
  rw [take_length_takeWhile] at hx
  rw [drop_length_takeWhile] at hy
  have h1 := mem_takeWhile_imp' hx
  simp only [decide_eq_true_eq] at h1
  have h2 := mem_dropWhile_lt hs hy
  omega

theorem rank_le (k : R → Int) (l : List R) (s : Nat) (h : s < l.length) :
    (l.takeWhile (fun r => k r < k l[s])).length ≤ s := by
  by_contra hc
  have hlt : s < (l.takeWhile (fun r => decide (k r < k l[s]))).length := by omega
  have hmem : (l.takeWhile (fun r => decide (k r < k l[s])))[s] ∈ l.takeWhile (fun r => decide (k r < k l[s])) :=
    List.getElem_mem hlt
  have h1 := mem_takeWhile_imp' hmem
  have h2 : (l.takeWhile (fun r => decide (k r < k l[s])))[s] = l[s] :=
    List.IsPrefix.getElem (List.takeWhile_prefix _) hlt
  rw [h2] at h1
  simp at h1

/-- With `sharp_on`: pieces, for a non-empty ascending frame. -/
theorem sharp_slices (k : R → Int) (l : List R) (maxRg : Nat) (hl : l ≠ []) (hs : SortedOn k l) :
    (slices l (sharpStarts k l maxRg)).flatten = l ∧
    (∀ c ∈ slices l (sharpStarts k l maxRg), c ≠ []) ∧
    Separated k (slices l (sharpStarts k l maxRg)) := by
  have hn : l.length ≠ 0 := by simpa using hl
  have hsort : (sharpStarts k l maxRg).Pairwise (· < ·) := npUnique_sorted _
  have hmem : ∀ s ∈ sharpStarts k l maxRg, s < l.length := by
    intro b hb
    obtain ⟨s, h, _, rfl⟩ := (mem_sharpStarts k l maxRg hl b).1 hb
    exact lt_of_le_of_lt (rank_le k l s h) h
  refine ⟨?_, slices_nonempty l _ hsort hmem, slices_separated k l _ hsort ?_⟩
  · have h0 : 0 ∈ sharpStarts k l maxRg := by
      rw [mem_sharpStarts k l maxRg hl]
      refine ⟨0, by omega, by simp, ?_⟩
      have := rank_le k l 0 (by omega)
      omega
    cases hst : sharpStarts k l maxRg with
    | nil => rw [hst] at h0; simp at h0
    | cons s r =>
      rw [hst] at h0 hsort
      have : s = 0 := by
        rcases List.mem_cons.1 h0 with h | h
        · exact h.symm
        · have := (List.pairwise_cons.1 hsort).1 0 h
          omega
      subst this
      rw [slices_flatten l 0 r (hsort.imp (fun h => le_of_lt h))]
      simp
  · intro b hb
    obtain ⟨s, h, _, rfl⟩ := (mem_sharpStarts k l maxRg hl b).1 hb
    exact rank_boundary k l hs _

/-- Last start carrying the same value. -/
theorem last_start (k : R → Int) (l : List R) (size : Nat) (hp : 0 < size) (v : Int) :
    ∀ fuel s, (h : s < l.length) → l.length - s ≤ fuel → s % size = 0 → k l[s] = v →
    ∃ t, ∃ ht : t < l.length, t % size = 0 ∧ k l[t] = v ∧ s ≤ t ∧
      (∀ h2 : t + size < l.length, k l[t + size] ≠ v) := by
  intro fuel
  induction fuel with
  | zero => intro s h hf; omega
  | succ n ih =>
    intro s h hf hmod hv
    by_cases hc : ∃ h2 : s + size < l.length, k l[s + size] = v
    · obtain ⟨h2, h3⟩ := hc
      obtain ⟨t, ht, g1, g2, g3, g4⟩ := ih (s + size) h2 (by omega) (by simp [hmod]) h3
      exact ⟨t, ht, g1, g2, by omega, g4⟩
    · refine ⟨s, h, hmod, hv, le_refl _, ?_⟩
      intro h2 h3
      exact hc ⟨h2, h3⟩

theorem sorted_getElem_le (k : R → Int) (l : List R) (hs : SortedOn k l) {i j : Nat} (hi : i ≤ j)
    (hj : j < l.length) : k (l[i]'(by omega)) ≤ k l[j] := by
  rcases Nat.lt_or_eq_of_le hi with h | h
  · exact List.pairwise_iff_getElem.1 hs i j (by omega) hj h
  · subst h; exact le_refl _

/-- With `sharp_on`, rows of a piece which do not share its first value are fewer than the maximum. -/
theorem sharp_size (k : R → Int) (l : List R) (maxRg : Nat) (hm : 0 < maxRg) (hl : l ≠ []) (hs : SortedOn k l) :
    ∀ c ∈ slices l (sharpStarts k l maxRg), ∀ x, c.head? = some x →
      (c.filter (fun r => k r ≠ k x)).length < maxRg := by
  have hn : l.length ≠ 0 := by simpa using hl
  have hp := rgSizeOf_pos l.length maxRg hn
  have hszle := rgSizeOf_le l.length maxRg hm
  have hsort : (sharpStarts k l maxRg).Pairwise (· < ·) := npUnique_sorted _
  have hmem : ∀ s ∈ sharpStarts k l maxRg, s < l.length := by
    intro b hb
    obtain ⟨s, h, _, rfl⟩ := (mem_sharpStarts k l maxRg hl b).1 hb
    exact lt_of_le_of_lt (rank_le k l s h) h
  intro c hc x hx
  obtain ⟨b, hb, e, rfl, h1, h2, h3⟩ := mem_slices l _ hsort hmem hc
  obtain ⟨s, hsl, hmod, hbe⟩ := (mem_sharpStarts k l maxRg hl b).1 hb
  have hbs : b ≤ s := hbe ▸ rank_le k l s hsl
  have hbl : b < l.length := hmem b hb
  -- the first row has the value at `s`
  have hfirst : x = l[b] := by
    rw [List.head?_take] at hx
    split at hx
    · simp at hx
    · simp [List.head?_drop, hbl] at hx
      exact hx.symm
  have hge : k l[s] ≤ k l[b] := by
    have : l[b] ∈ l.drop b := by
      rw [List.mem_drop_iff_getElem]; exact ⟨0, by omega, by simp⟩
    have h5 : l.drop b = l.dropWhile (fun r => k r < k l[s]) := by rw [hbe, drop_length_takeWhile]
    rw [h5] at this
    exact mem_dropWhile_lt hs this
  have hle : k l[b] ≤ k l[s] := sorted_getElem_le k l hs hbs hsl
  have hkx : k x = k l[s] := by rw [hfirst]; omega
  obtain ⟨t, ht, g1, g2, g3, g4⟩ := last_start k l _ hp (k l[s]) _ s hsl (le_refl _) hmod rfl
  -- the piece ends before the next start
  have he : e ≤ t + rgSizeOf l.length maxRg := by
    by_cases hlt : t + rgSizeOf l.length maxRg < l.length
    · have hne := g4 hlt
      have hle2 := sorted_getElem_le k l hs (Nat.le_add_right t (rgSizeOf l.length maxRg)) hlt
      have hlt2 : k l[s] < k l[t + rgSizeOf l.length maxRg] := by omega
      have hb' : (l.takeWhile (fun r => k r < k l[t + rgSizeOf l.length maxRg])).length ∈
          sharpStarts k l maxRg :=
        (mem_sharpStarts k l maxRg hl _).2 ⟨_, hlt, by simp [g1], rfl⟩
      have hrl := rank_le k l _ hlt
      refine le_trans (h3 _ hb' ?_) hrl
      -- rank strictly larger than b
      by_contra hcon
      have hmem2 : l[b] ∈ l.drop (l.takeWhile (fun r => k r < k l[t + rgSizeOf l.length maxRg])).length := by
        rw [List.mem_drop_iff_getElem]
        exact ⟨b - (l.takeWhile (fun r => k r < k l[t + rgSizeOf l.length maxRg])).length, by omega,
          by congr 1; omega⟩
      rw [drop_length_takeWhile] at hmem2
      have := mem_dropWhile_lt hs hmem2
      omega
    · omega
  -- rows up to index `t` share the first value
  have hte : b ≤ t := by omega
  have hsplit : (l.drop b).take (e - b) =
      ((l.drop b).take (e - b)).take (t + 1 - b) ++ ((l.drop b).take (e - b)).drop (t + 1 - b) :=
    (List.take_append_drop _ _).symm
  rw [hsplit, List.filter_append]
  have hnil : (((l.drop b).take (e - b)).take (t + 1 - b)).filter (fun r => decide (k r ≠ k x)) = [] := by
    apply filter_eq_nil_of
    intro y hy
    simp only [List.take_take, List.mem_take_iff_getElem, List.getElem_drop, List.length_drop] at hy
    obtain ⟨i, hi, rfl⟩ := hy
    have hi' : b + i ≤ t := by omega
    have u1 := sorted_getElem_le k l hs (Nat.le_add_right b i) (show b + i < l.length by omega)
    have u2 := sorted_getElem_le k l hs hi' ht
    simp only [decide_eq_false_iff_not, ne_eq, not_not]
    omega
  rw [hnil, List.nil_append]
  refine lt_of_le_of_lt (List.length_filter_le _ _) ?_
  simp only [List.length_drop, List.length_take]
  omega

end Oups.Writer
