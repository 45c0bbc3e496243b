import Verif.Model.FloatSize
import Verif.Model.Writer
import Mathlib.Tactic.Ring
/-! # C18: the size under which a row group is incomplete -/
namespace Oups.FloatSize

theorem roundHalfEven_low (n s : Nat) : n / 2 ^ s ≤ roundHalfEven n s := by
  unfold roundHalfEven; split <;> omega

theorem roundHalfEven_high (n s : Nat) : 2 * (roundHalfEven n s * 2 ^ s) ≤ 2 * n + 2 ^ s := by
  have h := Nat.div_add_mod n (2 ^ s)
  have hp : 0 < 2 ^ s := Nat.two_pow_pos s
  have hm := Nat.mod_lt n hp
  unfold roundHalfEven
  generalize n / 2 ^ s = q at *
  generalize n % 2 ^ s = r at *
  generalize 2 ^ s = d at *
  have hc : q * d = d * q := Nat.mul_comm q d
  split
  · rw [Nat.add_mul]; omega
  · omega

theorem roundHalfEven_near (n s : Nat) : 2 * n ≤ 2 * (roundHalfEven n s * 2 ^ s) + 2 ^ s := by
  have h := Nat.div_add_mod n (2 ^ s)
  have hp : 0 < 2 ^ s := Nat.two_pow_pos s
  have hm := Nat.mod_lt n hp
  unfold roundHalfEven
  generalize n / 2 ^ s = q at *
  generalize n % 2 ^ s = r at *
  generalize 2 ^ s = d at *
  have hc : q * d = d * q := Nat.mul_comm q d
  split
  · rw [Nat.add_mul]; omega
  · omega

/-- **C18** Rounding is to the nearest number of 53 bits: the error is at most half of the last bit; numbers of 53 bits are kept. -/
theorem C18_round53 (n : Nat) : 2 * ((round53 n : Int) - n).natAbs ≤ 2 ^ (n.log2 + 1 - 53) ∧ (n < 2 ^ 53 → round53 n = n) := by
  have h1 := roundHalfEven_high n (n.log2 + 1 - 53)
  have h2 := roundHalfEven_near n (n.log2 + 1 - 53)
  constructor
  · rw [round53]
    generalize roundHalfEven n (n.log2 + 1 - 53) * 2 ^ (n.log2 + 1 - 53) = r at *
    generalize 2 ^ (n.log2 + 1 - 53) = d at *
    omega
  · intro h
    have hs : n.log2 + 1 - 53 = 0 := by
      by_cases h0 : n = 0
      · subst h0; decide
      · have := (Nat.log2_lt h0).2 h; omega
    rw [round53, hs, roundHalfEven]
    simp [Nat.mod_one]

/-- Ties: to the even number. -/
example : round53 (2 ^ 53 + 1) = 2 ^ 53 ∧ round53 (2 ^ 53 + 3) = 2 ^ 53 + 4 ∧ round53 (2 ^ 54 + 3) = 2 ^ 54 + 4 := by decide +kernel

/-- The double nearest to 0.9. -/
theorem nineTenths_nearest (m : Nat) : (9 * 2 ^ 53 - 10 * (nineTenths : Int)).natAbs ≤ (9 * 2 ^ 53 - 10 * (m : Int)).natAbs := by
  unfold nineTenths; omega

/-- **C18** `int(max_row_group_size * 0.9)`, computed with doubles, is the quotient `9 * max_row_group_size / 10` for any size below
`2^50`. -/
theorem C18_size_float (x : Nat) (h : x < 2 ^ 50) : minSize x = x * 9 / 10 := by
  have hP : x * nineTenths < 2 ^ 103 := by
    unfold nineTenths
    calc x * 8106479329266893 < 2 ^ 50 * 2 ^ 53 := Nat.mul_lt_mul_of_lt_of_le h (by decide) (by decide)
      _ = 2 ^ 103 := by decide
  have hs : (x * nineTenths).log2 + 1 - 53 ≤ 50 := by
    by_cases h0 : x * nineTenths = 0
    · rw [h0]; decide
    · have := (Nat.log2_lt h0).2 hP
      omega
  have hlow := roundHalfEven_low (x * nineTenths) ((x * nineTenths).log2 + 1 - 53)
  have hhigh := roundHalfEven_high (x * nineTenths) ((x * nineTenths).log2 + 1 - 53)
  unfold minSize round53
  generalize (x * nineTenths).log2 + 1 - 53 = s at *
  have hd : 2 ^ s ≤ 2 ^ 50 := Nat.pow_le_pow_right (by decide) hs
  have hn : x * 9 / 10 * 2 ^ 53 ≤ x * nineTenths := by unfold nineTenths; omega
  have hdvd : x * 9 / 10 * 2 ^ 53 = x * 9 / 10 * 2 ^ (53 - s) * 2 ^ s := by
    rw [Nat.mul_assoc, ← Nat.pow_add]; congr 2; omega
  have hlow' : x * 9 / 10 * 2 ^ 53 ≤ roundHalfEven (x * nineTenths) s * 2 ^ s := by
    rw [hdvd] at hn ⊢
    exact Nat.mul_le_mul_right _ (Nat.le_trans ((Nat.le_div_iff_mul_le (Nat.two_pow_pos s)).2 hn) hlow)
  generalize roundHalfEven (x * nineTenths) s * 2 ^ s = R at *
  unfold nineTenths at *
  generalize 2 ^ s = d at *
  omega

/-- The size of the model of `write`, for the default maximum size. -/
example : minSize Writer.defaultMaxRg = 5710500 := by decide +kernel
example : minSize 10 = 9 ∧ minSize 1 = 0 ∧ minSize 11 = 9 ∧ minSize 19 = 17 := by decide +kernel

end Oups.FloatSize
