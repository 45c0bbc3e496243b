/-
`int(max_row_group_size * 0.9)` (/repo/oups/store/writer.py 513) in binary floating point: product of an integer and of the double
nearest to 0.9, rounded to 53 bits (nearest, ties to even), then truncated.

Simplifications
* Numbers are multiples of `2^-53`, given by the multiple: the product of an integer by 0.9 is one. There is neither overflow nor
  subnormal number in this range.
* The conversion of `max_row_group_size` to a double is exact (below `2^53`).
-/
namespace Oups.FloatSize

/-- `n / 2^s`, rounded to the nearest integer, ties to the even one. -/
def roundHalfEven (n s : Nat) : Nat :=
  if 2 * (n % 2 ^ s) > 2 ^ s ∨ (2 * (n % 2 ^ s) = 2 ^ s ∧ n / 2 ^ s % 2 = 1) then n / 2 ^ s + 1 else n / 2 ^ s

/-- `n`, rounded to 53 significant bits. -/
def round53 (n : Nat) : Nat := roundHalfEven n (n.log2 + 1 - 53) * 2 ^ (n.log2 + 1 - 53)

/-- The double `0.9`, in multiples of `2^-53`. -/
def nineTenths : Nat := 8106479329266893

/-- `int(x * 0.9)` (writer.py 513). -/
def minSize (x : Nat) : Nat := round53 (x * nineTenths) / 2 ^ 53

end Oups.FloatSize
