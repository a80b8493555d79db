import Mathlib.Algebra.Order.Ring.Rat
import Mathlib.Algebra.Order.Field.Power
/-!
# Specification vocabulary: floating point numbers
-/

namespace Utp

/-- The numbers with a significand of 53 bits. -/
def Representable (y : ℚ) : Prop := ∃ m e : ℤ, |m| ≤ 2 ^ 53 ∧ y = m * (2 : ℚ) ^ e

/-- `r` rounds to a nearest number with a significand of 53 bits. -/
def Nearest (r : ℚ → ℚ) : Prop := ∀ x, Representable (r x) ∧ ∀ y, Representable y → |r x - x| ≤ |y - x|

end Utp
