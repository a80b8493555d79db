import Verif.Time
/-!
# Specification vocabulary: weighted averages
-/

namespace Utp

/-- The weights of an exponential average of `n` samples: the newest has weight `alpha`, the others share the rest; a single
sample has weight 1. -/
def weights (alpha : Rat) : Nat → List Rat
  | 0 => []
  | 1 => [1]
  | n + 2 => (weights alpha (n + 1)).map ((1 - alpha) * ·) ++ [alpha]

/-- The sum of the products. -/
def dot : List Rat → List Rat → Rat
  | x :: xs, y :: ys => x * y + dot xs ys
  | _, _ => 0

end Utp
