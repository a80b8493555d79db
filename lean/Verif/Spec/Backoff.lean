import Verif.World
/-!
# Specification vocabulary: how often a wait for a datagram timed out
-/

namespace Utp

/-- The receive number `k` timed out. -/
def timedOutAt (E : Env) (k : Nat) : Bool := E.net k = .fail .timedOut || E.net k = .fail .wouldBlock

/-- The number of receives that timed out among the numbers from `m` to below `n`. -/
def timeouts (E : Env) (m n : Nat) : Nat := ((List.range' m (n - m)).filter (timedOutAt E)).length

/-- All waits logged between `w` and `w'` end after at most `ms` milliseconds. -/
def WaitsAtMost (ms : Nat) (w w' : World) : Prop :=
  ∃ l, w'.log = w.log ++ l ∧ ∀ t : U64, .wait (some t) ∈ l → t.toNat ≤ ms

end Utp
