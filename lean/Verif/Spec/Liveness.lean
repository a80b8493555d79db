import Verif.World
/-!
# Specification vocabulary: a network that falls silent
-/

namespace Utp

/-- Sending never blocks, every wait ends (with a datagram, a timeout or an error), and from the `N`-th wait on no datagram
arrives. -/
structure FallsSilent (E : Env) (N : Nat) : Prop where
  snd : ∀ n, E.snd n ≠ .never
  net : ∀ n, E.net n ≠ .never
  quiet : ∀ n, N ≤ n → ∃ k, E.net n = .fail k

end Utp
