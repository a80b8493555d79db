import Verif.Spec.Sending
/-!
# Specification vocabulary: how long a packet waits for its turn
-/

namespace Utp

/-- A packet whose turn came in the state `w` may still wait for a datagram in the state `w1`: there is no room in the window, and when the clock was last read less
than half a second had passed since then, by any real time the clock may show; or the 32 bits of the clock wrapped around since then. -/
def MayWait (E : Env) (w w1 : World) : Prop :=
  sendLimit w.s ≤ w1.s.currWindow.toNat ∧
  ∀ T, RealTime E T → T (w1.nNow - 1) < T w.nNow + 500000 ∨ T w.nNow / 2 ^ 32 < T (w1.nNow - 1) / 2 ^ 32

end Utp
