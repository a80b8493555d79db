import Verif.Spec.Trace
import Verif.Spec.Run
/-!
# Specification vocabulary: how long a socket waits for a peer that is gone
-/

namespace Utp

/-- The time limits of the waits in a part of the log, in milliseconds. -/
def waitLimits (l : List Act) : List Nat :=
  l.filterMap fun a => match a with
    | .wait (some t) => some t.toNat
    | _ => none

/-- The time the socket has waited since `w`, if every wait ended at its limit. -/
def msWaited (w w' : World) : Nat := (waitLimits (w'.log.drop w.log.length)).sum

/-- Nothing arrives any more; what the socket sends is taken by the operating system. -/
structure PeerGone (E : Env) (w : World) : Prop where
  silent : ∀ j, w.nNet ≤ j → (E.net j).isTimeout
  sends : ∀ j, w.nSnd ≤ j → E.snd j = .ok

end Utp
