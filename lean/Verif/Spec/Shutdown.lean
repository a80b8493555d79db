import Verif.Spec.Lossless
import Verif.Spec.Run
/-!
# Specification vocabulary: a connection that is over
-/

namespace Utp

/-- The connection of the socket is over: every operation returns at once, without touching the network, and leaves the socket as it is.  Nothing is read and
nothing can be sent. -/
structure Over (E : Env) (w : World) : Prop where
  read : ∀ fuel len, ∃ src, runOp E (fuel + 1) (.recvFrom len) w = (.ok (.bytes [] src), w)
  send : ∀ fuel buf, runOp E (fuel + 1) (.sendTo buf) w = (.err (.sock .connectionClosed), w)
  flush : ∀ fuel, runOp E (fuel + 1) .flush w = (.ok .unit, w)
  close : ∀ fuel, runOp E (fuel + 1) .close w = (.ok .unit, w)

/-- The datagrams that `w'` has sent and `w` had not. -/
def sentSince (w w' : World) : List Bytes := datagramsOf (w'.log.drop w.log.length)

end Utp
