import Verif.Spec.Trace
import Verif.Spec.Run
import Verif.Spec.Wire
/-!
# Specification vocabulary: signs of loss in selective acknowledgements
-/

namespace Utp
open Spec

/-- The bitmap `data` of a selective acknowledgement of the number `ack` tells the sender with the outstanding packets `window` of a loss: three packets have arrived
behind the missing one, or one that the bitmap covers has not and comes before the last outstanding one. -/
def SaysLost (window : List Packet) (ack : U16) (data : Bytes) : Prop :=
  3 ≤ ((List.range (8 * data.length)).filter (bitAt data)).length ∨
    ∃ last, window.getLast? = some last ∧ ∃ i, i < 8 * data.length ∧ bitAt data i = false ∧ ack.toNat + 2 + i < last.seqNr.toNat

/-- The datagram `b` is a State packet `pkt` of the connection of `s` with one selective acknowledgement `e`; it acknowledges a number that is not outstanding, and
the numbers of its bitmap do not wrap around. -/
structure SackOnly (s : Socket) (b : Bytes) (pkt : Packet) (e : Extension) : Prop where
  parsed : Packet.tryFrom (b.take 1520) = some (.ok pkt)
  type : pkt.getType = some .state
  ours : pkt.connectionId = s.senderId ∨ pkt.connectionId = s.receiverId
  nothing : ∀ q ∈ s.sendWindow, q.seqNr ≠ pkt.ackNr
  one : pkt.extensions = some [e]
  sack : e.ty = .selectiveAck
  flat : pkt.ackNr.toNat + 2 + 8 * e.data.length ≤ 65536

end Utp
