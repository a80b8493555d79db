import Verif.Spec.Trace
import Verif.Spec.Run
/-!
# Specification vocabulary: acknowledgements of packets that are not outstanding
-/

namespace Utp

/-- The receive number `k` yields the State packet `pkt`, without a selective acknowledgement, that belongs to the connection of `s`
and acknowledges a number that no outstanding packet has. -/
structure BogusAck (E : Env) (s : Socket) (k : Nat) (pkt : Packet) : Prop where
  arrives : ∃ b src, E.net k = .dgram b src ∧ Packet.tryFrom (b.take 1520) = some (.ok pkt)
  type : pkt.getType = some .state
  ours : pkt.connectionId = s.senderId ∨ pkt.connectionId = s.receiverId
  plain : ∃ exts, pkt.extensions = some exts ∧ ∀ e ∈ exts, e.ty ≠ .selectiveAck
  nothing : ∀ q ∈ s.sendWindow, q.seqNr ≠ pkt.ackNr

end Utp
