import Verif.Spec.Trace
import Verif.Spec.Run
/-!
# Specification vocabulary: the address reported by `recv_from`
-/

namespace Utp

/-- Between `w` and `w'` the socket received a datagram from `a` that contains a valid packet. -/
def HeardFrom (E : Env) (w w' : World) (a : Addr) : Prop :=
  ∃ k b pkt, w.nNet ≤ k ∧ k < w'.nNet ∧ E.net k = .dgram b a ∧ Packet.tryFrom (b.take 1520) = some (.ok pkt)

end Utp
