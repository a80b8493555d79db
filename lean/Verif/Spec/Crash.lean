import Verif.Spec.Trace
import Verif.Spec.Wire
import Verif.Packet
/-!
# Specification vocabulary: the overflows behind the panics of builds with overflow checks
-/

namespace Utp
open Spec

/-- Situations in which an arithmetic operation of the code leaves the range of its type. -/
inductive Crash (E : Env) (w : World) : Prop
  /-- a packet is buffered while the number 65535 was received last: `self.ack_nr + 1` (src/socket.rs:574, 772) -/
  | buffered : w.s.ackNr = 65535 → w.s.incoming ≠ [] → Crash E w
  /-- a State packet acknowledges the number 65535: `packet.ack_nr() + 1` (src/socket.rs:1084, 1114) -/
  | ack (pkt : Packet) (src : Addr) : Received E w pkt src → pkt.getType = some .state → pkt.ackNr = 65535 → Crash E w
  /-- a State packet carries a selective ack with an unset bit that stands for a number beyond 65535:
  `packet.ack_nr() + 2 + i as u16` (src/socket.rs:1091) -/
  | sack (pkt : Packet) (src : Addr) (d : Datagram) (e : WireExt) (i : Nat) : Received E w pkt src → pkt.getType = some .state →
      d.Ok → pkt.bytes = d.bytes → e ∈ d.exts → e.code = 1 → i < 8 * e.data.length → bitAt e.data i = false →
      65536 ≤ pkt.ackNr.toNat + 2 + i → Crash E w
  /-- a SYN with connection identifier 65535 on a fresh socket: `packet.connection_id() + 1` (src/socket.rs:889) -/
  | syn (pkt : Packet) (src : Addr) : Received E w pkt src → pkt.getType = some .syn → pkt.connectionId = 65535 →
      w.s.state = .new → Crash E w
  /-- a socket whose SYN was answered by a SYN (`connect` succeeds without a connection, C39) has used up its numbers when a
  State packet arrives: `self.seq_nr += 1` (src/socket.rs:899) -/
  | synAck : w.s.state = .synSent → w.s.seqNr = 65535 → Crash E w
  /-- the timeout reached half of the 64-bit range (of milliseconds): `self.congestion_timeout *= 2` (src/socket.rs:464) -/
  | timeout : 2 ^ 63 ≤ w.s.congTimeout.toNat → Crash E w
  /-- the 32-bit count of duplicate acknowledgements is exhausted (src/socket.rs:1037) -/
  | duplicates : w.s.dupAcks.toNat = 2 ^ 32 - 1 → Crash E w
  /-- the bytes in flight nearly exhaust 32 bits (src/socket.rs:642, 1026) -/
  | flight : 2 ^ 32 ≤ totalSize w.s.sendWindow + 1400 → Crash E w

/-- No arriving packet has a number near the end of the 16-bit range: neither the sequence number nor the connection
identifier is 65535, and on a State packet neither is the acknowledged number, nor any number its selective acks speak of. -/
structure FarFromWrap (E : Env) : Prop where
  seq : ∀ w pkt src, Received E w pkt src → pkt.seqNr ≠ 65535
  id : ∀ w pkt src, Received E w pkt src → pkt.getType = some .syn → pkt.connectionId ≠ 65535
  ack : ∀ w pkt src, Received E w pkt src → pkt.getType = some .state → pkt.ackNr ≠ 65535
  sack : ∀ w pkt src, Received E w pkt src → pkt.getType = some .state → ∀ d : Datagram, d.Ok → pkt.bytes = d.bytes →
    ∀ e ∈ d.exts, pkt.ackNr.toNat + 2 + 8 * e.data.length ≤ 65536

end Utp
