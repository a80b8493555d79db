import Verif.Spec.Advert
/-!
# Specification vocabulary: the size of what a socket sends
-/

namespace Utp

/-- The number a datagram acknowledges: its bytes 18 and 19 (BEP 29). -/
def ackField (b : Bytes) : Nat := (b.getD 18 0).toNat * 256 + (b.getD 19 0).toNat

/-- The number of 32-bit words a selective acknowledgement of the packet `seq` needs when `ack` is acknowledged: its first bit stands
for the packet after the next (BEP 29). -/
def sackWords (ack seq : Nat) : Nat := (seq + 131070 - ack) % 65536 / 32 + 1

/-- The sizes of datagrams, by what they are. -/
structure Sized (E : Env) (w : World) (b : Bytes) : Prop where
  /-- Data packets: a header and at most 1380 bytes -/
  data : kind b = 0 → 20 < b.length ∧ b.length ≤ 1400
  /-- Reset and SYN packets: a header -/
  bare : kind b = 3 ∨ kind b = 4 → b.length = 20
  /-- FIN and State packets: a header, or a header and a selective acknowledgement as long as a data packet that was received needs it,
  which is ahead of the number acknowledged by more than one (without wrapping around, unless 65535 is acknowledged) -/
  ack : kind b = 1 ∨ kind b = 2 → b.length = 20 ∨
    ∃ pkt src, Received E w pkt src ∧ kind pkt.bytes = 0 ∧ (ackField b + 1 < pkt.seqNr.toNat ∨ ackField b = 65535) ∧ b.length = 22 + 4 * sackWords (ackField b) pkt.seqNr.toNat
  /-- there are no other types -/
  type : kind b < 5

end Utp
