import Verif.Spec.Trace
import Verif.Spec.Run
import Verif.Spec.Wire
import Verif.Spec.Advert
/-!
# Specification vocabulary: signs of loss
-/

namespace Utp
open Spec

/-- The receive number `k` returned the State packet `pkt` of the connection with the given identifiers. -/
def StateAt (E : Env) (sid rid : U16) (k : Nat) (pkt : Packet) : Prop :=
  ∃ b src, E.net k = .dgram b src ∧ Packet.tryFrom (b.take 1520) = some (.ok pkt) ∧ pkt.getType = some .state ∧
    (pkt.connectionId = sid ∨ pkt.connectionId = rid)

/-- Among the receives from number `m` to below `n` there is no sign that a packet was lost: none timed out; no State packet of
the connection carries a selective ack; no three State packets of the connection acknowledge the same number. -/
structure NoLossSign (E : Env) (sid rid : U16) (m n : Nat) : Prop where
  timeout : ∀ k, m ≤ k → k < n → ¬ (E.net k).isTimeout
  sack : ∀ k pkt (d : Datagram), m ≤ k → k < n → StateAt E sid rid k pkt → d.Ok → pkt.bytes = d.bytes → ∀ e ∈ d.exts, e.code ≠ 1
  acks : ∀ i j k p q r, m ≤ i → i < j → j < k → k < n → StateAt E sid rid i p → StateAt E sid rid j q → StateAt E sid rid k r →
    ¬ (p.ackNr = q.ackNr ∧ q.ackNr = r.ackNr)

/-- The numbers of the Data datagrams in a log, in the order in which they were handed to the operating system. -/
def dataNumbers : List Act → List Nat
  | [] => []
  | .send _ b _ :: l => if kind b = 0 then ((b.getD 16 0).toNat * 256 + (b.getD 17 0).toNat) :: dataNumbers l else dataNumbers l
  | .wait _ :: l => dataNumbers l

/-- `n` consecutive numbers (modulo 2^16), the first one of which is `a`. -/
def consecutive (a n : Nat) : List Nat := (List.range n).map fun i => (a + i) % 65536

/-- The number of packets an operation needs for the bytes it is given: up to 1380 bytes in each. -/
def opPackets : Op → Nat
  | .sendTo buf => (buf.length + 1379) / 1380
  | _ => 0

end Utp
