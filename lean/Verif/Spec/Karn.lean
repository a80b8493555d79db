import Verif.Spec.Stamp
import Verif.Spec.Trace
/-!
# Specification vocabulary: which transmission an acknowledgement is measured against
-/

namespace Utp

/-- The times (the timestamps) at which the data packet with the number `nr` was handed to the operating system. -/
def copies (nr : Nat) : List Act → List Nat
  | [] => []
  | .send _ b _ :: l => if kind b = 0 ∧ (b.getD 16 0).toNat * 256 + (b.getD 17 0).toNat = nr then stampOf b :: copies nr l else copies nr l
  | .wait _ :: l => copies nr l

/-- How what is known about the round trip may change: not at all, or on an acknowledgement of the outstanding packet `p`; then the latest delay
is the time from the timestamp of `p` to the last reading of the clock.  The packet was handed to the operating system with this timestamp, or
the timestamp is 0. -/
def KarnRule (E : Env) (a b : World) : Prop :=
  (b.s.rtt = a.s.rtt ∧ b.s.rttVar = a.s.rttVar ∧ b.s.currDelays = a.s.currDelays ∧ b.s.baseDelays = a.s.baseDelays) ∨
  ∃ pkt src p, Received E a pkt src ∧ pkt.getType = some .state ∧ p ∈ a.s.sendWindow ∧ p.seqNr = pkt.ackNr ∧
    (stampOf p.bytes ∈ copies p.seqNr.toNat a.log ∨ stampOf p.bytes = 0) ∧
    0 < a.nNow ∧ b.s.currDelays.getLast? = some (E.now (a.nNow - 1), (E.now (a.nNow - 1)).toNat - (stampOf p.bytes : Int))

end Utp
