import Verif.Socket
/-!
# What C104 is about
-/

namespace Utp

/-- No bytes are waiting, and the oldest packet held for reordering is older than the last number that was acknowledged. -/
def Jammed (s : Socket) : Prop :=
  s.pending = [] ∧ s.ackNr.toNat < 65535 ∧ ∃ q rest, s.incoming = q :: rest ∧ q.seqNr.toNat < s.ackNr.toNat

end Utp
