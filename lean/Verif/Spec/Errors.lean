import Verif.Spec.Trace
import Verif.Socket
/-!
# Specification vocabulary: what the errors of the library mean

For each error an operation can return, what must have happened between the world `w` in which the call
began and the world `w'` in which it failed.  Only the environment, the counters of the oracles and the socket left behind are
mentioned.
-/

namespace Utp

/-- The last UDP receive before `w'` was made after `w` and gave the packet `pkt`. -/
def JustGot (E : Env) (w w' : World) (pkt : Packet) : Prop :=
  ∃ j b src, w.nNet ≤ j ∧ j + 1 = w'.nNet ∧ E.net j = .dgram b src ∧ Packet.tryFrom (b.take 1520) = some (.ok pkt)

/-- Why a receive or send of the library failed with an error, between `w` and `w'`. -/
inductive Cause (E : Env) (w w' : World) : IoErr → Prop
  /-- The last UDP receive failed, and not with a timeout. -/
  | received {j : Nat} {k : ErrorKind} : w.nNet ≤ j → j + 1 = w'.nNet → E.net j = .fail k → ¬ (NetEvent.fail k).isTimeout →
      Cause E w w' (.os k)
  /-- The last UDP send failed. -/
  | sending {j : Nat} {k : ErrorKind} : w.nSnd ≤ j → j + 1 = w'.nSnd → E.snd j = .fail k → Cause E w w' (.os k)
  /-- A Reset with an identifier of the connection just arrived, and the socket remembers it. -/
  | reset {pkt : Packet} : JustGot E w w' pkt → pkt.getType = some .reset →
      pkt.connectionId = w'.s.senderId ∨ pkt.connectionId = w'.s.receiverId → w'.s.state = .resetReceived →
      Cause E w w' (.sock .connectionReset)
  /-- As many receives in a row as allowed timed out, all of them since `w`; the socket is closed. -/
  | gaveUp : TimedOut E w' w'.s.maxRetries.toNat → w.nNet + w'.s.maxRetries.toNat ≤ w'.nNet → w'.s.state = .closed →
      Cause E w w' (.sock .connectionTimedOut)
  /-- The reply to our SYN is no State packet (and no SYN, which is answered with a Reset). -/
  | badReply {pkt : Packet} {ty : PacketType} : JustGot E w w' pkt → pkt.getType = some ty → ty ≠ .state → ty ≠ .syn →
      w'.s.state = .synSent → Cause E w w' (.sock .invalidReply)
  /-- A Data, State or Fin packet arrived at a socket without open connection (a closed socket takes a Fin). -/
  | unexpected {pkt : Packet} {ty : PacketType} : JustGot E w w' pkt → pkt.getType = some ty → ty = .data ∨ ty = .state ∨ ty = .fin →
      (w'.s.state = .new ∨ w'.s.state = .closed ∧ ty ≠ .fin ∨ w'.s.state = .resetReceived) → Cause E w w' (.sock .other)

/-- Why an operation of the library failed with an error. -/
inductive OpCause (E : Env) (op : Op) (w w' : World) (e : IoErr) : Prop
  | during : Cause E w w' e → (∀ n, op ≠ .setMaxRetries n) → OpCause E op w w' e
  /-- Reading after a Reset, when nothing is left to deliver; the network is not used. -/
  | wasReset (len : Nat) : op = .recvFrom len → w.s.state = .resetReceived → w'.s.state = .resetReceived → w'.nNet = w.nNet → w'.log = w.log →
      e = .sock .connectionReset →
      OpCause E op w w' e
  /-- Writing to a closed socket; nothing happens. -/
  | wasClosed (buf : Bytes) : op = .sendTo buf → w.s.state = .closed → w' = w → e = .sock .connectionClosed →
      OpCause E op w w' e

end Utp
