import Verif.Spec.Trace
import Verif.Lemmas.Step
/-!
# Specification vocabulary: how queued packets are sent
-/

namespace Utp

/-- The number of bytes that may be in flight: the smaller of the congestion window and the window advertised by the
peer, but at least two segments of 1400 bytes. -/
def sendLimit (s : Socket) : Nat := max 2800 (min s.cwnd.toNat s.remoteWnd.toNat)

/-- `T` is real time, in microseconds, at each clock reading: it does not go backwards, and the clock shows it modulo 2^32. -/
structure RealTime (E : Env) (T : Nat → Nat) : Prop where
  mono : ∀ i j, i ≤ j → T i ≤ T j
  reads : ∀ k, (E.now k).toNat = T k % 2 ^ 32

/-- The packet number `n` lies more than half the number range after the last number acknowledged; the code takes it for
a number that was acknowledged long ago. -/
def TooFar (s : Socket) (n : U16) : Prop := 32768 < (n - s.lastAcked).toNat

/-- A packet whose turn came in the state `w` may be transmitted in the state `w1`: there is room in the window, or half a
second passed since then. -/
def MaySend (E : Env) (w w1 : World) : Prop :=
  w1.s.currWindow.toNat < sendLimit w.s ∨
  ∃ k, w.nNow < k ∧ k < w1.nNow ∧ ∀ T, RealTime E T → T w.nNow + 500000 ≤ T k

/-- What `send` does, from the state `w` to the result `r` and the state `w'`; `R` describes the waiting before a packet
is sent. -/
inductive SendTrace (E : Env) (R : World → World → Prop) : World → Res Unit → World → Prop
  /-- The queue is empty. -/
  | done {w : World} : w.s.unsent = [] → SendTrace E R w (.ok ()) w
  /-- The first packet is transmitted, with fresh timestamps, and becomes outstanding. -/
  | sent {w w1 w2 w' : World} {p q : Packet} {rest : List Packet} {r : Res Unit} : w.s.unsent = p :: rest →
      R (w.setS { w.s with unsent := rest }) w1 → MaySend E w w1 → ¬ TooFar w1.s p.seqNr →
      (∃ t d, q = (p.setTimestamp t).setTimestampDifference d) → w2.log = w1.log ++ [.send w1.s.connectedTo q.bytes true] →
      w2.s = { w1.s with currWindow := w1.s.currWindow + BitVec.ofNat 32 q.bytes.length, sendWindow := w1.s.sendWindow ++ [q] } →
      w1.nNow ≤ w2.nNow → w2.nNet = w1.nNet → SendTrace E R w2 r w' → SendTrace E R w r w'
  /-- The first packet is taken for one that was acknowledged already; it is not transmitted but becomes outstanding. -/
  | skipped {w w1 w2 w' : World} {p : Packet} {rest : List Packet} {r : Res Unit} : w.s.unsent = p :: rest →
      R (w.setS { w.s with unsent := rest }) w1 → TooFar w1.s p.seqNr → w2.log = w1.log →
      w2.s = { w1.s with currWindow := w1.s.currWindow + BitVec.ofNat 32 p.bytes.length, sendWindow := w1.s.sendWindow ++ [p] } →
      w1.nNow ≤ w2.nNow → w2.nNet = w1.nNet → SendTrace E R w2 r w' → SendTrace E R w r w'
  /-- The call ends while the first packet waits for its turn. -/
  | waiting {w w' : World} {p : Packet} {rest : List Packet} {r : Res Unit} : w.s.unsent = p :: rest →
      R (w.setS { w.s with unsent := rest }) w' → r ≠ .ok () → SendTrace E R w r w'
  /-- The call ends because the operating system does not take the datagram. -/
  | refused {w w1 w' : World} {p q : Packet} {rest : List Packet} {r : Res Unit} : w.s.unsent = p :: rest →
      R (w.setS { w.s with unsent := rest }) w1 → MaySend E w w1 →
      (∃ t d, q = (p.setTimestamp t).setTimestampDifference d) →
      w'.log = w1.log ++ [.send w1.s.connectedTo q.bytes false] → w'.s = w1.s → w'.nNet = w1.nNet → r ≠ .ok () → SendTrace E R w r w'
  /-- The model's bound on the number of packets was reached. -/
  | fuel {w : World} : SendTrace E R w .pending w

/-- What can happen while a packet waits for its turn: datagrams are received and answered; the queue stays as it is; the last
number acknowledged comes from State packets. -/
structure Awaiting (E : Env) (a b : World) : Prop where
  log : ∃ l, b.log = a.log ++ l
  net : a.nNet ≤ b.nNet
  peer : a.s.state ≠ .new ∧ a.s.state ≠ .synSent →
    b.s.connectedTo = a.s.connectedTo ∧ b.s.state ≠ .new ∧ b.s.state ≠ .synSent
  unsent : b.s.unsent = a.s.unsent
  acked : b.s.lastAcked = a.s.lastAcked ∨
    ∃ pkt src, Received E b pkt src ∧ pkt.getType = some .state ∧ pkt.ackNr = b.s.lastAcked

end Utp
