import Verif.World
/-!
# Specification vocabulary: a peer that acknowledges everything
-/

namespace Utp

/-- A wait that ends without disturbing the connection of the socket `s`: with a timeout, or with a datagram that is not a FIN or a Reset of this connection
(it may be anything else, also malformed, repeated, or of another connection). -/
def Peaceful (s : Socket) : NetEvent → Prop
  | .dgram b _ => ∀ pkt, Packet.tryFrom (b.take 1520) = some (.ok pkt) → pkt.getType = some .fin ∨ pkt.getType = some .reset →
      pkt.connectionId ≠ s.senderId ∧ pkt.connectionId ≠ s.receiverId
  | .fail k => k = .timedOut ∨ k = .wouldBlock
  | .never => False

/-- A State packet of the connection of `s` that acknowledges the number `nr`. -/
def AckOf (s : Socket) (nr : U16) (ev : NetEvent) : Prop :=
  ∃ b src pkt, ev = .dgram b src ∧ Packet.tryFrom (b.take 1520) = some (.ok pkt) ∧ pkt.getType = some .state ∧
    (pkt.connectionId = s.senderId ∨ pkt.connectionId = s.receiverId) ∧ pkt.ackNr = nr

/-- The packet that arrives, if any, carries no selective acknowledgement. -/
def Unselective (ev : NetEvent) : Prop :=
  ∀ b src pkt exts, ev = .dgram b src → Packet.tryFrom (b.take 1520) = some (.ok pkt) → pkt.extensions = some exts → ∀ e ∈ exts, e.ty ≠ .selectiveAck

/-- No outstanding packet has one of the 2041 numbers after `nr`, the only ones of which a selective acknowledgement in a packet that acknowledges `nr` can
say something. -/
def Unnamed (s : Socket) (nr : U16) : Prop := ∀ i, i < 2041 → nr + 1 + BitVec.ofNat 16 i ∉ s.sendWindow.map Packet.seqNr

/-- The last outstanding packet has the number `nr`, which, like the next number, no other outstanding packet has. -/
structure LastIs (s : Socket) (nr : U16) : Prop where
  last : ∃ l, s.sendWindow.map Packet.seqNr = l ++ [nr] ∧ nr ∉ l
  next : nr + 1 ∉ s.sendWindow.map Packet.seqNr

/-- The connection stays undisturbed up to the wait number `N`: every datagram sent is accepted by the operating system, each wait ends peacefully, and
between two datagrams that arrive there are fewer timeouts than the socket tolerates. -/
structure Undisturbed (E : Env) (w : World) (N : Nat) : Prop where
  sends : ∀ n, E.snd n = .ok
  peace : ∀ n, w.nNet ≤ n → n < N → Peaceful w.s (E.net n)
  prompt : ∀ n, w.nNet ≤ n → n ≤ N → ∃ j, j < w.s.maxRetries.toNat ∧ ∃ b src, E.net (n + j) = .dgram b src

end Utp
