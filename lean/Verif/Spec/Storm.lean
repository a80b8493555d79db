import Verif.Spec.Shutdown
import Verif.Spec.Trace
/-!
# Specification vocabulary: packets that reach the wrong socket
-/

namespace Utp

/-- A packet that is neither a SYN nor data, belongs to neither direction of the connection of `s`, and does not have the number that `s` expects next. -/
structure StrayPkt (s : Socket) (p : Packet) : Prop where
  ty : ∃ t, p.getType = some t ∧ t ≠ .syn ∧ t ≠ .data
  id : p.connectionId ≠ s.senderId ∧ p.connectionId ≠ s.receiverId
  seq : p.seqNr ≠ s.ackNr + 1

/-- The datagram number `n` that arrives is a stray packet. -/
def StrayAt (E : Env) (s : Socket) (n : Nat) : Prop :=
  ∃ d src p, E.net n = .dgram d src ∧ Packet.tryFrom (d.take 1520) = some (.ok p) ∧ StrayPkt s p

/-- A socket that is not closed and has nothing to read; what it sends is taken by the operating system. -/
structure Listens (E : Env) (w : World) : Prop where
  state : w.s.state ≠ .closed ∧ w.s.state ≠ .resetReceived ∧ w.s.state ≠ .synSent
  read : w.s.incoming = [] ∧ w.s.pending = []
  tries : w.s.maxRetries ≠ 0
  sends : ∀ n, E.snd n = .ok

/-- The packets that the socket `x` sends are stray packets at the socket `y`. -/
structure Foreign (x y : Socket) : Prop where
  id : x.senderId ≠ y.senderId ∧ x.senderId ≠ y.receiverId
  seq : x.seqNr ≠ y.ackNr + 1

/-- Between `w` and `w'` the socket sent `n` datagrams, all of them Resets, and is as before. -/
structure OnlyResets (w w' : World) (n : Nat) : Prop where
  same : w'.s = w.s
  count : (sentSince w w').length = n
  resets : ∀ d ∈ sentSince w w', IsControl w.s .reset d

end Utp
