import Verif.Spec.OtherStart
/-!
# Specification vocabulary: executions that differ only in where the peer's sequence numbers begin
-/

namespace Utp

/-- The same outcome of a receive with another sequence number (at byte 16). -/
def NetEvent.peerLater (d : U16) : NetEvent → NetEvent
  | .dgram b a => .dgram (renum 16 d b) a
  | .fail k => .fail k
  | .never => .never

/-- The same effect with another acknowledgement number (at byte 18). -/
def Act.peerLater (d : U16) : Act → Act
  | .send a b ok => .send a (renum 18 d b) ok
  | .wait t => .wait t

/-- The same socket, but all sequence numbers of the peer are greater by `d` (modulo 65536). -/
def Socket.peerLater (d : U16) (s : Socket) : Socket :=
  { s with ackNr := s.ackNr + d, lastDropped := s.lastDropped + d, incoming := s.incoming.map (Packet.renum 16 d), sendWindow := s.sendWindow.map (Packet.renum 18 d),
           unsent := s.unsent.map (Packet.renum 18 d) }

/-- The same world, but all sequence numbers of the peer are greater by `d`. -/
def World.peerLater (d : U16) (w : World) : World := { w with s := w.s.peerLater d, log := w.log.map (Act.peerLater d) }

/-- The same surroundings, but all sequence numbers that arrive are greater by `d`. -/
def Env.peerLater (E : Env) (d : U16) : Env := { E with net := fun k => (E.net k).peerLater d }

/-- The number stays below 65535 when `d` is added. -/
def Low (d x : U16) : Prop := x.toNat + d.toNat < 65535

/-- The sequence numbers that arrive stay below 65535 when `d` is added. -/
def Env.Low (E : Env) (d : U16) : Prop := ∀ k b a, E.net k = .dgram b a → ∀ p, Packet.tryFrom (b.take 1520) = some (.ok p) → Utp.Low d p.seqNr

/-- The sequence numbers of the peer in the socket stay below 65535 when `d` is added. -/
def Socket.Low (s : Socket) (d : U16) : Prop := Utp.Low d s.ackNr ∧ Utp.Low d s.lastDropped ∧ ∀ p ∈ s.incoming, Utp.Low d p.seqNr

end Utp
