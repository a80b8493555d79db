import Verif.Spec.Run
/-!
# Specification vocabulary: executions that differ only in where our sequence numbers begin
-/

namespace Utp

/-- A datagram in which `d` is added to the 16-bit number at byte `i`. -/
def renum (i : Nat) (d : U16) (b : Bytes) : Bytes :=
  let v := BitVec.ofNat 16 ((b.getD i 0).toNat * 256 + (b.getD (i + 1) 0).toNat) + d
  (b.set i (BitVec.ofNat 8 (v.toNat / 256))).set (i + 1) (BitVec.ofNat 8 v.toNat)

/-- A packet in which `d` is added to the 16-bit number at byte `i`. -/
def Packet.renum (i : Nat) (d : U16) (p : Packet) : Packet := ⟨Utp.renum i d p.bytes⟩

/-- A datagram we send has its sequence number at byte 16. -/
abbrev Packet.laterSeq (d : U16) (p : Packet) : Packet := p.renum 16 d

/-- A datagram we receive has its acknowledgement number at byte 18. -/
abbrev Packet.laterAck (d : U16) (p : Packet) : Packet := p.renum 18 d

/-- The same outcome of a receive with another acknowledgement number. -/
def NetEvent.later (d : U16) : NetEvent → NetEvent
  | .dgram b a => .dgram (renum 18 d b) a
  | .fail k => .fail k
  | .never => .never

/-- The same effect with another sequence number. -/
def Act.later (d : U16) : Act → Act
  | .send a b ok => .send a (renum 16 d b) ok
  | .wait t => .wait t

/-- The same socket, but all our sequence numbers are greater by `d` (modulo 65536). -/
def Socket.later (d : U16) (s : Socket) : Socket :=
  { s with seqNr := s.seqNr + d, lastAcked := s.lastAcked + d, incoming := s.incoming.map (Packet.laterAck d), sendWindow := s.sendWindow.map (Packet.laterSeq d),
           unsent := s.unsent.map (Packet.laterSeq d) }

/-- The same world, but all our sequence numbers are greater by `d`. -/
def World.later (d : U16) (w : World) : World := { w with s := w.s.later d, log := w.log.map (Act.later d) }

/-- The same surroundings, but all our sequence numbers that come back are greater by `d`. -/
def Env.later (E : Env) (d : U16) : Env := { E with net := fun k => (E.net k).later d }

/-- No datagram carries a selective acknowledgement. -/
def Env.NoSack (E : Env) : Prop := ∀ k b a, E.net k = .dgram b a → ∀ p exts, Packet.tryFrom (b.take 1520) = some (.ok p) → p.extensions = some exts → ∀ e ∈ exts, e.ty ≠ .selectiveAck

/-- The acknowledgement numbers that arrive stay so far below 65536, when `d` is added, that the 2040 packets a selective acknowledgement can report after them do too. -/
def Env.AckLow (E : Env) (d : U16) : Prop := ∀ k b a, E.net k = .dgram b a → ∀ p, Packet.tryFrom (b.take 1520) = some (.ok p) → p.ackNr.toNat + d.toNat + 2041 < 65536

/-- How many data packets an operation makes. -/
def Op.packets : Op → Nat
  | .sendTo buf => (buf.length + 1379) / 1380
  | _ => 0

end Utp
