import Verif.Spec.Run
/-!
# Specification vocabulary: executions that differ only in the connection identifiers
-/

namespace Utp

/-- A datagram with another connection identifier (bytes 2 and 3). -/
def reid (ρ : U16 → U16) (b : Bytes) : Bytes :=
  let v := ρ (BitVec.ofNat 16 ((b.getD 2 0).toNat * 256 + (b.getD 3 0).toNat))
  (b.set 2 (BitVec.ofNat 8 (v.toNat / 256))).set 3 (BitVec.ofNat 8 v.toNat)

/-- A packet with another connection identifier. -/
def Packet.reid (ρ : U16 → U16) (p : Packet) : Packet := ⟨Utp.reid ρ p.bytes⟩

/-- The same outcome of a receive with another connection identifier. -/
def NetEvent.reid (ρ : U16 → U16) : NetEvent → NetEvent
  | .dgram b a => .dgram (Utp.reid ρ b) a
  | .fail k => .fail k
  | .never => .never

/-- The same effect with another connection identifier. -/
def Act.reid (ρ : U16 → U16) : Act → Act
  | .send a b ok => .send a (Utp.reid ρ b) ok
  | .wait t => .wait t

/-- The same socket with other connection identifiers, also in the packets it holds. -/
def Socket.reid (ρ : U16 → U16) (s : Socket) : Socket :=
  { s with senderId := ρ s.senderId, receiverId := ρ s.receiverId, incoming := s.incoming.map (Packet.reid ρ), sendWindow := s.sendWindow.map (Packet.reid ρ),
           unsent := s.unsent.map (Packet.reid ρ) }

/-- The same world with other connection identifiers. -/
def World.reid (ρ : U16 → U16) (w : World) : World := { w with s := w.s.reid ρ, log := w.log.map (Act.reid ρ) }

/-- The same surroundings with other connection identifiers, and other random numbers. -/
def Env.reid (E : Env) (ρ : U16 → U16) (rand : Nat → U16) : Env := { E with net := fun k => (E.net k).reid ρ, rand := rand }

end Utp
