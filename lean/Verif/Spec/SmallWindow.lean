import Verif.Spec.PeerTimes
import Verif.Spec.OtherHints
/-!
# Specification vocabulary: executions that differ in the times of the peer and in small windows
-/

namespace Utp

/-- Two datagrams that agree but for the times and the window, and in which the windows are the same or both at most 2800 bytes (two full packets). -/
def RoomBytes (b b' : Bytes) : Prop := SameButHints b b' ∧ (20 ≤ b.length → max (Packet.be32 b' 12).toNat 2800 = max (Packet.be32 b 12).toNat 2800)

/-- Packets of the peer with other times and another small window. -/
def RoomPkt (p p' : Packet) : Prop := SameButHints p.bytes p'.bytes ∧ max (Packet.be32 p'.bytes 12).toNat 2800 = max (Packet.be32 p.bytes 12).toNat 2800

/-- The network delivers the same but for the times of the peer and small windows. -/
inductive RoomEvent : NetEvent → NetEvent → Prop
  | dgram {b b' : Bytes} (a : Addr) : RoomBytes b b' → RoomEvent (.dgram b a) (.dgram b' a)
  | fail (k : ErrorKind) : RoomEvent (.fail k) (.fail k)
  | never : RoomEvent .never .never

/-- The socket `s'` is `s` but for the delay of the peer, its window if it is small, and these fields of the packets it keeps. -/
inductive RoomSocket (s : Socket) : Socket → Prop
  | mk {i o u : List Packet} {d : Int} {r : U32} : List.Forall₂ RoomPkt s.incoming i → List.Forall₂ EchoPkt s.sendWindow o → List.Forall₂ EchoPkt s.unsent u →
      max r.toNat 2800 = max s.remoteWnd.toNat 2800 → RoomSocket s { s with incoming := i, sendWindow := o, unsent := u, theirDelay := d, remoteWnd := r }

/-- The worlds differ in nothing but these: the same was sent at the same moments but for the timestamp difference. -/
structure RoomWorld (w w' : World) : Prop where
  s : RoomSocket w.s w'.s
  nNow : w'.nNow = w.nNow
  nRand : w'.nRand = w.nRand
  nNet : w'.nNet = w.nNet
  nSnd : w'.nSnd = w.nSnd
  log : List.Forall₂ LagAct w.log w'.log

end Utp
