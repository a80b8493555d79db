import Verif.Socket
/-!
# Specification vocabulary: receives inside receives

`recv` handles a packet, handling a packet may resend others, and resending waits for room in the window by
calling `recv` again (src/socket.rs:662-669, 808-828, 1034-1128).  These definitions say which calls are in
progress at the same time.
-/

namespace Utp
open M

/-- `recv`, except that the call made in the world `v` stops with the world `x`. -/
def probe (E : Env) (fuel : Nat) (v x : World) : M (Bytes × Addr) := fun u =>
  if u = v then (.panic, x) else recv E fuel BUF_SIZE u

/-- A call of `recv` in the world `w` calls `recv` itself in the world `v`: if the call in `v` (and no other) were
to stop with an arbitrary world `x`, the outer call would stop there as well.  `recv E (fuel + 1)` calls
`recv E fuel`. -/
def Calls (E : Env) (fuel len : Nat) (w v : World) : Prop :=
  ∀ x : World, recvBody E fuel (probe E fuel v x) len w = (.panic, x)

/-- While a call of `recv` in the world `w` is in progress, `d` further calls are in progress inside it, each called by
the one before, and the last of them starts in the world `v`. -/
inductive Nested (E : Env) : Nat → Nat → Nat → World → World → Prop
  | here (fuel len : Nat) (w : World) : Nested E fuel len 0 w w
  | deeper {fuel len d : Nat} {w u v : World} (h : Calls E fuel len w u) (h' : Nested E fuel BUF_SIZE d u v) :
      Nested E (fuel + 1) len (d + 1) w v

/-- A State packet makes the socket resend a packet although there is no room in the window. -/
structure Trap (w : World) (pkt : Packet) : Prop where
  ty : pkt.getType = some .state
  connected : w.s.state = .connected
  ours : pkt.connectionId = w.s.senderId ∨ pkt.connectionId = w.s.receiverId
  patient : 0 < w.s.maxRetries.toNat
  old : w.s.sendWindow.findIdx? (fun p => pkt.ackNr == p.seqNr) = none
  sack : ∃ e rest, pkt.extensions = some (e :: rest) ∧ e.ty = .selectiveAck ∧ 3 ≤ (BitIter.fromBytes e.data).countOnes
  lost : (w.s.sendWindow.find? fun p => p.seqNr == pkt.ackNr + 1).isSome
  small : pkt.wndSize.toNat ≤ w.s.currWindow.toNat
  full : 2800 ≤ w.s.currWindow.toNat

end Utp
