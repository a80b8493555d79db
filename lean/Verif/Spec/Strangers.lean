import Verif.World
import Mathlib.Data.List.Forall2
/-!
# Specification vocabulary: what is sent to addresses other than the peer's
-/

namespace Utp

/-- The datagrams for the address `a` among `log`. -/
def sendsTo (a : Addr) (log : List Act) : List Bytes :=
  log.filterMap fun act => match act with
    | .send dst b _ => if dst = a then some b else none
    | .wait _ => none

/-- The socket has, or had, a connection. -/
def Socket.Established (s : Socket) : Prop := s.state ≠ .new ∧ s.state ≠ .synSent

/-- A Reset without extension and payload. -/
def IsReset (r : Bytes) : Prop := r.length = 20 ∧ ∃ q, Packet.tryFrom r = some (.ok q) ∧ q.getType = some .reset

/-- The datagram `r` answers the datagram that arrived from `a` at receive number `k`, which is a valid packet: with a
Reset, unless the packet is a Data or Fin packet with an identifier of the connection of `s`. -/
def Answers (E : Env) (a : Addr) (s : Socket) (k : Nat) (r : Bytes) : Prop :=
  ∃ b pkt, E.net k = .dgram b a ∧ Packet.tryFrom (b.take 1520) = some (.ok pkt) ∧
    (IsReset r ∨ s.Established ∧ (pkt.getType = some .data ∨ pkt.getType = some .fin) ∧
      (pkt.connectionId = s.senderId ∨ pkt.connectionId = s.receiverId))

/-- Everything that was sent to `a` between `w` and `w'` answers datagrams that arrived from there in this time, each at most
once. -/
def OnlyAnswers (E : Env) (a : Addr) (w w' : World) : Prop :=
  ∃ l ks, w'.log = w.log ++ l ∧ ks.Nodup ∧ (∀ k ∈ ks, w.nNet ≤ k ∧ k < w'.nNet) ∧ List.Forall₂ (Answers E a w'.s) ks (sendsTo a l)

/-- The number of bytes that arrived from `a` at receive number `k`. -/
def bytesFrom (E : Env) (a : Addr) (k : Nat) : Nat :=
  match E.net k with
  | .dgram b src => if src = a then b.length else 0
  | _ => 0

/-- No Data or Fin packet from `a` with an identifier of the connection of `s` is among the datagrams with numbers from `m` to below `n`. -/
def Ignorant (E : Env) (a : Addr) (s : Socket) (m n : Nat) : Prop :=
  ∀ k b pkt, m ≤ k → k < n → E.net k = .dgram b a → Packet.tryFrom (b.take 1520) = some (.ok pkt) →
    pkt.getType = some .data ∨ pkt.getType = some .fin → pkt.connectionId ≠ s.senderId ∧ pkt.connectionId ≠ s.receiverId

end Utp
