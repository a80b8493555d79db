import Verif.Socket
import Verif.Spec.Trace
/-!
# Specification vocabulary: packets arriving in order
-/

namespace Utp

/-- `p` is the data packet number `k` with payload `c`, of the connection of `s`. -/
structure DataPkt (s : Socket) (k : U16) (c : Bytes) (p : Packet) : Prop where
  ty : p.getType = some .data
  seq : p.seqNr = k
  payload : p.payload = some c
  id : p.connectionId = s.senderId ∨ p.connectionId = s.receiverId

/-- Data packets in sequence order: number `k` comes next; with `dup` the packet before it has arrived already and may
be repeated.  `cs` are the payloads, without the repetitions. -/
inductive InOrder (s : Socket) : Bool → U16 → List Packet → List Bytes → Prop
  | done (dup : Bool) (k : U16) : InOrder s dup k [] []
  | next {dup : Bool} {k : U16} {p : Packet} {c : Bytes} {ps : List Packet} {cs : List Bytes}
      (h : DataPkt s k c p) (hc : c ≠ []) (hs : InOrder s true (k + 1) ps cs) : InOrder s dup k (p :: ps) (c :: cs)
  | again {k : U16} {p : Packet} {c : Bytes} {ps : List Packet} {cs : List Bytes}
      (h : DataPkt s (k - 1) c p) (hs : InOrder s true k ps cs) : InOrder s true k (p :: ps) cs

/-- The next datagrams from the network carry the packets `ps`. -/
def Brings (E : Env) (n : Nat) : List Packet → Prop
  | [] => True
  | p :: ps => (∃ b src, E.net n = .dgram b src ∧ Packet.tryFrom (b.take 1520) = some (.ok p)) ∧ Brings E (n + 1) ps

/-- A packet of a peer that sends a SYN, the chunks `cs`, numbered from `b`, and then a FIN. -/
inductive FromPeer (s : Socket) (b : Nat) (cs : List Bytes) (p : Packet) : Prop
  | data {i : Nat} {c : Bytes} : cs[i]? = some c → DataPkt s (BitVec.ofNat 16 (b + i)) c p → FromPeer s b cs p
  | fin : p.getType = some .fin → p.seqNr = BitVec.ofNat 16 (b + cs.length) →
      (p.connectionId = s.senderId ∨ p.connectionId = s.receiverId) → FromPeer s b cs p
  | syn : p.getType = some .syn → p.seqNr.toNat + 1 = b → p.seqNr ≠ 0 → FromPeer s b cs p

/-- Every datagram the network delivers is one of the peer's, or not decodable.  They may come in any order, any number of
times, or not at all. -/
def PeerNet (E : Env) (s : Socket) (b : Nat) (cs : List Bytes) : Prop :=
  ∀ n d src p, E.net n = .dgram d src → Packet.tryFrom (d.take 1520) = some (.ok p) → FromPeer s b cs p

/-- Event number `k` of the network is a data packet with the number `x`. -/
def DataAt (E : Env) (k x : Nat) : Prop :=
  ∃ d src p, E.net k = .dgram d src ∧ Packet.tryFrom (d.take 1520) = some (.ok p) ∧ p.getType = some .data ∧ p.seqNr.toNat = x

/-- The data packet number `b` is not among the events of the network from `n0` to `n`. -/
def Unseen (E : Env) (b n0 n : Nat) : Prop := ∀ l, n0 ≤ l → l < n → ¬ DataAt E l b

/-- Among the events of the network from `n0` to `n`, the data packet number `b + 1` comes before the packet number `b`. -/
def Skipped (E : Env) (b n0 n : Nat) : Prop := ∃ j, n0 ≤ j ∧ j < n ∧ DataAt E j (b + 1) ∧ Unseen E b n0 j

/-- A State packet with the number `b`, of the connection of `s`: the server's answer to the SYN, which has the number of the server's first data packet. -/
structure SynAnswer (s : Socket) (b : Nat) (p : Packet) : Prop where
  ty : p.getType = some .state
  seq : p.seqNr.toNat = b
  id : p.connectionId = s.senderId ∨ p.connectionId = s.receiverId

/-- Every datagram the network delivers to a client is one of the server's, or not decodable. -/
def ServerNet (E : Env) (s : Socket) (b : Nat) (cs : List Bytes) : Prop :=
  ∀ n d src p, E.net n = .dgram d src → Packet.tryFrom (d.take 1520) = some (.ok p) → FromPeer s b cs p ∨ SynAnswer s b p

/-- A data packet does not arrive again after one with a larger number. -/
def NoLate (E : Env) : Prop := ∀ k l m x y, k < l → m < l → DataAt E k x → DataAt E l x → DataAt E m y → y ≤ x

/-- The bytes a call returned. -/
def Res.read : Res Out → Bytes
  | .ok (.bytes b _) => b
  | _ => []

/-- Calls of `recv_from` in a row, some of which may fail or be dropped while waiting, and the bytes they returned. -/
inductive Reads (E : Env) (w0 : World) : World → Bytes → Prop
  | refl : Reads E w0 w0 []
  | read {w : World} {bs : Bytes} (fuel len : Nat) : Reads E w0 w bs → 0 < len →
      (runOp E fuel (.recvFrom len) w).1 ≠ .panic →
      Reads E w0 (runOp E fuel (.recvFrom len) w).2 (bs ++ (runOp E fuel (.recvFrom len) w).1.read)

/-- The same with calls that do not fail. -/
inductive ReadsOk (E : Env) (w0 : World) : World → Bytes → Prop
  | refl : ReadsOk E w0 w0 []
  | read {w : World} {bs : Bytes} (fuel len : Nat) : ReadsOk E w0 w bs → 0 < len →
      (runOp E fuel (.recvFrom len) w).1 ≠ .panic → (∀ e, (runOp E fuel (.recvFrom len) w).1 ≠ .err e) →
      ReadsOk E w0 (runOp E fuel (.recvFrom len) w).2 (bs ++ (runOp E fuel (.recvFrom len) w).1.read)

end Utp
