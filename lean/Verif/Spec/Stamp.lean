import Verif.Spec.Advert
import Verif.Packet
/-!
# Specification vocabulary: the time fields of a datagram
-/

namespace Utp

/-- The timestamp of a datagram, in microseconds: its bytes 4 to 7, the most significant first (BEP 29). -/
def stampOf (b : Bytes) : Nat :=
  (b.getD 4 0).toNat * 2 ^ 24 + (b.getD 5 0).toNat * 2 ^ 16 + (b.getD 6 0).toNat * 2 ^ 8 + (b.getD 7 0).toNat

/-- The timestamp difference of a datagram, in microseconds: its bytes 8 to 11, the most significant first (BEP 29). -/
def delayOf (b : Bytes) : Nat :=
  (b.getD 8 0).toNat * 2 ^ 24 + (b.getD 9 0).toNat * 2 ^ 16 + (b.getD 10 0).toNat * 2 ^ 8 + (b.getD 11 0).toNat

/-- How far two times are apart. -/
def apart (x y : Nat) : Nat := (x - y) + (y - x)

/-- A history in which the clock was read `k` times, and in which every datagram was handed to the operating system right after a reading of
the clock (with no other reading in between) and carries that reading as its timestamp. -/
inductive Punctual (E : Env) : Nat → List Act → Prop
  | start : Punctual E 0 []
  | read {k l} : Punctual E k l → Punctual E (k + 1) l
  | wait {k l} (t) : Punctual E k l → Punctual E k (l ++ [.wait t])
  | send {k l dst b} (ok) : Punctual E k l → stampOf b = (E.now k).toNat → Punctual E (k + 1) (l ++ [.send dst b ok])

/-- The receive number `i` returned the packet `c` (cut off at the size of the receive buffer). -/
def HeardAt (E : Env) (i : Nat) (c : Bytes) : Prop :=
  ∃ b src pkt n, (n = 1520 ∨ n = 1500) ∧ E.net i = .dgram b src ∧ c = b.take n ∧ Packet.tryFrom c = some (.ok pkt)

/-- The receive number `i` returned no packet for the connection with the identifiers `sid` and `rid`. -/
def Silent (E : Env) (sid rid : U16) (i : Nat) : Prop :=
  ∀ b src pkt, E.net i = .dgram b src → Packet.tryFrom (b.take 1520) = some (.ok pkt) →
    pkt.getType ≠ some .syn ∧ pkt.connectionId ≠ sid ∧ pkt.connectionId ≠ rid

/-- The packet that the receive number `j` returned is one of the connection, or a SYN; while the answer to our own SYN is awaited, that is, before any State packet came, any packet is. -/
def Counts (E : Env) (syn : Option Bytes) (sid rid : U16) (j : Nat) (c : Bytes) : Prop :=
  (∃ pkt, Packet.tryFrom c = some (.ok pkt) ∧ (pkt.getType = some .syn ∨ pkt.connectionId = sid ∨ pkt.connectionId = rid)) ∨
  (syn = none ∧ ∀ i, i < j → ∀ b src pkt, E.net i = .dgram b src → Packet.tryFrom (b.take 1520) = some (.ok pkt) → pkt.getType ≠ some .state)

/-- After `n` receives, `d` is the time between a reading of the clock (one of the first `k`) and the timestamp of the latest packet of the connection: the
one the receive number `j` returned; if there is none yet, the SYN that was accepted; and if there is none either, `d` is 0. -/
inductive Measured (E : Env) (syn : Option Bytes) (sid rid : U16) (k n : Nat) (d : Nat) : Prop
  | packet (i j c) : i < k → j < n → HeardAt E j c → Counts E syn sid rid j c → d = apart (E.now i).toNat (stampOf c) →
      (∀ m, j < m → m < n → Silent E sid rid m) → Measured E syn sid rid k n d
  | accepted (i c) : i < k → syn = some c → d = apart (E.now i).toNat (stampOf c) → (∀ m, m < n → Silent E sid rid m) → Measured E syn sid rid k n d
  | nothing : syn = none → d = 0 → (∀ m, m < n → Silent E sid rid m) → Measured E syn sid rid k n d

/-- What the timestamp difference of a datagram can be, sent when the clock was read `k` times and after `n` receives. -/
inductive DelayField (E : Env) (syn : Option Bytes) (sid rid : U16) (k n : Nat) (b : Bytes) : Prop
  /-- an answer to the packet that the last receive returned -/
  | answer (m c) : n = m + 1 → HeardAt E m c → delayOf b = apart (stampOf b) (stampOf c) → DelayField E syn sid rid k n b
  /-- what was measured for the latest packet of the connection -/
  | measured : Measured E syn sid rid k n (delayOf b) → DelayField E syn sid rid k n b
  /-- a packet repeated after a timeout: what was measured at some earlier time, or nothing -/
  | repeated : kind b = 0 → (delayOf b = 0 ∨ ∃ n', n' ≤ n ∧ Measured E syn sid rid k n' (delayOf b)) → DelayField E syn sid rid k n b
  /-- a FIN without the time -/
  | fin : kind b = 1 → delayOf b = 0 → DelayField E syn sid rid k n b

/-- A history with `k` readings of the clock and `n` receives in which every datagram has such a timestamp difference. -/
inductive Reports (E : Env) (syn : Option Bytes) (sid rid : U16) : Nat → Nat → List Act → Prop
  | start : Reports E syn sid rid 0 0 []
  | read {k n l} : Reports E syn sid rid k n l → Reports E syn sid rid (k + 1) n l
  | wait {k n l} (t) : Reports E syn sid rid k n l → Reports E syn sid rid k (n + 1) (l ++ [.wait t])
  | send {k n l dst b} (ok) : Reports E syn sid rid k n l → DelayField E syn sid rid k n b →
      Reports E syn sid rid k n (l ++ [.send dst b ok])

end Utp
