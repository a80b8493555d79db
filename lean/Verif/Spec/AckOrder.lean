import Verif.Spec.Run
import Verif.Spec.Advert
/-!
# Specification vocabulary: the order of acknowledgements
-/

namespace Utp

/-- The acknowledgement numbers (bytes 18 and 19) of the State datagrams (type 2) in a log, in the order in which they were handed to the operating system. -/
def ackNumbers : List Act → List Nat
  | [] => []
  | .send _ b _ :: l => if kind b = 2 then ((b.getD 18 0).toNat * 256 + (b.getD 19 0).toNat) :: ackNumbers l else ackNumbers l
  | .wait _ :: l => ackNumbers l

/-- `w` can be reached from `w0` by operations that are allowed in the state in which they are called. -/
inductive RunWith (P : World → Op → Prop) (E : Env) (w0 : World) : World → Prop
  | refl : RunWith P E w0 w0
  | op {w : World} (fuel : Nat) (op : Op) : RunWith P E w0 w → P w op → (runOp E fuel op w).1 ≠ .panic → RunWith P E w0 (runOp E fuel op w).2

/-- The numbers `l`, counted from `a` on modulo 2^16, never decrease. -/
def NeverBack (a : Nat) (l : List Nat) : Prop := (l.map fun n => (n + 65536 - a) % 65536).Pairwise (· ≤ ·)

/-- Reading may leave a part of a packet for the next read; nothing but reading is done before the rest was read.  Reads have room for at least one byte. -/
def TidyReads (w : World) : Op → Prop
  | .recvFrom len => 0 < len
  | _ => w.s.pending = []

/-- Reads have room for a whole packet. -/
def BigReads (_ : World) : Op → Prop
  | .recvFrom len => 1500 ≤ len
  | _ => True

/-- The packet that the receive number `i` yields, if any. -/
def arrival (E : Env) (i : Nat) : Option Packet :=
  match E.net i with
  | .dgram b _ =>
    match Packet.tryFrom (b.take 1520) with
    | some (.ok p) => some p
    | _ => none
  | _ => none

/-- The highest number, counted from `a` on, that was reached without a gap by the first `k` receives after the first `m` ones. -/
def highest (E : Env) (a : U16) (m : Nat) : Nat → U16
  | 0 => a
  | k + 1 =>
    match arrival E (m + k) with
    | some p => if p.seqNr = highest E a m k + 1 then p.seqNr else highest E a m k
    | none => highest E a m k

/-- The packets arrive in order: each one has the next number, or one that is not ahead. -/
def NoJump (E : Env) (a : U16) (m n : Nat) : Prop :=
  ∀ k, k < n → ∀ p, arrival E (m + k) = some p → p.seqNr = highest E a m k + 1 ∨ (highest E a m k - p.seqNr).toNat < 32768

/-- The number of receives in a log. -/
def waits : List Act → Nat
  | [] => 0
  | .send _ _ _ :: l => waits l
  | .wait _ :: l => waits l + 1

/-- Every State datagram in `l` acknowledges the highest number that was reached when it was sent. -/
def CompleteAnswers (E : Env) (a : U16) (m : Nat) (l : List Act) : Prop :=
  ∀ x dst b ok y, l = x ++ .send dst b ok :: y → kind b = 2 → (b.getD 18 0).toNat * 256 + (b.getD 19 0).toNat = (highest E a m (waits x)).toNat

end Utp
