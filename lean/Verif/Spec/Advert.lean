import Verif.Spec.Trace
/-!
# Specification vocabulary: the receive window a datagram advertises
-/

namespace Utp

/-- The receive window that a datagram advertises: its bytes 12 to 15, the most significant first (BEP 29). -/
def advertised (b : Bytes) : Nat :=
  (b.getD 12 0).toNat * 2 ^ 24 + (b.getD 13 0).toNat * 2 ^ 16 + (b.getD 14 0).toNat * 2 ^ 8 + (b.getD 15 0).toNat

/-- The type of a datagram: the upper half of its first byte (BEP 29: 0 Data, 1 FIN, 2 State, 3 Reset, 4 SYN). -/
def kind (b : Bytes) : Nat := (b.getD 0 0).toNat / 16

/-- What a datagram says about the window, by what it is. -/
structure Advertises (E : Env) (w : World) (dst : Addr) (b : Bytes) : Prop where
  /-- no window, or 1 MiB -/
  value : advertised b = 0 ∨ advertised b = 1048576
  /-- Data and SYN packets: no window -/
  none : kind b = 0 ∨ kind b = 4 → advertised b = 0
  /-- Reset packets: 1 MiB -/
  reset : kind b = 3 → advertised b = 1048576
  /-- what advertises a window answers a packet of its receiver -/
  answer : advertised b = 1048576 → ∃ pkt, Received E w pkt dst

end Utp
