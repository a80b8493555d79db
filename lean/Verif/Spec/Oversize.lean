import Verif.Spec.Order
import Verif.Spec.Wire
/-!
# Specification vocabulary: data packets of any size
-/

namespace Utp
open Spec

/-- A Data packet as it stands on the wire, with the number `nr`, of the connection whose identifiers are `sid` and `rid`. -/
structure WireData (sid rid nr : Nat) (d : Datagram) : Prop where
  ok : d.Ok
  data : (d.header.getD 0 0).toNat / 16 = 0
  number : field d.header 16 2 = nr
  conn : field d.header 2 2 = sid ∨ field d.header 2 2 = rid

/-- What is before the payload: header and extensions. -/
def _root_.Utp.Spec.Datagram.front (d : Datagram) : Nat := 20 + (chainBytes d.exts).length

/-- The part of the payload that is among the first 1520 bytes of the datagram. -/
def _root_.Utp.Spec.Datagram.seen (d : Datagram) : Bytes := d.payload.take (1520 - d.front)

/-- Data packets numbered from `nr` on (modulo 2^16); some of the payload of each one is among its first 1520 bytes. -/
def NumberedFrom (sid rid nr : Nat) (ds : List Datagram) : Prop :=
  ∀ i d, ds[i]? = some d → WireData sid rid ((nr + i) % 65536) d ∧ d.front < 1520 ∧ d.payload ≠ []

/-- The receives from number `n` on return these datagrams. -/
def CarriesAll (E : Env) (n : Nat) (ds : List Datagram) : Prop := ∀ i d, ds[i]? = some d → ∃ src, E.net (n + i) = .dgram d.bytes src

end Utp
