import Verif.Basic
/-!
# Specification: the uTP datagram grammar

Independent of the decoder in `Verif/Packet.lean`: a datagram is described by how it is *built*, as
a header, a chain of extensions and a payload.
-/

namespace Utp.Spec

/-- One extension as it stands on the wire: its type code and its data. -/
structure WireExt where
  code : U8
  data : Bytes
  deriving DecidableEq, Repr

/-- An extension the grammar allows: the code 0 ends the chain, so it is not an extension; the data
is non-empty, a multiple of four bytes and its length fits one byte. -/
def WireExt.Ok (e : WireExt) : Prop :=
  e.code ≠ 0 ∧ 0 < e.data.length ∧ e.data.length % 4 = 0 ∧ e.data.length ≤ 255

/-- The code by which a chain of extensions is announced: that of its first extension, 0 if none. -/
def announce : List WireExt → U8
  | [] => 0
  | e :: _ => e.code

/-- The bytes of a chain: each extension is written as the announcement of the rest, its length, its
data. -/
def chainBytes : List WireExt → Bytes
  | [] => []
  | e :: rest => announce rest :: BitVec.ofNat 8 e.data.length :: (e.data ++ chainBytes rest)

/-- A description of a datagram: 20 header bytes, extensions and payload. -/
structure Datagram where
  header : Bytes
  exts : List WireExt
  payload : Bytes

/-- The bytes of a datagram. -/
def Datagram.bytes (d : Datagram) : Bytes := d.header ++ (chainBytes d.exts ++ d.payload)

/-- Well-formedness: a header of 20 bytes whose first byte holds a type code 0..4 in the high and
the version 1 in the low half, whose second byte announces the chain, and allowed extensions. -/
structure Datagram.Ok (d : Datagram) : Prop where
  headerLen : d.header.length = 20
  version : (d.header.getD 0 0).toNat % 16 = 1
  typeCode : (d.header.getD 0 0).toNat / 16 ≤ 4
  announced : d.header.getD 1 0 = announce d.exts
  extsOk : ∀ e ∈ d.exts, e.Ok

/-- A byte string is a uTP datagram when it is the bytes of a well-formed description. -/
def IsDatagram (b : Bytes) : Prop := ∃ d : Datagram, d.Ok ∧ b = d.bytes

/-- The natural number a big-endian byte string stands for. -/
def bigEndian : Bytes → Nat
  | [] => 0
  | b :: rest => b.toNat * 256 ^ rest.length + bigEndian rest

/-- The field of `n` bytes at offset `i`, as a number. -/
def field (b : Bytes) (i n : Nat) : Nat := bigEndian ((b.drop i).take n)

/-- Bit `i` of a bitmap, least significant bit of the first byte first. -/
def bitAt (bm : Bytes) (i : Nat) : Bool := ((bm.getD (i / 8) 0).toNat / 2 ^ (i % 8)) % 2 = 1

end Utp.Spec
