import Verif.Time
import Verif.Bits
/-!
# `src/packet.rs`

A `Packet` is its byte vector, exactly as in the code (`pub struct Packet(Vec<u8>)`).  The header
accessors of the code cast the vector's pointer to a `#[repr(C)]` struct and convert with
`from_be`/`to_be`; here they read and write bytes at the corresponding offsets, most significant
byte first.  They are only meaningful on vectors of at least 20 bytes; on shorter ones the code
would read out of bounds (undefined behaviour) and the model reads 0.  `Verif/Props/Safety.lean` proves that
every packet in any reachable socket has at least 20 bytes.
-/

namespace Utp

/-- src/packet.rs:8 -/
def HEADER_SIZE : Nat := 20

/-- `PacketType` (src/packet.rs:42-49). -/
inductive PacketType
  | data | fin | state | reset | syn
  deriving DecidableEq, Repr

/-- `impl TryFrom<u8> for PacketType` (src/packet.rs:51-63). -/
def PacketType.tryFrom (n : U8) : Except ParseError PacketType :=
  if n = 0 then .ok .data
  else if n = 1 then .ok .fin
  else if n = 2 then .ok .state
  else if n = 3 then .ok .reset
  else if n = 4 then .ok .syn
  else .error (.invalidPacketType n)

/-- `impl From<PacketType> for u8` (src/packet.rs:65-75). -/
def PacketType.toU8 : PacketType → U8
  | .data => 0 | .fin => 1 | .state => 2 | .reset => 3 | .syn => 4

/-- `ExtensionType` (src/packet.rs:77-82). -/
inductive ExtensionType
  | none | selectiveAck | unknown (n : U8)
  deriving DecidableEq, Repr

/-- `impl From<u8> for ExtensionType` (src/packet.rs:84-92). -/
def ExtensionType.ofU8 (n : U8) : ExtensionType :=
  if n = 0 then .none else if n = 1 then .selectiveAck else .unknown n

/-- `impl From<ExtensionType> for u8` (src/packet.rs:94-102). -/
def ExtensionType.toU8 : ExtensionType → U8
  | .none => 0 | .selectiveAck => 1 | .unknown n => n

/-- `Extension` (src/packet.rs:104-108). -/
structure Extension where
  ty : ExtensionType
  data : Bytes
  deriving DecidableEq, Repr

/-- `Packet(Vec<u8>)` (src/packet.rs:216). -/
structure Packet where
  bytes : Bytes
  deriving DecidableEq, Repr

namespace Packet

/-! ### Raw header access -/

/-- Byte at an offset (0 outside the vector, see the file comment). -/
def byteAt (b : Bytes) (i : Nat) : U8 := b.getD i 0

/-- Big-endian 16-bit field at an offset. -/
def be16 (b : Bytes) (i : Nat) : U16 :=
  BitVec.ofNat 16 ((byteAt b i).toNat * 256 + (byteAt b (i+1)).toNat)

/-- Big-endian 32-bit field at an offset. -/
def be32 (b : Bytes) (i : Nat) : U32 :=
  BitVec.ofNat 32 ((((byteAt b i).toNat * 256 + (byteAt b (i+1)).toNat) * 256
    + (byteAt b (i+2)).toNat) * 256 + (byteAt b (i+3)).toNat)

/-- Store a big-endian 16-bit field. -/
def put16 (b : Bytes) (i : Nat) (v : U16) : Bytes :=
  (b.set i (BitVec.ofNat 8 (v.toNat / 256))).set (i+1) (BitVec.ofNat 8 v.toNat)

/-- Store a big-endian 32-bit field. -/
def put32 (b : Bytes) (i : Nat) (v : U32) : Bytes :=
  (((b.set i (BitVec.ofNat 8 (v.toNat / 16777216))).set (i+1) (BitVec.ofNat 8 (v.toNat / 65536))).set
    (i+2) (BitVec.ofNat 8 (v.toNat / 256))).set (i+3) (BitVec.ofNat 8 v.toNat)

/-! ### Header fields.  Offsets from `PacketHeader` (src/packet.rs:124-135):
type_ver 0, extension 1, connection_id 2, timestamp 4, timestamp_difference 8, wnd_size 12, seq_nr 16,
ack_nr 18. -/

/-- `seq_nr` (src/packet.rs:307, 16-23). -/
def seqNr (p : Packet) : U16 := be16 p.bytes 16
/-- `ack_nr` (src/packet.rs:308). -/
def ackNr (p : Packet) : U16 := be16 p.bytes 18
/-- `connection_id` (src/packet.rs:309). -/
def connectionId (p : Packet) : U16 := be16 p.bytes 2
/-- `wnd_size` (src/packet.rs:310). -/
def wndSize (p : Packet) : U32 := be32 p.bytes 12
/-- `timestamp` (src/packet.rs:287-290). -/
def timestamp (p : Packet) : U32 := be32 p.bytes 4
/-- `timestamp_difference` (src/packet.rs:297-300), as the `Delay` it is converted to. -/
def timestampDifference (p : Packet) : Int := delayOfU32 (be32 p.bytes 8)

/-- `set_seq_nr` (src/packet.rs:312, 25-32). -/
def setSeqNr (p : Packet) (v : U16) : Packet := ⟨put16 p.bytes 16 v⟩
/-- `set_ack_nr` (src/packet.rs:313). -/
def setAckNr (p : Packet) (v : U16) : Packet := ⟨put16 p.bytes 18 v⟩
/-- `set_connection_id` (src/packet.rs:314). -/
def setConnectionId (p : Packet) (v : U16) : Packet := ⟨put16 p.bytes 2 v⟩
/-- `set_wnd_size` (src/packet.rs:315). -/
def setWndSize (p : Packet) (v : U32) : Packet := ⟨put32 p.bytes 12 v⟩
/-- `set_timestamp` (src/packet.rs:292-295). -/
def setTimestamp (p : Packet) (v : U32) : Packet := ⟨put32 p.bytes 4 v⟩
/-- `set_timestamp_difference` (src/packet.rs:302-305): `u32::from(delay)`. -/
def setTimestampDifference (p : Packet) (d : Int) : Packet := ⟨put32 p.bytes 8 (delayToU32 d)⟩

/-- `set_type` (src/packet.rs:139-142, 243-247): keeps the version nibble. -/
def setType (p : Packet) (t : PacketType) : Packet :=
  ⟨p.bytes.set 0 ((t.toU8 <<< 4) ||| (0x0F#8 &&& byteAt p.bytes 0))⟩

/-- `get_type` (src/packet.rs:145-147, 249-253): `try_from(type_ver >> 4).unwrap()`; `none` is the
panic of `unwrap`. -/
def getType (p : Packet) : Option PacketType :=
  match PacketType.tryFrom (byteAt p.bytes 0 >>> 4) with
  | .ok t => some t
  | .error _ => none

/-- `get_version` (src/packet.rs:150-152). -/
def getVersion (p : Packet) : U8 := byteAt p.bytes 0 &&& 0x0F#8

/-- `get_extension_type` (src/packet.rs:155-157). -/
def getExtensionType (p : Packet) : ExtensionType := .ofU8 (byteAt p.bytes 1)

/-- `len` (src/packet.rs:370-372). -/
def len (p : Packet) : Nat := p.bytes.length

/-- `PacketHeader::default().as_ref()` (src/packet.rs:201-214, 160-165):
type Data, version 1, everything else zero. -/
def defaultHeader : Bytes :=
  ((PacketType.data.toU8 <<< 4) ||| 1#8) :: List.replicate 19 0#8

/-- `Packet::new` (src/packet.rs:226-228). -/
def new : Packet := ⟨defaultHeader⟩

/-- `Packet::with_payload` (src/packet.rs:231-241).  `header.set_type(Data)` on the default header
is done on the bytes here. -/
def withPayload (payload : Bytes) : Packet :=
  ⟨(setType ⟨defaultHeader⟩ .data).bytes ++ payload⟩

/-! ### Extensions and payload -/

/-- The loop of `payload` (src/packet.rs:274-282): returns the final `index`; `none` is an
out-of-bounds panic.  The fuel only makes the definition structural. -/
def payloadLoop (b : Bytes) : Nat → Nat → ExtensionType → Option Nat
  | 0, _, _ => none
  | fuel + 1, index, ext =>
    if index < b.length ∧ ext ≠ .none then
      match b[index + 1]?, b[index]? with
      | some len, some next => payloadLoop b fuel (index + (len.toNat + 2)) (.ofU8 next)
      | _, _ => none
    else some index

/-- `payload` (src/packet.rs:269-285): `&self.0[index..]` panics when `index` is past the end. -/
def payload (p : Packet) : Option Bytes :=
  match p.bytes[1]? with
  | none => none
  | some e =>
    match payloadLoop p.bytes (p.bytes.length + 1) HEADER_SIZE (.ofU8 e) with
    | none => none
    | some index => if index ≤ p.bytes.length then some (p.bytes.drop index) else none

/-- Enumerating `extensions()` to the end: `ExtensionIterator::next` (src/packet.rs:431-452) called
until it returns `None`; `none` is an out-of-bounds panic.  (`raw_bytes[start..end]` panics when
`end` is past the end of the vector.) -/
def extensionsLoop (b : Bytes) : Nat → Nat → ExtensionType → Option (List Extension)
  | 0, _, _ => none
  | fuel + 1, index, nextExt =>
    if nextExt = .none then some []
    else if index < b.length then
      match b[index + 1]?, b[index]? with
      | some len, some next =>
        if index + 2 + len.toNat ≤ b.length then
          let e : Extension := ⟨nextExt, (b.drop (index + 2)).take len.toNat⟩
          (extensionsLoop b fuel (index + (len.toNat + 2)) (.ofU8 next)).map (e :: ·)
        else none
      | _, _ => none
    else some []

/-- `extensions()` collected (src/packet.rs:265-267, 419-425). -/
def extensions (p : Packet) : Option (List Extension) :=
  match p.bytes[1]? with
  | none => none
  | some e => extensionsLoop p.bytes (p.bytes.length + 1) HEADER_SIZE (.ofU8 e)

/-- The search loop of `set_sack` (src/packet.rs:339-352): walks to the end of the chain, rewriting
the last "next extension" byte to SelectiveAck (= 1); returns the modified vector and the index
where the new extension goes. -/
def sackLoop : Nat → Bytes → Nat → ExtensionType → Option (Bytes × Nat)
  | 0, _, _, _ => none
  | fuel + 1, b, index, ext =>
    if index < b.length ∧ ext ≠ .none then
      match b[index + 1]?, b[index]? with
      | some len, some next =>
        let ext' := ExtensionType.ofU8 next
        let b' := if ext' = .none then b.set index (ExtensionType.selectiveAck.toU8) else b
        sackLoop fuel b' (index + (len.toNat + 2)) ext'
      | _, _ => none
    else some (b, index)

/-- `set_sack` (src/packet.rs:321-368).  `none` is a panic: the two assertions, an index out of
bounds, or `Vec::insert` past the end.  `bv.len() as u8` truncates. The byte-by-byte inserts at
`index`, `index + 1`, `index + 2 + i` put the new bytes between `index` and the rest. -/
def setSack (p : Packet) (bv : Bytes) : Option Packet :=
  if bv.length < 4 then none
  else if bv.length % 4 ≠ 0 then none
  else
    match p.bytes[1]? with
    | none => none
    | some e =>
      let found : Option (Bytes × Nat) :=
        if ExtensionType.ofU8 e = .none then
          some (p.bytes.set 1 ExtensionType.selectiveAck.toU8, HEADER_SIZE)
        else sackLoop (p.bytes.length + 1) p.bytes HEADER_SIZE (.ofU8 e)
      match found with
      | none => none
      | some (b, index) =>
        if index ≤ b.length then
          some ⟨b.take index ++ [ExtensionType.none.toU8, BitVec.ofNat 8 bv.length] ++ bv ++ b.drop index⟩
        else none

/-! ### Decoding -/

/-- `PacketHeader::try_from` (src/packet.rs:172-198): only success or the error matters, the parsed
header is discarded by the caller (src/packet.rs:384-386). -/
def headerTryFrom (buf : Bytes) : Except ParseError Unit :=
  if buf.length < HEADER_SIZE then .error .invalidPacketLength
  else if byteAt buf 0 &&& 0x0F#8 ≠ 1#8 then .error .unsupportedVersion
  else
    match PacketType.tryFrom (byteAt buf 0 >>> 4) with
    | .error e => .error e
    | .ok _ => .ok ()

/-- The loop of `check_extensions` (src/packet.rs:469-487).  `none`: out of fuel (never happens,
see `Props/Packet.lean`). Returns the last extension type or the error. -/
def checkLoop (data : Bytes) : Nat → Nat → ExtensionType → Option (Except ParseError ExtensionType)
  | 0, _, _ => none
  | fuel + 1, index, ext =>
    if index < data.length ∧ ext ≠ .none then
      if data.length < index + 2 then some (.error .invalidPacketLength)
      else
        match data[index + 1]?, data[index]? with
        | some len, some next =>
          if len.toNat = 0 ∨ len.toNat % 4 ≠ 0 ∨ index + 2 + len.toNat > data.length then
            some (.error .invalidExtensionLength)
          else checkLoop data fuel (index + (len.toNat + 2)) (.ofU8 next)
        | _, _ => none
    else some (.ok ext)

/-- `check_extensions` (src/packet.rs:456-494).  `none` is a panic. -/
def checkExtensions (data : Bytes) : Option (Except ParseError Unit) :=
  if data.length < HEADER_SIZE then some (.error .invalidPacketLength)
  else
    match data[1]? with
    | none => none
    | some e =>
      let ext := ExtensionType.ofU8 e
      if data.length = HEADER_SIZE ∧ ext ≠ .none then some (.error .invalidExtensionLength)
      else
        match checkLoop data (data.length + 1) HEADER_SIZE ext with
        | none => none
        | some (.error err) => some (.error err)
        | some (.ok last) =>
          if last ≠ .none then some (.error .invalidPacketLength) else some (.ok ())

/-- `impl TryFrom<&[u8]> for Packet` (src/packet.rs:383-387): header check, then (eagerly
evaluated) extension check, then the bytes are copied.  `none` is a panic. -/
def tryFrom (buf : Bytes) : Option (Except ParseError Packet) :=
  match checkExtensions buf with
  | none => none
  | some chk =>
    match headerTryFrom buf with
    | .error e => some (.error e)
    | .ok () =>
      match chk with
      | .error e => some (.error e)
      | .ok () => some (.ok ⟨buf⟩)

end Packet
end Utp
