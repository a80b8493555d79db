import Verif.Packet
/-!
# Texts: what the log shows

The arguments of the log messages (`debug!`) that the rest of the model leaves out.  A text that cannot be made because making it panics
is `none`.  The texts that `derive(Debug)` makes are written out.
-/

namespace Utp

/-- `derive(Debug)` of `PacketType` (src/packet.rs:42-49). -/
def PacketType.text : PacketType → String
  | .data => "Data"
  | .fin => "Fin"
  | .state => "State"
  | .reset => "Reset"
  | .syn => "Syn"

/-- `derive(Debug)` of `ExtensionType` (src/packet.rs:77-82). -/
def ExtensionType.text : ExtensionType → String
  | .none => "None"
  | .selectiveAck => "SelectiveAck"
  | .unknown n => "Unknown(" ++ n.toNat.repr ++ ")"

/-- `impl Debug for Packet` (src/packet.rs:396-410), the fields with their values (how
`debug_struct` lays them out is left to the standard library); `none` is the panic of `unwrap` in `get_type`
(src/packet.rs:145-147).  `Timestamp` and `Delay` derive `Debug` (src/time.rs:16-17, 45-46). -/
def Packet.shown (p : Packet) : Option (List (String × String)) :=
  match p.getType with
  | .none => .none
  | some t => some
    [("type", t.text), ("version", p.getVersion.toNat.repr), ("extension", p.getExtensionType.text),
     ("connection_id", p.connectionId.toNat.repr), ("timestamp", "Timestamp(" ++ p.timestamp.toNat.repr ++ ")"),
     ("timestamp_difference", "Delay(" ++ toString p.timestampDifference ++ ")"), ("wnd_size", p.wndSize.toNat.repr),
     ("seq_nr", p.seqNr.toNat.repr), ("ack_nr", p.ackNr.toNat.repr)]

/-- `impl Display for SocketError` (src/error.rs:31-35), which is its `derive(Debug)`; also the message of the `io::Error` made from it
(src/error.rs:49).  The text inside `Other` is dropped, as in the type. -/
def SocketError.text : SocketError → String
  | .connectionClosed => "ConnectionClosed"
  | .connectionReset => "ConnectionReset"
  | .connectionTimedOut => "ConnectionTimedOut"
  | .invalidAddress => "InvalidAddress"
  | .invalidReply => "InvalidReply"
  | .notConnected => "NotConnected"
  | .other => "Other"

/-- `impl Display for ParseError` (src/error.rs:60-64), which is its `derive(Debug)`; also the message of the `io::Error` made from it
(src/error.rs:80). -/
def ParseError.text : ParseError → String
  | .invalidExtensionLength => "InvalidExtensionLength"
  | .invalidPacketLength => "InvalidPacketLength"
  | .invalidPacketType n => "InvalidPacketType(" ++ n.toNat.repr ++ ")"
  | .unsupportedVersion => "UnsupportedVersion"

end Utp
