import Verif.Spec.Wire
/-!
# Specification vocabulary: how a datagram is described in a log
-/

namespace Utp.Spec

/-- The names of the packet types in the order of their codes (BEP 29). -/
def typeNames : List String := ["Data", "Fin", "State", "Reset", "Syn"]

/-- The description of an extension code. -/
def extensionName (code : Nat) : String :=
  if code = 0 then "None" else if code = 1 then "SelectiveAck" else "Unknown(" ++ code.repr ++ ")"

/-- The description of a datagram, made from its bytes: the name of the type in the high half of the first byte, the version in the low
half, the extension code, and the fields of the header (BEP 29), each with its name. -/
def describe (b : Bytes) : List (String × String) :=
  [("type", typeNames.getD (field b 0 1 / 16) ""), ("version", (field b 0 1 % 16).repr), ("extension", extensionName (field b 1 1)),
   ("connection_id", (field b 2 2).repr), ("timestamp", "Timestamp(" ++ (field b 4 4).repr ++ ")"),
   ("timestamp_difference", "Delay(" ++ (field b 8 4).repr ++ ")"), ("wnd_size", (field b 12 4).repr),
   ("seq_nr", (field b 16 2).repr), ("ack_nr", (field b 18 2).repr)]

end Utp.Spec
