import Verif.Spec.Cat
import Verif.Drop
/-!
# Specification vocabulary: the program of examples/echo-server.rs and a client for it
-/

namespace Utp
open M

/-- `handle_client` (examples/echo-server.rs:7-18): one `recv_from` into a buffer of 1500 bytes; if it succeeds, the bytes are sent back, and the result of that is dropped
(an error of `recv_from` is only printed).  Then the socket goes out of scope. -/
def handleClient (E : Env) (fuel : Nat) : M Unit :=
  andThen (ignoreErr (andThen (recvFrom E fuel 1500) fun x => ignoreErr (sendTo E fuel x.1))) fun _ => dropSocket E fuel

/-- A client: it sends a message and reads until it gets no bytes. -/
def echoClient (E : Env) (msg : Bytes) (len : Bytes → Nat) (fuel : Nat) : M Bytes := andThen (sendTo E fuel msg) fun _ => readToEnd E len fuel

end Utp
