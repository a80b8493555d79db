import Verif.Spec.Lossless
import Verif.Spec.Shutdown
/-!
# Specification vocabulary: the programs of examples/utpcat.rs and of tests/stream.rs
-/

namespace Utp
open M

/-- What the client does with its connection (examples/utpcat.rs:75-95, tests/stream.rs:75-77): it writes batches of buffers, with a flush after each, then the buffers
`last`, and closes the connection. -/
def writeClose (E : Env) (fuel : Nat) (batches : List (List Bytes)) (last : List Bytes) : M Unit :=
  andThen (transfer E fuel batches) fun _ => andThen (sendAll E fuel last) fun _ => close E fuel

/-- The client: it connects first (examples/utpcat.rs:70, tests/stream.rs:75).  Run in the world of the socket that `connect` binds. -/
def catClient (E : Env) (fuel : Nat) (addr : Addr) (batches : List (List Bytes)) (last : List Bytes) : M Unit :=
  andThen (connectM E fuel addr) fun _ => writeClose E fuel batches last

/-- The loop of the server (examples/utpcat.rs:59-67; `read_to_end`, tests/stream.rs:81): it reads until `recv_from` returns no bytes.  The length of the buffer, `len`, may
depend on what was read so far. -/
def readEnd (E : Env) (fuel : Nat) (len : Bytes → Nat) : Nat → Bytes → M Bytes
  | 0, _ => never
  | n + 1, got => andThen (recvFrom E fuel (len got)) fun x => if x.1 = [] then ret got else readEnd E fuel len n (got ++ x.1)

/-- The server. -/
def readToEnd (E : Env) (len : Bytes → Nat) (fuel : Nat) : M Bytes := readEnd E fuel len fuel []

end Utp
