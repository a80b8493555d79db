import Verif.Threads
import Verif.Drop
/-!
# Dropping the last clone of a stream
-/

namespace Utp
open M

/-- The last clone of a stream is dropped (src/stream.rs:29-44: no `impl Drop`, so the fields are dropped in order).  `socket` is one of the references to the socket; then
`futures` drops the futures in the slots: one that has the lock of the socket is cut off in the middle of its operation and gives back the lock, and each drops its own reference to the socket.
With the last reference the socket is dropped (src/socket.rs:1169-1173). `fuel` says how far the operation had come. -/
def dropStream (E : Env) (fuel fuel' : Nat) (st : Stream) : Res Unit × World :=
  dropSocket E fuel' ((((st.discard E fuel .read).discard E fuel .write).discard E fuel .flush).discard E fuel .close).w

end Utp
