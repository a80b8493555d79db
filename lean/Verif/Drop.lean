import Verif.Socket
/-!
# Dropping a socket
-/

namespace Utp
open M

/-- `impl Drop for UtpSocket` (src/socket.rs:1169-1173): `close` is run to its end and its result is discarded.
`task::block_on` blocks the thread; a `close` that does not end is `pending` here. -/
def dropSocket (E : Env) (fuel : Nat) : M Unit := ignoreErr (close E fuel)

/-- A call that made a socket and ends with `r`: unless it returns the socket, the socket is dropped when the local
variables go out of scope (also when unwinding after a panic, and when the future is dropped). -/
def leaveScope (E : Env) (fuel : Nat) (r : Res Unit) (w : World) : Res Unit × World :=
  match r with
  | .ok _ => (r, w)
  | _ =>
    match dropSocket E fuel w with
    | (.ok _, w') => (r, w')
    | (d, w') => (d, w')

/-- `connect` (src/socket.rs:250-306) including the end of its scope. -/
def connectCall (E : Env) (fuel : Nat) (resolved : Except ErrorKind (List Addr)) (wild : Except ErrorKind Addr) :
    Except IoErr (Res Unit × World) :=
  match connect E fuel resolved wild with
  | .error e => .error e
  | .ok (r, w) => .ok (leaveScope E fuel r w)

/-- `accept` (src/socket.rs:1229-1261) including the end of its scope: if the reply cannot be sent,
`.and(Ok((socket, src)))` drops the socket (src/socket.rs:1252-1256). -/
def acceptCall (E : Env) (fuel : Nat) (ev : NetEvent) (bound : Except ErrorKind Addr) : AcceptRes :=
  match accept E fuel ev bound with
  | .made r w src => .made (leaveScope E fuel r w).1 (leaveScope E fuel r w).2 src
  | a => a

end Utp
