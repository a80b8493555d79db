/-!
# Basic types shared by the whole model

Machine integers are `BitVec n` so that wrap-around is exactly that of Rust's `uN`.
-/

namespace Utp

/-- Rust `u8`. -/
abbrev U8 := BitVec 8
/-- Rust `u16`. -/
abbrev U16 := BitVec 16
/-- Rust `u32`. -/
abbrev U32 := BitVec 32
/-- Rust `u64`. -/
abbrev U64 := BitVec 64

/-- A byte string (`Vec<u8>` / `&[u8]`). -/
abbrev Bytes := List U8

/-- `std::io::ErrorKind`, the kinds this crate produces or tests for
(src/error.rs:36-50, src/error.rs:78-82, src/socket.rs:287-288, 411-412); `osOther` stands for every other
kind the operating system may report. -/
inductive ErrorKind
  | notConnected | connectionReset | timedOut | invalidInput | connectionRefused | other
  | wouldBlock | osOther
  deriving DecidableEq, Repr

/-- `SocketError` (src/error.rs:6-14).  `Other(String)`: the message is dropped. -/
inductive SocketError
  | connectionClosed | connectionReset | connectionTimedOut | invalidAddress | invalidReply
  | notConnected | other
  deriving DecidableEq, Repr

/-- `ParseError` (src/error.rs:53-58). -/
inductive ParseError
  | invalidExtensionLength | invalidPacketLength | invalidPacketType (code : U8)
  | unsupportedVersion
  deriving DecidableEq, Repr

/-- `impl From<SocketError> for io::Error` (src/error.rs:37-51): the kind. -/
def SocketError.kind : SocketError → ErrorKind
  | .connectionClosed => .notConnected
  | .notConnected => .notConnected
  | .connectionReset => .connectionReset
  | .connectionTimedOut => .timedOut
  | .invalidAddress => .invalidInput
  | .invalidReply => .connectionRefused
  | .other => .other

/-- `impl From<ParseError> for io::Error` (src/error.rs:78-82): the kind. -/
def ParseError.kind : ParseError → ErrorKind
  | _ => .other

/-- An `io::Error` as seen by the caller: it was made from a `SocketError`, from a `ParseError`, or
comes from the operating system. -/
inductive IoErr
  | sock (e : SocketError)
  | parse (e : ParseError)
  | os (k : ErrorKind)
  deriving DecidableEq, Repr

/-- `io::Error::kind`. -/
def IoErr.kind : IoErr → ErrorKind
  | .sock e => e.kind
  | .parse e => e.kind
  | .os k => k

/-- Outcome of a computation.  `panic` is a Rust panic; `pending` means that the future has not
completed (it is still waiting, or it was dropped at that await point, or the fuel that cuts the
model's loops ran out). -/
inductive Res (α : Type)
  | ok (a : α)
  | err (e : IoErr)
  | panic
  | pending
  deriving DecidableEq, Repr

/-- A socket address (`std::net::SocketAddr`): the family and an abstract identity of ip and port. -/
structure Addr where
  v6 : Bool
  id : Nat
  deriving DecidableEq, Repr

end Utp
