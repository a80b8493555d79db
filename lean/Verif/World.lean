import Verif.Packet
/-!
# The environment, the world and the monad in which the socket code runs

Nothing in this file models a function of the crate; it models what is around it: the operating
system's UDP socket, the clock, the random generator, floating point arithmetic and the `async`
runtime.
-/

namespace Utp

/-- Outcome of one `UdpSocket::recv_from` (possibly wrapped in `io::timeout`, src/socket.rs:281, 400-403,
1232): a datagram with its source, an error (an expired `io::timeout` is the error kind `timedOut`), or never
(the future is still pending, or was dropped while waiting). -/
inductive NetEvent
  | dgram (bytes : Bytes) (src : Addr)
  | fail (k : ErrorKind)
  | never
  deriving DecidableEq, Repr

/-- Outcome of one `UdpSocket::send_to`. -/
inductive SendRes
  | ok
  | fail (k : ErrorKind)
  | never
  deriving DecidableEq, Repr

/-- The environment.  All theorems quantify over it. -/
structure Env where
  /-- `true`: built with overflow checks (debug), `false`: without (release). -/
  checks : Bool
  /-- the k-th reading of `now_microseconds` -/
  now : Nat → U32
  /-- the k-th random number drawn by this socket -/
  rand : Nat → U16
  /-- outcome of the k-th UDP receive -/
  net : Nat → NetEvent
  /-- outcome of the k-th UDP send -/
  snd : Nat → SendRes
  /-- `ewma(samples, 0.333) as i64` (src/socket.rs:754-757, src/util.rs:7-16): floating point, arbitrary here -/
  ewma : List Int → Int
  /-- `(cwnd as f64 + cwnd_increase) as u32` (src/socket.rs:1020-1024, 1065) as a function of the congestion
  window, the queuing delay as `u32` and the number of bytes acknowledged: floating point, arbitrary here -/
  cwndStep : U32 → U32 → U32 → U32

/-- Observable effects, in chronological order: a datagram handed to the operating system (with
whether it accepted it) and a wait for a datagram (with the timeout in milliseconds, if any). -/
inductive Act
  | send (dst : Addr) (bytes : Bytes) (ok : Bool)
  | wait (timeout : Option U64)
  deriving DecidableEq, Repr

/-- `SocketState` (src/socket.rs:46-54). -/
inductive SocketState
  | new | connected | synSent | finSent | resetReceived | closed
  deriving DecidableEq, Repr

/-- `UtpSocket` (src/socket.rs:100-179).  The UDP socket is represented by its local address;
`DelayDifferenceSample` (src/socket.rs:56-60) is a pair; `i32` and `i64` fields are `Int` (C11 shows that
the `i32` ones never leave their range). -/
structure Socket where
  localAddr : Addr
  connectedTo : Addr
  senderId : U16
  receiverId : U16
  seqNr : U16
  ackNr : U16
  state : SocketState
  incoming : List Packet
  sendWindow : List Packet
  unsent : List Packet
  dupAcks : U32
  lastAcked : U16
  lastAckedTs : U32
  lastDropped : U16
  rtt : Int
  rttVar : Int
  pending : Bytes
  currWindow : U32
  remoteWnd : U32
  baseDelays : List Int
  currDelays : List (U32 × Int)
  theirDelay : Int
  lastRollover : U32
  congTimeout : U64
  cwnd : U32
  maxRetries : U32
  deriving DecidableEq, Repr

/-- The world: the socket, how often each oracle was consulted, and the effects so far. -/
structure World where
  s : Socket
  nNow : Nat
  nRand : Nat
  nNet : Nat
  nSnd : Nat
  log : List Act
  deriving DecidableEq, Repr

/-- Computations: they change the world and end as a value, an error, a panic or pending. -/
def M (α : Type) : Type := World → Res α × World

namespace M

/-- Return a value. -/
def ret {α : Type} (a : α) : M α := fun w => (.ok a, w)

/-- Sequencing; errors (`?`), panics and pending futures end the computation and keep the world
reached so far. -/
def andThen {α β : Type} (m : M α) (f : α → M β) : M β := fun w =>
  match m w with
  | (.ok a, w') => f a w'
  | (.err e, w') => (.err e, w')
  | (.panic, w') => (.panic, w')
  | (.pending, w') => (.pending, w')

instance : Monad M where
  pure := ret
  bind := andThen

/-- `return Err(e)`. -/
def throw {α : Type} (e : IoErr) : M α := fun w => (.err e, w)
/-- A panic. -/
def panic {α : Type} : M α := fun w => (.panic, w)
/-- A future that does not complete. -/
def never {α : Type} : M α := fun w => (.pending, w)

/-- The socket. -/
def getS : M Socket := fun w => (.ok w.s, w)
/-- Assign to fields of the socket. -/
def modS (f : Socket → Socket) : M Unit := fun w => (.ok (), { w with s := f w.s })

/-- Unwrap an `Option` in which `none` stands for a panic. -/
def orPanic {α : Type} : Option α → M α
  | some a => ret a
  | none => panic

/-- Arithmetic overflow: panics when the build has overflow checks. -/
def overflowIf (E : Env) (b : Bool) : M Unit := if E.checks && b then panic else ret ()

/-- `let _ = m.await`: errors are ignored. -/
def ignoreErr {α : Type} (m : M α) : M Unit := fun w =>
  match m w with
  | (.ok _, w') => (.ok (), w')
  | (.err _, w') => (.ok (), w')
  | (.panic, w') => (.panic, w')
  | (.pending, w') => (.pending, w')

/-- `now_microseconds()` (src/time.rs:7-14). -/
def now (E : Env) : M U32 := fun w => (.ok (E.now w.nNow), { w with nNow := w.nNow + 1 })

/-- `rand::random()` (src/util.rs:34, src/socket.rs:887). -/
def rand (E : Env) : M U16 := fun w => (.ok (E.rand w.nRand), { w with nRand := w.nRand + 1 })

/-- `UdpSocket::send_to(bytes, dst).await?`. -/
def udpSend (E : Env) (dst : Addr) (bytes : Bytes) : M Unit := fun w =>
  let w' (ok : Bool) := { w with nSnd := w.nSnd + 1, log := w.log ++ [.send dst bytes ok] }
  match E.snd w.nSnd with
  | .ok => (.ok (), w' true)
  | .fail k => (.err (.os k), w' false)
  | .never => (.pending, w' false)

/-- `UdpSocket::recv_from(&mut buf).await` with a buffer of `len` bytes, under `io::timeout` when a
timeout (in ms) is given.  A longer datagram is truncated to the buffer. -/
def udpRecv (E : Env) (timeout : Option U64) (len : Nat) : M (Except ErrorKind (Bytes × Addr)) := fun w =>
  let w' := { w with nNet := w.nNet + 1, log := w.log ++ [.wait timeout] }
  match E.net w.nNet with
  | .dgram b src => (.ok (.ok (b.take len, src)), w')
  | .fail k => (.ok (.error k), w')
  | .never => (.pending, w')

/-- `while cond { body }`, cut by fuel. -/
def whileM : Nat → M Bool → M Unit → M Unit
  | 0, _, _ => never
  | n + 1, c, b => andThen c fun go => if go then andThen b fun _ => whileM n c b else ret ()

end M

end Utp
