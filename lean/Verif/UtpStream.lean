import Verif.Socket
/-!
# Model of `UtpStream` (src/stream.rs) and of the stream of incoming connections (src/socket.rs:1280-1306)

A stream handle is a reference to a socket behind an asynchronous lock and to four slots, each of which may hold a
future.  All clones share these.  The model has one state for all clones; a call is a poll by any of them.

* A future in a slot is an `async` block: wait for the lock of the socket, run one socket operation with the lock held,
  release the lock, return.  It is in one of three stages.  The argument `go` of a poll says whether the operation
  completes in this poll (what it waits for is there).  The operation is run in the poll that completes it: nobody
  else can look at the socket while the lock is held, so nothing can tell the difference.
* Polling a completed `async` block again is a panic (this is what the compiler generates).
* Calls are atomic; of the attempts to lock a slot only the ones of `poll_close` can fail here.  `Verif/Threads.lean` models the attempts one by one, and C69 says
  that nothing else can be seen unless two polls of the same slot overlap.
* The last clone being dropped is modelled in `StreamDrop.lean`.
-/

namespace Utp

/-- The stages of a future in a slot. -/
inductive Stage
  | queued
  | holding
  | finished
  deriving DecidableEq, Repr

/-- Who holds the lock of the socket: a future in a slot, or a method called on some clone (`close`,
`set_max_retransmission_retries`). -/
inductive Holder
  | read | write | flush | close | method
  deriving DecidableEq, Repr

/-- `UtpStream` with `UtpStreamFutures` (src/stream.rs:29-44).  A future of `poll_read` or `poll_write` has a copy of the caller's buffer. -/
structure Stream where
  w : World
  lock : Option Holder
  read : Option (Bytes × Stage)
  write : Option (Bytes × Stage)
  flush : Option Stage
  close : Option Stage
  deriving DecidableEq, Repr

/-- `From<UtpSocket>`, and `bind` and `connect` on success (src/stream.rs:59-81, 199-206). -/
def Stream.ofWorld (w : World) : Stream :=
  { w := w, lock := none, read := none, write := none, flush := none, close := none }

/-- The outcome of a poll. -/
inductive PollRes (α : Type)
  | pending
  | ready (r : Except IoErr α)
  | panic

/-- The future has the lock: it completes when `go` and the socket operation does. -/
def runHolding (E : Env) (fuel : Nat) (op : Op) (go : Bool) (st : Stream) : PollRes Out × Stage × Stream :=
  if go then
    match runOp E fuel op st.w with
    | (.ok out, w) => (.ready (.ok out), .finished, { st with w := w, lock := none })
    | (.err e, w) => (.ready (.error e), .finished, { st with w := w, lock := none })
    | (.panic, w) => (.panic, .finished, { st with w := w, lock := none })
    | (.pending, _) => (.pending, .holding, st)
  else (.pending, .holding, st)

/-- Poll a future `async move { socket.write().await.op().await }` (src/stream.rs:115-118, 142-145, 165, 185). -/
def pollFuture (E : Env) (fuel : Nat) (who : Holder) (op : Op) (go : Bool) (stage : Stage) (st : Stream) :
    PollRes Out × Stage × Stream :=
  match stage with
  | .finished => (.panic, .finished, st)
  | .queued => if st.lock = none then runHolding E fuel op go { st with lock := some who } else (.pending, .queued, st)
  | .holding => runHolding E fuel op go st

/-- `poll_read` (src/stream.rs:107-130): the outcome, the caller's buffer, the stream. -/
def pollRead (E : Env) (fuel : Nat) (go : Bool) (buf : Bytes) (st : Stream) : PollRes Nat × Bytes × Stream :=
  let (vec, stage) := match st.read with
    | none => (buf, Stage.queued)
    | some f => f
  match pollFuture E fuel .read (.recvFrom vec.length) go stage st with
  | (.pending, stage, st) => (.pending, buf, { st with read := some (vec, stage) })
  | (.panic, stage, st) => (.panic, buf, { st with read := some (vec, stage) })
  | (.ready (.error e), stage, st) => (.ready (.error e), buf, { st with read := some (vec, stage) })
  | (.ready (.ok (.bytes b _)), stage, st) =>
    let bytes := b ++ vec.drop b.length
    if bytes.length = buf.length then (.ready (.ok b.length), bytes, { st with read := none })
    else (.panic, buf, { st with read := some (vec, stage) })
  | (.ready (.ok _), stage, st) => (.panic, buf, { st with read := some (vec, stage) })

/-- `poll_write` (src/stream.rs:134-156). -/
def pollWrite (E : Env) (fuel : Nat) (go : Bool) (buf : Bytes) (st : Stream) : PollRes Nat × Stream :=
  let (vec, stage) := match st.write with
    | none => (buf, Stage.queued)
    | some f => f
  match pollFuture E fuel .write (.sendTo vec) go stage st with
  | (.pending, stage, st) => (.pending, { st with write := some (vec, stage) })
  | (.panic, stage, st) => (.panic, { st with write := some (vec, stage) })
  | (.ready (.error e), stage, st) => (.ready (.error e), { st with write := some (vec, stage) })
  | (.ready (.ok (.count n)), _, st) => (.ready (.ok n), { st with write := none })
  | (.ready (.ok _), stage, st) => (.panic, { st with write := some (vec, stage) })

/-- The second half of `poll_flush` and `poll_close` (src/stream.rs:170-175, 190-195): poll the slot, empty it when ready. -/
def pollUnit (E : Env) (fuel : Nat) (who : Holder) (op : Op) (go : Bool) (stage : Stage) (st : Stream) :
    PollRes Unit × Option Stage × Stream :=
  match pollFuture E fuel who op go stage st with
  | (.pending, stage, st) => (.pending, some stage, st)
  | (.panic, stage, st) => (.panic, some stage, st)
  | (.ready (.error e), _, st) => (.ready (.error e), none, st)
  | (.ready (.ok _), _, st) => (.ready (.ok ()), none, st)

/-- `poll_flush` (src/stream.rs:158-176). -/
def pollFlush (E : Env) (fuel : Nat) (go : Bool) (st : Stream) : PollRes Unit × Stream :=
  let stage := match st.flush with
    | none => Stage.queued
    | some s => s
  match pollUnit E fuel .flush .flush go stage st with
  | (r, slot, st) => (r, { st with flush := slot })

/-- `poll_close` (src/stream.rs:178-196).  `tryRead` says whether `try_read()` returned a guard: with nobody else polling this slot at this
moment it does.  A future is made only when it does not, and then `try_write()`, whose outcome is `tryWrite`, is unwrapped.  (The future flushes; it
does not close.) -/
def pollClose (E : Env) (fuel : Nat) (tryRead tryWrite go : Bool) (st : Stream) : PollRes Unit × Stream :=
  let slot := if tryRead then some st.close else if tryWrite then some (some Stage.queued) else none
  match slot with
  | none => (.panic, st)
  | some none => (.panic, st)
  | some (some stage) =>
    match pollUnit E fuel .close .flush go stage st with
    | (r, slot, st) => (r, { st with close := slot })

/-- A method that takes the lock, when it gets it (src/stream.rs:86-88, 101-103). -/
def Stream.takeLock (st : Stream) : Option Stream :=
  if st.lock = none then some { st with lock := some .method } else none

/-- The method completes. -/
def Stream.runMethod (E : Env) (fuel : Nat) (op : Op) (st : Stream) : PollRes Out × Stream :=
  let (r, _, st) := runHolding E fuel op true st
  (r, st)

/-- `local_addr` (src/stream.rs:91-93): `none` is a panic. -/
def Stream.localAddr (st : Stream) : Option Addr :=
  if st.lock = none then some st.w.s.localAddr else none

/-- `peer_addr` (src/stream.rs:96-98): `none` is a panic. -/
def Stream.peerAddr (st : Stream) : Option (Except IoErr Addr) :=
  if st.lock = none then some st.w.s.peerAddr else none

/-! ### Incoming connections -/

/-- `Incoming::poll_next` (src/socket.rs:1289-1305).  The slot holds a future of type `F` or nothing; `make` is `listener.accept().boxed()`, `poll` polls it
(`none`: not ready, with the future as it then is).  The `loop` never runs twice: either branch returns.  The result is
`none` for `Pending` and `some x` for `Ready(x)`. -/
def pollNext {F R : Type} (make : F) (poll : F → Sum F R) (slot : Option F) : Option (Option R) × Option F :=
  let f := match slot with
    | none => make
    | some f => f
  match poll f with
  | .inl f' => (none, some f')
  | .inr r => (some (some r), none)

end Utp
