import Verif.UtpStream
/-!
# Model of several threads that poll one stream (src/stream.rs:106-197)

`Verif/UtpStream.lean` treats a poll as one atomic step.  Here a poll is cut where another thread can interfere: at every `try_read` and `try_write` on the lock
of a slot, and where the guard so obtained is dropped.

* The guard of `try_read()` in the condition of an `if` is dropped before the block; the guard of an assignment `*slot.try_write().unwrap() = x` is taken after `x` was
  evaluated and dropped after the assignment, which also drops the old content; the guard `fut` lives until the end of its block.
* `try_read()` fails exactly while somebody has the write guard, `try_write()` exactly while somebody has any guard.  Nobody waits for the lock of a slot.
* A panic drops the guards of the thread.
* A poll of the future in a slot is one step: it touches nothing but the socket, which is behind its own lock.
* The methods `close` and `set_max_retransmission_retries` touch no slot; they are two steps, as in `Verif/UtpStream.lean`: get the lock of the socket, and do it.
-/

namespace Utp

/-- The four slots (src/stream.rs:39-44). -/
inductive Slot
  | read | write | flush | close
  deriving DecidableEq, Repr

/-- A call of `poll_read`, `poll_write`, `poll_flush` or `poll_close`. -/
inductive Poll
  | read (buf : Bytes)
  | write (buf : Bytes)
  | flush
  | close
  deriving DecidableEq, Repr

/-- The slot of the call. -/
def Poll.slot : Poll → Slot
  | .read _ => .read
  | .write _ => .write
  | .flush => .flush
  | .close => .close

/-- The caller's buffer. -/
def Poll.buf : Poll → Bytes
  | .read b => b
  | .write b => b
  | .flush => []
  | .close => []

/-- The socket operation of a future in a slot; `vec` is the buffer in the future (src/stream.rs:116, 143, 165, 185). -/
def Slot.op (vec : Bytes) : Slot → Op
  | .read => .recvFrom vec.length
  | .write => .sendTo vec
  | .flush => .flush
  | .close => .flush

/-- Who has the lock of the socket when the future in this slot has it. -/
def Slot.holder : Slot → Holder
  | .read => .read
  | .write => .write
  | .flush => .flush
  | .close => .close

/-- The content of a slot; a future that flushes has no buffer. -/
def Stream.slot (st : Stream) : Slot → Option (Bytes × Stage)
  | .read => st.read
  | .write => st.write
  | .flush => st.flush.map fun x => ([], x)
  | .close => st.close.map fun x => ([], x)

/-- Assign to a slot. -/
def Stream.setSlot (st : Stream) (s : Slot) (v : Option (Bytes × Stage)) : Stream :=
  match s with
  | .read => { st with read := v }
  | .write => { st with write := v }
  | .flush => { st with flush := v.map Prod.snd }
  | .close => { st with close := v.map Prod.snd }

/-- What a poll returned, and the caller's buffer afterwards.  A successful flush counts as 0. -/
abbrev Answer := PollRes Nat × Bytes

/-- What happens after the future was ready: the poll returns at once, or it empties the slot first. -/
inductive After
  | stop (a : Answer)
  | clear (a : Answer)

/-- After `ready!(...)` (src/stream.rs:125-129, 152-155, 172-175, 192-195).  In `poll_read` and `poll_write` an error returns at once; the
length of the buffer is checked by `copy_from_slice`. -/
def Poll.after (vec : Bytes) : Poll → Except IoErr Out → After
  | .read buf, .ok (.bytes b _) =>
    if (b ++ vec.drop b.length).length = buf.length then .clear (.ready (.ok b.length), b ++ vec.drop b.length) else .stop (.panic, buf)
  | .read buf, .ok _ => .stop (.panic, buf)
  | .read buf, .error e => .stop (.ready (.error e), buf)
  | .write buf, .ok (.count n) => .clear (.ready (.ok n), buf)
  | .write buf, .ok _ => .stop (.panic, buf)
  | .write buf, .error e => .stop (.ready (.error e), buf)
  | .flush, .ok _ => .clear (.ready (.ok 0), [])
  | .flush, .error e => .clear (.ready (.error e), [])
  | .close, .ok _ => .clear (.ready (.ok 0), [])
  | .close, .error e => .clear (.ready (.error e), [])

/-- Where a thread is in a poll. -/
inductive Pc
  /-- before `try_read` (src/stream.rs:112, 139, 162, 182) -/
  | start
  /-- has the read guard -/
  | looking
  /-- has seen an empty slot, before `try_write` (src/stream.rs:115, 142, 164, 184) -/
  | create
  /-- has the write guard -/
  | filling
  /-- before `try_write` (src/stream.rs:124, 151, 171, 191) -/
  | poll
  /-- has the write guard -/
  | polling
  /-- the future was ready; before the last `try_write` (src/stream.rs:128, 154, 174, 194) -/
  | done (a : Answer)
  /-- has the write guard -/
  | clearing (a : Answer)

/-- A call in progress. -/
structure Frame where
  call : Poll
  pc : Pc

/-- The lock of a slot. -/
structure Guard where
  readers : Nat
  writer : Bool
  deriving DecidableEq, Repr

/-- Drop the content of a slot.  A future that has the lock of the socket gives it up in the middle of its operation: the operation got as far as `fuel` says. -/
def Stream.discard (E : Env) (fuel : Nat) (s : Slot) (st : Stream) : Stream :=
  match st.slot s with
  | some (vec, .holding) => { st with w := (runOp E fuel (s.op vec) st.w).2, lock := none }
  | _ => st

/-- One step of a poll: the lock of the slot, the stream, and where the thread is then, or what it returns.  `fuel` and `go` say how far the socket operation comes
when the future is polled (or dropped). -/
def advance (E : Env) (fuel : Nat) (go : Bool) (c : Poll) (pc : Pc) (g : Guard) (st : Stream) : Guard × Stream × (Pc ⊕ Answer) :=
  match pc with
  | .start =>
    if g.writer then (g, st, if c.slot = .close then .inl .create else .inr (.panic, c.buf))
    else ({ g with readers := g.readers + 1 }, st, .inl .looking)
  | .looking => ({ g with readers := g.readers - 1 }, st, .inl (if c.slot ≠ .close ∧ st.slot c.slot = none then .create else .poll))
  | .create => if g.writer ∨ g.readers ≠ 0 then (g, st, .inr (.panic, c.buf)) else ({ g with writer := true }, st, .inl .filling)
  | .filling => ({ g with writer := false }, (st.discard E fuel c.slot).setSlot c.slot (some (c.buf, .queued)), .inl .poll)
  | .poll => if g.writer ∨ g.readers ≠ 0 then (g, st, .inr (.panic, c.buf)) else ({ g with writer := true }, st, .inl .polling)
  | .polling =>
    match st.slot c.slot with
    | none => ({ g with writer := false }, st, .inr (.panic, c.buf))
    | some (vec, stage) =>
      match pollFuture E fuel c.slot.holder (c.slot.op vec) go stage st with
      | (.pending, stage, st) => ({ g with writer := false }, st.setSlot c.slot (some (vec, stage)), .inr (.pending, c.buf))
      | (.panic, stage, st) => ({ g with writer := false }, st.setSlot c.slot (some (vec, stage)), .inr (.panic, c.buf))
      | (.ready r, stage, st) =>
        ({ g with writer := false }, st.setSlot c.slot (some (vec, stage)),
          match c.after vec r with
          | .stop a => .inr a
          | .clear a => .inl (.done a))
  | .done a => if g.writer ∨ g.readers ≠ 0 then (g, st, .inr (.panic, a.2)) else ({ g with writer := true }, st, .inl (.clearing a))
  | .clearing a => ({ g with writer := false }, (st.discard E fuel c.slot).setSlot c.slot none, .inr a)

/-- A stream, the locks of its slots, and the calls in progress, by number.  `next` is the number of the next call. -/
structure Threads where
  st : Stream
  guard : Slot → Guard
  frame : Nat → Option Frame
  next : Nat

/-- Nobody has polled the stream yet. -/
def Threads.init (st : Stream) : Threads := { st := st, guard := fun _ => ⟨0, false⟩, frame := fun _ => none, next := 0 }

/-- Change one value of a function. -/
def put {α β : Type} [DecidableEq α] (f : α → β) (a : α) (b : β) : α → β := fun x => if x = a then b else f x

/-- What can be seen from outside. -/
inductive Ev
  /-- the call `i` begins -/
  | inv (i : Nat) (c : Poll)
  /-- the call `i` returns (or panics) -/
  | ret (i : Nat) (c : Poll) (a : Answer)
  /-- a method gets the lock of the socket -/
  | lock (i : Nat)
  /-- a method that has the lock of the socket does its work -/
  | method (i : Nat) (fuel : Nat) (op : Op) (r : PollRes Out)

/-- One step of one thread. -/
inductive TStep (E : Env) (T : Threads) : List Ev → Threads → Prop
  | call (c : Poll) : TStep E T [.inv T.next c] { T with frame := put T.frame T.next (some ⟨c, .start⟩), next := T.next + 1 }
  | move {i : Nat} {c : Poll} {pc pc' : Pc} {g : Guard} {st : Stream} (fuel : Nat) (go : Bool) : T.frame i = some ⟨c, pc⟩ →
      advance E fuel go c pc (T.guard c.slot) T.st = (g, st, .inl pc') →
      TStep E T [] { T with st := st, guard := put T.guard c.slot g, frame := put T.frame i (some ⟨c, pc'⟩) }
  | ret {i : Nat} {c : Poll} {pc : Pc} {g : Guard} {st : Stream} {a : Answer} (fuel : Nat) (go : Bool) : T.frame i = some ⟨c, pc⟩ →
      advance E fuel go c pc (T.guard c.slot) T.st = (g, st, .inr a) →
      TStep E T [.ret i c a] { T with st := st, guard := put T.guard c.slot g, frame := put T.frame i none }
  | lock {st : Stream} : T.st.takeLock = some st → TStep E T [.lock T.next] { T with st := st, next := T.next + 1 }
  | method {st : Stream} {r : PollRes Out} (fuel : Nat) (op : Op) : T.st.lock = some .method → (op = .close ∨ ∃ n, op = .setMaxRetries n) →
      T.st.runMethod E fuel op = (r, st) → TStep E T [.method T.next fuel op r] { T with st := st, next := T.next + 1 }

/-- Threads that start with the stream `st` and have shown `h` to the outside. -/
inductive TRun (E : Env) (st : Stream) : List Ev → Threads → Prop
  | init : TRun E st [] (.init st)
  | step {h e : List Ev} {T T' : Threads} : TRun E st h T → TStep E T e T' → TRun E st (h ++ e) T'

end Utp
