import Verif.Spec.Threads
/-!
# Model of the tasks that wait for a stream (src/stream.rs:106-197)

A poll that returns `Pending` leaves the waker of the calling task in the future it polled (in the queue of the lock, or with the network and the timer); a later poll of the same future
replaces it.  A task that got `Pending` is not run again before it is woken, unless it waits for something else as well.

* Polls are atomic here, as in `Verif/UtpStream.lean`; `Verif/Threads.lean` and C69 say what that leaves out.
* What wakes a future (a datagram, the timer, the release of the lock) is outside: a future may be woken at any time.  A woken future has given its waker away.
* A future that is done has no waker.
-/

namespace Utp

/-- A stream and the tasks that use it, by number. -/
structure Tasks where
  st : Stream
  /-- the task whose waker the future in the slot has -/
  waker : Slot → Option Nat
  /-- the slot a task waits for: its last poll returned `Pending`, and it was not woken since -/
  waits : Nat → Option Slot

/-- Nobody has polled the stream yet. -/
def Tasks.init (st : Stream) : Tasks := { st := st, waker := fun _ => none, waits := fun _ => none }

/-- What happens to a stream and its tasks. -/
inductive TaskAct
  /-- the task polls, with this result -/
  | poll (t : Nat) (c : Poll) (a : Answer)
  /-- the future in the slot wakes its task -/
  | wake (s : Slot)
  /-- a task gives up waiting (a timeout, or it waits for several things), or runs again for another reason -/
  | leave (t : Nat)
  /-- a method gets the lock of the socket, or has done its work -/
  | method

/-- The task `t` polled and the result was `a` (src/stream.rs:107-130, 134-156, 158-176, 178-196: `poll_unpin(cx)`). -/
def Tasks.polled (T : Tasks) (t : Nat) (s : Slot) (a : Answer) (st : Stream) : Tasks :=
  match a.1 with
  | .pending => { st := st, waker := put T.waker s (some t), waits := put T.waits t (some s) }
  | _ => { T with st := st, waker := put T.waker s none }

/-- One step.  Only a task that does not wait polls. -/
inductive WStep (E : Env) (T : Tasks) : TaskAct → Tasks → Prop
  | poll {t : Nat} {c : Poll} {a : Answer} {st : Stream} (fuel : Nat) (go : Bool) : T.waits t = none → c.run E fuel go T.st = (a, st) →
      WStep E T (.poll t c a) (T.polled t c.slot a st)
  | wake {s : Slot} {t : Nat} : T.waker s = some t → WStep E T (.wake s) { T with waker := put T.waker s none, waits := put T.waits t none }
  | leave {t : Nat} : WStep E T (.leave t) { T with waits := put T.waits t none }
  | lock {st : Stream} : T.st.takeLock = some st → WStep E T .method { T with st := st }
  | method {st : Stream} {r : PollRes Out} (fuel : Nat) (op : Op) : T.st.lock = some .method → (op = .close ∨ ∃ n, op = .setMaxRetries n) →
      T.st.runMethod E fuel op = (r, st) → WStep E T .method { T with st := st }

/-- Steps that lead from one state to another. -/
inductive WRun (E : Env) : Tasks → List TaskAct → Tasks → Prop
  | nil {T : Tasks} : WRun E T [] T
  | step {T T' T'' : Tasks} {l : List TaskAct} {a : TaskAct} : WRun E T l T' → WStep E T' a T'' → WRun E T (l ++ [a]) T''

end Utp
