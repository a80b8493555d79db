import Verif.UtpStream
import Verif.Spec.Lossless
/-!
# Specification vocabulary: programs that use streams
-/

namespace Utp

/-- A task awaits a future: it polls, however often and whenever it likes, until the poll is not pending. -/
inductive Awaits {α : Type} (poll : Nat → Bool → Stream → PollRes α × Stream) : Stream → PollRes α → Stream → Prop
  | now {fuel : Nat} {go : Bool} {st st' : Stream} {r : PollRes α} : poll fuel go st = (r, st') → r ≠ .pending → Awaits poll st r st'
  | later {fuel : Nat} {go : Bool} {st st1 st' : Stream} {r : PollRes α} : poll fuel go st = (.pending, st1) → Awaits poll st1 r st' → Awaits poll st r st'

/-- `stream.read(&mut buf)`: a poll that is ready has put bytes at the beginning of the buffer. -/
def readPoll (E : Env) (buf : Bytes) (fuel : Nat) (go : Bool) (st : Stream) : PollRes Bytes × Stream :=
  match pollRead E fuel go buf st with
  | (.ready (.ok n), buf', st') => (.ready (.ok (buf'.take n)), st')
  | (.ready (.error e), _, st') => (.ready (.error e), st')
  | (.pending, _, st') => (.pending, st')
  | (.panic, _, st') => (.panic, st')

/-- `stream.write(&buf)` -/
def writePoll (E : Env) (buf : Bytes) (fuel : Nat) (go : Bool) (st : Stream) : PollRes Nat × Stream := pollWrite E fuel go buf st

/-- The program of a writer: for each batch, `assert_eq!(stream.write(&b).await?, b.len())` for each of its buffers, then `stream.flush().await?`. -/
inductive StreamWrites (E : Env) : List (List Bytes) → Stream → PollRes Unit → Stream → Prop
  | done {st : Stream} : StreamWrites E [] st (.ready (.ok ())) st
  | flushed {rest : List (List Bytes)} {st st1 st' : Stream} {r : PollRes Unit} : Awaits (pollFlush E) st (.ready (.ok ())) st1 → StreamWrites E rest st1 r st' →
      StreamWrites E ([] :: rest) st r st'
  | flushFailed {rest : List (List Bytes)} {st st' : Stream} {e : IoErr} : Awaits (pollFlush E) st (.ready (.error e)) st' → StreamWrites E ([] :: rest) st (.ready (.error e)) st'
  | flushPanic {rest : List (List Bytes)} {st st' : Stream} : Awaits (pollFlush E) st .panic st' → StreamWrites E ([] :: rest) st .panic st'
  | written {b : Bytes} {bs : List Bytes} {rest : List (List Bytes)} {st st1 st' : Stream} {r : PollRes Unit} : Awaits (writePoll E b) st (.ready (.ok b.length)) st1 →
      StreamWrites E (bs :: rest) st1 r st' → StreamWrites E ((b :: bs) :: rest) st r st'
  | short {b : Bytes} {bs : List Bytes} {rest : List (List Bytes)} {st st' : Stream} {n : Nat} : Awaits (writePoll E b) st (.ready (.ok n)) st' → n ≠ b.length →
      StreamWrites E ((b :: bs) :: rest) st .panic st'
  | writeFailed {b : Bytes} {bs : List Bytes} {rest : List (List Bytes)} {st st' : Stream} {e : IoErr} : Awaits (writePoll E b) st (.ready (.error e)) st' →
      StreamWrites E ((b :: bs) :: rest) st (.ready (.error e)) st'
  | writePanic {b : Bytes} {bs : List Bytes} {rest : List (List Bytes)} {st st' : Stream} : Awaits (writePoll E b) st .panic st' →
      StreamWrites E ((b :: bs) :: rest) st .panic st'

/-- The program of a reader, which has got `got`: it reads into a buffer of `len` bytes, whatever is in it, until it has `total` bytes. -/
inductive StreamReads (E : Env) (len total : Nat) : Bytes → Stream → PollRes Bytes → Stream → Prop
  | done {got : Bytes} {st : Stream} : total ≤ got.length → StreamReads E len total got st (.ready (.ok got)) st
  | more {got buf b : Bytes} {st st1 st' : Stream} {r : PollRes Bytes} : got.length < total → buf.length = len → Awaits (readPoll E buf) st (.ready (.ok b)) st1 →
      StreamReads E len total (got ++ b) st1 r st' → StreamReads E len total got st r st'
  | failed {got buf : Bytes} {st st' : Stream} {e : IoErr} : got.length < total → buf.length = len → Awaits (readPoll E buf) st (.ready (.error e)) st' →
      StreamReads E len total got st (.ready (.error e)) st'
  | panicked {got buf : Bytes} {st st' : Stream} : got.length < total → buf.length = len → Awaits (readPoll E buf) st .panic st' → StreamReads E len total got st .panic st'

/-- `stream.close().await`, with no other call in progress. -/
def StreamCloses (E : Env) (st : Stream) (r : PollRes Out) (st' : Stream) : Prop :=
  ∃ fuel st1, st.takeLock = some st1 ∧ st1.runMethod E fuel .close = (r, st') ∧ r ≠ .pending

end Utp
