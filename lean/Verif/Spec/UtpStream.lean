import Verif.UtpStream
import Verif.Spec.Run
/-!
# Specification vocabulary: histories of stream calls
-/

namespace Utp

/-- One call on a stream (or a clone of it), other than a poll of a write, that does not panic. -/
inductive SOther (E : Env) : Stream → Stream → Prop
  | read (fuel go buf) {st : Stream} : (pollRead E fuel go buf st).1 ≠ .panic → SOther E st (pollRead E fuel go buf st).2.2
  | flush (fuel go) {st : Stream} : (pollFlush E fuel go st).1 ≠ .panic → SOther E st (pollFlush E fuel go st).2
  | close (fuel tw go) {st : Stream} : (pollClose E fuel true tw go st).1 ≠ .panic → SOther E st (pollClose E fuel true tw go st).2
  | lock {st st' : Stream} : st.takeLock = some st' → SOther E st st'
  | method (fuel op) {st : Stream} : st.lock = some .method → (op = .close ∨ ∃ n, op = .setMaxRetries n) →
      (st.runMethod E fuel op).1 ≠ .panic → SOther E st (st.runMethod E fuel op).2

/-- One call on a stream that does not panic. -/
inductive SStep (E : Env) : Stream → Stream → Prop
  | write (fuel go buf) {st : Stream} : (pollWrite E fuel go buf st).1 ≠ .panic → SStep E st (pollWrite E fuel go buf st).2
  | other {st st' : Stream} : SOther E st st' → SStep E st st'

/-- Every history of calls on a stream made from a socket. -/
inductive SReach (E : Env) : Stream → Prop
  | made {w : World} : Reach E w → SReach E (.ofWorld w)
  | step {st st' : Stream} : SReach E st → SStep E st st' → SReach E st'

/-- Calls among which the only polls of a write pass `buf`, and none of these is ready. -/
inductive Waiting (E : Env) (buf : Bytes) : Stream → Stream → Prop
  | refl (st) : Waiting E buf st st
  | write {a b : Stream} (fuel go) : Waiting E buf a b → (pollWrite E fuel go buf b).1 = .pending → Waiting E buf a (pollWrite E fuel go buf b).2
  | other {a b c : Stream} : Waiting E buf a b → SOther E b c → Waiting E buf a c

end Utp
