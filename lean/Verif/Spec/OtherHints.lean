import Verif.Spec.OtherClock
/-!
# Specification vocabulary: executions that differ only in the times and the window the peer reports
-/

namespace Utp

/-- Two datagrams that agree but for the bytes 4 to 15: the timestamp, the timestamp difference and the window. -/
def SameButHints (b b' : Bytes) : Prop := b'.length = b.length ∧ ∀ i, i < 4 ∨ 16 ≤ i → b'[i]? = b[i]?

/-- The same outcome of a receive but for the times and the window of the peer. -/
inductive HintEvent : NetEvent → NetEvent → Prop
  | dgram {b b' : Bytes} (a : Addr) : SameButHints b b' → HintEvent (.dgram b a) (.dgram b' a)
  | fail (k : ErrorKind) : HintEvent (.fail k) (.fail k)
  | never : HintEvent .never .never

/-- The same surroundings but for the times and the windows the peer reports, our clock, and the floating point computations on measured times. -/
structure OtherHints (E E' : Env) : Prop where
  checks : E'.checks = E.checks
  rand : E'.rand = E.rand
  snd : E'.snd = E.snd
  net : ∀ k, HintEvent (E.net k) (E'.net k)

end Utp
