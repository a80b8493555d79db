import Verif.Spec.Run
/-!
# Specification vocabulary: executions that differ only in the clock
-/

namespace Utp

/-- The same surroundings with another clock, and with other results of the floating point computations on measured times. -/
def Env.withClock (E : Env) (now : Nat → U32) (ewma : List Int → Int) (cwndStep : U32 → U32 → U32 → U32) : Env :=
  { E with now := now, ewma := ewma, cwndStep := cwndStep }

/-- Two datagrams that agree but for the bytes 4 to 11: the timestamp and the timestamp difference. -/
def SameButTimes (b b' : Bytes) : Prop := b'.length = b.length ∧ ∀ i, i < 4 ∨ 12 ≤ i → b'[i]? = b[i]?

/-- The same effect but for the timestamps. -/
inductive TimedAct : Act → Act → Prop
  | send {b b' : Bytes} (a : Addr) (ok : Bool) : SameButTimes b b' → TimedAct (.send a b ok) (.send a b' ok)
  | wait (t : Option U64) : TimedAct (.wait t) (.wait t)

/-- An operation that sends no data. -/
def Op.Silent (op : Op) : Prop := ∀ b, op ≠ .sendTo b

end Utp
