import Verif.Spec.Run
/-!
# Specification vocabulary: the byte stream given to `send_to`
-/

namespace Utp

/-- `cs` is the way to cut `buf` into pieces of 1380 bytes, the last one possibly shorter. -/
structure Framing (buf : Bytes) (cs : List Bytes) : Prop where
  whole : cs.flatten = buf
  nonempty : ∀ c ∈ cs, c ≠ []
  bound : ∀ c ∈ cs, c.length ≤ 1380
  full : ∀ c ∈ cs.dropLast, c.length = 1380

/-- `new` are the pieces that the operation `op`, called in the state `w`, adds to the stream: those of the buffer
given to `send_to`, unless the socket is closed. -/
def Adds (w : World) (op : Op) (new : List Bytes) : Prop :=
  match op with
  | .sendTo buf => if w.s.state = .closed then new = [] else Framing buf new
  | _ => new = []

/-- An execution from `w0` to `w` by operations whose outcomes satisfy `P`, in which the pieces `cs` were
given to `send_to`. -/
inductive Exec (E : Env) (P : Op → Res Out → Prop) (w0 : World) : List Bytes → World → Prop
  | refl : Exec E P w0 [] w0
  | op {cs : List Bytes} {w : World} (fuel : Nat) (op : Op) (new : List Bytes) : Exec E P w0 cs w →
      (runOp E fuel op w).1 ≠ .panic → P op (runOp E fuel op w).1 → Adds w op new →
      Exec E P w0 (cs ++ new) (runOp E fuel op w).2

/-- Any outcome. -/
def AnyOutcome : Op → Res Out → Prop := fun _ _ => True

/-- Every `send_to` succeeded. -/
def SendsOk : Op → Res Out → Prop := fun op r => (∃ buf, op = .sendTo buf) → ∃ o, r = .ok o

end Utp
