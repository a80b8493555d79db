import Verif.Spec.Run
/-!
# Specification vocabulary: what happens without waiting
-/

namespace Utp

/-- Between the two worlds nothing was waited for. -/
def Waitless (w v : World) : Prop := ∃ l, v.log = w.log ++ l ∧ ∀ t, Act.wait t ∉ l

/-- The result of one write for a result of its second part, if the first part has `k` bytes. -/
def joinRes (k : Nat) : Res Out → Res Out
  | .ok (.count n) => .ok (.count (k + n))
  | r => r

end Utp
