import Verif.Spec.Order
/-!
# Specification vocabulary: what has arrived can be read
-/

namespace Utp

/-- The data packets with the `n` numbers from `b` on are among the datagrams received so far. -/
def AllArrived (E : Env) (w : World) (b n : Nat) : Prop := ∀ i, i < n → ∃ k, k < w.nNet ∧ DataAt E k (b + i)

/-- Nothing was received and nothing was sent between `w` and `w'`. -/
def Offline (w w' : World) : Prop := w'.nNet = w.nNet ∧ w'.log = w.log

end Utp
