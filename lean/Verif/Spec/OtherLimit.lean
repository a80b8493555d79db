import Verif.Spec.Run
/-!
# Specification vocabulary: executions that differ only in the limit of retries
-/

namespace Utp

/-- Nothing arrives in the time waited. -/
def NetEvent.silent : NetEvent → Prop
  | .fail k => k = .wouldBlock ∨ k = .timedOut
  | _ => False

/-- Never more than `g` waits in a row are in vain. -/
def HeardWithin (g : Nat) (net : Nat → NetEvent) : Prop := ∀ k, ∃ j ≤ g, ¬ (net (k + j)).silent

/-- The same socket with another limit of retries. -/
def Socket.withLimit (s : Socket) (n : U32) : Socket := { s with maxRetries := n }

/-- The same world with another limit of retries. -/
def World.withLimit (w : World) (n : U32) : World := { w with s := w.s.withLimit n }

/-- The same operation, or the limit is set to something above `g` in both cases. -/
inductive SameButLimit (g : Nat) : Op → Op → Prop
  | same {op : Op} : (∀ n, op ≠ .setMaxRetries n) → SameButLimit g op op
  | set (n n' : U32) : g < n.toNat → g < n'.toNat → SameButLimit g (.setMaxRetries n) (.setMaxRetries n')

end Utp
