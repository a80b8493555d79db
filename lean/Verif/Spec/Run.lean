import Verif.Socket
/-!
# Specification vocabulary: executions

The states a user of the library can bring a socket into: the three ways to make a socket, then any
operations, with any fuel, under one environment (which fixes what the network, the clock, the random
generator and the operating system do).  An operation that fails or is dropped while pending leaves a usable
socket; after a panic the socket is gone.
-/

namespace Utp

/-- `w` can be reached from `w0` by operations. -/
inductive Run (E : Env) (w0 : World) : World → Prop
  | refl : Run E w0 w0
  | op {w : World} (fuel : Nat) (op : Op) :
      Run E w0 w → (runOp E fuel op w).1 ≠ .panic → Run E w0 (runOp E fuel op w).2

/-- `w` is the world of a socket just made by `bind`, `connect` or `accept`. -/
inductive Made (E : Env) : World → Prop
  | bind (resolved bound) {w : World} : bind E resolved bound = .ok w → Made E w
  | connect (fuel resolved wild) {r : Res Unit} {w : World} :
      connect E fuel resolved wild = .ok (r, w) → r ≠ .panic → Made E w
  | accept (fuel ev bound) {r : Res Unit} {w : World} {src : Addr} :
      accept E fuel ev bound = .made r w src → r ≠ .panic → Made E w

/-- Every reachable world. -/
def Reach (E : Env) (w : World) : Prop := ∃ w0, Made E w0 ∧ Run E w0 w

/-- Run operations in a row, whatever they return. -/
def runs (E : Env) (fuel : Nat) : List Op → World → World
  | [], w => w
  | op :: ops, w => runs E fuel ops (runOp E fuel op w).2

/-- The results of operations run in a row. -/
def results (E : Env) (fuel : Nat) : List Op → World → List (Res Out)
  | [], _ => []
  | op :: ops, w => (runOp E fuel op w).1 :: results E fuel ops (runOp E fuel op w).2

/-- `R` holds between each world and the next one along some path from `a` to `b`. -/
inductive Path (R : World → World → Prop) : World → World → Prop
  | refl (a) : Path R a a
  | tail {a b c} : Path R a b → R b c → Path R a c

end Utp
