import Verif.Socket
import Verif.Spec.Strangers
/-!
# Specification vocabulary: the same datagrams from other addresses
-/

namespace Utp

/-- What the network delivers, without the source address. -/
def NetEvent.content : NetEvent → Except (Option ErrorKind) Bytes
  | .dgram b _ => .ok b
  | .fail k => .error (some k)
  | .never => .error none

/-- The same environment with the receive events `net`. -/
def Env.withNet (E : Env) (net : Nat → NetEvent) : Env := { E with net := net }

/-- `a` and `a'` are the same address, or the sources of a datagram that `E` delivers from `a` and `net` from `a'`. -/
def Renamed (E : Env) (net : Nat → NetEvent) (a a' : Addr) : Prop :=
  a = a' ∨ ∃ k b b', E.net k = .dgram b a ∧ net k = .dgram b' a'

/-- The same effect, but for a renamed destination. -/
inductive SameAct (E : Env) (net : Nat → NetEvent) : Act → Act → Prop
  | send {a a' : Addr} (b : Bytes) (ok : Bool) : Renamed E net a a' → SameAct E net (.send a b ok) (.send a' b ok)
  | wait (t : Option U64) : SameAct E net (.wait t) (.wait t)

/-- The worlds differ in nothing but the destinations of datagrams: the sockets are equal, the clock and the network were used equally often,
and the same was sent in the same order, to renamed addresses. -/
structure SameWorld (E : Env) (net : Nat → NetEvent) (w w' : World) : Prop where
  s : w'.s = w.s
  nNow : w'.nNow = w.nNow
  nRand : w'.nRand = w.nRand
  nNet : w'.nNet = w.nNet
  nSnd : w'.nSnd = w.nSnd
  log : List.Forall₂ (SameAct E net) w.log w'.log

/-- The same result, but for a renamed source address. -/
inductive SameOut (E : Env) (net : Nat → NetEvent) : Res Out → Res Out → Prop
  | bytes (b : Bytes) {a a' : Addr} : Renamed E net a a' → SameOut E net (.ok (.bytes b a)) (.ok (.bytes b a'))
  | refl (r : Res Out) : SameOut E net r r

end Utp
