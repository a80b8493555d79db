import Verif.Spec.Lossless
/-!
# Specification vocabulary: two programs and a network that loses datagrams
-/

namespace Utp
open M

/-- The number of waits among some effects. -/
def waitsOf : List Act → Nat
  | [] => 0
  | .send _ _ _ :: l => waitsOf l
  | .wait _ :: l => waitsOf l + 1

/-- The datagram number `i` among the effects `l` is `d`; it is sent after `s` waits. -/
def DatagramAt (l : List Act) (i s : Nat) (d : Bytes) : Prop :=
  ∃ pre dst ok post, l = pre ++ .send dst d ok :: post ∧ (datagramsOf pre).length = i ∧ waitsOf pre = s

/-- What the program `m`, started in the world `x`, has done. -/
def effectsOf {α : Type} (m : Nat → M α) (x : World) (fuel : Nat) : List Act := (m fuel x).2.log.drop x.log.length

/-- The datagram number `i` that the program `m`, started in the world `x`, sends is `d`; it sends it after at most `n` waits. -/
def SentBy {α : Type} (m : Nat → M α) (x : World) (n i : Nat) (d : Bytes) : Prop :=
  ∃ s, s ≤ n ∧ ∃ fuel, DatagramAt (effectsOf m x fuel) i s d

/-- A datagram arrives. -/
def Comes (ev : NetEvent) : Prop := ∃ d src, ev = .dgram d src

/-- The wait times out. -/
def Expires (ev : NetEvent) : Prop := ev = .fail .timedOut ∨ ev = .fail .wouldBlock

/-- One direction of a network: what arrives in the environment `E` at the socket in the world `x` was sent by the program `m` started in the world `y`.  In the wait
number `p` arrives the datagram number `which p` of that program, after at most `since p` waits of that program.  Datagrams may be lost, and be
repeated finitely often, but do not overtake each other. -/
structure Channel {α : Type} (m : Nat → M α) (y : World) (E : Env) (x : World) (since which : Nat → Nat) : Prop where
  sent : ∀ p d src, E.net (x.nNet + p) = .dgram d src → SentBy m y (since p) (which p) d
  order : ∀ p p', p ≤ p' → Comes (E.net (x.nNet + p)) → Comes (E.net (x.nNet + p')) → which p ≤ which p'
  finite : ∀ i, ∃ P, ∀ p, P ≤ p → Comes (E.net (x.nNet + p)) → i < which p

/-- The programs `f`, started in `a`, and `g`, started in `b`, run at the same time, connected by a network that may lose datagrams.  `since p` waits of the second program
have ended before the wait `p` of the first ends, and `since' q` waits of the first before the wait `q` of the second; all these waits end one after the other. -/
def Lossy {α β : Type} (A B : Env) (a b : World) (f : Nat → M α) (g : Nat → M β) : Prop :=
  ∃ since since' which which' : Nat → Nat, (∀ p q, p < since' q ↔ since p ≤ q) ∧ Channel g b A a since which ∧ Channel f a B b since' which'

/-- The socket in the world `x`, used by the program `m`, never gives up waiting: each wait ends with a datagram or a timeout, and of as many waits in a row as it
tolerates timeouts, one ends with a datagram. -/
structure Patient {α : Type} (E : Env) (x : World) (m : Nat → M α) : Prop where
  ends : ∀ n, Comes (E.net (x.nNet + n)) ∨ Expires (E.net (x.nNet + n))
  often : ∀ n fuel, n + x.s.maxRetries.toNat ≤ waitsOf (effectsOf m x fuel) →
    ∃ j, j < x.s.maxRetries.toNat ∧ Comes (E.net (x.nNet + n + j))

/-- Everything that the socket `s` sent to the socket `r` so far was acknowledged, `r` has taken all of it and nothing beyond. -/
structure CaughtUp (s r : Socket) : Prop where
  sent : s.sendWindow = [] ∧ s.unsent = [] ∧ s.currWindow = 0
  acked : s.lastAcked + 1 = s.seqNr
  next : r.ackNr + 1 = s.seqNr ∧ r.lastDropped + 1 = s.seqNr

end Utp
