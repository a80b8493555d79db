import Verif.Spec.Run
import Mathlib.Data.List.Forall2
/-!
# Specification vocabulary: executions that differ only in the times in the datagrams of the peer
-/

namespace Utp

/-- Two datagrams that agree but for the bytes `i` to `j - 1`. -/
def AgreeBut (i j : Nat) (b b' : Bytes) : Prop := b'.length = b.length ∧ ∀ k, k < i ∨ j ≤ k → b'[k]? = b[k]?

/-- A packet of the peer with another timestamp (bytes 4 to 7) and another timestamp difference (bytes 8 to 11). -/
abbrev InPkt (p p' : Packet) : Prop := AgreeBut 4 12 p.bytes p'.bytes

/-- A packet of ours with another timestamp difference (bytes 8 to 11). -/
abbrev EchoPkt (p p' : Packet) : Prop := AgreeBut 8 12 p.bytes p'.bytes

/-- The network delivers the same but for the times of the peer. -/
inductive LagEvent : NetEvent → NetEvent → Prop
  | dgram {b b' : Bytes} (a : Addr) : AgreeBut 4 12 b b' → LagEvent (.dgram b a) (.dgram b' a)
  | fail (k : ErrorKind) : LagEvent (.fail k) (.fail k)
  | never : LagEvent .never .never

/-- The same effect but for the timestamp difference. -/
inductive LagAct : Act → Act → Prop
  | send {b b' : Bytes} (a : Addr) (ok : Bool) : AgreeBut 8 12 b b' → LagAct (.send a b ok) (.send a b' ok)
  | wait (t : Option U64) : LagAct (.wait t) (.wait t)

/-- The socket `s'` is `s` but for the delay of the peer, which is to be reported, and these fields of the packets it keeps. -/
inductive LagSocket (s : Socket) : Socket → Prop
  | mk {i o u : List Packet} {d : Int} : List.Forall₂ InPkt s.incoming i → List.Forall₂ EchoPkt s.sendWindow o → List.Forall₂ EchoPkt s.unsent u →
      LagSocket s { s with incoming := i, sendWindow := o, unsent := u, theirDelay := d }

/-- The worlds differ in nothing but these: in particular the clock was read equally often and the same was sent at the same moments. -/
structure LagWorld (w w' : World) : Prop where
  s : LagSocket w.s w'.s
  nNow : w'.nNow = w.nNow
  nRand : w'.nRand = w.nRand
  nNet : w'.nNet = w.nNet
  nSnd : w'.nSnd = w.nSnd
  log : List.Forall₂ LagAct w.log w'.log

end Utp
