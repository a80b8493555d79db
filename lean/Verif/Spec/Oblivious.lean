import Verif.Spec.Run
import Verif.Spec.Source
import Verif.Spec.Wire
import Verif.Spec.Advert
import Mathlib.Data.List.Forall2
/-!
# Specification vocabulary: executions that differ only in the data carried
-/

namespace Utp
open Spec

variable (ρ : U8 → U8 → Prop)

/-- Two datagrams with the same header and the same extensions, whose payloads are equally long and related byte by byte. -/
def Alike (b b' : Bytes) : Prop :=
  ∃ d d' : Datagram, d.Ok ∧ d'.header = d.header ∧ d'.exts = d.exts ∧ List.Forall₂ ρ d.payload d'.payload ∧ b = d.bytes ∧ b' = d'.bytes

/-- The network delivers the same, but for the payloads. -/
inductive AlikeEvent : NetEvent → NetEvent → Prop
  | dgram {b b' : Bytes} (a : Addr) : Alike ρ b b' → AlikeEvent (.dgram b a) (.dgram b' a)
  | junk {b : Bytes} (a : Addr) : ¬ IsDatagram b → AlikeEvent (.dgram b a) (.dgram b a)
  | fail (k : ErrorKind) : AlikeEvent (.fail k) (.fail k)
  | never : AlikeEvent .never .never

/-- The same effect, but for the payload of a Data packet. -/
inductive AlikeAct : Act → Act → Prop
  | data {b b' : Bytes} (a : Addr) (ok : Bool) : Alike ρ b b' → AlikeAct (.send a b ok) (.send a b' ok)
  | control {b : Bytes} (a : Addr) (ok : Bool) : kind b ≠ 0 → AlikeAct (.send a b ok) (.send a b ok)
  | wait (t : Option U64) : AlikeAct (.wait t) (.wait t)

/-- The socket `s'` is `s` with other payloads in the buffered packets and other pending bytes: those received related by `ρ`, those to send
related by `σ`. -/
inductive AlikeSocket (ρ σ : U8 → U8 → Prop) (s : Socket) : Socket → Prop
  | mk {i o u : List Packet} {p : Bytes} : List.Forall₂ (fun x x' => Alike ρ x.bytes x'.bytes) s.incoming i →
      List.Forall₂ (fun x x' => Alike σ x.bytes x'.bytes) s.sendWindow o →
      List.Forall₂ (fun x x' => Alike σ x.bytes x'.bytes) s.unsent u → List.Forall₂ ρ s.pending p →
      AlikeSocket ρ σ s { s with incoming := i, sendWindow := o, unsent := u, pending := p }

/-- The worlds differ in nothing but payloads (`ρ` relates what was received, `σ` what was or will be sent): the clock, the random generator and the network were used equally often, and the same was sent
at the same moments, but for the payloads. -/
structure AlikeWorld (ρ σ : U8 → U8 → Prop) (w w' : World) : Prop where
  s : AlikeSocket ρ σ w.s w'.s
  nNow : w'.nNow = w.nNow
  nRand : w'.nRand = w.nRand
  nNet : w'.nNet = w.nNet
  nSnd : w'.nSnd = w.nSnd
  log : List.Forall₂ (AlikeAct σ) w.log w'.log

/-- The same operation, but for the bytes to send. -/
inductive AlikeOp : Op → Op → Prop
  | sendTo {b b' : Bytes} : List.Forall₂ ρ b b' → AlikeOp (.sendTo b) (.sendTo b')
  | recvFrom (len : Nat) : AlikeOp (.recvFrom len) (.recvFrom len)
  | flush : AlikeOp .flush .flush
  | close : AlikeOp .close .close
  | setMaxRetries (n : U32) : AlikeOp (.setMaxRetries n) (.setMaxRetries n)

/-- The same result, but for the bytes read. -/
inductive AlikeOut : Res Out → Res Out → Prop
  | bytes {b b' : Bytes} (a : Addr) : List.Forall₂ ρ b b' → AlikeOut (.ok (.bytes b a)) (.ok (.bytes b' a))
  | count (n : Nat) : AlikeOut (.ok (.count n)) (.ok (.count n))
  | unit : AlikeOut (.ok .unit) (.ok .unit)
  | err (e : IoErr) : AlikeOut (.err e) (.err e)
  | panic : AlikeOut .panic .panic
  | pending : AlikeOut .pending .pending

end Utp
