import Verif.Spec.Run
import Verif.Spec.Wire
import Mathlib.Data.List.Forall2
/-!
# Specification vocabulary: executions that differ only in extensions that are not selective acknowledgements
-/

namespace Utp

/-- The selective acknowledgements (code 1) in a chain of extensions. -/
def sacksOf (l : List Spec.WireExt) : List Spec.WireExt := l.filter fun e => e.code = 1

/-- Two datagrams, short enough to be received as a whole, with the same header but for the announcement of the extensions (byte 1), the
same payload, and, if they are acknowledgements (type code 2), the same selective acknowledgements in the same order. -/
def OtherExts (b b' : Bytes) : Prop := ∃ d d' : Spec.Datagram, d.Ok ∧ d'.Ok ∧ b = d.bytes ∧ b' = d'.bytes ∧ b.length ≤ 1500 ∧ b'.length ≤ 1500 ∧
  (∀ i, i ≠ 1 → d'.header[i]? = d.header[i]?) ∧ d'.payload = d.payload ∧ ((d.header.getD 0 0).toNat / 16 = 2 → sacksOf d'.exts = sacksOf d.exts)

/-- The network delivers the same but for these extensions. -/
inductive ExtEvent : NetEvent → NetEvent → Prop
  | dgram {b b' : Bytes} (a : Addr) : OtherExts b b' → ExtEvent (.dgram b a) (.dgram b' a)
  | same (e : NetEvent) : ExtEvent e e

/-- The worlds are the same but for these extensions in packets that wait to be read. -/
inductive ExtWorld (w : World) : World → Prop
  | mk {i : List Packet} : List.Forall₂ (fun p p' => p' = p ∨ OtherExts p.bytes p'.bytes) w.s.incoming i → ExtWorld w { w with s := { w.s with incoming := i } }

end Utp
