import Verif.Spec.OtherExts
/-!
# Specification vocabulary: executions that differ only in what is never looked at
-/

namespace Utp

/-- The type code of a datagram. -/
def Spec.Datagram.code (d : Spec.Datagram) : Nat := (d.header.getD 0 0).toNat / 16

/-- Two datagrams, short enough to be received as a whole, that agree in the type, the connection identifier, the timestamp, the window
and the sequence number; if they are acknowledgements (code 2), in the acknowledgement number and the selective acknowledgements; if
they are data (code 0), in the payload.  They may differ in the timestamp difference (bytes 8 to 11) and in all the rest. -/
def Unread (b b' : Bytes) : Prop := ∃ d d' : Spec.Datagram, d.Ok ∧ d'.Ok ∧ b = d.bytes ∧ b' = d'.bytes ∧ b.length ≤ 1500 ∧ b'.length ≤ 1500 ∧
  (∀ i, i ≠ 1 → i < 8 ∨ 12 ≤ i ∧ i < 18 → d'.header[i]? = d.header[i]?) ∧
  (d.code = 2 → d'.header[18]? = d.header[18]? ∧ d'.header[19]? = d.header[19]? ∧ sacksOf d'.exts = sacksOf d.exts) ∧
  (d.code = 0 → d'.payload = d.payload)

/-- The network delivers the same but for what is not looked at. -/
inductive UnreadEvent : NetEvent → NetEvent → Prop
  | dgram {b b' : Bytes} (a : Addr) : Unread b b' → UnreadEvent (.dgram b a) (.dgram b' a)
  | same (e : NetEvent) : UnreadEvent e e

/-- The worlds are the same but for what is not looked at in packets that wait to be read. -/
inductive UnreadWorld (w : World) : World → Prop
  | mk {i : List Packet} : List.Forall₂ (fun p p' => (p' = p ∨ Unread p.bytes p'.bytes) ∧ p'.payload = p.payload) w.s.incoming i →
      UnreadWorld w { w with s := { w.s with incoming := i } }

end Utp
