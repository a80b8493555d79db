import Verif.World
/-!
# Specification vocabulary: what can be read
-/

namespace Utp

/-- The bytes of the packets at the front of the list that follow each other, starting with number `ack` or the one
after it. -/
def readable (ack : U16) : List Packet → Bytes
  | [] => []
  | p :: rest => if ack = p.seqNr ∨ ack + 1 = p.seqNr then p.payload.getD [] ++ readable p.seqNr rest else []

/-- The bytes the user can read without anything more from the network: the rest of the packet being read and
the packets that follow it; or, if no packet is being read, those that follow the last acknowledged one. -/
def Socket.deliverable (s : Socket) : Bytes :=
  if s.pending = [] then readable s.ackNr s.incoming
  else s.pending ++ match s.incoming with
    | [] => []
    | p :: rest => readable p.seqNr rest

/-- The rest of the packet that is read next: of the packet being read, or the packet that follows the last acknowledged
one. -/
def Socket.front (s : Socket) : Bytes :=
  if s.pending = [] then
    match s.incoming with
    | [] => []
    | p :: _ => if s.ackNr = p.seqNr ∨ s.ackNr + 1 = p.seqNr then p.payload.getD [] else []
  else s.pending

/-- Cut `b` into pieces of the given sizes. -/
def cuts : List Nat → Bytes → List Bytes
  | [], _ => []
  | n :: ns, b => b.take n :: cuts ns (b.drop n)

/-- No packet without payload waits to be read (`send_to` never makes one). -/
def Socket.NoEmpty (s : Socket) : Prop := ∀ p ∈ s.incoming, p.payload ≠ some []

end Utp
