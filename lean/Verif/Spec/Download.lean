import Verif.Spec.EndToEnd
/-!
# Specification vocabulary: the accepting side sends, the connecting side reads
-/

namespace Utp

/-- A client that connects and reads, a server that is accepted, sends and closes, and the network between them.  `b0` and `a0` are the
states after `connect` and `accept`, `b` and `a` are the later states; the pieces `cs` were given to `send_to`, the outcomes of that part
satisfy `P`, and the client's calls returned the bytes `bs`. -/
structure Download (A B : Env) (P : Op → Res Out → Prop) (cs : List Bytes) (a0 a b0 b : World) (bs : Bytes) : Prop where
  /-- the server accepts a datagram that the client sent -/
  server : ∃ fuel d src bound dst, accept A fuel (.dgram d src) bound = .made (.ok ()) a0 src ∧ Sent b dst d
  /-- it sends and flushes, and then flushes and closes -/
  sends : ∃ a1, Exec A (fun op r => (op = .flush ∨ ∃ buf, op = .sendTo buf) ∧ P op r) a0 cs a1 ∧ Exec A (fun op _ => op = .flush ∨ op = .close) a1 [] a
  client : ∃ fuel resolved wild, connect B fuel resolved wild = .ok (.ok (), b0)
  reads : Reads B b0 b bs
  toServer : Delivers A b
  /-- SYN packets go to the listener, whose socket is another one -/
  noSyn : ∀ n d src p, A.net n = .dgram d src → Packet.tryFrom (d.take 1520) = some (.ok p) → p.getType ≠ some .syn
  toClient : Delivers B a

end Utp
