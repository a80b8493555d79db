import Verif.Spec.Stream
import Verif.Spec.Order
/-!
# Specification vocabulary: two sockets and the network between them
-/

namespace Utp

/-- The network of `E` does not forge: every datagram it delivers was handed to the operating system by the peer, which
is in the state `w`.  Datagrams may be lost, repeated, reordered and delayed. -/
def Delivers (E : Env) (w : World) : Prop := ∀ n d src, E.net n = .dgram d src → ∃ dst, Sent w dst d

/-- The sending side: `connect`, then `send_to` and `flush` in any order, then `close` and `flush` in any order.  The pieces `cs`
were given to `send_to`; the outcomes of the first part satisfy `P`. -/
def Sender (E : Env) (P : Op → Res Out → Prop) (cs : List Bytes) (w : World) : Prop :=
  ∃ fuel resolved wild w0 w1, connect E fuel resolved wild = .ok (.ok (), w0) ∧
    Exec E (fun op r => (op = .flush ∨ ∃ buf, op = .sendTo buf) ∧ P op r) w0 cs w1 ∧
    Exec E (fun op _ => op = .flush ∨ op = .close) w1 [] w

/-- The receiving side: `accept` of the datagram `d`, then reading; the calls returned the bytes `bs`. -/
def Receiver (E : Env) (d : Bytes) (w : World) (bs : Bytes) : Prop :=
  ∃ fuel src bound w0, accept E fuel (.dgram d src) bound = .made (.ok ()) w0 src ∧ Reads E w0 w bs

/-- The receiving side, which reads until `recv_from` returns no bytes; no call failed. -/
def ReadToEnd (E : Env) (d : Bytes) (w : World) (bs : Bytes) : Prop :=
  ∃ fuel src bound w0 w1 fuel' len src', accept E fuel (.dgram d src) bound = .made (.ok ()) w0 src ∧ ReadsOk E w0 w1 bs ∧
    0 < len ∧ runOp E fuel' (.recvFrom len) w1 = (.ok (.bytes [] src'), w)

/-- The two sides and the network between them. -/
structure Session (A B : Env) (P : Op → Res Out → Prop) (cs : List Bytes) (a b : World) (bs : Bytes) : Prop where
  sender : Sender A P cs a
  receiver : ∃ d dst, Receiver B d b bs ∧ Sent a dst d
  toSender : Delivers A b
  toReceiver : Delivers B a

end Utp
