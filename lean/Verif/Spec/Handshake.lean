import Verif.Spec.Trace
/-!
# Specification vocabulary: the handshake
-/

namespace Utp

/-- A datagram was passed to the UDP socket. -/
def Act.isSend : Act → Bool
  | .send _ _ _ => true
  | _ => false

/-- A SYN datagram with the given number and connection identifier. -/
structure IsSyn (seq cid : U16) (b : Bytes) : Prop where
  valid : ∃ q, Packet.tryFrom b = some (.ok q) ∧ q.getType = some .syn ∧ q.seqNr = seq ∧ q.connectionId = cid
  short : b.length = 20

/-- What is logged for a SYN that is not answered in time: it is sent to `addr`, then the reply is awaited. -/
def SynAttempt (addr : Addr) (seq cid : U16) (timeout : U64) (acts : List Act) : Prop :=
  ∃ b, IsSyn seq cid b ∧ acts = [.send addr b true, .wait (some timeout)]

/-- How the handshake of `connect` ends, after `n` SYN packets were sent and not answered in time.  `cid` is the identifier in the
SYN packets; the result and the state are those of the socket `connect` makes; `tail` is what the last attempt leaves in
the log. -/
inductive ConnectEnd (E : Env) (addr : Addr) (cid : U16) (n : Nat) : Res Unit → Socket → List Act → Prop
  /-- No reply to any SYN. -/
  | noReply {e : IoErr} {s : Socket} : n = 5 → e.kind = .other → ConnectEnd E addr cid n (.err e) s []
  /-- A SYN could not be sent. -/
  | sendFailed {k : ErrorKind} {b : Bytes} {s : Socket} : n < 5 → E.snd n = .fail k → IsSyn 1 cid b →
      ConnectEnd E addr cid n (.err (.os k)) s [.send addr b false]
  | sending {b : Bytes} {s : Socket} : n < 5 → E.snd n = .never → IsSyn 1 cid b →
      ConnectEnd E addr cid n .pending s [.send addr b false]
  /-- Receiving failed. -/
  | recvFailed {k : ErrorKind} {acts : List Act} {s : Socket} : n < 5 → E.net n = .fail k → ¬ (NetEvent.fail k).isTimeout →
      SynAttempt addr 1 cid (1000 * 2 ^ n) acts → ConnectEnd E addr cid n (.err (.os k)) s acts
  | waiting {acts : List Act} {s : Socket} : n < 5 → E.net n = .never → SynAttempt addr 1 cid (1000 * 2 ^ n) acts →
      ConnectEnd E addr cid n .pending s acts
  /-- The reply is not a uTP packet. -/
  | badReply {b : Bytes} {src : Addr} {e : ParseError} {acts : List Act} {s : Socket} : n < 5 → E.net n = .dgram b src →
      Packet.tryFrom (b.take 1500) = some (.error e) → SynAttempt addr 1 cid (1000 * 2 ^ n) acts →
      ConnectEnd E addr cid n (.err (.parse e)) s acts
  /-- The reply is a uTP packet of another type than State and SYN: refused. -/
  | refused {b : Bytes} {src : Addr} {pkt : Packet} {e : IoErr} {acts : List Act} {s : Socket} : n < 5 → E.net n = .dgram b src →
      Packet.tryFrom (b.take 1500) = some (.ok pkt) → pkt.getType ≠ some .state → pkt.getType ≠ some .syn → e.kind = .connectionRefused →
      SynAttempt addr 1 cid (1000 * 2 ^ n) acts → ConnectEnd E addr cid n (.err e) s acts
  /-- The reply is a State packet: connected. -/
  | connected {b : Bytes} {src : Addr} {pkt : Packet} {acts : List Act} {s : Socket} : n < 5 → E.net n = .dgram b src →
      Packet.tryFrom (b.take 1500) = some (.ok pkt) → pkt.getType = some .state → s.state = .connected → s.connectedTo = src →
      s.ackNr = pkt.seqNr → s.seqNr = 2 → s.lastAcked = pkt.ackNr → s.remoteWnd = pkt.wndSize →
      SynAttempt addr 1 cid (1000 * 2 ^ n) acts → ConnectEnd E addr cid n (.ok ()) s acts
  /-- The reply is a SYN: `connect` succeeds though the socket is not connected. -/
  | synForSyn {b : Bytes} {src : Addr} {pkt : Packet} {acts : List Act} {s : Socket} : n < 5 → E.net n = .dgram b src →
      Packet.tryFrom (b.take 1500) = some (.ok pkt) → pkt.getType = some .syn → s.state = .synSent →
      SynAttempt addr 1 cid (1000 * 2 ^ n) acts → ConnectEnd E addr cid n (.ok ()) s acts

end Utp
