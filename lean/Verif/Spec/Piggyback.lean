import Verif.World
/-!
# Specification vocabulary: what a socket knows about the data it sends
-/

namespace Utp

/-- Everything a socket keeps about the data it sends: what waits, what is outstanding, what was acknowledged, the estimates and windows made from acknowledgements. -/
structure Sending where
  seqNr : U16
  unsent : List Packet
  sendWindow : List Packet
  currWindow : U32
  lastAcked : U16
  lastAckedTs : U32
  dupAcks : U32
  rtt : Int
  rttVar : Int
  baseDelays : List Int
  currDelays : List (U32 × Int)
  lastRollover : U32
  congTimeout : U64
  cwnd : U32
  maxRetries : U32

/-- What the socket keeps about the data it sends. -/
def Socket.sending (s : Socket) : Sending :=
  ⟨s.seqNr, s.unsent, s.sendWindow, s.currWindow, s.lastAcked, s.lastAckedTs, s.dupAcks, s.rtt, s.rttVar, s.baseDelays, s.currDelays, s.lastRollover, s.congTimeout,
    s.cwnd, s.maxRetries⟩

end Utp
