import Verif.World
/-!
# `src/socket.rs`: `UtpSocket`, `UtpListener`, `Incoming`

The functions are in the order in which they use each other.  The recursion
`recv → handle_packet → handle_state_packet → resend_lost_packet → send_packet → recv` is cut by fuel: the
functions up to `recvBody` take the recursive `recv` (with the 1500-byte scratch buffer that
`send_packet` passes) as an argument `rec`.

Simplification: consecutive assignments to fields, with no await between them, are merged into one; when a
clock reading, random draw or overflow check stands between them in the code, it is done first here.
Only a panic (after which the socket is not used any more) could tell the difference.
-/

namespace Utp

/-- src/socket.rs:25 -/
def BUF_SIZE : Nat := 1500
/-- src/socket.rs:29 -/
def MSS : U32 := 1400
/-- `MIN_CWND * MSS` (src/socket.rs:29-30); `INIT_CWND * MSS` (src/socket.rs:31) is the same number. -/
def MIN_WND : U32 := 2800
/-- src/socket.rs:32 -/
def INITIAL_CONGESTION_TIMEOUT : U64 := 1000
/-- src/socket.rs:33 -/
def MIN_CONGESTION_TIMEOUT : U64 := 500
/-- src/socket.rs:34 -/
def MAX_CONGESTION_TIMEOUT : U64 := 60000
/-- src/socket.rs:35 -/
def BASE_HISTORY : Nat := 10
/-- src/socket.rs:36 -/
def MAX_SYN_RETRIES : Nat := 5
/-- src/socket.rs:37 -/
def MAX_RETRANSMISSION_RETRIES : U32 := 5
/-- src/socket.rs:38 -/
def WINDOW_SIZE : U32 := 1048576
/-- src/socket.rs:41 (microseconds) -/
def PRE_SEND_TIMEOUT : Int := 500000
/-- src/socket.rs:44 (microseconds) -/
def MAX_BASE_DELAY_AGE : Int := 60000000
/-- `MSS as usize - HEADER_SIZE` (src/socket.rs:608). -/
def CHUNK : Nat := 1380

namespace Socket

/-- `from_raw_parts` (src/socket.rs:185-216) as a function of the random draw. -/
def fromRawParts (localAddr src : Addr) (draw : U16) : Socket :=
  { localAddr, connectedTo := src
    receiverId := (sequentialIdentifiers draw).1
    senderId := (sequentialIdentifiers draw).2
    seqNr := 1, ackNr := 0, state := .new
    incoming := [], sendWindow := [], unsent := []
    dupAcks := 0, lastAcked := 0, lastAckedTs := 0, lastDropped := 0
    rtt := 0, rttVar := 0, pending := [], currWindow := 0, remoteWnd := 0
    currDelays := [], baseDelays := [], theirDelay := 0, lastRollover := 0
    congTimeout := INITIAL_CONGESTION_TIMEOUT, cwnd := MIN_WND
    maxRetries := MAX_RETRANSMISSION_RETRIES }

/-- `peer_addr` (src/socket.rs:236-242). -/
def peerAddr (s : Socket) : Except IoErr Addr :=
  if s.state = .connected ∨ s.state = .finSent then .ok s.connectedTo else .error (.sock .notConnected)

/-- `prepare_reply` (src/socket.rs:515-528) as a function of the clock reading. -/
def prepareReply (s : Socket) (selfT : U32) (original : Packet) (t : PacketType) : Packet :=
  (((((Packet.new.setType t).setTimestamp selfT).setTimestampDifference
    (absDiff selfT original.timestamp)).setConnectionId s.senderId).setSeqNr s.seqNr).setAckNr s.ackNr

/-- `advance_incoming_buffer` (src/socket.rs:531-541); the removed packet is not used by the callers. -/
def advanceIncoming (s : Socket) : Socket :=
  match s.incoming with
  | [] => s
  | p :: rest => { s with incoming := rest, ackNr := p.seqNr, lastDropped := p.seqNr }

/-- `last().map_or(false, |p| packet.seq_nr() > p.seq_nr())` (src/socket.rs:1141-1145). -/
def afterLast (buf : List Packet) (p : Packet) : Bool :=
  match buf.getLast? with
  | some l => decide (l.seqNr < p.seqNr)
  | none => false

/-- `insert_into_buffer` (src/socket.rs:1138-1163) on the buffer alone. -/
def insertPkt (buf : List Packet) (p : Packet) : List Packet :=
  if afterLast buf p then buf ++ [p]
  else
    let i := (buf.filter fun q => q.seqNr < p.seqNr).length
    match buf[i]? with
    | some q => if q.seqNr ≠ p.seqNr then buf.insertIdx i p else buf
    | none => buf.insertIdx i p

/-- `insert_into_buffer` (src/socket.rs:1138-1163). -/
def insertIntoBuffer (s : Socket) (p : Packet) : Socket :=
  { s with incoming := insertPkt s.incoming p }

/-- `update_base_delay` (src/socket.rs:695-714); `none` is the panic on an empty list. -/
def updateBaseDelay (s : Socket) (baseDelay : Int) (now : U32) : Option Socket :=
  if s.baseDelays.isEmpty ∨ tsSub now s.lastRollover > MAX_BASE_DELAY_AGE then
    let kept := if s.baseDelays.length = BASE_HISTORY then s.baseDelays.drop 1 else s.baseDelays
    some { s with lastRollover := now, baseDelays := kept ++ [baseDelay] }
  else
    match s.baseDelays.getLast? with
    | none => none
    | some last =>
      if baseDelay < last then some { s with baseDelays := s.baseDelays.dropLast ++ [baseDelay] } else some s

/-- `update_current_delay` (src/socket.rs:718-730). -/
def updateCurrentDelay (s : Socket) (v : Int) (now : U32) : Socket :=
  { s with currDelays := (s.currDelays.dropWhile fun d => decide (tsSub now d.1 > s.rtt * 100)) ++ [(now, v)] }

/-- `update_congestion_timeout` (src/socket.rs:732-740).  Rust's `/` on `i32` truncates towards zero:
`Int.tdiv`.  `as u64` of an `i32` sign-extends: `BitVec.ofInt`.  The `i32` operations are exact
integers here; C11 shows that no intermediate result leaves the `i32` range. -/
def updateCongestionTimeout (s : Socket) (currentDelay : Int) : Socket :=
  let delta := s.rtt - currentDelay
  let var := s.rttVar + ((delta.natAbs : Int) - s.rttVar).tdiv 4
  let rtt := s.rtt + (currentDelay - s.rtt).tdiv 8
  let t : U64 := BitVec.ofInt 64 (rtt + var * 4)
  let t := if t < MIN_CONGESTION_TIMEOUT then MIN_CONGESTION_TIMEOUT else t
  let t := if MAX_CONGESTION_TIMEOUT < t then MAX_CONGESTION_TIMEOUT else t
  { s with rttVar := var, rtt := rtt, congTimeout := t }

/-- `min_base_delay` (src/socket.rs:760-762). -/
def minBaseDelay (s : Socket) : Int :=
  match s.baseDelays with
  | [] => 0
  | d :: rest => rest.foldl (fun a b => if b < a then b else a) d

/-- `queuing_delay` (src/socket.rs:986-996) with `filtered_current_delay` (src/socket.rs:754-757).
The `i64` subtraction is exact here (the filtered value is an average of 33-bit numbers). -/
def queuingDelay (E : Env) (s : Socket) : Int := E.ewma (s.currDelays.map (·.2)) - s.minBaseDelay

/-- The inner part of the loop of `build_selective_ack` (src/socket.rs:777-781):
grow the vector until byte `i` exists and the length is a multiple of 4, then set the bit. -/
def sackGrow : Nat → Nat → Bytes → Bytes
  | 0, _, sack => sack
  | fuel + 1, i, sack =>
    if sack.length ≤ i ∨ sack.length % 4 ≠ 0 then sackGrow fuel i (sack ++ [0]) else sack

/-- The body of the `for` loop of `build_selective_ack` (src/socket.rs:774-782). -/
def sackBit (sack : Bytes) (diff : Nat) : Bytes :=
  let sack := sackGrow (diff / 8 + 5) (diff / 8) sack
  sack.set (diff / 8) (sack.getD (diff / 8) 0 ||| (1#8 <<< (diff % 8)))

/-- `build_selective_ack` (src/socket.rs:765-785).  `none`: the overflow panic of `self.ack_nr + 1`
(evaluated once per buffered packet).  The subtractions `pkt.seq_nr() - self.ack_nr - 2` cannot underflow
behind the filter unless `ack_nr + 1` overflowed. -/
def buildSack (E : Env) (s : Socket) : Option Bytes :=
  if E.checks ∧ s.incoming ≠ [] ∧ s.ackNr = 65535 then none
  else
    some ((((s.incoming.filter fun p => s.ackNr + 1 < p.seqNr).map fun p =>
      (p.seqNr - s.ackNr - 2).toNat)).foldl sackBit [])

/-- Subtract the packet lengths from `curr_window` one after the other (src/socket.rs:846-849);
`none` is the underflow panic. -/
def subLens (E : Env) : U32 → List Packet → Option U32
  | c, [] => some c
  | c, p :: rest =>
    let l : U32 := BitVec.ofNat 32 p.len
    if E.checks ∧ c < l then none else subLens E (c - l) rest

/-- `advance_send_window` (src/socket.rs:831-852). -/
def advanceSendWindow (E : Env) (s : Socket) : Option Socket :=
  match s.sendWindow.findIdx? fun p => p.seqNr == s.lastAcked with
  | none => some s
  | some pos =>
    match subLens E s.currWindow (s.sendWindow.take (pos + 1)) with
    | none => none
    | some c => some { s with sendWindow := s.sendWindow.drop (pos + 1), currWindow := c }

/-- `update_congestion_window` (src/socket.rs:1017-1031).  `cwndStep` stands for the floating point
part.  `none`: overflow of `flightsize + MSS`. -/
def updateCongestionWindow (E : Env) (s : Socket) (bytesNewlyAcked : U32) : Option Socket :=
  if E.checks ∧ s.currWindow.toNat + 1400 ≥ 2 ^ 32 then none
  else
    let c := E.cwndStep s.cwnd (delayToU32 (s.queuingDelay E)) bytesNewlyAcked
    let maxAllowed := s.currWindow + MSS
    let c := if maxAllowed < c then maxAllowed else c
    let c := if c < MIN_WND then MIN_WND else c
    some { s with cwnd := c }

/-- The branch of `handle_state_packet` taken when the acknowledged packet is in the send window
(src/socket.rs:1049-1072). `p` is `send_window[index]`. -/
def onNewAck (E : Env) (s : Socket) (index : Nat) (p : Packet) (now : U32) : Option Socket :=
  let bytes := ((s.sendWindow.take (index + 1)).map Packet.len).sum
  let ourDelay := tsSub now p.timestamp
  match s.updateBaseDelay ourDelay now with
  | none => none
  | some s =>
    let s := s.updateCurrentDelay ourDelay now
    match s.updateCongestionWindow E (BitVec.ofNat 32 bytes) with
    | none => none
    | some s =>
      let rtt := (delayToU32 (ourDelay - s.queuingDelay E)).toNat / 1000
      some (s.updateCongestionTimeout rtt)

/-- `if flushed == src.len() { advance } else { keep the rest }` for pending data (src/socket.rs:559-570). -/
def takePending (s : Socket) (len : Nat) : Bytes × Socket :=
  let out := s.pending.take len
  if out.length = s.pending.length then (out, advanceIncoming { s with pending := [] })
  else (out, { s with pending := s.pending.drop len })

/-- The same for the payload `pl` of the first buffered packet (src/socket.rs:576-584). -/
def takeHead (s : Socket) (pl : Bytes) (len : Nat) : Socket :=
  if (pl.take len).length = pl.length then s.advanceIncoming else { s with pending := pl.drop len }

end Socket

open M

/-- `flush_incoming_buffer` (src/socket.rs:548-588) into a buffer of `len` bytes; returns the bytes
written.  `self.ack_nr + 1` is evaluated only if the first comparison fails. -/
def flushIncoming (E : Env) (len : Nat) : M Bytes := do
  let s ← getS
  if s.pending ≠ [] then
    modS fun s => (s.takePending len).2
    return (s.takePending len).1
  else
    match s.incoming with
    | [] => return []
    | p :: _ =>
      overflowIf E (s.ackNr ≠ p.seqNr ∧ s.ackNr = 65535)
      if s.ackNr = p.seqNr ∨ s.ackNr + 1 = p.seqNr then
        let pl ← orPanic p.payload
        modS fun s => s.takeHead pl len
        return pl.take len
      else return []

/-- The FIN packet of `close` (src/socket.rs:324-329) and of a timeout while closing
(src/socket.rs:483-488). -/
def finPacket (s : Socket) (now : U32) : Packet :=
  ((((Packet.new.setConnectionId s.senderId).setSeqNr s.seqNr).setAckNr s.ackNr).setTimestamp now).setType .fin

/-- The State packet of a fast resend request (src/socket.rs:793-800). -/
def resendRequest (s : Socket) (now : U32) : Packet :=
  (((((Packet.new.setType .state).setTimestamp now).setTimestampDifference s.theirDelay).setConnectionId
    s.senderId).setSeqNr s.seqNr).setAckNr s.ackNr

/-- One round of `send_fast_resend_request` (src/socket.rs:793-804). -/
def fastResendOne (E : Env) : M Unit := do
  let s ← getS
  let t ← now E
  ignoreErr (udpSend E s.connectedTo (resendRequest s t).bytes)

/-- `send_fast_resend_request` (src/socket.rs:791-806). -/
def fastResendRequest (E : Env) : M Unit := do
  fastResendOne E
  fastResendOne E
  fastResendOne E

/-- `handle_receive_timeout` (src/socket.rs:458-513). -/
def handleReceiveTimeout (E : Env) : M Unit := do
  let s ← getS
  overflowIf E (2 ^ 64 ≤ s.congTimeout.toNat * 2)
  modS fun s => { s with congTimeout := s.congTimeout * 2, cwnd := MSS }
  match s.sendWindow with
  | [] =>
    if s.state = .finSent then
      let t ← now E
      udpSend E s.connectedTo (finPacket s t).bytes
    else if s.state ≠ .new then
      fastResendRequest E
    else return ()
  | p :: rest =>
    let t ← now E
    let p' := p.setTimestamp t
    modS fun s => { s with sendWindow := p' :: rest }
    udpSend E s.connectedTo p'.bytes

/-- Whether the error kind means "try again" (src/socket.rs:288, 412). -/
def isTimeout (k : ErrorKind) : Bool := k = .wouldBlock || k = .timedOut

/-- The receive loop of `recv` (src/socket.rs:386-424).  `retries` is a `u32` in the code; it never
exceeds `max_retransmission_retries`, so it is a `Nat` here. -/
def recvWait (E : Env) : Nat → Nat → M (Bytes × Addr)
  | 0, _ => never
  | fuel + 1, retries => do
    let s ← getS
    if s.maxRetries.toNat ≤ retries then
      modS fun s => { s with state := .closed }
      throw (.sock .connectionTimedOut)
    else
      let r ← udpRecv E (if s.state ≠ .new then some s.congTimeout else none) (BUF_SIZE + HEADER_SIZE)
      match r with
      | .ok x => return x
      | .error k =>
        if isTimeout k then
          handleReceiveTimeout E
          recvWait E fuel (retries + 1)
        else throw (.os k)

/-- `send_packet` (src/socket.rs:648-689); the packet is `&mut`, its final value is returned. -/
def sendPacket (E : Env) (fuel : Nat) (rec : M (Bytes × Addr)) (p : Packet) : M Packet := do
  let s ← getS
  let m := if s.remoteWnd < s.cwnd then s.remoteWnd else s.cwnd
  let maxInflight := if m < MIN_WND then MIN_WND else m
  let start ← now E
  whileM fuel
    (do
      let s ← getS
      if maxInflight ≤ s.currWindow then
        let t ← now E
        return decide (tsSub t start < PRE_SEND_TIMEOUT)
      else return false)
    (andThen rec fun _ => ret ())
  let s ← getS
  if s.lastAcked - p.seqNr < p.seqNr - s.lastAcked then return p
  else
    let t ← now E
    let p' := (p.setTimestamp t).setTimestampDifference s.theirDelay
    udpSend E s.connectedTo p'.bytes
    return p'

/-- `resend_lost_packet` (src/socket.rs:808-828). -/
def resendLost (E : Env) (fuel : Nat) (rec : M (Bytes × Addr)) (nr : U16) : M Unit := do
  let s ← getS
  match s.sendWindow.find? fun p => p.seqNr == nr with
  | none => return ()
  | some p => ignoreErr (sendPacket E fuel rec p)

/-- The loop over the packets a selective ack reports lost (src/socket.rs:1089-1100): `bits` are the
remaining (index, received) pairs; returns whether a loss was seen. -/
def resendMissing (E : Env) (fuel : Nat) (rec : M (Bytes × Addr)) (ack last : U16) :
    List (Nat × Bool) → Bool → M Bool
  | [], loss => return loss
  | (idx, received) :: rest, loss => do
    if received then resendMissing E fuel rec ack last rest loss
    else
      let i : U16 := BitVec.ofNat 16 idx
      overflowIf E (65536 ≤ ack.toNat + 2 ∨ 65536 ≤ ack.toNat + 2 + i.toNat)
      let nr := ack + 2 + i
      if nr < last then
        resendLost E fuel rec nr
        resendMissing E fuel rec ack last rest true
      else return loss

/-- Three or more received packets in a selective ack mean that the first missing one is lost
(src/socket.rs:1082-1086); returns `packet_loss_detected`. -/
def resendFirst (E : Env) (fuel : Nat) (rec : M (Bytes × Addr)) (ack : U16) (data : Bytes) (loss : Bool) : M Bool :=
  if 3 ≤ (BitIter.fromBytes data).countOnes then do
    overflowIf E (ack = 65535)
    resendLost E fuel rec (ack + 1)
    return true
  else return loss

/-- The loop over the extensions of a State packet (src/socket.rs:1079-1105); returns
`packet_loss_detected`. -/
def processExtensions (E : Env) (fuel : Nat) (rec : M (Bytes × Addr)) (ack : U16) :
    List Extension → Bool → M Bool
  | [], loss => return loss
  | e :: rest, loss => do
    if e.ty = .selectiveAck then
      let loss ← resendFirst E fuel rec ack e.data loss
      let s ← getS
      match s.sendWindow.getLast? with
      | none => processExtensions E fuel rec ack rest loss
      | some l =>
        let bits ← orPanic (bitsOf e.data)
        let loss ← resendMissing E fuel rec ack l.seqNr ((List.range bits.length).zip bits) loss
        processExtensions E fuel rec ack rest loss
    else processExtensions E fuel rec ack rest loss

/-- Counting duplicate acknowledgements (src/socket.rs:1035-1041). -/
def countAck (E : Env) (pkt : Packet) : M Unit := do
  let s ← getS
  if pkt.ackNr = s.lastAcked then
    overflowIf E (2 ^ 32 ≤ s.dupAcks.toNat + 1)
    modS fun s => { s with dupAcks := s.dupAcks + 1 }
  else
    let t ← now E
    modS fun s => { s with lastAcked := pkt.ackNr, lastAckedTs := t, dupAcks := 1 }

/-- The measurements made when the acknowledged packet is outstanding (src/socket.rs:1043-1073). -/
def measureAck (E : Env) (pkt : Packet) : M Unit := do
  let s ← getS
  match s.sendWindow.findIdx? fun p => pkt.ackNr == p.seqNr with
  | none => return ()
  | some index =>
    let t ← now E
    let p ← orPanic s.sendWindow[index]?
    let s' ← orPanic (s.onNewAck E index p t)
    modS fun _ => s'

/-- Retransmission after three duplicate acknowledgements (src/socket.rs:1107-1117). -/
def fastRetransmit (E : Env) (fuel : Nat) (rec : M (Bytes × Addr)) (pkt : Packet) (exts : List Extension) :
    M Unit := do
  let s ← getS
  if s.sendWindow ≠ [] ∧ s.dupAcks = 3 ∧ ¬ (exts.any fun e => e.ty = .selectiveAck) then
    overflowIf E (pkt.ackNr = 65535)
    resendLost E fuel rec (pkt.ackNr + 1)
  else return ()

/-- `max(self.cwnd / 2, MIN_CWND * MSS)` (src/socket.rs:1122). -/
def Socket.halveWindow (s : Socket) : Socket :=
  { s with cwnd := if s.cwnd / 2 < MIN_WND then MIN_WND else s.cwnd / 2 }

/-- `handle_state_packet` (src/socket.rs:1034-1128).  The extensions are collected once before the
loop (the code iterates lazily; on accepted packets this cannot panic, C03). -/
def handleState (E : Env) (fuel : Nat) (rec : M (Bytes × Addr)) (pkt : Packet) : M Unit := do
  countAck E pkt
  measureAck E pkt
  let s ← getS
  let exts ← orPanic pkt.extensions
  let loss ← processExtensions E fuel rec pkt.ackNr exts (decide (s.sendWindow ≠ [] ∧ s.dupAcks = 3))
  fastRetransmit E fuel rec pkt exts
  modS fun s => if loss then s.halveWindow else s
  let s ← getS
  let s' ← orPanic (s.advanceSendWindow E)
  modS fun _ => s'

/-- Add a selective ack to a reply if the packet is out of order (src/socket.rs:917-930, 968-981). -/
def withSack (E : Env) (s : Socket) (pkt reply : Packet) : M Packet :=
  if (pkt.seqNr - s.ackNr).toNat > 1 then do
    let sack ← orPanic (s.buildSack E)
    if sack ≠ [] then orPanic (reply.setSack sack) else return reply
  else return reply

/-- `handle_data_packet` (src/socket.rs:959-984). -/
def handleData (E : Env) (pkt : Packet) : M Packet := do
  let s ← getS
  let t ← now E
  withSack E s pkt (s.prepareReply t pkt (if s.state = .finSent then .fin else .state))

/-- Acknowledge a packet that strictly follows the previous one (src/socket.rs:861-863). -/
def Socket.bumpAck (s : Socket) (pkt : Packet) : Socket :=
  if pkt.seqNr - s.ackNr = 1 then { s with ackNr := pkt.seqNr } else s

/-- A SYN on a fresh socket (src/socket.rs:885-893). -/
def onSyn (E : Env) (pkt : Packet) (src : Addr) : M (Option Packet) := do
  let r ← rand E
  overflowIf E (pkt.connectionId = 65535)
  modS fun s => { s with connectedTo := src, ackNr := pkt.seqNr, seqNr := r,
                         receiverId := pkt.connectionId + 1, senderId := pkt.connectionId,
                         state := .connected, lastDropped := pkt.seqNr }
  let s ← getS
  let t ← now E
  return some (s.prepareReply t pkt .state)

/-- The reply to our SYN (src/socket.rs:897-903). -/
def onSynAck (E : Env) (pkt : Packet) (src : Addr) : M (Option Packet) := do
  let s ← getS
  overflowIf E (s.seqNr = 65535)
  let t ← now E
  modS fun s => { s with connectedTo := src, ackNr := pkt.seqNr, seqNr := s.seqNr + 1, state := .connected,
                         lastAcked := pkt.ackNr, lastAckedTs := t }
  return none

/-- A reply of the given type to `pkt` (src/socket.rs:871, 895, 937). -/
def replyWith (E : Env) (pkt : Packet) (t : PacketType) : M (Option Packet) := do
  let s ← getS
  let n ← now E
  return some (s.prepareReply n pkt t)

/-- A FIN on an open connection (src/socket.rs:913-934). -/
def onFin (E : Env) (pkt : Packet) : M (Option Packet) := do
  let s ← getS
  let t ← now E
  let reply ← withSack E s pkt (s.prepareReply t pkt .state)
  modS fun s => { s with state := .closed }
  return some reply

/-- A Reset (src/socket.rs:948-949). -/
def onReset : M (Option Packet) := do
  modS fun s => { s with state := .resetReceived }
  throw (.sock .connectionReset)

/-- A State packet while closing (src/socket.rs:940-945).  The call of `handle_state_packet` is not
awaited, so it does nothing. -/
def onFinAck (pkt : Packet) : M (Option Packet) := do
  modS fun s => if pkt.ackNr = s.seqNr then { s with state := .closed } else s
  return none

/-- The match of `handle_packet` (src/socket.rs:883-956), arms in the order of the code. -/
def dispatch (E : Env) (fuel : Nat) (rec : M (Bytes × Addr)) (pkt : Packet) (src : Addr) :
    SocketState → PacketType → M (Option Packet)
  | .new, .syn => onSyn E pkt src
  | _, .syn => replyWith E pkt .reset
  | .synSent, .state => onSynAck E pkt src
  | .synSent, _ => throw (.sock .invalidReply)
  | .connected, .data => do
    let reply ← handleData E pkt
    return some reply
  | .finSent, .data => do
    let reply ← handleData E pkt
    return some reply
  | .connected, .state => do
    handleState E fuel rec pkt
    return none
  | .connected, .fin => onFin E pkt
  | .finSent, .fin => onFin E pkt
  | .closed, .fin => replyWith E pkt .state
  | .finSent, .state => onFinAck pkt
  | _, .reset => onReset
  | _, _ => throw (.sock .other)

/-- `handle_packet` (src/socket.rs:857-957). -/
def handlePacket (E : Env) (fuel : Nat) (rec : M (Bytes × Addr)) (pkt : Packet) (src : Addr) :
    M (Option Packet) := do
  modS fun s => s.bumpAck pkt
  let s ← getS
  let ty ← orPanic pkt.getType
  if ty ≠ .syn ∧ s.state ≠ .synSent ∧ ¬ (pkt.connectionId = s.senderId ∨ pkt.connectionId = s.receiverId) then
    replyWith E pkt .reset
  else
    let t ← now E
    modS fun s => { s with remoteWnd := pkt.wndSize, theirDelay := absDiff t pkt.timestamp }
    dispatch E fuel rec pkt src s.state ty

/-- Sending the reply, if any (src/socket.rs:438-442). -/
def sendReply (E : Env) (src : Addr) : Option Packet → M Unit
  | some reply => udpSend E src (reply.setWndSize WINDOW_SIZE).bytes
  | none => return ()

/-- The part of `recv` after a valid packet was decoded (src/socket.rs:437-455). -/
def recvPacket (E : Env) (fuel : Nat) (rec : M (Bytes × Addr)) (len : Nat) (pkt : Packet) (src : Addr) :
    M (Bytes × Addr) := do
  let reply ← handlePacket E fuel rec pkt src
  sendReply E src reply
  let ty ← orPanic pkt.getType
  modS fun s => if ty = .data ∧ 0 < (pkt.seqNr - s.lastDropped).toNat then s.insertIntoBuffer pkt else s
  let out ← flushIncoming E len
  return (out, src)

/-- `recv` (src/socket.rs:379-456) with the recursive `recv` as an argument. -/
def recvBody (E : Env) (fuel : Nat) (rec : M (Bytes × Addr)) (len : Nat) : M (Bytes × Addr) := do
  let (b, src) ← recvWait E fuel 0
  match ← orPanic (Packet.tryFrom b) with
  | .error _ => do
    let s ← getS
    return ([], s.connectedTo)
  | .ok pkt => recvPacket E fuel rec len pkt src

/-- `recv` (src/socket.rs:379-456): the bytes written to a buffer of `len` bytes, and the address. -/
def recv (E : Env) : Nat → Nat → M (Bytes × Addr)
  | 0, _ => never
  | fuel + 1, len => recvBody E fuel (recv E fuel BUF_SIZE) len

/-- The loop of `recv_from` (src/socket.rs:365-376). -/
def recvFromLoop (E : Env) (fuel : Nat) (len : Nat) : Nat → M (Bytes × Addr)
  | 0 => never
  | n + 1 => do
    let s ← getS
    if s.state = .closed then return ([], s.connectedTo)
    else
      let (out, src) ← recv E fuel len
      if out = [] then recvFromLoop E fuel len n else return (out, src)

/-- `recv_from` (src/socket.rs:352-377): the bytes written to the caller's buffer of `len` bytes, and
the address. -/
def recvFrom (E : Env) (fuel : Nat) (len : Nat) : M (Bytes × Addr) := do
  let out ← flushIncoming E len
  let s ← getS
  if out ≠ [] then return (out, s.connectedTo)
  else if s.state = .resetReceived then throw (.sock .connectionReset)
  else recvFromLoop E fuel len fuel

/-- `send` (src/socket.rs:638-645). -/
def sendQueue (E : Env) (fuel : Nat) : Nat → M Unit
  | 0 => never
  | n + 1 => do
    let s ← getS
    match s.unsent with
    | [] => return ()
    | p :: rest =>
      modS fun s => { s with unsent := rest }
      let p' ← sendPacket E fuel (recv E fuel BUF_SIZE) p
      let s ← getS
      let l : U32 := BitVec.ofNat 32 p'.len
      overflowIf E (s.currWindow.toNat + l.toNat ≥ 2 ^ 32)
      modS fun s => { s with currWindow := s.currWindow + l, sendWindow := s.sendWindow ++ [p'] }
      sendQueue E fuel n

/-- `buf.chunks(MSS - HEADER_SIZE)` (src/socket.rs:608), cut by fuel (the length is enough). -/
def chunks : Nat → Bytes → List Bytes
  | 0, _ => []
  | n + 1, buf => if buf = [] then [] else buf.take CHUNK :: chunks n (buf.drop CHUNK)

/-- The body of the loop of `send_to` (src/socket.rs:609-617). -/
def enqueue (s : Socket) (chunk : Bytes) : Socket :=
  { s with
    unsent := s.unsent ++
      [(((Packet.withPayload chunk).setSeqNr s.seqNr).setAckNr s.ackNr).setConnectionId s.senderId]
    seqNr := s.seqNr + 1 }

/-- `send_to` (src/socket.rs:601-624). -/
def sendTo (E : Env) (fuel : Nat) (buf : Bytes) : M Nat := do
  let s ← getS
  if s.state = .closed then throw (.sock .connectionClosed)
  else
    modS fun s => (chunks buf.length buf).foldl enqueue s
    sendQueue E fuel fuel
    return buf.length

/-- `self.recv(&mut buf).await?` into a scratch buffer whose contents are dropped
(src/socket.rs:339-341, 628-631). -/
def scratchRecv (E : Env) (fuel : Nat) : M Unit := do
  let _ ← recv E fuel BUF_SIZE
  return ()

/-- `flush` (src/socket.rs:627-635). -/
def flush (E : Env) (fuel : Nat) : M Unit :=
  whileM fuel (do let s ← getS; return decide (s.sendWindow ≠ []))
    (scratchRecv E fuel)

/-- `close` (src/socket.rs:312-345); also what `Drop` runs (src/socket.rs:1169-1173). -/
def close (E : Env) (fuel : Nat) : M Unit := do
  let s ← getS
  if s.state = .closed ∨ s.state = .new ∨ s.state = .synSent then return ()
  else
    flush E fuel
    let s ← getS
    let t ← now E
    udpSend E s.connectedTo (finPacket s t).bytes
    modS fun s => { s with state := .finSent }
    whileM fuel (do let s ← getS; return decide (s.state ≠ .closed)) (scratchRecv E fuel)

/-! ### Creation -/

/-- The world of a fresh socket: one random number was drawn. -/
def freshWorld (E : Env) (localAddr src : Addr) : World :=
  { s := Socket.fromRawParts localAddr src (E.rand 0), nNow := 0, nRand := 1, nNet := 0, nSnd := 0, log := [] }

/-- `take_address` (src/socket.rs:63-67) on the result of the name resolution. -/
def takeAddress (resolved : Except ErrorKind (List Addr)) : Except IoErr Addr :=
  match resolved with
  | .error k => .error (.os k)
  | .ok [] => .error (.sock .invalidAddress)
  | .ok (a :: _) => .ok a

/-- `UtpSocket::bind` (src/socket.rs:224-228): `bound` is the result of the operating system's bind.
The error case has no world. -/
def bind (E : Env) (resolved : Except ErrorKind (List Addr)) (bound : Except ErrorKind Addr) : Except IoErr World :=
  match takeAddress resolved with
  | .error e => .error e
  | .ok addr =>
    match bound with
    | .error k => .error (.os k)
    | .ok localAddr => .ok (freshWorld E localAddr addr)

/-- The SYN packet of `connect` (src/socket.rs:259-262, 269). -/
def synPacket (s : Socket) (now : U32) : Packet :=
  (((Packet.new.setType .syn).setConnectionId s.receiverId).setSeqNr s.seqNr).setTimestamp now

/-- The SYN loop of `connect` (src/socket.rs:268-296): `n` attempts left, `timeout` in ms.  Returns
the bytes received; none if every attempt timed out (`len = 0`). `syn_timeout` is a `Duration` of at most
32 s, a `U64` of milliseconds here. -/
def synLoop (E : Env) : Nat → U64 → M Bytes
  | 0, _ => return []
  | n + 1, timeout => do
    let s ← getS
    let t ← now E
    udpSend E s.connectedTo (synPacket s t).bytes
    modS fun s => { s with state := .synSent }
    match ← udpRecv E (some timeout) BUF_SIZE with
    | .ok (b, src) =>
      modS fun s => { s with connectedTo := src }
      return b
    | .error k => if isTimeout k then synLoop E n (timeout * 2) else throw (.os k)

/-- `connect` (src/socket.rs:257-305) after the local socket was bound. -/
def connectM (E : Env) (fuel : Nat) (addr : Addr) : M Unit := do
  modS fun s => { s with connectedTo := addr }
  let s ← getS
  let b ← synLoop E MAX_SYN_RETRIES s.congTimeout
  let s ← getS
  match ← orPanic (Packet.tryFrom b) with
  | .error e => throw (.parse e)
  | .ok pkt =>
    let _ ← handlePacket E fuel (recv E fuel BUF_SIZE) pkt s.connectedTo

/-- `connect` (src/socket.rs:250-306).  `wild` is the local address the wildcard bind returned. -/
def connect (E : Env) (fuel : Nat) (resolved : Except ErrorKind (List Addr)) (wild : Except ErrorKind Addr) :
    Except IoErr (Res Unit × World) :=
  match takeAddress resolved with
  | .error e => .error e
  | .ok addr =>
    match wild with
    | .error k => .error (.os k)
    | .ok localAddr => .ok (connectM E fuel addr (freshWorld E localAddr { v6 := addr.v6, id := 0 }))

/-! ### The listener -/

/-- `accept` (src/socket.rs:1251-1260) after the new socket was made. -/
def acceptM (E : Env) (fuel : Nat) (pkt : Packet) (src : Addr) : M Unit := fun w =>
  match handlePacket E fuel (recv E fuel BUF_SIZE) pkt src w with
  | (.ok (some reply), w') => udpSend E src reply.bytes w'
  | (.ok none, w') => (.err (.sock .other), w')
  | (.err _, w') => (.err (.sock .other), w')
  | (.panic, w') => (.panic, w')
  | (.pending, w') => (.pending, w')

/-- Result of `accept`: an error before a socket was made, a panic, still waiting, or the outcome of
the handshake with the world of the new socket. -/
inductive AcceptRes
  | failed (e : IoErr)
  | panic
  | waiting
  | made (r : Res Unit) (w : World) (src : Addr)
  deriving DecidableEq, Repr

/-- `accept` (src/socket.rs:1229-1261): `ev` is what arrived at the listening UDP socket, `bound` the
result of binding the new socket. -/
def accept (E : Env) (fuel : Nat) (ev : NetEvent) (bound : Except ErrorKind Addr) : AcceptRes :=
  match ev with
  | .never => .waiting
  | .fail k => .failed (.os k)
  | .dgram b src =>
    match Packet.tryFrom (b.take BUF_SIZE) with
    | none => .panic
    | some (.error e) => .failed (.parse e)
    | some (.ok pkt) =>
      match pkt.getType with
      | none => .panic
      | some ty =>
        if ty ≠ .syn then .failed (.sock .other)
        else
          match bound with
          | .error k => .failed (.os k)
          | .ok localAddr =>
            let r := acceptM E fuel pkt src (freshWorld E localAddr src)
            .made r.1 r.2 src

/-! ### User operations -/

/-- The operations of a socket that take `&mut self`, and setting the public field
`max_retransmission_retries` (src/socket.rs:178). -/
inductive Op
  | recvFrom (len : Nat)
  | sendTo (buf : Bytes)
  | flush
  | close
  | setMaxRetries (n : U32)
  deriving DecidableEq, Repr

/-- What an operation returned on success. -/
inductive Out
  | bytes (b : Bytes) (src : Addr)
  | count (n : Nat)
  | unit
  deriving DecidableEq, Repr

/-- Run one operation. -/
def runOp (E : Env) (fuel : Nat) : Op → M Out
  | .recvFrom len => do let (b, a) ← recvFrom E fuel len; return .bytes b a
  | .sendTo buf => do let n ← sendTo E fuel buf; return .count n
  | .flush => do let _ ← flush E fuel; return .unit
  | .close => do let _ ← close E fuel; return .unit
  | .setMaxRetries n => do modS fun s => { s with maxRetries := n }; return .unit

end Utp
