import Verif.Props.EndToEnd
import Verif.Float
import Verif.Bits
/-!
# The tests of the crate, run on the model

These are tests of the model, not proofs of properties: the unit tests of /repo and its tests of streams are replayed on the model, and the model gives the results they expect.
Random numbers and the clock are fixed, and a test in which two sockets talk to each other is given by the datagrams that arrive at either side; each side is checked to
send the datagrams that arrive at the other.  Left out are the tests whose subject is the operating system (binding to an address, resolving a name) and the
megabyte of `test_stream_large_data`.
-/

namespace Utp.Sample
open M

/-! ### src/packet.rs -/

/-- The packet made of the bytes. -/
def decode (b : Bytes) : Option Packet :=
  match Packet.tryFrom b with
  | some (.ok p) => some p
  | _ => none

/-- `is_err()`: no panic and no packet. -/
def refused (b : Bytes) : Bool :=
  match Packet.tryFrom b with
  | some (.error _) => true
  | _ => false

def stateBuf : Bytes := [0x21, 0x00, 0x41, 0xa8, 0x99, 0x2f, 0xd0, 0x2a, 0x9f, 0x4a, 0x26, 0x21, 0x00, 0x10, 0x00, 0x00, 0x3a, 0xf2, 0x6c, 0x79]

/-- `test_packet_decode` (src/packet.rs:505-524). -/
example : ∃ p, decode stateBuf = some p ∧ p.getVersion = 1 ∧ p.getExtensionType = .none ∧ p.getType = some .state ∧ p.connectionId = 16808 ∧ p.timestamp = 2570047530 ∧
    p.timestampDifference = 2672436769 ∧ p.wndSize = 1048576 ∧ p.seqNr = 15090 ∧ p.ackNr = 27769 ∧ p.len = 20 ∧ p.payload = some [] :=
  ⟨⟨stateBuf⟩, by decide +kernel⟩

def sackBuf : Bytes :=
  [0x21, 0x01, 0x41, 0xa7, 0x00, 0x00, 0x00, 0x00, 0x00, 0x00, 0x00, 0x00, 0x00, 0x00, 0x05, 0xdc, 0xab, 0x53, 0x3a, 0xf5, 0x00, 0x04, 0x00, 0x00, 0x00, 0x00]

/-- `test_decode_packet_with_extension` (src/packet.rs:527-554). -/
example : ∃ p, decode sackBuf = some p ∧ p.getVersion = 1 ∧ p.getExtensionType = .selectiveAck ∧ p.getType = some .state ∧ p.connectionId = 16807 ∧ p.timestamp = 0 ∧
    p.timestampDifference = 0 ∧ p.wndSize = 1500 ∧ p.seqNr = 43859 ∧ p.ackNr = 15093 ∧ p.len = 26 ∧ p.payload = some [] ∧
    p.extensions = some [⟨.selectiveAck, [0, 0, 0, 0]⟩] ∧ p.bytes = sackBuf :=
  ⟨⟨sackBuf⟩, by decide +kernel⟩

/-- `test_packet_decode_with_missing_extension` and `test_packet_decode_with_malformed_extension` (src/packet.rs:557-574). -/
example : refused (stateBuf.set 1 1) ∧ refused (stateBuf.set 1 1 ++ [0, 4, 0]) := by decide +kernel

/-- `test_decode_packet_with_unknown_extensions` (src/packet.rs:577-606). -/
example : ∃ p, decode (sackBuf.take 20 ++ [0xff, 4, 0, 0, 0, 0, 0, 4, 0, 0, 0, 0]) = some p ∧ p.getVersion = 1 ∧ p.getExtensionType = .selectiveAck ∧ p.getType = some .state ∧
    p.connectionId = 16807 ∧ p.timestamp = 0 ∧ p.timestampDifference = 0 ∧ p.wndSize = 1500 ∧ p.seqNr = 43859 ∧ p.ackNr = 15093 ∧ p.payload = some [] ∧
    p.extensions.map (·.length) = some 2 ∧ p.extensions.bind (·.head?) = some ⟨.selectiveAck, [0, 0, 0, 0]⟩ :=
  ⟨⟨sackBuf.take 20 ++ [0xff, 4, 0, 0, 0, 0, 0, 4, 0, 0, 0, 0]⟩, by decide +kernel⟩

/-- `test_packet_set_type` (src/packet.rs:609-621). -/
example : let p1 := Packet.new.setType .syn; let p2 := p1.setType .state; let p3 := p2.setType .fin; let p4 := p3.setType .reset; let p5 := p4.setType .data
    [p1, p2, p3, p4, p5].map Packet.getType = [some .syn, some .state, some .fin, some .reset, some .data] := by decide +kernel

/-- `test_packet_set_selective_acknowledgment` (src/packet.rs:624-650). -/
example : ((Packet.new.setSack [1, 2, 3, 4]).bind Packet.extensions) = some [⟨.selectiveAck, [1, 2, 3, 4]⟩] ∧
    (((Packet.new.setSack [1, 2, 3, 4]).bind (·.setSack [5, 6, 7, 8, 9, 10, 11, 12])).bind Packet.extensions) =
      some [⟨.selectiveAck, [1, 2, 3, 4]⟩, ⟨.selectiveAck, [5, 6, 7, 8, 9, 10, 11, 12]⟩] := by decide +kernel

def hello : Bytes := [0x48, 0x65, 0x6c, 0x6c, 0x6f, 0x0a]
def helloBuf : Bytes := [0x01, 0x00, 0x41, 0xa8, 0x00, 0xe9, 0x03, 0x89, 0x65, 0xbf, 0x5d, 0xba, 0x00, 0x10, 0x00, 0x00, 0x3a, 0xf2, 0x42, 0xc8] ++ hello

/-- `test_packet_encode_with_payload` and `test_packet_encode`, which sets the type as well (src/packet.rs:653-719). -/
example : (((((((Packet.withPayload hello).setTimestamp 15270793).setTimestampDifference 1707040186).setConnectionId 16808).setSeqNr 15090).setAckNr 17096).setWndSize 1048576).bytes =
      helloBuf ∧
    ((((((((Packet.withPayload hello).setType .data).setTimestamp 15270793).setTimestampDifference 1707040186).setConnectionId 16808).setSeqNr 15090).setAckNr 17096).setWndSize
      1048576).bytes = helloBuf := by decide +kernel

/-- `test_reversible`, `test_decode_evil_sequence` and `test_decode_empty_packet` (src/packet.rs:722-743).  What `quicktest` tries is proved for all bytes: C01, C02. -/
example : (decode helloBuf).map Packet.bytes = some helloBuf ∧ (decode helloBuf).bind Packet.payload = some hello ∧ refused (0 :: 1 :: List.replicate 19 0) ∧ refused [] := by
  decide +kernel

/-- `extension_iterator` (src/packet.rs:768-806). -/
example : (decode stateBuf).bind Packet.extensions = some [] ∧ (decode sackBuf).bind Packet.extensions = some [⟨.selectiveAck, [0, 0, 0, 0]⟩] ∧
    (decode (sackBuf.take 20 ++ [0xff, 4, 1, 2, 3, 4, 0, 4, 5, 6, 7, 8])).bind Packet.extensions =
      some [⟨.selectiveAck, [1, 2, 3, 4]⟩, ⟨.unknown 255, [5, 6, 7, 8]⟩] := by decide +kernel

/-! ### src/bit_iterator.rs, src/util.rs -/

/-- `test_iterator` (src/bit_iterator.rs:51-59). -/
example : bitsOf [0xCA, 0xFE] = some ([0, 1, 0, 1, 0, 0, 1, 1, 0, 1, 1, 1, 1, 1, 1, 1].map (· == 1)) := by decide +kernel

/-- The tests of `ewma` (src/util.rs:47-77), in floating point. -/
example : ewmaF64 [] (rne (1 / 3)) = 0 ∧ ewmaF64 [1] (rne (1 / 3)) = 1 ∧ ewmaF64 [1, 2, 3, 4, 5, 6, 7, 8, 9, 10] (rne (1 / 3)) = rne (158488 / 19683) := by decide +kernel

/-- `test_abs_diff` (src/util.rs:80-85). -/
example : absDiff 10 5 = 5 ∧ absDiff 5 10 = 5 := by decide +kernel

/-! ### src/socket.rs, `handle_packet` -/

/-- What `handle_packet` answered. -/
def answer (x : Res (Option Packet) × World) : Option (Option Packet) :=
  match x.1 with
  | .ok r => some r
  | _ => none

/-- A packet as the tests make it. -/
def tp (t : PacketType) (cid seq ack : U16) (payload : Bytes := []) (wnd : U32 := 1500) : Packet := ⟨dg t cid seq ack payload wnd⟩
def hp (p : Packet) (w : World) : Res (Option Packet) × World := handlePacket (env []) 5 (recv (env []) 5 BUF_SIZE) p peer w

/-- The server of the tests after its SYN. -/
def greeted : Res (Option Packet) × World := hp (tp .syn 5 0 0) (bound (env []))
/-- What the test looks at in an answer: type, connection id, sequence number, acknowledgement, payload. -/
structure Look where
  ty : Option PacketType
  id : U16
  seq : U16
  ack : U16
  payload : Option Bytes
  deriving DecidableEq
def look (p : Packet) : Look := ⟨p.getType, p.connectionId, p.seqNr, p.ackNr, p.payload⟩

/-- `test_handle_packet` (src/socket.rs:1511-1609). -/
example : (answer greeted).map (·.map look) = some (some ⟨some .state, 5, 100, 0, some []⟩) ∧
    let x := hp (tp .data 6 1 100 [] 0) greeted.2
    (answer x).map (·.map look) = some (some ⟨some .state, 5, 100, 1, some []⟩) ∧
    (answer (hp (tp .fin 6 2 100 [] 0) x.2)).map (·.map look) = some (some ⟨some .state, 5, 100, 2, some []⟩) := by decide +kernel

/-- `test_response_to_keepalive_ack` (src/socket.rs:1612-1658). -/
example : let x := hp (tp .state 5 1 100) greeted.2
    answer x = some none ∧ answer (hp (tp .state 5 1 100) x.2) = some none := by decide +kernel

/-- `test_response_to_wrong_connection_id` (src/socket.rs:1661-1701). -/
example : (answer (hp (tp .state 10 0 0) greeted.2)).map (·.map (fun p => (p.getType, p.ackNr))) = some (some (some .reset, 0)) := by decide +kernel

/-- `test_unordered_packets` (src/socket.rs:1704-1761). -/
example : let x := hp (tp .data 5 2 100 [4, 5, 6]) greeted.2
    (answer x).map (·.map Packet.ackNr) = some (some 0) ∧ ((answer (hp (tp .data 5 1 100 [1, 2, 3]) x.2)).bind id).isSome := by decide +kernel

/-- `test_sorted_buffer_insertion` (src/socket.rs:1894-1930). -/
example : let p := fun (seq : U16) (t : U32) => (Packet.new.setSeqNr seq).setTimestamp t
    (((((bound (env [])).s.insertIntoBuffer (p 1 0)).insertIntoBuffer (p 2 128)).insertIntoBuffer (p 3 256)).insertIntoBuffer (p 2 456)).incoming =
      [p 1 0, p 2 128, p 3 256] := by decide +kernel

/-- `test_base_delay_calculation` (src/socket.rs:2299-2327). -/
def sampled : Option Socket :=
  ([(0, 10), (1, 8), (2, 12), (3, 7), (60000001, 11), (60000002, 19), (60000003, 9)] : List (Int × Int)).foldl
    (fun s x => s.bind fun s => s.updateBaseDelay x.2 (BitVec.ofInt 32 (x.1 + x.2))) (some (bound (env [])).s)
example : sampled.map (fun s => (s.baseDelays, s.minBaseDelay)) = some ([7, 9], 7) := by decide +kernel

/-! ### src/socket.rs, two sockets -/

/-- The socket made by `bind`, after some operations. -/
def boundDo (net : List NetEvent) (ops : List Op) : List (Res Out) × World :=
  (results (senv net []) 30 ops (bound (senv net [])), runs (senv net []) 30 ops (bound (senv net [])))
/-- The socket made by `connect`, after some operations. -/
def clientDo (net : List NetEvent) (ops : List Op) : List (Res Out) × World :=
  (results (senv net []) 30 ops (client (senv net [])), runs (senv net []) 30 ops (client (senv net [])))

/-- The answers of the server to the SYN and the next `n` packets. -/
def acks (n : Nat) : List NetEvent := (List.range (n + 1)).map fun k => arr (dg .state 7 100 (BitVec.ofNat 16 (k + 1)))
/-- What the client sends: the SYN, then data, then the FIN. -/
def story (ds : List Bytes) : List NetEvent :=
  arr theSyn :: (ds.zipIdx.map fun d => arr (dg .data 8 (BitVec.ofNat 16 (d.2 + 2)) 100 d.1 0)) ++ [arr (dg .fin 8 (BitVec.ofNat 16 (ds.length + 2)) 100 [] 0)]
/-- The two sides send what arrives at the other. -/
def agree (netA netB : List NetEvent) (a b : World) : Prop := (sent a).map arr = netB ∧ (sent b).map arr = netA
instance (netA netB : List NetEvent) (a b : World) : Decidable (agree netA netB a b) := inferInstanceAs (Decidable (_ ∧ _))

/-- The data of the tests. -/
def upTo (n : Nat) : Bytes := (List.range n).map (BitVec.ofNat 8)

/-- `test_socket_ipv4`, `test_recvfrom_on_closed_socket`, `test_sendto_on_closed_socket`, `test_acks_on_socket` (src/socket.rs:1342-1508): the client connects and closes; the
server reads 0 bytes, again and again, and cannot send. -/
example : let a := clientDo (acks 1) [.close]; let b := boundDo (story []) [.recvFrom 1500, .recvFrom 1500, .sendTo [0]]
    agree (acks 1) (story []) a.2 b.2 ∧ a.1 = [.ok .unit] ∧ b.1 = [.ok (.bytes [] peer), .ok (.bytes [] peer), .err (.sock .connectionClosed)] ∧
    SocketError.connectionClosed.kind = .notConnected ∧ b.2.s.state = .closed ∧ a.2.s.ackNr = 100 ∧ b.2.s.seqNr = 100 ∧
    (client (senv (acks 1) [])).s.state = .connected ∧ (client (senv (acks 1) [])).s.ackNr = 100 := by decide +kernel

/-- `test_tolerance_to_small_buffers` (src/socket.rs:2049-2076) and `test_stream_small_data`, `test_stream_successive_reads` (tests/stream.rs:64-137). -/
example : let a := clientDo (acks 2) [.sendTo (upTo 1024), .close]; let b := boundDo (story [upTo 1024]) [.recvFrom 512, .recvFrom 512, .recvFrom 512, .recvFrom 512]
    agree (acks 2) (story [upTo 1024]) a.2 b.2 ∧ a.1 = [.ok (.count 1024), .ok .unit] ∧ b.1.filterMap bytesOf = [(upTo 1024).take 512, (upTo 1024).drop 512, [], []] := by
  decide +kernel

/-- `test_sequence_number_rollover` and `test_premature_fin`, as they are written: the sequence number that the first sets is that of another socket, and the FIN of the second is
sent to an address nobody uses (src/socket.rs:2079-2116, 2255-2296).  With 3000 bytes instead of 6000. -/
example : let ds := (List.range 3).map fun k => ((upTo 3000).drop (1380 * k)).take 1380
    let a := clientDo (acks 4) [.sendTo (upTo 3000), .close]; let b := boundDo (story ds) (List.replicate 4 (.recvFrom 1500))
    agree (acks 4) (story ds) a.2 b.2 ∧ a.1 = [.ok (.count 3000), .ok .unit] ∧ b.1.filterMap bytesOf = ds ++ [[]] ∧ a.2.s.seqNr < 50 := by decide +kernel

/-- `test_response_to_triple_ack` (src/socket.rs:1764-1829): after three acknowledgements of the SYN the client sends the packet again. -/
example : let net := [arr (dg .state 7 100 1)] ++ List.replicate 3 (arr (dg .state 7 100 1 [] 1500)) ++ [arr (dg .state 7 100 2), arr (dg .state 7 100 3)]
    let a := clientDo net [.sendTo (upTo 1024), .close]
    a.1 = [.ok (.count 1024), .ok .unit] ∧
    sent a.2 = [theSyn, dg .data 8 2 100 (upTo 1024) 0, dg .data 8 2 100 (upTo 1024) 0, dg .fin 8 3 100 [] 0] := by decide +kernel

/-- `test_socket_timeout_request` (src/socket.rs:1832-1891): the packet is lost, the server runs into its timeout and acknowledges the SYN three more times, and the client
sends the packet again. -/
example : let a := clientDo ([arr (dg .state 7 100 1)] ++ List.replicate 3 (arr (dg .state 7 100 1 [] 0)) ++ [arr (dg .state 7 100 2)]) [.sendTo (upTo 512), .flush]
    let b := boundDo [arr theSyn, .fail .timedOut, arr (dg .data 8 2 100 (upTo 512) 0)] [.recvFrom 1500]
    a.1 = [.ok (.count 512), .ok .unit] ∧ sent a.2 = [theSyn, dg .data 8 2 100 (upTo 512) 0, dg .data 8 2 100 (upTo 512) 0] ∧
    b.1 = [.ok (.bytes (upTo 512) peer)] ∧ sent b.2 = [dg .state 7 100 1] ++ List.replicate 3 (dg .state 7 100 1 [] 0) ++ [dg .state 7 100 2] ∧
    b.2.s.receiverId = b.2.s.senderId + 1 ∧ (client (senv (acks 0) [])).s.senderId = (client (senv (acks 0) [])).s.receiverId + 1 ∧
    (client (senv (acks 0) [])).s.connectedTo = peer := by decide +kernel

/-- `test_duplicate_packet_handling` (src/socket.rs:1933-1997). -/
example : let b := boundDo [arr theSyn, arr (dg .data 8 2 100 [1, 2, 3] 1500), arr (dg .data 8 2 100 [1, 2, 3] 1500), arr (dg .fin 8 3 100 [] 0)] [.recvFrom 1500, .recvFrom 1500]
    b.1 = [.ok (.bytes [1, 2, 3] peer), .ok (.bytes [] peer)] ∧ b.2.s.receiverId = b.2.s.senderId + 1 := by decide +kernel

/-- The chunks of `test_correct_packet_loss`, with 10 bytes instead of 1500. -/
def parts : List Bytes := (List.range 7).map fun k => ((upTo 68).drop (10 * k)).take 10
/-- The packet with a chunk. -/
def part (k : Nat) : Bytes := dg .data 8 (BitVec.ofNat 16 (k + 2)) 100 (parts.getD k []) 0
/-- The client of `test_correct_packet_loss`, whose fields the test changes: every chunk is put into the send window, the even ones are sent. -/
def halfSent (net : List NetEvent) : World :=
  let w := client (senv net [])
  { (w.setS { w.s with currWindow := BitVec.ofNat 32 (7 * 20 + 68), sendWindow := (List.range 7).map fun k => ⟨part k⟩, seqNr := 9 }) with
    log := w.log ++ ([part 0, part 2, part 4, part 6].map fun d => .send w.s.connectedTo d true) }
def sacked (bits : U8) : Bytes := sackDg 7 100 2 [bits, 0, 0, 0]
/-- What the server sends. -/
def lossNet : List NetEvent :=
  ([dg .state 7 100 1, dg .state 7 100 2, dg .state 7 100 2] ++ [1, 5, 21, 23, 23, 31, 31].map sacked ++ [dg .state 7 100 3] ++ List.replicate 8 (dg .state 7 100 8) ++
    [dg .state 7 100 9]).map arr
/-- What the client sends: the SYN, the even chunks, what the selective acknowledgements ask for, and the FIN. -/
def lossSent : List Bytes := [theSyn] ++ [0, 2, 4, 6, 3, 4, 5, 3, 5, 1, 3, 5, 1, 5, 1, 5, 1, 1].map part ++ [dg .fin 8 9 100 [] 0]

/-- `test_correct_packet_loss` (src/socket.rs:2000-2046): what was lost is sent again, and everything arrives in order. -/
example : let a := halfSent lossNet; let b := boundDo (lossSent.map arr) (List.replicate 8 (.recvFrom 1500))
    results (senv lossNet []) 30 [.close] a = [.ok .unit] ∧ sent (runs (senv lossNet []) 30 [.close] a) = lossSent ∧ (sent b.2).map arr = lossNet ∧
    b.1.filterMap bytesOf = parts ++ [[]] ∧ parts.flatten = upTo 68 := by decide +kernel

/-- `test_drop_unused_socket` (src/socket.rs:2119-2125). -/
example : close (env []) 1 (bound (env [])) = (.ok (), bound (env [])) := by rfl

/-- The kind of the error of `connect`. -/
def refusal (reply : Bytes) : Option ErrorKind :=
  match (connectM (senv [arr reply] []) 5 peer (freshWorld (senv [] []) here peer)).1 with
  | .err e => some e.kind
  | _ => none

/-- `test_invalid_packet_on_connect` and `test_receive_unexpected_reply_type_on_connect` (src/socket.rs:2128-2178). -/
example : refusal [] = some .other ∧ refusal (Packet.new.setType .data).bytes = some .connectionRefused := by decide +kernel

/-- `test_receiving_syn_on_established_connection` (src/socket.rs:2181-2216). -/
example : let b := boundDo [arr theSyn, arr (dg .syn 8 2 100 [] 1500), arr (dg .fin 8 2 100 [] 0)] [.recvFrom 1500]
    b.1 = [.ok (.bytes [] peer)] ∧ (sent b.2).map (fun d => (decode d).bind Packet.getType) = [some .state, some .reset, some .state] := by decide +kernel

/-- `test_receiving_reset_on_established_connection` (src/socket.rs:2219-2252). -/
example : (boundDo [arr theSyn, arr (dg .reset 8 2 100 [] 1500)] [.recvFrom 1500]).1 = [.err (.sock .connectionReset)] ∧ SocketError.connectionReset.kind = .connectionReset := by
  decide +kernel

/-- `test_peer_addr` (src/socket.rs:2370-2405). -/
example : (bound (env [])).s.peerAddr.toOption = none ∧
    (runs (senv [arr theSyn] []) 30 [.recvFrom 1024] (bound (senv [arr theSyn] []))).s.peerAddr.toOption = some peer ∧
    let b := boundDo [arr theSyn, arr (dg .state 8 2 100)] [.recvFrom 1024]
    (close (senv [arr (dg .state 8 2 100)] []) 30 { b.2 with nNet := 0 }).1 = .ok () ∧
    (close (senv [arr (dg .state 8 2 100)] []) 30 { b.2 with nNet := 0 }).2.s.peerAddr.toOption = none := by decide +kernel

/-- A network that falls silent: every receive times out. -/
def silentEnv (net : List NetEvent) : Env := { senv net [] with net := fun k => net.getD k (.fail .timedOut) }
/-- The server of the tests of connection loss. -/
def impatientDo (ops : List Op) : List (Res Out) × World :=
  let E := silentEnv [arr theSyn, arr (dg .data 8 2 100 [0] 0)]
  let w := (bound E).setS { (bound E).s with congTimeout := 1 }
  (results E 30 ops w, runs E 30 ops w)

/-- `test_connection_loss_data` (src/socket.rs:2426-2467): after the answers to the SYN and to the data, the data, and then again per attempt. -/
example : let b := impatientDo [.recvFrom 1500, .sendTo [0], .flush]
    b.1 = [.ok (.bytes [0] peer), .ok (.count 1), .err (.sock .connectionTimedOut)] ∧ SocketError.connectionTimedOut.kind = .timedOut ∧
    sent b.2 = [dg .state 7 100 1, dg .state 7 100 2] ++ List.replicate 6 (dg .data 7 100 2 [0] 0) := by decide +kernel

/-- `test_connection_loss_fin` (src/socket.rs:2470-2507). -/
example : let b := impatientDo [.recvFrom 1500, .close]
    b.1 = [.ok (.bytes [0] peer), .err (.sock .connectionTimedOut)] ∧ sent b.2 = [dg .state 7 100 1, dg .state 7 100 2] ++ List.replicate 6 (dg .fin 7 100 2 [] 0) := by decide +kernel

/-- `test_connection_loss_waiting` (src/socket.rs:2510-2559): three acknowledgements per attempt. -/
example : let b := impatientDo [.recvFrom 1500, .recvFrom 1500]
    b.1 = [.ok (.bytes [0] peer), .err (.sock .connectionTimedOut)] ∧ sent b.2 = [dg .state 7 100 1, dg .state 7 100 2] ++ List.replicate 15 (dg .state 7 100 2 [] 0) := by
  decide +kernel

/-- `test_clone` (tests/stream.rs:152-187): the clones of a stream write one after the other. -/
example : let a := clientDo (acks 2) [.sendTo [0, 1, 2], .sendTo [3, 4, 5], .flush]; let b := boundDo (story [[0, 1, 2], [3, 4, 5]]) [.recvFrom 3, .recvFrom 3]
    a.1 = [.ok (.count 3), .ok (.count 3), .ok .unit] ∧ (sent a.2).map arr ++ [arr (dg .fin 8 4 100 [] 0)] = story [[0, 1, 2], [3, 4, 5]] ∧
    b.1 = [.ok (.bytes [0, 1, 2] peer), .ok (.bytes [3, 4, 5] peer)] := by decide +kernel

end Utp.Sample
