import Verif.Spec.Advert
import Verif.Spec.Sending
import Verif.Props.Piggyback
import Verif.Props.Safety
/-!
# C80: which packets advertise a receive window
-/

namespace Utp
open M Packet Sample

variable {E : Env}

theorem wndSize_advertised (p : Packet) : p.wndSize.toNat = advertised p.bytes := by
  have h := fun i => (byteAt p.bytes i).isLt
  have h1 := h 12; have h2 := h 13; have h3 := h 14; have h4 := h 15
  simp only [wndSize, be32, advertised, BitVec.toNat_ofNat, Nat.reduceAdd, byteAt] at *
  omega

theorem getType_kind {p : Packet} {t : PacketType} (h : p.getType = some t) : kind p.bytes = t.toU8.toNat := by
  unfold getType at h
  unfold kind
  have e : (byteAt p.bytes 0 >>> 4).toNat = (p.bytes.getD 0 0).toNat / 16 := by
    simp [byteAt, Nat.shiftRight_eq_div_pow]
  rw [← e]
  generalize byteAt p.bytes 0 >>> 4 = n at h
  unfold PacketType.tryFrom at h
  by_cases h0 : n = 0
  · simp [h0] at h; rw [← h, h0]; rfl
  by_cases h1 : n = 1
  · simp [h1] at h; rw [← h, h1]; rfl
  by_cases h2 : n = 2
  · simp [h2] at h; rw [← h, h2]; rfl
  by_cases h3 : n = 3
  · simp [h3] at h; rw [← h, h3]; rfl
  by_cases h4 : n = 4
  · simp [h4] at h; rw [← h, h4]; rfl
  rw [if_neg h0, if_neg h1, if_neg h2, if_neg h3, if_neg h4] at h
  cases h

/-- Data packets that advertise no window. -/
def Ctx.closedWnd : Ctx := ⟨fun p => Ctx.any p ∧ p.wndSize = 0, True, True, True, True⟩

theorem VOk.closedWnd : VOk Ctx.closedWnd :=
  ⟨fun p t h => ⟨VOk.any.ts p t h.1, by simpa using h.2⟩, fun p t h => ⟨VOk.any.td p t h.1, by simpa using h.2⟩⟩

theorem dataPacket_closedWnd (s : Socket) (c : Bytes) (h1 : 0 < c.length) (h2 : c.length ≤ CHUNK) : Ctx.closedWnd (dataPacket s c) := by
  refine ⟨dataPacket_any s c h1 h2, ?_⟩
  simp only [dataPacket, setConnectionId_wndSize, setAckNr_wndSize, setSeqNr_wndSize]
  simp [withPayload_bytes, wndSize, be32, byteAt]

theorem advertises_closed {w : World} {dst : Addr} {p : Packet} (h : p.wndSize = 0) (hr : p.getType ≠ some .reset) (hty : ∃ t, p.getType = some t) : Advertises E w dst p.bytes := by
  have e : advertised p.bytes = 0 := by rw [← wndSize_advertised, h]; rfl
  obtain ⟨t, ht⟩ := hty
  refine ⟨.inl e, fun _ => e, fun hk => ?_, fun h => by omega⟩
  rw [getType_kind ht] at hk
  rw [ht] at hr
  cases t <;> first | exact absurd rfl hr | exact absurd hk (by decide)

theorem Emitted.advertises {w w' : World} {dst : Addr} {p : Packet} (h : Emitted E .closedWnd w dst p) (hn : w.nNet ≤ w'.nNet) : Advertises E w' dst p.bytes := by
  cases h with
  | data _ h => exact advertises_closed h.2 (by rw [h.1.1.ty]; simp) ⟨_, h.1.1.ty⟩
  | fin t _ _ _ _ =>
    refine advertises_closed ?_ (by rw [(finPacket_plain _ _).ty]; simp) ⟨_, (finPacket_plain _ _).ty⟩
    simp only [finPacket, setType_wndSize, setTimestamp_wndSize, setAckNr_wndSize, setSeqNr_wndSize, setConnectionId_wndSize]
    decide
  | request t _ _ _ =>
    refine advertises_closed ?_ (by rw [(resendRequest_plain _ _).ty]; simp) ⟨_, (resendRequest_plain _ _).ty⟩
    simp only [resendRequest, setType_wndSize, setTimestamp_wndSize, setTimestampDifference_wndSize, setAckNr_wndSize, setSeqNr_wndSize, setConnectionId_wndSize]
    decide
  | reply _ pkt r hrec h =>
    obtain ⟨⟨t, ht, hts⟩, _, _, _, hl, _⟩ := h.facts
    have e : advertised (r.setWndSize WINDOW_SIZE).bytes = 1048576 := by rw [← wndSize_advertised, setWndSize_wndSize hl]; rfl
    refine ⟨.inr e, fun hk => ?_, fun _ => e, fun _ => ⟨pkt, hrec.mono hn⟩⟩
    rw [getType_kind (t := t) (by simpa using ht)] at hk
    rcases hts with rfl | rfl | ⟨rfl, _⟩ <;> simp [PacketType.toU8] at hk

/-- **C80.**  Every datagram a socket ever sends advertises no window or a window of 1 MiB.  Data packets and SYN packets advertise no window; Reset packets advertise 1 MiB;
and whatever advertises 1 MiB answers a packet that came from the address it is sent to. -/
theorem C80_sent {w : World} (hw : Reach E w) {dst : Addr} {b : Bytes} (h : Sent w dst b) : Advertises E w dst b := by
  obtain ⟨w0, h0, hs⟩ := reach_steps .closedWnd ⟨trivial, trivial⟩ trivial trivial dataPacket_closedWnd hw
  obtain ⟨l, hl, hl'⟩ := hs.log
  obtain ⟨ok, hm⟩ := h
  rw [hl, List.mem_append] at hm
  rcases hm with hm | hm
  · cases h0 with
    | bound => simp [freshWorld] at hm
    | connecting la a0 a st _ _ _ _ hlog =>
      rcases hlog _ hm with ⟨t, h⟩ | ⟨dst', t, ok', h⟩
      · simp at h
      · simp only [Act.send.injEq] at h
        rw [h.2.1]
        refine advertises_closed ?_ (by rw [(synPacket_plain _ _).ty]; simp) ⟨_, (synPacket_plain _ _).ty⟩
        simp only [synPacket, setType_wndSize, setTimestamp_wndSize, setSeqNr_wndSize, setConnectionId_wndSize]
        decide
    | accepted la src pkt ok' n _ _ _ =>
      simp only [List.mem_singleton, Act.send.injEq] at hm
      rw [hm.2.1]
      unfold acceptReply
      exact advertises_closed (prepareReply_facts _ _ _ _).2.2.2.2 (by rw [(prepareReply_plain _ _ _ _).ty]; simp) ⟨_, (prepareReply_plain _ _ _ _).ty⟩
  · rcases hl' _ hm with ⟨t, h⟩ | ⟨w1, dst', p, ok', _, h1, he, h⟩
    · simp at h
    · simp only [Act.send.injEq] at h
      rw [h.2.1, h.1]
      exact he.advertises h1.nNet

/-- **C80**, the part that holds: the answer to a data packet advertises 1 MiB.

Partial: the other packets advertise no window (`C80_sent`), with the effect of `C80_limit`. -/
theorem C80_partial {w : World} (hs : w.s.state = .connected ∨ w.s.state = .finSent)
    {b : Bytes} {src : Addr} {pkt : Packet} (hn : E.net w.nNet = .dgram b src)
    (hp : Packet.tryFrom (b.take 1520) = some (.ok pkt)) (ht : pkt.getType = some .data)
    (hid : pkt.connectionId = w.s.senderId ∨ pkt.connectionId = w.s.receiverId) (hr : 0 < w.s.maxRetries.toNat)
    (hok : E.snd w.nSnd = .ok) (fuel len : Nat) (hnp : (recv E (fuel + 2) len w).1 ≠ .panic) :
    ∃ t reply, (recv E (fuel + 2) len w).2.log = w.log ++ [.wait t, .send src reply true] ∧ advertised reply = 1048576 := by
  have key : ∃ t reply, (recv E.release (fuel + 2) len w).2.log = w.log ++ [.wait t, .send src reply true] ∧ advertised reply = 1048576 := by
    obtain ⟨reply, v, sack, t, h1, _, h3, _, _, h5⟩ := recv_data (E := E.release) rfl hs hn hp ht hid hr hok
    refine ⟨w.s.patience, (reply.setWndSize WINDOW_SIZE).bytes, ?_, by rw [← wndSize_advertised, setWndSize_wndSize h3.facts.2.2.2.2.1]; rfl⟩
    rw [h5]
    have e : ∀ u : World, (M.andThen (flushIncoming E.release len) (fun out => M.ret (out, src)) u).2.log = u.log := by
      intro u
      obtain ⟨pe, inc, ack, ld, e⟩ := flushIncoming_s (E := E.release) len u
      unfold M.andThen
      rcases hf : flushIncoming E.release len u with ⟨_ | _ | _ | _, v⟩ <;> rw [hf] at e <;> cases e <;> rfl
    rw [e, h1]
    simp [World.heard, World.waited]
  rw [recv_release hnp] at key
  exact key

/-- **C80.**  What it means for a socket that sends data to a socket of this crate: when a data packet that this other socket sent arrives, at most 2800 bytes may be in flight
from now on, however large the congestion window is, and however much the other socket can hold (it advertises 1 MiB when it answers).  `w1` is any state of the other
socket, `w2` any state of this one but a fresh one. -/
theorem C80_limit {E1 E2 : Env} {w1 w2 : World} (h1 : Reach E1 w1) {dst : Addr} {b : Bytes} (hb : Sent w1 dst b) (hst : w2.s.state ≠ .new) {src : Addr}
    (hn : E2.net w2.nNet = .dgram b src) (hr : 0 < w2.s.maxRetries.toNat) {pkt : Packet} (hp : Packet.tryFrom (b.take 1520) = some (.ok pkt))
    (ht : pkt.getType = some .data) (hid : pkt.connectionId = w2.s.senderId ∨ pkt.connectionId = w2.s.receiverId) (fuel len : Nat) :
    sendLimit (recv E2 (fuel + 2) len w2).2.s = 2800 ∧ (recv E2 (fuel + 2) len w2).2.s.cwnd = w2.s.cwnd := by
  obtain ⟨hs, hw⟩ := recv_sending hst hn hr hp (by rw [ht]; simp) fuel len
  have e : pkt.bytes = b.take 1520 := C02_lossless hp
  have hk : kind b = 0 := by
    have := getType_kind ht
    rw [e] at this
    rw [← show kind (b.take 1520) = kind b by simp [kind], this]
    rfl
  have h0 : pkt.wndSize.toNat = 0 := by
    rw [wndSize_advertised, e, ← (C80_sent h1 hb).none (.inl hk)]
    simp [advertised]
  refine ⟨?_, congrArg Sending.cwnd hs⟩
  unfold sendLimit
  rw [hw hid, h0]
  simp

/-- Two packets of 1400 bytes are sent; the first is acknowledged; then a data packet of the peer arrives, which advertises no window, as the data packets of this crate do. -/
def bothSend : Env := { env [arr (dg .state 6 1 100), arr (dg .data 6 2 100 [7] 0)] with cwndStep := fun _ _ _ => 100000 }
def bothSendOps : List Op := [.sendTo (List.replicate 2760 1), .recvFrom 9]

/-- **C80 is false**: no data packet advertises a window.  The socket may have 4200 bytes in flight when its packet is acknowledged, in a State packet that advertises 1 MiB; when the peer's data packet arrives
only 2800. -/
theorem C80_counterexample :
    let w := runs bothSend 20 bothSendOps (server bothSend)
    let w1 := runs bothSend 20 (bothSendOps.take 1) (server bothSend)
    Reach bothSend w ∧ (sent w1).map (fun b => (kind b, advertised b)) = [(2, 0), (0, 0), (0, 0)] ∧
      sendLimit (recv bothSend 19 1500 w1).2.s = 4200 ∧ sendLimit w.s = 2800 ∧ w.s.cwnd = 4200 ∧
      (sent w).map (fun b => (kind b, advertised b)) = [(2, 0), (0, 0), (0, 0), (2, 1048576)] :=
  ⟨reach_server _ _ (by decide +kernel) (by decide +kernel), by decide +kernel⟩

/-- What the accepted socket sends when its user writes one byte. -/
def oneByte : Bytes := (sent (runs (env []) 20 [.sendTo [7]] (server (env [])))).getLastD []
/-- It arrives at the socket that connected. -/
def oneByteArrives : Env := env [arr (dg .state 5 99 1), arr oneByte] (rand := [5])

/-- A case of `C80_limit`: two sockets of this crate. -/
example : sendLimit (recv oneByteArrives 5 9 (client oneByteArrives)).2.s = 2800 := by
  have h1 : Reach (env []) (runs (env []) 20 [.sendTo [7]] (server (env []))) := reach_server _ _ (by decide +kernel) (by decide +kernel)
  have hb : Sent (runs (env []) 20 [.sendTo [7]] (server (env []))) peer oneByte := ⟨true, by decide +kernel⟩
  have hn : oneByteArrives.net (client oneByteArrives).nNet = .dgram oneByte peer := by decide +kernel
  exact (C80_limit h1 hb (by decide +kernel) hn (by decide +kernel) (pkt := ⟨oneByte⟩) rfl (by decide +kernel) (by decide +kernel) 3 9).1

end Utp
