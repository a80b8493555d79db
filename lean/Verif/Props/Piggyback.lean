import Verif.Spec.Piggyback
import Verif.Props.Ack
/-!
# C81: the acknowledgement number of a packet that is not a State packet is ignored
-/

namespace Utp
open M Packet Sample

variable {E : Env}

/-- `m` does not change what is kept about the data sent, nor the window the peer advertised. -/
def Unsending {α : Type} (m : M α) : Prop := ∀ w, (m w).2.s.sending = w.s.sending ∧ (m w).2.s.remoteWnd = w.s.remoteWnd

theorem Unsending.seq {α β : Type} {m : M α} {f : α → M β} (h : Unsending m) (hf : ∀ a, Unsending (f a)) : Unsending (M.andThen m f) := by
  intro w
  have h1 := h w
  unfold M.andThen
  rcases hm : m w with ⟨_ | _ | _ | _, v⟩ <;> rw [hm] at h1
  · exact ⟨(hf _ v).1.trans h1.1, (hf _ v).2.trans h1.2⟩
  · exact h1
  · exact h1
  · exact h1

theorem unsending_ret {α : Type} (a : α) : Unsending (M.ret a) := fun _ => ⟨rfl, rfl⟩
theorem unsending_throw {α : Type} (e : IoErr) : Unsending (M.throw e : M α) := fun _ => ⟨rfl, rfl⟩
theorem unsending_getS : Unsending getS := fun _ => ⟨rfl, rfl⟩
theorem unsending_now : Unsending (now E) := fun _ => ⟨rfl, rfl⟩
theorem unsending_modS {f : Socket → Socket} (h : ∀ s, (f s).sending = s.sending ∧ (f s).remoteWnd = s.remoteWnd) : Unsending (modS f) := fun w => h w.s
theorem unsending_orPanic {α : Type} (o : Option α) : Unsending (orPanic o) := by cases o <;> exact fun _ => ⟨rfl, rfl⟩
theorem unsending_udpSend (dst : Addr) (b : Bytes) : Unsending (udpSend E dst b) := by
  intro w; unfold udpSend; split <;> exact ⟨rfl, rfl⟩
theorem unsending_withSack (s : Socket) (pkt reply : Packet) : Unsending (withSack E s pkt reply) := by
  intro w; rw [withSack_world]; exact ⟨rfl, rfl⟩
theorem unsending_replyWith (pkt : Packet) (t : PacketType) : Unsending (replyWith E pkt t) :=
  unsending_getS.seq fun _ => unsending_now.seq fun _ => unsending_ret _
theorem unsending_handleData (pkt : Packet) : Unsending (handleData E pkt) :=
  unsending_getS.seq fun _ => unsending_now.seq fun _ => unsending_withSack _ _ _
theorem unsending_onFin (pkt : Packet) : Unsending (onFin E pkt) :=
  unsending_getS.seq fun _ => unsending_now.seq fun _ => (unsending_withSack _ _ _).seq fun _ =>
    Unsending.seq (unsending_modS (f := fun s => { s with state := .closed }) fun _ => ⟨rfl, rfl⟩) fun _ => unsending_ret _
theorem unsending_onReset : Unsending onReset := (unsending_modS (f := fun s => { s with state := .resetReceived }) fun _ => ⟨rfl, rfl⟩).seq fun _ => unsending_throw _

theorem unsending_dispatch (fuel : Nat) (rec : M (Bytes × Addr)) (pkt : Packet) (src : Addr) {st : SocketState} {ty : PacketType} (hst : st ≠ .new) (hty : ty ≠ .state) :
    Unsending (dispatch E fuel rec pkt src st ty) := by
  unfold dispatch
  split
  · exact absurd rfl hst
  · exact unsending_replyWith _ _
  · exact absurd rfl hty
  · exact unsending_throw _
  · exact (unsending_handleData _).seq fun _ => unsending_ret _
  · exact (unsending_handleData _).seq fun _ => unsending_ret _
  · exact absurd rfl hty
  · exact unsending_onFin _
  · exact unsending_onFin _
  · exact unsending_replyWith _ _
  · exact absurd rfl hty
  · exact unsending_onReset
  · exact unsending_throw _

theorem handlePacket_sending (fuel : Nat) (rec : M (Bytes × Addr)) {pkt : Packet} (src : Addr) {w : World} (hst : w.s.state ≠ .new) (ht : pkt.getType ≠ some .state) :
    (handlePacket E fuel rec pkt src w).2.s.sending = w.s.sending ∧
      (pkt.connectionId = w.s.senderId ∨ pkt.connectionId = w.s.receiverId → ∀ ty, pkt.getType = some ty → (handlePacket E fuel rec pkt src w).2.s.remoteWnd = pkt.wndSize) := by
  have hb : (w.s.bumpAck pkt).sending = w.s.sending := by unfold Socket.bumpAck; split <;> rfl
  rcases hty : pkt.getType with _ | ty
  · unfold handlePacket
    rw [hty]
    exact ⟨hb, by simp⟩
  · by_cases hid : w.s.takes pkt ty
    · rw [handlePacket_takes hty hid]
      obtain ⟨h1, h2⟩ := unsending_dispatch (E := E) fuel rec pkt src hst (ty := ty) (by rintro rfl; exact ht hty) (w.heard E pkt)
      exact ⟨h1.trans hb, fun _ _ _ => h2⟩
    · rw [handlePacket_foreign hty hid]
      exact ⟨hb, fun h => absurd (.inr (.inr h)) hid⟩

theorem recv_sending {w : World} (hst : w.s.state ≠ .new) {b : Bytes} {src : Addr} (hn : E.net w.nNet = .dgram b src) (hr : 0 < w.s.maxRetries.toNat)
    {pkt : Packet} (hp : Packet.tryFrom (b.take 1520) = some (.ok pkt)) (ht : pkt.getType ≠ some .state) (fuel len : Nat) :
    (recv E (fuel + 2) len w).2.s.sending = w.s.sending ∧
      (pkt.connectionId = w.s.senderId ∨ pkt.connectionId = w.s.receiverId → (recv E (fuel + 2) len w).2.s.remoteWnd = pkt.wndSize) := by
  rw [recv_dgram hn hr hp]
  obtain ⟨ty, hty, _⟩ := (C02_first_bytes hp).1
  have h := handlePacket_sending (E := E) (fuel + 1) (recv E (fuel + 1) BUF_SIZE) src (w := w.waited w.s.patience) hst ht
  have key : ∀ reply : Option Packet, Unsending (M.andThen (sendReply E src reply) fun _ => M.andThen (orPanic pkt.getType) fun ty =>
      M.andThen (modS fun s => if ty = .data ∧ 0 < (pkt.seqNr - s.lastDropped).toNat then s.insertIntoBuffer pkt else s) fun _ =>
      M.andThen (flushIncoming E len) fun out => M.ret (out, src)) := by
    intro reply
    refine Unsending.seq ?_ fun _ => (unsending_orPanic _).seq fun ty => Unsending.seq (unsending_modS fun s => ?_) fun _ => Unsending.seq (fun v => ?_) fun _ => unsending_ret _
    · cases reply
      · exact unsending_ret _
      · exact unsending_udpSend _ _
    · split <;> exact ⟨rfl, rfl⟩
    · obtain ⟨pe, inc, ack, ld, e⟩ := flushIncoming_s (E := E) len v
      rw [e]; exact ⟨rfl, rfl⟩
  have e : recvPacket E (fuel + 1) (recv E (fuel + 1) BUF_SIZE) len pkt src (w.waited w.s.patience) =
    M.andThen (handlePacket E (fuel + 1) (recv E (fuel + 1) BUF_SIZE) pkt src) (fun reply => M.andThen (sendReply E src reply) fun _ => M.andThen (orPanic pkt.getType) fun ty =>
      M.andThen (modS fun s => if ty = .data ∧ 0 < (pkt.seqNr - s.lastDropped).toNat then s.insertIntoBuffer pkt else s) fun _ =>
      M.andThen (flushIncoming E len) fun out => M.ret (out, src)) (w.waited w.s.patience) := rfl
  rw [e]
  unfold M.andThen
  rcases hh : handlePacket E (fuel + 1) (recv E (fuel + 1) BUF_SIZE) pkt src (w.waited w.s.patience) with ⟨r | _ | _ | _, v⟩ <;> rw [hh] at h
  · exact ⟨(key r v).1.trans h.1, fun hid => (key r v).2.trans (h.2 hid ty hty)⟩
  · exact ⟨h.1, fun hid => h.2 hid ty hty⟩
  · exact ⟨h.1, fun hid => h.2 hid ty hty⟩
  · exact ⟨h.1, fun hid => h.2 hid ty hty⟩

/-- **C81.**  A packet that is not a State packet, whatever acknowledgement number it carries, changes nothing about the data the socket sends: not what is outstanding,
not what counts as acknowledged, no estimate, no congestion window.  In every build, in every state of a socket but a fresh one. -/
theorem C81_ignored {w : World} (hst : w.s.state ≠ .new) {b : Bytes} {src : Addr} (hn : E.net w.nNet = .dgram b src) (hr : 0 < w.s.maxRetries.toNat)
    {pkt : Packet} (hp : Packet.tryFrom (b.take 1520) = some (.ok pkt)) (ht : pkt.getType ≠ some .state) (fuel len : Nat) :
    (recv E (fuel + 2) len w).2.s.sending = w.s.sending :=
  (recv_sending hst hn hr hp ht fuel len).1

/-- **C81**, the part that holds: the first State packet of an open connection that acknowledges the outstanding packet `p` (and carries no selective ack) removes `p` and
the packets before it from what is outstanding (`C63_ack`).

Partial: packets of the other types carry an acknowledgement number too, and it is ignored (`C81_ignored`). -/
theorem C81_partial {w : World} (hw : Reach E w) {b : Bytes} {src : Addr} {pkt p : Packet} {acked rest : List Packet}
    {exts : List Extension} {fuel len : Nat}
    (hn : E.net w.nNet = .dgram b src) (hr : 0 < w.s.maxRetries.toNat) (hp : Packet.tryFrom (b.take 1520) = some (.ok pkt))
    (ht : pkt.getType = some .state) (hst : w.s.state = .connected)
    (hid : pkt.connectionId = w.s.senderId ∨ pkt.connectionId = w.s.receiverId)
    (hwin : w.s.sendWindow = acked ++ p :: rest) (hseq : p.seqNr = pkt.ackNr) (hfirst : ∀ q ∈ acked, q.seqNr ≠ pkt.ackNr)
    (hnew : w.s.lastAcked ≠ pkt.ackNr) (hext : pkt.extensions = some exts) (hnos : ∀ e ∈ exts, e.ty ≠ .selectiveAck)
    (hnp : (recv E (fuel + 2) len w).1 ≠ .panic) :
    (recv E (fuel + 2) len w).2.s.sendWindow = rest ∧ (recv E (fuel + 2) len w).2.s.lastAcked = pkt.ackNr := by
  obtain ⟨w', e, _, _, _, _, _, ha⟩ := C63_ack hw hn hr hp ht hst hid hwin hseq hfirst hnew hext hnos hnp
  rw [e]
  exact ⟨ha.outstanding, ha.last.1.trans hseq⟩

/-- The socket sends one packet, with number 100.  The peer sends five data packets, each of which acknowledges it, and then nothing more. -/
def repliesWithData : Env := env ((List.range 5).map (fun i => arr (dg .data 6 (BitVec.ofNat 16 (2 + i)) 100 [7])) ++ List.replicate 5 (.fail .timedOut))

/-- A case of `C81_ignored`: the packet that arrives first acknowledges everything outstanding, and nothing outstanding changes. -/
example : ∃ (w : World) (p pkt : Packet), Reach repliesWithData w ∧ w.s.state = .connected ∧ w.s.sendWindow = [p] ∧ pkt.ackNr = p.seqNr ∧ pkt.getType = some .data ∧
    repliesWithData.net w.nNet = .dgram pkt.bytes peer ∧ (recv repliesWithData 5 9 w).2.s.sending = w.s.sending := by
  generalize hw : runs repliesWithData 20 [.sendTo [1]] (server repliesWithData) = w
  have hn : repliesWithData.net w.nNet = .dgram (dg .data 6 2 100 [7]) peer := by rw [← hw]; decide +kernel
  have hp : Packet.tryFrom ((dg .data 6 2 100 [7]).take 1520) = some (.ok ⟨dg .data 6 2 100 [7]⟩) := rfl
  refine ⟨w, w.s.sendWindow.headD ⟨[]⟩, ⟨dg .data 6 2 100 [7]⟩, hw ▸ reach_server _ _ (by decide +kernel) (by decide +kernel), by rw [← hw]; decide +kernel,
    by rw [← hw]; decide +kernel, by rw [← hw]; decide +kernel, by decide +kernel, hn,
    C81_ignored (by rw [← hw]; decide +kernel) hn (by rw [← hw]; decide +kernel) hp (by decide +kernel) 3 9⟩

/-- **C81 is false.**  The user reads five packets, each of which acknowledges the only packet sent; `flush` then resends that packet until it gives up, and reports that the
connection timed out. -/
theorem C81_counterexample :
    results repliesWithData 20 [.sendTo [1], .recvFrom 9, .recvFrom 9, .recvFrom 9, .recvFrom 9, .recvFrom 9, .flush] (server repliesWithData) =
      [.ok (.count 1), .ok (.bytes [7] peer), .ok (.bytes [7] peer), .ok (.bytes [7] peer), .ok (.bytes [7] peer), .ok (.bytes [7] peer),
        .err (.sock .connectionTimedOut)] := by decide +kernel

end Utp
