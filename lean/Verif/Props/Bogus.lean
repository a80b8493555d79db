import Verif.Spec.Bogus
import Verif.Props.Ack
import Verif.Lemmas.Exact
import Verif.Spec.Advert
/-!
# C101: acknowledgements of packets that are not outstanding
-/

namespace Utp
open M Packet Sample Spec

variable {E : Env}

/-- **C101**, the part that holds: an acknowledgement of a number that is not outstanding (and is not the one acknowledged last) forgets no packet, measures
nothing, leaves the congestion window and the timeout alone and makes the socket send nothing; of what the socket keeps about the data it sends only
the number acknowledged last and the count of acknowledgements change, beside the window of the peer and the delay, which every packet brings.

Partial: the number acknowledged last matters, see `C101_mute` and the counterexample. -/
theorem C101_partial {w : World} {pkt : Packet} (h : BogusAck E w.s w.nNet pkt) (hr : 0 < w.s.maxRetries.toNat)
    (hst : w.s.state = .connected) (hnew : w.s.lastAcked ≠ pkt.ackNr) (fuel len : Nat) :
    ∃ w', (recv E (fuel + 2) len w).2 = w' ∧ w'.log = w.log ++ [.wait (some w.s.congTimeout)] ∧
      ∃ t td pe inc ack ld, w'.s = { w.s with
        lastAcked := pkt.ackNr, lastAckedTs := t, dupAcks := 1, remoteWnd := pkt.wndSize, theirDelay := td
        pending := pe, incoming := inc, ackNr := ack, lastDropped := ld } := by
  obtain ⟨⟨b, src, hn, hp⟩, ht, hid, ⟨exts, hext, hnos⟩, hne⟩ := h
  obtain ⟨ack, hs1⟩ := heard_s (E := E) w pkt
  generalize hw1 : (w.waited w.s.patience).heard E pkt = w1 at hs1
  have hlog1 : w1.log = w.log ++ [.wait (some w.s.congTimeout)] := by
    rw [← hw1]; simp [World.heard, World.waited, World.setS, Socket.patience, hst]
  obtain ⟨t, htt⟩ : ∃ t, t = E.now w1.nNow := ⟨_, rfl⟩
  obtain ⟨s2, hs2⟩ : ∃ s2, ({ w1.s with lastAcked := pkt.ackNr, lastAckedTs := t, dupAcks := 1 } : Socket) = s2 := ⟨_, rfl⟩
  obtain ⟨w2, hw2⟩ : ∃ w2 : World, w2 = { w1 with nNow := w1.nNow + 1, s := s2 } := ⟨_, rfl⟩
  have hw2s : w2.s = s2 := by rw [hw2]
  have hcnt : countAck E pkt w1 = (.ok (), w2) := by
    unfold countAck
    msimp
    rw [if_neg (by rw [hs1]; exact fun h => hnew h.symm), hw2, ← hs2, htt]
    rfl
  have hmeas : measureAck E pkt w2 = (.ok (), w2) := by
    have : (w2.s.sendWindow.findIdx? fun q => pkt.ackNr == q.seqNr) = none := by
      rw [List.findIdx?_eq_none_iff, hw2s, ← hs2, hs1]
      intro q hq
      simpa using (hne q hq).symm
    simp [measureAck, bind_def, pure_def, M.andThen, getS, M.ret, this]
  have hd : ¬ (w2.s.sendWindow ≠ [] ∧ w2.s.dupAcks = 3) := by
    rw [hw2s, ← hs2]
    rintro ⟨-, h2⟩
    exact absurd (show (1 : U32) = 3 from h2) (by decide)
  have hadv : w2.s.advanceSendWindow E = some w2.s := by
    unfold Socket.advanceSendWindow
    have : (w2.s.sendWindow.findIdx? fun q => q.seqNr == w2.s.lastAcked) = none := by
      rw [List.findIdx?_eq_none_iff, hw2s, ← hs2, hs1]
      intro q hq
      simpa using hne q hq
    rw [this]
  have hhs : handleState E (fuel + 1) (recv E (fuel + 1) BUF_SIZE) pkt w1 = (.ok (), w2) := by
    unfold handleState
    rw [bind_def, andThen_eq hcnt, bind_def, andThen_eq hmeas, bind_def, andThen_getS, bind_def, hext, andThen_some, bind_def,
      andThen_eq (processExtensions_other _ _ _ hnos), bind_def]
    have hfr : fastRetransmit E (fuel + 1) (recv E (fuel + 1) BUF_SIZE) pkt exts w2 = (.ok (), w2) := by
      unfold fastRetransmit
      msimp
      rw [if_neg]
      rintro ⟨h1, h2, -⟩
      exact hd ⟨h1, h2⟩
    rw [andThen_eq hfr]
    msimp
    generalize hl : decide (w2.s.sendWindow ≠ [] ∧ w2.s.dupAcks = 3) = l
    have : l = false := by rw [← hl]; exact decide_eq_false hd
    subst this
    simp [hadv, M.andThen, orPanic, modS, M.ret, World.setS]
  rw [← hw1] at hhs
  obtain ⟨pe, inc, ack', ld, hrec⟩ := recv_state (len := len) hn hr hp ht hst hid hhs
  refine ⟨_, rfl, ?_⟩
  rw [hrec]
  refine ⟨by rw [hw2]; simpa using hlog1, t, absDiff (E.now w.nNow) pkt.timestamp, pe, inc, ack', ld, ?_⟩
  rw [setS_s, hw2s, ← hs2, hs1]

/-- A packet that is not transmitted: it is taken for one that was acknowledged. -/
theorem sendPacket_far {fuel : Nat} {rec : M (Bytes × Addr)} {p : Packet} {w : World} (hroom : w.s.currWindow.toNat < sendLimit w.s)
    (hf : TooFar w.s p.seqNr) : sendPacket E (fuel + 1) rec p w = (.ok p, { w with nNow := w.nNow + 1 }) := by
  have hle : ¬ limitOf w.s ≤ w.s.currWindow := by
    rw [BitVec.le_def, limitOf_toNat]; omega
  rw [sendPacket_eq, andThen_eq (w' := { w with nNow := w.nNow + 1 }) (a := ())]
  · msimp
    rw [if_pos ((tooFar_iff _ _).mpr hf)]
  · rw [whileM, waitMore]
    msimp
    simp only [if_neg hle]
    rfl

theorem sendTo_far {w : World} {buf : Bytes} (hst : w.s.state ≠ .closed) (hu : w.s.unsent = []) (hb1 : 0 < buf.length) (hb2 : buf.length ≤ 1380)
    (hcw : w.s.currWindow.toNat < 2800) (hfar : TooFar w.s w.s.seqNr) (fuel : Nat) :
    ∃ w', sendTo E (fuel + 2) buf w = (.ok buf.length, w') ∧ w'.log = w.log ∧ w'.nSnd = w.nSnd ∧
      w'.s = { w.s with unsent := [], seqNr := w.s.seqNr + 1, currWindow := w.s.currWindow + BitVec.ofNat 32 (20 + buf.length), sendWindow := w.s.sendWindow ++ [dataPacket w.s buf] } := by
  have hch : chunks buf.length buf = [buf] := by
    obtain ⟨m, hm⟩ : ∃ m, buf.length = m + 1 := ⟨buf.length - 1, by omega⟩
    have hne : buf ≠ [] := List.length_pos_iff.mp hb1
    have hd : buf.drop CHUNK = [] := List.drop_eq_nil_of_le (by show _ ≤ 1380; omega)
    have ht : buf.take CHUNK = buf := List.take_of_length_le (by show _ ≤ 1380; omega)
    rw [hm, chunks, if_neg hne, hd, ht]
    cases m <;> simp [chunks]
  obtain ⟨p, hp⟩ : ∃ p, p = dataPacket w.s buf := ⟨_, rfl⟩
  have hq : queued w buf = w.setS { w.s with unsent := [p], seqNr := w.s.seqNr + 1 } := by
    unfold queued
    rw [hch, fold_enqueue, hu, hp]
    rfl
  have hf := dataPacket_facts w.s buf
  have hpl : p.len = 20 + buf.length := by rw [hp, ← hf.2.2.2.2]; rfl
  obtain ⟨v, hv⟩ : ∃ v, v = w.setS { w.s with unsent := [], seqNr := w.s.seqNr + 1 } := ⟨_, rfl⟩
  have hvs : v.s = { w.s with unsent := [], seqNr := w.s.seqNr + 1 } := by rw [hv]; rfl
  obtain ⟨v2, hv2⟩ : ∃ v2 : World, v2 = { v with nNow := v.nNow + 1 } := ⟨_, rfl⟩
  have hv2s : v2.s = v.s := by rw [hv2]
  have e1 : ∀ fuel rec, sendPacket E (fuel + 1) rec p v = (.ok p, v2) := by
    intro fuel rec
    rw [sendPacket_far (by rw [hvs]; unfold sendLimit; simp only; omega) (by rw [hp, hf.1, hvs]; exact hfar), hv2]
  have e2 : sendQueue E (fuel + 2) (fuel + 2) (queued w buf) =
      (.ok (), v2.setS { v2.s with currWindow := v2.s.currWindow + BitVec.ofNat 32 p.len, sendWindow := v2.s.sendWindow ++ [p] }) := by
    rw [hq, sendQueue]
    msimp
    simp only [World.setS]
    rw [andThen_eq (m := modS _) (w' := v) (a := ()) (by rw [hv]; rfl), andThen_eq (e1 _ _)]
    msimp
    have hov : overflowIf E (decide (v2.s.currWindow.toNat + (BitVec.ofNat 32 p.len).toNat ≥ 2 ^ 32)) v2 = (.ok (), v2) := by
      rw [overflowIf_run, if_neg]
      simp only [Bool.and_eq_true, decide_eq_true_eq, not_and]
      intro _
      have : v2.s.currWindow = w.s.currWindow := by rw [hv2s, hvs]
      rw [this, BitVec.toNat_ofNat]
      omega
    rw [andThen_eq hov]
    msimp
    rw [sendQueue]
    msimp
    simp only [World.setS, hv2s, hvs]
    rfl
  refine ⟨_, by rw [sendTo_eq _ _ hst, andThen_eq e2]; rfl, ?_, ?_, ?_⟩
  · rw [hv2, hv]; rfl
  · rw [hv2, hv]; rfl
  · rw [setS_s, hv2s, hvs, hpl, hp]

/-- **C101 is false of every connected socket with little outstanding**: after one packet that acknowledges one of the next 32767 numbers, none of which was ever
used, `send_to` of up to 1380 bytes returns Ok and transmits nothing. -/
theorem C101_mute {w : World} {pkt : Packet} (h : BogusAck E w.s w.nNet pkt) (hr : 0 < w.s.maxRetries.toNat)
    (hst : w.s.state = .connected) (hw : w.s.currWindow.toNat < 2800) (hu : w.s.unsent = []) (hnew : w.s.lastAcked ≠ pkt.ackNr)
    (hd : 0 < (pkt.ackNr - w.s.seqNr).toNat ∧ (pkt.ackNr - w.s.seqNr).toNat ≤ 32767) (fuel len : Nat)
    {buf : Bytes} (hb1 : 0 < buf.length) (hb2 : buf.length ≤ 1380) (n : Nat) :
    ∃ w', runOp E (n + 2) (.sendTo buf) (recv E (fuel + 2) len w).2 = (.ok (.count buf.length), w') ∧
      w'.log = w.log ++ [.wait (some w.s.congTimeout)] ∧ w'.s.sendWindow.length = w.s.sendWindow.length + 1 := by
  obtain ⟨w1, e1, hl, t, td, pe, inc, ack, ld, e2⟩ := C101_partial h hr hst hnew fuel len
  rw [e1]
  have hfar : TooFar w1.s w1.s.seqNr := by
    unfold TooFar
    rw [e2]
    simp only [BitVec.toNat_sub] at hd ⊢
    have := pkt.ackNr.isLt
    have := w.s.seqNr.isLt
    omega
  obtain ⟨w', g1, g2, -, g3⟩ := sendTo_far (E := E) (w := w1) (by rw [e2]; simp [hst]) (by rw [e2]; exact hu) hb1 hb2 (by rw [e2]; exact hw) hfar n
  refine ⟨w', ?_, g2.trans hl, ?_⟩
  · show (sendTo E (n + 2) buf).andThen _ _ = _
    rw [andThen_eq g1]
    rfl
  · rw [g3, e2]; simp

section

/-- The peer acknowledges the number after the one that will be used next; the application reads, and nothing else comes. -/
def tooSoon : Env := env [arr (dg .state 6 2 101), arr (dg .data 6 2 100 [7]), .fail .timedOut]

/-- **C101 is false**: `send_to` returns Ok but its packet is not transmitted; only a timeout does it. -/
theorem C101_counterexample :
    Reach tooSoon (server tooSoon) ∧ (server tooSoon).s.seqNr = 100 ∧ (server tooSoon).s.sendWindow = [] ∧
    results tooSoon 9 [.recvFrom 9, .sendTo [1]] (server tooSoon) = [.ok (.bytes [7] peer), .ok (.count 1)] ∧
    (sent (runs tooSoon 9 [.recvFrom 9, .sendTo [1]] (server tooSoon))).map (fun b => (kind b, b.length)) = [(2, 20), (2, 20)] ∧
    (sent (runs tooSoon 9 [.recvFrom 9, .sendTo [1], .flush] (server tooSoon))).map (fun b => (kind b, b.length)) = [(2, 20), (2, 20), (0, 21)] :=
  ⟨reach_server 0 [] (by decide +kernel) (by decide +kernel), by decide +kernel, by decide +kernel, by decide +kernel, by decide +kernel, by decide +kernel⟩

/-- Without this acknowledgement the packet is transmitted at once. -/
example : let E := env [arr (dg .data 6 2 100 [7]), .fail .timedOut]
    (sent (runs E 9 [.recvFrom 9, .sendTo [1]] (server E))).map (fun b => (kind b, b.length)) = [(2, 20), (2, 20), (0, 21)] := by decide +kernel

/-- `C101_partial` and `C101_mute` apply here. -/
example : ∃ w', runOp tooSoon 9 (.sendTo [1]) (recv tooSoon 9 9 (server tooSoon)).2 = (.ok (.count 1), w') ∧
    w'.log = (server tooSoon).log ++ [.wait (some 1000)] := by
  have h1 : tooSoon.net (server tooSoon).nNet = .dgram (dg .state 6 2 101) peer := by decide +kernel
  have h2 : 0 < (server tooSoon).s.maxRetries.toNat := by decide +kernel
  have h3 : (server tooSoon).s.state = .connected := by decide +kernel
  have h4 : (6 : U16) = (server tooSoon).s.receiverId := by decide +kernel
  have h5 : (server tooSoon).s.lastAcked = 0 := by decide +kernel
  have h6 : (server tooSoon).s.sendWindow = [] := by decide +kernel
  have h8 : (server tooSoon).s.currWindow = 0 := by decide +kernel
  have h9 : (server tooSoon).s.unsent = [] := by decide +kernel
  have h10 : (server tooSoon).s.seqNr = 100 := by decide +kernel
  have h11 : (server tooSoon).s.congTimeout = 1000 := by decide +kernel
  have ha : (Packet.mk (dg .state 6 2 101)).ackNr = 101 := by decide
  have hb : BogusAck tooSoon (server tooSoon).s (server tooSoon).nNet ⟨dg .state 6 2 101⟩ :=
    ⟨⟨_, _, h1, by rfl⟩, by decide, .inr h4, ⟨[], by decide, by simp⟩, by simp [h6]⟩
  obtain ⟨w', g1, g2, -⟩ := C101_mute hb h2 h3 (by rw [h8]; decide) h9 (by rw [h5, ha]; decide) (by rw [h10, ha]; decide) 7 9 (buf := [1]) (by decide) (by decide) 7
  exact ⟨w', g1, by rw [g2, h11]⟩

end

end Utp
