import Verif.Lemmas.LossyBase
import Verif.Props.Retransmit
/-!
# A network that loses datagrams: the sender
-/

namespace Utp
open M

variable {E : Env}

theorem Piece.setTimestamp {k sid : U16} {c : Bytes} {p : Packet} (h : Piece k sid c p) (t : U32) : Piece k sid c (p.setTimestamp t) :=
  ⟨h.plain.setTimestamp t, by simp [h.seq], by simp [h.id], by simp [h.payload], by simp [h.len], h.pos, h.bound⟩

/-- What a sender of the pieces `cs` sends after `s` waits: the piece number `J s`. -/
def PieceAt (a0 : World) (cs : List Bytes) (J : Nat → Nat) (s : Nat) (d : Bytes) : Prop :=
  ∃ c p, cs[J s]? = some c ∧ Piece (a0.s.seqNr + BitVec.ofNat 16 (J s)) a0.s.senderId c p ∧ d = p.bytes

/-- The socket that was in the world `a0` is sending the pieces `cs` one by one; `n` waits have ended, `J n` pieces were acknowledged, and the packet `out` is
outstanding. -/
structure SendsAt (a0 : World) (cs : List Bytes) (J : Nat → Nat) (n : Nat) (out : Option Packet) (w : World) : Prop where
  state : w.s.state = .connected
  tries : w.s.maxRetries = a0.s.maxRetries
  sid : w.s.senderId = a0.s.senderId
  rid : w.s.receiverId = a0.s.receiverId
  net : w.nNet = a0.nNet + n
  acked : w.s.lastAcked + 1 = a0.s.seqNr + BitVec.ofNat 16 (J n)
  quiet : w.s.incoming = [] ∧ w.s.pending = []
  unsent : w.s.unsent = []
  window : w.s.sendWindow = out.toList
  size : w.s.currWindow = BitVec.ofNat 32 (totalSize out.toList)
  next : w.s.seqNr = a0.s.seqNr + BitVec.ofNat 16 (J n + out.toList.length)
  piece : ∀ p, out = some p → ∃ c, cs[J n]? = some c ∧ Piece (a0.s.seqNr + BitVec.ofNat 16 (J n)) a0.s.senderId c p
  tells : Tells a0 (PieceAt a0 cs J) n w

section
variable {a0 : World} {cs : List Bytes} {J : Nat → Nat} {n : Nat} {w : World}

/-- The outstanding packet is sent again after a timeout. -/
theorem sends_timeout (hc : E.checks = false) (hok : ∀ n, E.snd n = .ok) {p : Packet} (h : SendsAt a0 cs J n (some p) w) (hJ : J (n + 1) = J n) (t : Option U64) :
    ∃ w' p', handleReceiveTimeout E (w.waited t) = (.ok (), w') ∧ SendsAt a0 cs J (n + 1) (some p') w' := by
  obtain ⟨c, hcs, hp⟩ := h.piece p rfl
  have hp' := hp.setTimestamp (E.now w.nNow)
  have hw : (w.waited t).s.sendWindow = [p] := h.window
  have e : handleReceiveTimeout E (w.waited t) = (.ok (), ⟨{ w.s with congTimeout := w.s.congTimeout * 2, cwnd := MSS, sendWindow := [p.setTimestamp (E.now w.nNow)] }, w.nNow + 1, w.nRand,
      w.nNet + 1, w.nSnd + 1, w.log ++ [.wait t] ++ [.send w.s.connectedTo (p.setTimestamp (E.now w.nNow)).bytes true]⟩) := by
    unfold handleReceiveTimeout
    simp only [overflowIf_release hc]
    msimp
    simp only [hw]
    msimp
    rw [udpSend_ok (hok _)]
    rfl
  refine ⟨_, p.setTimestamp (E.now w.nNow), e, ?_⟩
  constructor
  case tells =>
    refine ((h.tells.wait (w' := w.waited t) (t := t) rfl).send (w' := ⟨{ w.s with congTimeout := w.s.congTimeout * 2, cwnd := MSS, sendWindow := [p.setTimestamp (E.now w.nNow)] }, w.nNow + 1, w.nRand,
      w.nNet + 1, w.nSnd + 1, w.log ++ [.wait t] ++ [.send w.s.connectedTo (p.setTimestamp (E.now w.nNow)).bytes true]⟩) rfl ?_)
    exact ⟨c, _, by rw [hJ]; exact hcs, by rw [hJ]; exact hp', rfl⟩
  case state => exact h.state
  case tries => exact h.tries
  case sid => exact h.sid
  case rid => exact h.rid
  case net => show w.nNet + 1 = _; rw [h.net]; omega
  case acked => rw [hJ]; exact h.acked
  case quiet => exact h.quiet
  case unsent => exact h.unsent
  case window => rfl
  case size =>
    refine h.size.trans ?_
    simp [totalSize, hp.len, hp'.len]
  case next => rw [hJ]; exact h.next
  case piece => rintro _ ⟨⟩; exact ⟨c, by rw [hJ]; exact hcs, by rw [hJ]; exact hp'⟩

/-- There is room for one more packet. -/
theorem small_window {s : Socket} (h : s.currWindow.toNat ≤ 1400) : s.currWindow.toNat < sendLimit s := by
  unfold sendLimit; omega

theorem near_next {s : Socket} {k : U16} (h : s.lastAcked + 1 = k) : ¬ TooFar s k := by
  unfold TooFar
  have one : (1 : U16).toNat = 1 := rfl
  rw [← h]
  bv_omega

theorem size_one {p : Packet} {k sid : U16} {c : Bytes} (hp : Piece k sid c p) : (BitVec.ofNat 32 (totalSize [p])).toNat = p.len ∧ p.len ≤ 1400 := by
  have := hp.bound
  have h1 : p.len = 20 + c.length := hp.len
  have h2 : totalSize [p] = p.len := by simp [totalSize, Packet.len]
  rw [h2, BitVec.toNat_ofNat]
  omega

/-- What `handle_state_packet` does with a repeated acknowledgement of the number before the only outstanding packet. -/
theorem handleState_again (hc : E.checks = false) (hok : ∀ n, E.snd n = .ok) {p pkt : Packet} {k sid : U16} {c : Bytes} {w : World} (hw : w.s.sendWindow = [p]) (hp : Piece k sid c p)
    (ha : pkt.ackNr = w.s.lastAcked) (hl : w.s.lastAcked + 1 = k) (hx : pkt.extensions = some []) (hcw : w.s.currWindow.toNat ≤ 1400) :
    ∃ w', (∀ fuel rec, handleState E (fuel + 1) rec pkt w = (.ok (), w')) ∧ w'.nNet = w.nNet ∧
      (w'.log = w.log ∨ ∃ dst q, w'.log = w.log ++ [.send dst q.bytes true] ∧ Piece k sid c q) ∧
      ∃ da cw, w'.s = { w.s with dupAcks := da, cwnd := cw } := by
  have one : (1 : U16).toNat = 1 := rfl
  have hne : pkt.ackNr ≠ p.seqNr := by
    rw [ha, hp.seq, ← hl]
    intro h
    bv_omega
  obtain ⟨w1, hw1⟩ : ∃ w1, w1 = w.setS { w.s with dupAcks := w.s.dupAcks + 1 } := ⟨_, rfl⟩
  have hs1 : w1.s = { w.s with dupAcks := w.s.dupAcks + 1 } := by rw [hw1]; rfl
  have hw1s : w1.s.sendWindow = [p] := by rw [hs1]; exact hw
  have e1 : countAck E pkt w = (.ok (), w1) := by
    unfold countAck
    simp only [overflowIf_release hc]
    msimp
    rw [if_pos ha, hw1]
  have e2 : measureAck E pkt w1 = (.ok (), w1) := by
    unfold measureAck
    msimp
    have : (pkt.ackNr == p.seqNr) = false := by simpa using hne
    simp only [hw1s, List.findIdx?_cons, this]
    rfl
  have e3 : ∀ s : Socket, s.sendWindow = [p] → s.lastAcked = w.s.lastAcked → s.advanceSendWindow E = some s := by
    intro s h1 h2
    unfold Socket.advanceSendWindow
    have : (p.seqNr == s.lastAcked) = false := by rw [h2, ← ha]; simpa using fun h => hne h.symm
    simp only [h1, List.findIdx?_cons, this]
    rfl
  by_cases hd : w1.s.dupAcks = 3
  · obtain ⟨w2, hw2⟩ : ∃ w2 : World, w2 = { w1 with nNow := w1.nNow + 2, nSnd := w1.nSnd + 1, log := w1.log ++ [.send w1.s.connectedTo (stamped E { w1 with nNow := w1.nNow + 1 } p).bytes true] } := ⟨_, rfl⟩
    have e4 : ∀ fuel rec, fastRetransmit E (fuel + 1) rec pkt [] w1 = (.ok (), w2) := by
      intro fuel rec
      unfold fastRetransmit
      rw [overflowIf_release hc]
      msimp
      rw [if_pos ⟨by rw [hw1s]; simp, hd, by simp⟩]
      have hseq : p.seqNr = pkt.ackNr + 1 := by rw [hp.seq, ha, hl]
      rw [resendLost_some (p := p) (by rw [hw1s]; simp [hseq])]
      unfold ignoreErr
      have hroom : w1.s.currWindow.toNat < sendLimit w1.s := small_window (by rw [hs1]; exact hcw)
      have hnear : ¬ TooFar w1.s p.seqNr := near_next (by rw [hs1]; exact hl.trans hp.seq.symm)
      rw [sendPacket_room hroom hnear, andThen_eq (udpSend_ok (hok _)), hw2]
      rfl
    have hs2 : w2.s = w1.s := by rw [hw2]
    refine ⟨w2.setS w2.s.halveWindow, fun fuel rec => ?_, ?_, .inr ⟨w1.s.connectedTo, stamped E { w1 with nNow := w1.nNow + 1 } p, ?_, ?_⟩, w.s.dupAcks + 1, w2.s.halveWindow.cwnd, ?_⟩
    · unfold handleState
      rw [bind_def, andThen_eq e1, bind_def, andThen_eq e2]
      msimp
      simp only [hx]
      msimp
      rw [andThen_eq (processExtensions_none _ rec pkt.ackNr _ _ [] (by simp)), andThen_eq (e4 fuel rec)]
      msimp
      have hdd : (w1.s.sendWindow ≠ [] ∧ w1.s.dupAcks = 3) := ⟨by rw [hw1s]; simp, hd⟩
      simp only [hdd, ne_eq, not_false_eq_true, and_self, decide_true, if_true, World.setS]
      rw [e3 w2.s.halveWindow (by rw [hs2]; exact hw1s) (by rw [hs2, hs1]; rfl)]
      rfl
    · rw [hw2, hw1]; rfl
    · rw [hw2, hw1]; rfl
    · exact hp.stamped _ _
    · show w2.s.halveWindow = _
      unfold Socket.halveWindow
      rw [hs2, hs1]
  · have e4 : ∀ fuel rec, fastRetransmit E (fuel + 1) rec pkt [] w1 = (.ok (), w1) := by
      intro fuel rec
      unfold fastRetransmit
      msimp
      rw [if_neg (fun h => hd h.2.1)]
    refine ⟨w1, fun fuel rec => ?_, ?_, .inl ?_, w.s.dupAcks + 1, w.s.cwnd, hs1⟩
    · unfold handleState
      rw [bind_def, andThen_eq e1, bind_def, andThen_eq e2]
      msimp
      simp only [hx]
      msimp
      rw [andThen_eq (processExtensions_none _ rec pkt.ackNr _ _ [] (by simp)), andThen_eq (e4 fuel rec)]
      msimp
      have hdd : ¬ (w1.s.sendWindow ≠ [] ∧ w1.s.dupAcks = 3) := fun h => hd h.2
      simp only [hdd, decide_false, Bool.false_eq_true, if_false, World.setS]
      rw [e3 w1.s hw1s (by rw [hs1])]
      rfl
    · rw [hw1]; rfl
    · rw [hw1]; rfl

/-- `recv` of a State packet of this connection, when `handle_state_packet` does what `hst` says. -/
theorem recv_ack_state {pkt : Packet} {src : Addr} {q k : U16} (hpk : AckPkt q k w.s.receiverId pkt) (hs : w.s.state = .connected) (htr : 0 < w.s.maxRetries.toNat)
    (hn : E.net w.nNet = .dgram pkt.bytes src) {w1 : World}
    (hst : ∀ fuel rec, handleState E (fuel + 1) rec pkt ((w.waited w.s.patience).heard E pkt) = (.ok (), w1)) (hq : w1.s.incoming = [] ∧ w1.s.pending = []) (fuel len : Nat) :
    recv E (fuel + 2) len w = (.ok ([], src), w1) := by
  have hp : Packet.tryFrom (pkt.bytes.take 1520) = some (.ok pkt) := by
    rw [List.take_of_length_le (by rw [hpk.len]; omega)]
    exact hpk.plain.accepted
  have ht := hpk.plain.ty
  have hfl : flushIncoming E len w1 = (.ok [], w1) := by
    unfold flushIncoming
    msimp
    simp only [hq.1, hq.2, ne_eq, not_true_eq_false, if_false]
    rfl
  have hh : handlePacket E (fuel + 1) (recv E (fuel + 1) BUF_SIZE) pkt src (w.waited w.s.patience) = (.ok none, w1) := by
    rw [handlePacket_takes (w := w.waited w.s.patience) ht (.inr (.inr (.inr hpk.id)))]
    have : (w.waited w.s.patience).s.state = .connected := hs
    rw [this]
    unfold dispatch
    msimp
    rw [andThen_eq (hst _ _)]
    rfl
  rw [recv_dgram hn htr hp, recvPacket_eq hh (show sendReply E src none w1 = (.ok (), w1) from rfl) ht]
  have hk : w1.setS (w1.s.keep .state pkt) = w1 := by simp [Socket.keep, World.setS]
  rw [hk, andThen_eq hfl]
  rfl

theorem heard_shape (pkt : Packet) (w : World) : ∃ v an rw' td, v = (w.waited w.s.patience).heard E pkt ∧ v.s = { w.s with ackNr := an, remoteWnd := rw', theirDelay := td } ∧
    v.nNet = w.nNet + 1 ∧ v.log = w.log ++ [.wait w.s.patience] := by
  obtain ⟨a, ha⟩ := bumpAck_eq w.s pkt
  refine ⟨_, a, pkt.wndSize, absDiff (E.now w.nNow) pkt.timestamp, rfl, ?_, rfl, rfl⟩
  simp only [World.heard, World.waited, World.setS, ha]

/-- A repeated acknowledgement of the packet before. -/
theorem sends_stale (hc : E.checks = false) (hok : ∀ n, E.snd n = .ok) (ht0 : a0.s.maxRetries ≠ 0) {q k : U16} {p : Packet} (h : SendsAt a0 cs J n (some p) w) (hJ : J (n + 1) = J n)
    (ha : Acks a0.s.receiverId q k (E.net (a0.nNet + n))) (hk : k + 1 = a0.s.seqNr + BitVec.ofNat 16 (J n)) :
    ∃ x w', (∀ fuel len, recv E (fuel + 2) len w = (.ok x, w')) ∧ SendsAt a0 cs J (n + 1) (some p) w' := by
  obtain ⟨pkt, src, hn, hpk⟩ := ha
  obtain ⟨c, hcs, hp⟩ := h.piece p rfl
  have one : (1 : U16).toNat = 1 := rfl
  have htr : 0 < w.s.maxRetries.toNat := by
    rw [h.tries]
    have : a0.s.maxRetries.toNat ≠ 0 := fun e => ht0 (BitVec.eq_of_toNat_eq e)
    omega
  obtain ⟨v, an, rw', td, hv, hvs, hvn, hvl⟩ := heard_shape (E := E) pkt w
  have hack := h.acked
  have hka : k = w.s.lastAcked := by
    rw [← hk] at hack
    have := congrArg (· - (1 : U16)) hack
    simpa [BitVec.add_sub_cancel] using this.symm
  obtain ⟨w1, h1, h2, h3, da, cw, h4⟩ := handleState_again hc hok (w := v) (p := p) (pkt := pkt) (by rw [hvs]; exact h.window) hp
    (by rw [hpk.ack, hvs]; exact hka) (by rw [hvs]; exact hack) hpk.plain.extensions
    (by rw [hvs]; show w.s.currWindow.toNat ≤ 1400; rw [h.size]; exact Nat.le_trans (Nat.le_of_eq (size_one hp).1) (size_one hp).2)
  have hsq : w1.s.incoming = [] ∧ w1.s.pending = [] := by rw [h4, hvs]; exact h.quiet
  rw [← h.net] at hn
  rw [← h.rid] at hpk
  refine ⟨([], src), w1, fun fuel len => recv_ack_state hpk h.state htr hn (fun fuel rec => by rw [← hv]; exact h1 fuel rec) hsq fuel len, ?_⟩
  constructor
  case tells =>
    have ht := h.tells.wait hvl
    rcases h3 with h3 | ⟨dst, r, h3, hr⟩
    · exact ht.same h3
    · exact ht.send h3 ⟨c, r, by rw [hJ]; exact hcs, by rw [hJ]; exact hr, rfl⟩
  case state => rw [h4, hvs]; exact h.state
  case tries => rw [h4, hvs]; exact h.tries
  case sid => rw [h4, hvs]; exact h.sid
  case rid => rw [h4, hvs]; exact h.rid
  case net => rw [h2, hvn, h.net]; omega
  case acked => rw [h4, hvs, hJ]; exact h.acked
  case quiet => exact hsq
  case unsent => rw [h4, hvs]; exact h.unsent
  case window => rw [h4, hvs]; exact h.window
  case size => rw [h4, hvs]; exact h.size
  case next => rw [h4, hvs, hJ]; exact h.next
  case piece => rw [hJ]; exact h.piece

/-- The acknowledgement of the outstanding packet. -/
theorem sends_acked (ht0 : a0.s.maxRetries ≠ 0) {q : U16} {p : Packet} (h : SendsAt a0 cs J n (some p) w) (hJ : J (n + 1) = J n + 1)
    (ha : Acks a0.s.receiverId q (a0.s.seqNr + BitVec.ofNat 16 (J n)) (E.net (a0.nNet + n))) :
    ∃ x w', (∀ fuel len, recv E (fuel + 2) len w = (.ok x, w')) ∧ SendsAt a0 cs J (n + 1) none w' := by
  obtain ⟨pkt, src, hn, hpk⟩ := ha
  obtain ⟨c, hcs, hp⟩ := h.piece p rfl
  have one : (1 : U16).toNat = 1 := rfl
  have htr : 0 < w.s.maxRetries.toNat := by
    rw [h.tries]
    have : a0.s.maxRetries.toNat ≠ 0 := fun e => ht0 (BitVec.eq_of_toNat_eq e)
    omega
  obtain ⟨v, an, rw', td, hv, hvs, hvn, hvl⟩ := heard_shape (E := E) pkt w
  have hsz := size_one hp
  have hcw : w.s.currWindow.toNat = p.len := by rw [h.size]; exact hsz.1
  obtain ⟨w1, h1, h2, h3, ts, bd, cd, lr, cw, rt, rv, ct, h4⟩ := handleState_first (E := E) (w := v) (p := p) (pkt := pkt) (rest := []) (exts := [])
    (by rw [hvs]; exact h.window) (by rw [hpk.ack, hp.seq]) (by
      rw [hvs, hpk.ack, ← h.acked]
      show w.s.lastAcked + 1 ≠ w.s.lastAcked
      intro h'
      bv_omega) hpk.plain.extensions (by simp) (by rw [hvs]; exact Nat.le_of_eq hcw.symm) (by
      rw [hvs]
      show w.s.currWindow.toNat + 1400 < 2 ^ 32
      omega)
  have hsq : w1.s.incoming = [] ∧ w1.s.pending = [] := by rw [h4, hvs]; exact h.quiet
  rw [← h.net] at hn
  have hack := hpk.ack
  rw [← h.rid] at hpk
  refine ⟨([], src), w1, fun fuel len => recv_ack_state hpk h.state htr hn (fun fuel rec => by rw [← hv]; exact h1 _ rec) hsq fuel len, ?_⟩
  constructor
  case tells => exact (h.tells.wait hvl).same h3
  case state => rw [h4, hvs]; exact h.state
  case tries => rw [h4, hvs]; exact h.tries
  case sid => rw [h4, hvs]; exact h.sid
  case rid => rw [h4, hvs]; exact h.rid
  case net => rw [h2, hvn, h.net]; omega
  case acked =>
    rw [h4, hJ]
    show pkt.ackNr + 1 = _
    rw [hack, BitVec.ofNat_add, ← BitVec.add_assoc]
    rfl
  case quiet => exact hsq
  case unsent => rw [h4, hvs]; exact h.unsent
  case window => rw [h4]; rfl
  case size =>
    rw [h4, hvs]
    show w.s.currWindow - BitVec.ofNat 32 p.len = _
    apply BitVec.eq_of_toNat_eq
    rw [BitVec.toNat_sub, hcw]
    simp [totalSize]
    omega
  case next => rw [h4, hvs, hJ]; exact h.next
  case piece => simp

/-- One more piece is sent. -/
theorem sends_next (hok : ∀ n, E.snd n = .ok) (h : SendsAt a0 cs J n none w) {buf : Bytes} (hb : cs[J n]? = some buf) (hb1 : 0 < buf.length) (hb2 : buf.length ≤ 1380) :
    ∃ p w', (∀ fuel, sendTo E (fuel + 2) buf w = (.ok buf.length, w')) ∧ SendsAt a0 cs J n (some p) w' := by
  have hch : chunks buf.length buf = [buf] := by
    obtain ⟨m, hm⟩ : ∃ m, buf.length = m + 1 := ⟨buf.length - 1, by omega⟩
    have hne : buf ≠ [] := List.length_pos_iff.mp hb1
    have hd : buf.drop CHUNK = [] := List.drop_eq_nil_of_le (by show _ ≤ 1380; omega)
    have ht : buf.take CHUNK = buf := List.take_of_length_le (by show _ ≤ 1380; omega)
    rw [hm, chunks, if_neg hne, hd, ht]
    cases m <;> simp [chunks]
  obtain ⟨p, hp⟩ : ∃ p, p = dataPacket w.s buf := ⟨_, rfl⟩
  have hq : queued w buf = w.setS { w.s with unsent := [p], seqNr := w.s.seqNr + 1 } := by
    unfold queued
    rw [hch, fold_enqueue, h.unsent, hp]
    rfl
  have hpi : Piece (a0.s.seqNr + BitVec.ofNat 16 (J n)) a0.s.senderId buf p := by
    have hf := dataPacket_facts w.s buf
    rw [hp]
    refine ⟨dataPacket_plain _ _, ?_, ?_, hf.2.2.2.1, hf.2.2.2.2, hb1, hb2⟩
    · rw [hf.1, h.next]; simp
    · rw [hf.2.2.1, h.sid]
  obtain ⟨v, hv⟩ : ∃ v, v = w.setS { w.s with unsent := [], seqNr := w.s.seqNr + 1 } := ⟨_, rfl⟩
  have hvs : v.s = { w.s with unsent := [], seqNr := w.s.seqNr + 1 } := by rw [hv]; rfl
  obtain ⟨p', hp'⟩ : ∃ p', p' = stamped E { v with nNow := v.nNow + 1 } p := ⟨_, rfl⟩
  have hpi' : Piece (a0.s.seqNr + BitVec.ofNat 16 (J n)) a0.s.senderId buf p' := by rw [hp']; exact hpi.stamped _ _
  obtain ⟨v2, hv2⟩ : ∃ v2 : World, v2 = { v with nNow := v.nNow + 2, nSnd := v.nSnd + 1, log := v.log ++ [.send v.s.connectedTo p'.bytes true] } := ⟨_, rfl⟩
  have hcw : v.s.currWindow = 0 := by rw [hvs]; exact h.size
  have e1 : ∀ fuel rec, sendPacket E (fuel + 1) rec p v = (.ok p', v2) := by
    intro fuel rec
    rw [sendPacket_room (small_window (by rw [hcw]; simp)) (near_next (by rw [hvs, hpi.seq]; exact h.acked)), andThen_eq (udpSend_ok (hok _)), hv2, hp']
    rfl
  have hv2s : v2.s = v.s := by rw [hv2]
  have hst : w.s.state ≠ .closed := by rw [h.state]; simp
  refine ⟨p', v2.setS { v2.s with currWindow := v2.s.currWindow + BitVec.ofNat 32 p'.len, sendWindow := v2.s.sendWindow ++ [p'] }, fun fuel => ?_, ?_⟩
  · have e2 : sendQueue E (fuel + 2) (fuel + 2) (queued w buf) =
        (.ok (), v2.setS { v2.s with currWindow := v2.s.currWindow + BitVec.ofNat 32 p'.len, sendWindow := v2.s.sendWindow ++ [p'] }) := by
      rw [hq, sendQueue]
      msimp
      simp only [World.setS]
      rw [andThen_eq (m := modS _) (w' := v) (a := ()) (by rw [hv]; rfl), andThen_eq (e1 _ _)]
      msimp
      have hov : overflowIf E (decide (v2.s.currWindow.toNat + (BitVec.ofNat 32 p'.len).toNat ≥ 2 ^ 32)) v2 = (.ok (), v2) := by
        rw [overflowIf_run, if_neg]
        simp only [Bool.and_eq_true, decide_eq_true_eq, not_and]
        intro _
        rw [hv2s, hcw, BitVec.toNat_ofNat]
        have h1 : p'.len = 20 + buf.length := hpi'.len
        simp
        omega
      rw [andThen_eq hov]
      msimp
      rw [sendQueue]
      msimp
      simp only [World.setS, hv2s, hvs]
      rfl
    rw [sendTo_eq _ _ hst, andThen_eq e2]
    rfl
  · constructor
    case tells =>
      have h1 : Tells a0 (PieceAt a0 cs J) n v := h.tells.same (by rw [hv]; rfl)
      refine (h1.send (w' := v2) (by rw [hv2]) ⟨buf, p', hb, hpi', rfl⟩).same rfl
    all_goals try simp only [World.setS, hv2s, hvs]
    case state => exact h.state
    case tries => exact h.tries
    case sid => exact h.sid
    case rid => exact h.rid
    case net => rw [hv2, hv]; exact h.net
    case acked => exact h.acked
    case quiet => exact h.quiet
    case window => rw [h.window]; rfl
    case size =>
      rw [h.size]
      simp [totalSize, Packet.len]
    case next => rw [h.next]; simp [BitVec.ofNat_add, BitVec.add_assoc]
    case piece => rintro _ ⟨⟩; exact ⟨buf, hb, hpi'⟩

/-- The point before the end of the wait `N` at which the sender waits for an acknowledgement. -/
def SenderPast (a0 : World) (cs : List Bytes) (J : Nat → Nat) (N : Nat) (v : World) : Prop :=
  ∃ w t, (∃ p, SendsAt a0 cs J N (some p) w) ∧ w.log ++ [.wait t] <+: v.log

theorem SenderPast.lasting (N : Nat) : Lasting (SenderPast a0 cs J N) := by
  rintro w w' h ⟨v, t, h1, h2⟩
  exact ⟨v, t, h1, h2.trans h⟩

/-- Until the wait `N`, what arrives are acknowledgements of the outstanding packet or the one before, and something arrives often enough. -/
structure AckedWell (E : Env) (a0 : World) (q0 : U16) (cs : List Bytes) (J : Nat → Nat) (N : Nat) : Prop where
  release : E.checks = false
  sends : ∀ n, E.snd n = .ok
  tries : a0.s.maxRetries ≠ 0
  ends : ∀ n, Comes (E.net (a0.nNet + n)) ∨ Expires (E.net (a0.nNet + n))
  often : ∀ n, n + a0.s.maxRetries.toNat ≤ N → ∃ j, j < a0.s.maxRetries.toNat ∧ Comes (E.net (a0.nNet + n + j))
  still : ∀ n, Expires (E.net (a0.nNet + n)) → J (n + 1) = J n
  acks : ∀ n, n < N → J n < cs.length → Comes (E.net (a0.nNet + n)) → ∃ k, Acks a0.s.receiverId q0 k (E.net (a0.nNet + n)) ∧
    (k + 1 = a0.s.seqNr + BitVec.ofNat 16 (J n) ∧ J (n + 1) = J n ∨ k = a0.s.seqNr + BitVec.ofNat 16 (J n) ∧ J (n + 1) = J n + 1)

variable {q0 : U16} {N : Nat}

theorem sends_recv (hE : AckedWell E a0 q0 cs J N) {j n0 : Nat} {w : World} (h : ∃ p, SendsAt a0 cs J n0 (some p) w) (hj : J n0 = j) (hn : n0 ≤ N) (len : Nat) :
    Prog (SenderPast a0 cs J N) (fun f => recv E f len) w fun _ w' => ∃ n', n0 < n' ∧ n' ≤ N ∧
      ((∃ p, SendsAt a0 cs J n' (some p) w') ∧ J n' = j ∨ SendsAt a0 cs J n' none w' ∧ J n' = j + 1) := by
  refine prog_recv_lossy (E := E) (X := fun n w => n0 ≤ n ∧ J n = j ∧ ∃ p, SendsAt a0 cs J n (some p) w) (x := a0.nNet) (N := N) (R := a0.s.maxRetries.toNat) ?_ ?_ ?_
    hE.ends hE.often ?_ ?_ n0 w hn ⟨Nat.le_refl _, hj, h⟩
  · rintro n w ⟨_, _, p, h⟩; exact h.net
  · rintro n w ⟨_, _, p, h⟩; rw [h.tries]
  · rintro w v t ⟨_, _, h⟩ hp; exact ⟨w, t, h, hp⟩
  · rintro n w hn ⟨h1, h2, p, h⟩ hx
    have hs := hE.still n hx
    obtain ⟨w', p', g1, g2⟩ := sends_timeout hE.release hE.sends h hs w.s.patience
    exact ⟨w', g1, by omega, by omega, p', g2⟩
  · rintro n w hn ⟨h1, h2, p, h⟩ hx
    obtain ⟨c, hc, _⟩ := h.piece p rfl
    obtain ⟨k, g1, ⟨g2, g3⟩ | ⟨g2, g3⟩⟩ := hE.acks n hn (List.getElem?_eq_some_iff.mp hc).1 hx
    · obtain ⟨x, w', e1, e2⟩ := sends_stale hE.release hE.sends hE.tries h g3 g1 g2
      refine .returns (F := 2) (a := x) (w' := w') (fun f hf => ?_) ⟨n + 1, by omega, by omega, .inl ⟨⟨p, e2⟩, by omega⟩⟩
      obtain ⟨f, rfl⟩ : ∃ g, f = g + 2 := ⟨f - 2, by omega⟩
      exact e1 f len
    · rw [g2] at g1
      obtain ⟨x, w', e1, e2⟩ := sends_acked hE.tries h g3 g1
      refine .returns (F := 2) (a := x) (w' := w') (fun f hf => ?_) ⟨n + 1, by omega, by omega, .inr ⟨e2, by omega⟩⟩
      obtain ⟨f, rfl⟩ : ∃ g, f = g + 2 := ⟨f - 2, by omega⟩
      exact e1 f len

theorem sends_flush (hE : AckedWell E a0 q0 cs J N) {n0 : Nat} {w : World} (h : ∃ p, SendsAt a0 cs J n0 (some p) w) (hn : n0 ≤ N) :
    Prog (SenderPast a0 cs J N) (fun f => flush E f) w fun _ w' => ∃ n', n' ≤ N ∧ SendsAt a0 cs J n' none w' ∧ J n' = J n0 + 1 := by
  obtain ⟨X, hX⟩ : ∃ X : World → Prop, X = fun w => ∃ n, n ≤ N ∧ ((∃ p, SendsAt a0 cs J n (some p) w) ∧ J n = J n0 ∨ SendsAt a0 cs J n none w ∧ J n = J n0 + 1) := ⟨_, rfl⟩
  unfold flush
  refine .whileM (SenderPast.lasting N) (N := a0.nNet + N) (X := X) (Y := fun w => ∃ n, n ≤ N ∧ (∃ p, SendsAt a0 cs J n (some p) w) ∧ J n = J n0) (.bind .getS fun _ => .ret)
    (fun n => .bind (grows_recv n _) fun _ => .ret) ?_ ?_ ?_ (by rw [hX]; exact ⟨n0, hn, .inl ⟨h, rfl⟩⟩)
  · intro w hw
    rw [hX] at hw
    obtain ⟨n, h1, ⟨⟨p, h2⟩, h3⟩ | ⟨h2, h3⟩⟩ := hw
    · exact ⟨true, w, by simp [M.andThen, M.getS, bind_def, h2.window, M.ret], rfl, by simpa using ⟨n, h1, ⟨p, h2⟩, h3⟩⟩
    · exact ⟨false, w, by simp [M.andThen, M.getS, bind_def, h2.window, M.ret], rfl, by simpa using ⟨n, h1, h2, h3⟩⟩
  · rintro w ⟨n, h1, ⟨p, h2⟩, _⟩
    rw [h2.net]; omega
  · rintro w ⟨n, h1, h2, h3⟩
    have hnet : w.nNet = a0.nNet + n := by obtain ⟨p, h2⟩ := h2; exact h2.net
    refine .andThen (SenderPast.lasting N) (sends_recv hE h2 h3 h1 BUF_SIZE) (fun n _ => .ret) ?_
    rintro _ w' ⟨n', g1, g2, g3⟩
    refine .ret ⟨by rw [hX]; exact ⟨n', g2, g3⟩, ?_⟩
    rcases g3 with ⟨⟨p, g3⟩, _⟩ | ⟨g3, _⟩ <;> rw [g3.net] <;> omega

theorem sends_transfer (hE : AckedWell E a0 q0 cs J N) : ∀ (bufs : List Bytes) (n : Nat) (w : World), n ≤ N → cs.drop (J n) = bufs → (∀ b ∈ bufs, 0 < b.length ∧ b.length ≤ 1380) →
    SendsAt a0 cs J n none w →
    Prog (SenderPast a0 cs J N) (fun f => transfer E f (bufs.map fun b => [b])) w fun _ w' => ∃ n', n' ≤ N ∧ SendsAt a0 cs J n' none w' ∧ J n' = J n + bufs.length := by
  intro bufs
  induction bufs with
  | nil => intro n w hn _ _ h; exact .ret ⟨n, hn, h, rfl⟩
  | cons b bufs ih =>
    intro n w hn hcs hb h
    have hlt : J n < cs.length := by
      refine Nat.lt_of_not_le fun hc => ?_
      rw [List.drop_eq_nil_of_le hc] at hcs
      cases hcs
    rw [List.drop_eq_getElem_cons hlt] at hcs
    simp only [List.cons.injEq] at hcs
    obtain ⟨p, w1, g1, g2⟩ := sends_next hE.sends h (List.getElem?_eq_getElem hlt) (by rw [hcs.1]; exact (hb b (by simp)).1) (by rw [hcs.1]; exact (hb b (by simp)).2)
    rw [hcs.1] at g1
    refine .andThen (SenderPast.lasting N) (Q := fun _ w' => w' = w1) ?_ (fun f _ => .andThen (grows_flush f) fun _ => grows_transfer f _) ?_
    · refine .returns (F := 2) (a := ()) (w' := w1) (fun f hf => ?_) rfl
      obtain ⟨f, rfl⟩ : ∃ g, f = g + 2 := ⟨f - 2, by omega⟩
      show M.andThen (sendTo E (f + 2) b) _ w = _
      rw [andThen_eq (g1 f)]
      rfl
    · rintro _ _ rfl
      refine .andThen (SenderPast.lasting N) (sends_flush hE ⟨p, g2⟩ hn) (fun f _ => grows_transfer f _) ?_
      rintro _ w2 ⟨n', h1, h2, h3⟩
      refine (ih n' w2 h1 (by rw [h3]; exact hcs.2) (fun b hb' => hb b (by simp [hb'])) h2).mono ?_
      rintro _ w3 ⟨n'', e1, e2, e3⟩
      exact ⟨n'', e1, e2, by rw [e3, h3]; simp; omega⟩

end

end Utp
