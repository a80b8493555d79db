import Verif.Lemmas.LossySend
import Verif.Props.Order
/-!
# What the two sides of a transfer that runs in step send, to the byte
-/

namespace Utp
open M

variable {E : Env}

/-- One packet is given to `send_to` when there is room for it. -/
theorem send_one (hok : ∀ n, E.snd n = .ok) {w : World} {buf : Bytes} (hst : w.s.state ≠ .closed) (hu : w.s.unsent = []) (hb1 : 0 < buf.length) (hb2 : buf.length ≤ 1380)
    (hcw : w.s.currWindow.toNat ≤ 1400) (hnear : ¬ TooFar w.s w.s.seqNr) (fuel : Nat) :
    ∃ p', p' = stamped E { w with nNow := w.nNow + 1 } (dataPacket w.s buf) ∧
    sendTo E (fuel + 2) buf w = (.ok buf.length,
      ⟨{ w.s with unsent := [], seqNr := w.s.seqNr + 1, currWindow := w.s.currWindow + BitVec.ofNat 32 p'.len, sendWindow := w.s.sendWindow ++ [p'] },
        w.nNow + 2, w.nRand, w.nNet, w.nSnd + 1, w.log ++ [.send w.s.connectedTo p'.bytes true]⟩) := by
  have hch : chunks buf.length buf = [buf] := by
    obtain ⟨m, hm⟩ : ∃ m, buf.length = m + 1 := ⟨buf.length - 1, by omega⟩
    have hne : buf ≠ [] := List.length_pos_iff.mp hb1
    have hd : buf.drop CHUNK = [] := List.drop_eq_nil_of_le (by show _ ≤ 1380; omega)
    have ht : buf.take CHUNK = buf := List.take_of_length_le (by show _ ≤ 1380; omega)
    rw [hm, chunks, if_neg hne, hd, ht]
    cases m <;> simp [chunks]
  obtain ⟨p, hp⟩ : ∃ p, p = dataPacket w.s buf := ⟨_, rfl⟩
  have hq : queued w buf = w.setS { w.s with unsent := [p], seqNr := w.s.seqNr + 1 } := by
    unfold queued
    rw [hch, fold_enqueue, hu, hp]
    rfl
  have hf := dataPacket_facts w.s buf
  obtain ⟨v, hv⟩ : ∃ v, v = w.setS { w.s with unsent := [], seqNr := w.s.seqNr + 1 } := ⟨_, rfl⟩
  have hvs : v.s = { w.s with unsent := [], seqNr := w.s.seqNr + 1 } := by rw [hv]; rfl
  obtain ⟨p', hp'⟩ : ∃ p', p' = stamped E { v with nNow := v.nNow + 1 } p := ⟨_, rfl⟩
  have hpl : p'.len = 20 + buf.length := by
    rw [hp', hp, ← hf.2.2.2.2]
    simp [stamped, Packet.len]
  obtain ⟨v2, hv2⟩ : ∃ v2 : World, v2 = { v with nNow := v.nNow + 2, nSnd := v.nSnd + 1, log := v.log ++ [.send v.s.connectedTo p'.bytes true] } := ⟨_, rfl⟩
  have e1 : ∀ fuel rec, sendPacket E (fuel + 1) rec p v = (.ok p', v2) := by
    intro fuel rec
    rw [sendPacket_room (small_window (by rw [hvs]; exact hcw)) (by rw [hp, hf.1, hvs]; exact hnear), andThen_eq (udpSend_ok (hok _)), hv2, hp']
    rfl
  have hv2s : v2.s = v.s := by rw [hv2]
  refine ⟨p', by rw [hp', hv, hp]; rfl, ?_⟩
  have e2 : sendQueue E (fuel + 2) (fuel + 2) (queued w buf) =
      (.ok (), v2.setS { v2.s with currWindow := v2.s.currWindow + BitVec.ofNat 32 p'.len, sendWindow := v2.s.sendWindow ++ [p'] }) := by
    rw [hq, sendQueue]
    msimp
    simp only [World.setS]
    rw [andThen_eq (m := modS _) (w' := v) (a := ()) (by rw [hv]; rfl), andThen_eq (e1 _ _)]
    msimp
    have hov : overflowIf E (decide (v2.s.currWindow.toNat + (BitVec.ofNat 32 p'.len).toNat ≥ 2 ^ 32)) v2 = (.ok (), v2) := by
      rw [overflowIf_run, if_neg]
      simp only [Bool.and_eq_true, decide_eq_true_eq, not_and]
      intro _
      have : v2.s.currWindow = w.s.currWindow := by rw [hv2s, hvs]
      rw [this, BitVec.toNat_ofNat]
      omega
    rw [andThen_eq hov]
    msimp
    rw [sendQueue]
    msimp
    simp only [World.setS, hv2s, hvs]
    rfl
  rw [sendTo_eq _ _ hst, andThen_eq e2, hv2, hv]
  rfl

/-- The acknowledgement of the only outstanding packet. -/
theorem acked_one {w : World} {p pkt : Packet} {src : Addr} {q k : U16} (hpk : AckPkt q k w.s.receiverId pkt) (hs : w.s.state = .connected) (htr : 0 < w.s.maxRetries.toNat)
    (hn : E.net w.nNet = .dgram pkt.bytes src) (hw : w.s.sendWindow = [p]) (hk : k = p.seqNr) (hl : w.s.lastAcked ≠ k) (hc : w.s.currWindow.toNat = p.len) (hp : p.len ≤ 1400)
    (hq : w.s.incoming = [] ∧ w.s.pending = []) :
    ∃ w', (∀ fuel len, recv E (fuel + 2) len w = (.ok ([], src), w')) ∧ w'.nNet = w.nNet + 1 ∧ w'.log = w.log ++ [.wait w.s.patience] ∧
      w'.s.ackNr = (w.s.bumpAck pkt).ackNr ∧ w'.s.theirDelay = absDiff (E.now w.nNow) pkt.timestamp ∧ w'.s.lastAcked = k ∧ w'.s.sendWindow = [] ∧ w'.s.currWindow = 0 ∧
      w'.s.state = w.s.state ∧ w'.s.maxRetries = w.s.maxRetries ∧ w'.s.senderId = w.s.senderId ∧ w'.s.receiverId = w.s.receiverId ∧ w'.s.incoming = [] ∧ w'.s.pending = [] ∧
      w'.s.unsent = w.s.unsent ∧ w'.s.seqNr = w.s.seqNr := by
  obtain ⟨a, ha⟩ := bumpAck_eq w.s pkt
  obtain ⟨v, hv⟩ : ∃ v, v = (w.waited w.s.patience).heard E pkt := ⟨_, rfl⟩
  have hvs : v.s = { w.s with ackNr := a, remoteWnd := pkt.wndSize, theirDelay := absDiff (E.now w.nNow) pkt.timestamp } := by
    rw [hv]; simp only [World.heard, World.waited, World.setS, ha]
  obtain ⟨w1, h1, h2, h3, ts, bd, cd, lr, cw, rt, rv, ct, h4⟩ := handleState_first (E := E) (w := v) (p := p) (pkt := pkt) (rest := []) (exts := [])
    (by rw [hvs]; exact hw) (by rw [hpk.ack, hk]) (by rw [hvs, hpk.ack]; exact Ne.symm hl) hpk.plain.extensions (by simp) (by rw [hvs]; exact Nat.le_of_eq hc.symm) (by
      rw [hvs]
      show w.s.currWindow.toNat + 1400 < 2 ^ 32
      omega)
  have hsq : w1.s.incoming = [] ∧ w1.s.pending = [] := by rw [h4, hvs]; exact hq
  refine ⟨w1, fun fuel len => recv_ack_state hpk hs htr hn (fun fuel rec => by rw [← hv]; exact h1 _ rec) hsq fuel len, ?_⟩
  refine ⟨by rw [h2, hv]; rfl, by rw [h3, hv]; rfl, by rw [h4, hvs, ha], by rw [h4, hvs], by rw [h4]; exact hpk.ack, by rw [h4], ?_, by rw [h4, hvs], by rw [h4, hvs], by rw [h4, hvs],
    by rw [h4, hvs], hsq.1, hsq.2, by rw [h4, hvs], by rw [h4, hvs]⟩
  rw [h4, hvs]
  show w.s.currWindow - BitVec.ofNat 32 p.len = 0
  apply BitVec.eq_of_toNat_eq
  rw [BitVec.toNat_sub, hc, BitVec.toNat_ofNat]
  simp
  omega

/-! ### The reader -/

/-- The reply to a data packet with the next number. -/
def ackReply (E : Env) (w : World) (k : U16) (p : Packet) : Packet :=
  ((({ w.s with ackNr := k } : Socket).prepareReply (E.now (w.nNow + 1)) p .state).setWndSize WINDOW_SIZE)

theorem expects_quiet {w : World} {k : U16} (hx : Expects w.s true k []) (f len : Nat) : recvFrom E f len w = recvFromLoop E f len f w := by
  refine recvFrom_quiet ?_ (by rw [hx.state]; simp)
  unfold flushIncoming
  msimp
  rw [if_neg (by simp [hx.pending]), hx.empty rfl]
  rfl

/-- The next packet is read as a whole. -/
theorem read_one (hc : E.checks = false) {w : World} {k : U16} {p : Packet} {c : Bytes} (hx : Expects w.s true k []) (hp : DataPkt w.s k c p)
    {b : Bytes} {src : Addr} (hn : E.net w.nNet = .dgram b src) (hb : Packet.tryFrom (b.take 1520) = some (.ok p))
    (hok : E.snd w.nSnd = .ok) {len : Nat} (hl : c.length ≤ len) (hne : c ≠ []) :
    ∃ w', (∀ fuel, recvFrom E (fuel + 2) len w = (.ok (c, src), w')) ∧ Expects w'.s true (k + 1) [] ∧
      SameConn w w' ∧ w'.nNet = w.nNet + 1 ∧ Kept w.s w'.s ∧ w'.log = w.log ++ [.wait w.s.patience, .send src (ackReply E w k p).bytes true] := by
  have one : (1 : U16).toNat = 1 := rfl
  obtain ⟨w', h1, h2, h3, h4, _, h6⟩ := recv_one hx hp hn hb hok len
  have hf := hx.fresh rfl
  simp only [if_true] at hf
  obtain ⟨reply, v, sack, g1, _, _, _, g4, g5⟩ := recv_data_at hc (.inl hx.state) hn hb hp.ty hp.id hx.tries hok
  have hva : v.s = { w.s with ackNr := k, remoteWnd := v.s.remoteWnd, theirDelay := v.s.theirDelay } := by
    rw [g1]
    have : p.seqNr = w.s.ackNr + 1 := by rw [hp.seq, hf.1]; bv_omega
    simp [World.heard, World.waited, bumpAck_of_eq this, World.setS, hp.seq]
  have hr : (reply.setWndSize WINDOW_SIZE) = ackReply E w k p := by
    have hkk : (p.seqNr - v.s.ackNr).toNat = 0 := by rw [hp.seq, hva]; simp
    rw [if_neg (by rw [hx.state]; simp)] at g4
    rcases g4 with ⟨g, _⟩ | ⟨g, _⟩
    · rw [g, hva, ackReply, g1]
      rfl
    · omega
  have e := h1 0
  rw [g5 0 len, hr] at e
  have hlog : w'.log = v.log ++ [.send src (ackReply E w k p).bytes true] := by
    have e' := congrArg (fun x => x.2.log) e
    simp only [andThen_ret_snd, flushIncoming_log] at e'
    exact e'.symm
  rw [List.take_of_length_le hl] at h1
  rw [List.drop_eq_nil_of_le hl] at h2
  refine ⟨w', fun fuel => ?_, h2, h3, h4, h6, by rw [hlog, g1]; simp [World.heard, World.waited, World.setS]⟩
  rw [expects_quiet hx, recvFromLoop]
  msimp
  rw [if_neg (by rw [hx.state]; simp), andThen_eq (h1 fuel)]
  simp only [if_neg hne]
  rfl

/-- The packet number 0 arrives before the packet number 65535: it is delivered in its place. -/
theorem read_swapped (hc : E.checks = false) (hok : ∀ n, E.snd n = .ok) {w : World} {p q : Packet} {c d : Bytes} (hx : Expects w.s true 65535 []) (hp : DataPkt w.s 65535 c p)
    (hq : DataPkt w.s 0 d q) {b b' : Bytes} {src src' : Addr} (hn : E.net w.nNet = .dgram b src) (hb : Packet.tryFrom (b.take 1520) = some (.ok q))
    (hn' : E.net (w.nNet + 1) = .dgram b' src') (hb' : Packet.tryFrom (b'.take 1520) = some (.ok p)) {len : Nat} (hl : d.length ≤ len) (hne : d ≠ []) :
    ∃ w', (∀ fuel, recvFrom E (fuel + 2) len w = (.ok (d, src'), w')) ∧ w.log <+: w'.log := by
  have hf := hx.fresh rfl
  simp only [if_true] at hf
  have h34 : (65535 : U16) - 1 = 65534 := rfl
  rw [h34] at hf
  obtain ⟨reply, v, sack, g1, _, _, _, _, g5⟩ := recv_data_at hc (.inl hx.state) hn hb hq.ty hq.id hx.tries (hok _)
  have hvs : v.s = { w.s with remoteWnd := v.s.remoteWnd, theirDelay := v.s.theirDelay } := by
    rw [g1]
    have : q.seqNr ≠ w.s.ackNr + 1 := by rw [hq.seq, hf.1]; decide
    simp [World.heard, World.waited, bumpAck_of_ne this, World.setS]
  have hkeep : v.s.keep .data q = { v.s with incoming := [q] } := by
    unfold Socket.keep
    rw [if_pos]
    · unfold Socket.insertIntoBuffer
      rw [hvs, hx.empty rfl]
      rfl
    · refine ⟨rfl, ?_⟩
      rw [hq.seq, hvs]
      show 0 < ((0 : U16) - w.s.lastDropped).toNat
      rw [hf.2]; decide
  obtain ⟨w1, hw1⟩ : ∃ w1 : World, w1 = { (v.setS { v.s with incoming := [q] }) with
    nNow := v.nNow + 1, nSnd := v.nSnd + 1, log := v.log ++ [.send src (reply.setWndSize WINDOW_SIZE).bytes true] } := ⟨_, rfl⟩
  have hs1 : w1.s = { v.s with incoming := [q] } := by rw [hw1]; rfl
  have ha1 : w1.s.ackNr = 65534 := by rw [hs1, hvs]; exact hf.1
  have hp1 : w1.s.pending = [] := by rw [hs1, hvs]; exact hx.pending
  have hi1 : w1.s.incoming = [q] := by rw [hs1]
  have e1 : ∀ fuel, recv E (fuel + 2) len w = (.ok ([], src), w1) := by
    intro fuel
    rw [g5 fuel len, hkeep, ← hw1]
    have : flushIncoming E len w1 = (.ok [], w1) := by
      unfold flushIncoming
      simp only [overflowIf_release hc]
      msimp
      simp only [hp1, hi1, ne_eq, not_true_eq_false, if_false]
      rw [if_neg (by rw [ha1, hq.seq]; decide)]
      rfl
    rw [andThen_eq this]
    rfl
  have hn1 : w1.nNet = w.nNet + 1 := by rw [hw1, g1]; rfl
  have hst1 : w1.s.state = .connected := by rw [hs1, hvs]; exact hx.state
  have hid1 : p.connectionId = w1.s.senderId ∨ p.connectionId = w1.s.receiverId := by rw [hs1, hvs]; exact hp.id
  rw [← hn1] at hn'
  obtain ⟨reply', v', sack', k1, _, _, _, _, k5⟩ := recv_data_at hc (.inl hst1) hn' hb' hp.ty hid1 (by rw [hs1, hvs]; exact hx.tries) (hok _)
  have hvs' : v'.s = { w1.s with ackNr := 65535, remoteWnd := v'.s.remoteWnd, theirDelay := v'.s.theirDelay } := by
    rw [k1]
    have : p.seqNr = w1.s.ackNr + 1 := by rw [hp.seq, ha1]; decide
    simp [World.heard, World.waited, bumpAck_of_eq this, World.setS, hp.seq]
  have hkeep' : v'.s.keep .data p = { v'.s with incoming := [q, p] } := by
    unfold Socket.keep
    rw [if_pos]
    · unfold Socket.insertIntoBuffer
      have : v'.s.incoming = [q] := by rw [hvs']; exact hi1
      rw [this]
      have : Socket.insertPkt [q] p = [q, p] := by
        unfold Socket.insertPkt Socket.afterLast
        simp [hp.seq, hq.seq]
      rw [this]
    · refine ⟨rfl, ?_⟩
      rw [hp.seq, hvs']
      show 0 < ((65535 : U16) - w1.s.lastDropped).toNat
      rw [hs1, hvs]
      show 0 < ((65535 : U16) - w.s.lastDropped).toNat
      rw [hf.2]; decide
  obtain ⟨w2, hw2⟩ : ∃ w2 : World, w2 = { (v'.setS { v'.s with incoming := [q, p] }) with
    nNow := v'.nNow + 1, nSnd := v'.nSnd + 1, log := v'.log ++ [.send src' (reply'.setWndSize WINDOW_SIZE).bytes true] } := ⟨_, rfl⟩
  have hs2 : w2.s = { v'.s with incoming := [q, p] } := by rw [hw2]; rfl
  have ha2 : w2.s.ackNr = 65535 := by rw [hs2, hvs']
  have hp2 : w2.s.pending = [] := by rw [hs2, hvs']; exact hp1
  have hi2 : w2.s.incoming = [q, p] := by rw [hs2]
  have e2 : ∀ fuel, recv E (fuel + 2) len w1 = (.ok (d, src'), w2.setS (w2.s.takeHead d len)) := by
    intro fuel
    rw [k5 fuel len, hkeep', ← hw2]
    have : flushIncoming E len w2 = (.ok d, w2.setS (w2.s.takeHead d len)) := by
      unfold flushIncoming
      simp only [overflowIf_release hc]
      msimp
      simp only [hp2, hi2, ne_eq, not_true_eq_false, if_false]
      rw [if_pos (by rw [ha2, hq.seq]; decide), hq.payload]
      show (Res.ok (d.take len), _) = _
      rw [List.take_of_length_le hl]
      rfl
    rw [andThen_eq this]
    rfl
  refine ⟨w2.setS (w2.s.takeHead d len), fun fuel => ?_, ?_⟩
  · rw [expects_quiet hx, recvFromLoop_again (by rw [hx.state]; simp) (e1 fuel), recvFromLoop]
    msimp
    rw [if_neg (by rw [hst1]; simp), andThen_eq (e2 fuel)]
    simp only [if_neg hne]
    rfl
  · have l1 : w1.log = w.log ++ [.wait w.s.patience, .send src (reply.setWndSize WINDOW_SIZE).bytes true] := by
      rw [hw1, g1]; simp [World.heard, World.waited, World.setS]
    show w.log <+: w2.log
    rw [hw2, k1]
    simp only [World.heard, World.waited, World.setS, l1, List.append_assoc]
    exact List.prefix_append _ _

end Utp
