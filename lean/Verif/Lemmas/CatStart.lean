import Verif.Lemmas.Cat
import Verif.Props.Lossless
/-!
# The handshake between `connect` and a socket that is only bound
-/

namespace Utp
open M

variable {E : Env}

/-- What `connect` does after its first SYN was sent. -/
def awaitReply (E : Env) (fuel : Nat) : M Unit :=
  M.andThen (M.andThen (udpRecv E (some 1000) BUF_SIZE) fun x =>
    match x with
    | .ok (b, src) => M.andThen (modS fun s => { s with connectedTo := src }) fun _ => M.ret b
    | .error k => if isTimeout k then synLoop E 4 2000 else M.throw (.os k)) fun b =>
  M.andThen getS fun s => M.andThen (orPanic (Packet.tryFrom b)) fun x =>
    match x with
    | .error e => M.throw (.parse e)
    | .ok pkt => M.andThen (handlePacket E fuel (recv E fuel BUF_SIZE) pkt s.connectedTo) fun _ => M.ret ()

theorem grows_synLoop : ∀ n t, Grows (synLoop E n t)
  | 0, _ => .ret
  | n + 1, t => by
    unfold synLoop
    refine .bind .getS fun _ => .bind .now fun _ => .bind .udpSend fun _ => .bind .modS fun _ => .bind .udpRecv fun x => ?_
    cases x with
    | ok y => exact .bind .modS fun _ => .ret
    | error k => exact .ite (grows_synLoop n _) .throw

theorem grows_awaitReply (fuel : Nat) : Grows (awaitReply E fuel) := by
  refine .andThen (.andThen .udpRecv fun x => ?_) fun b => .andThen .getS fun s => .andThen .orPanic fun x => ?_
  · cases x with
    | ok y => exact .andThen .modS fun _ => .ret
    | error k => exact .ite (grows_synLoop _ _) .throw
  · cases x with
    | error e => exact .throw
    | ok pkt => exact .andThen (grows_handlePacket (grows_recv _ _) _ _ _) fun _ => .ret

/-- The world of `connect` after its first SYN. -/
def synWorld (E : Env) (la a0 addr : Addr) : World :=
  { s := { Socket.fromRawParts la a0 (E.rand 0) with connectedTo := addr, state := .synSent }, nNow := 1, nRand := 1, nNet := 0, nSnd := 1
    log := [.send addr (synPacket (Socket.fromRawParts la a0 (E.rand 0)) (E.now 0)).bytes true] }

theorem connectM_first (hok : E.snd 0 = .ok) (fuel : Nat) (la a0 addr : Addr) : connectM E fuel addr (freshWorld E la a0) = awaitReply E fuel (synWorld E la a0 addr) := by
  obtain ⟨w1, hw1⟩ : ∃ w1, w1 = (freshWorld E la a0).setS { (freshWorld E la a0).s with connectedTo := addr } := ⟨_, rfl⟩
  have e : connectM E fuel addr (freshWorld E la a0) =
      M.andThen (synLoop E MAX_SYN_RETRIES INITIAL_CONGESTION_TIMEOUT) (fun b => M.andThen getS fun s =>
        M.andThen (orPanic (Packet.tryFrom b)) fun x =>
          match x with
          | .error e => M.throw (.parse e)
          | .ok pkt => M.andThen (handlePacket E fuel (recv E fuel BUF_SIZE) pkt s.connectedTo) fun _ => M.ret ()) w1 := by
    rw [hw1]; rfl
  have e2 : synLoop E MAX_SYN_RETRIES INITIAL_CONGESTION_TIMEOUT w1 = M.andThen (udpRecv E (some 1000) BUF_SIZE) (fun x =>
    match x with
    | .ok (b, src) => M.andThen (modS fun s => { s with connectedTo := src }) fun _ => M.ret b
    | .error k => if isTimeout k then synLoop E 4 2000 else M.throw (.os k)) (synWorld E la a0 addr) := by
    show synLoop E (4 + 1) 1000 w1 = _
    unfold synLoop
    msimp
    have hok' : E.snd w1.nSnd = .ok := by rw [hw1]; exact hok
    rw [andThen_eq (udpSend_ok (w := { w1 with nNow := w1.nNow + 1 }) hok'), hw1]
    rfl
  rw [e]
  unfold awaitReply
  simp only [M.andThen] at e2 ⊢
  rw [e2]

/-- What a State packet does in state SynSent. -/
theorem handlePacket_answer {pkt : Packet} {src : Addr} {w : World} (ht : pkt.getType = some .state) (hst : w.s.state = .synSent) (hseq : w.s.seqNr ≠ 65535)
    (fuel : Nat) (rec : M (Bytes × Addr)) :
    handlePacket E fuel rec pkt src w = (.ok none, { w with nNow := w.nNow + 2, s := { w.s with
        connectedTo := src, ackNr := pkt.seqNr, seqNr := w.s.seqNr + 1, state := .connected, lastAcked := pkt.ackNr
        remoteWnd := pkt.wndSize, theirDelay := absDiff (E.now w.nNow) pkt.timestamp, lastAckedTs := E.now (w.nNow + 1) } }) := by
  have e : handlePacket E fuel rec pkt src w = dispatch E fuel rec pkt src .synSent .state
      { w with nNow := w.nNow + 1, s := { w.s.bumpAck pkt with remoteWnd := pkt.wndSize, theirDelay := absDiff (E.now w.nNow) pkt.timestamp } } := by
    simp only [handlePacket]
    msimp
    simp only [ht]
    msimp
    simp only [World.setS, bumpAck_state, hst, ne_eq, not_true_eq_false, false_and, and_false, if_false]
  rw [e]
  simp only [dispatch, onSynAck]
  msimp
  have : decide (w.s.seqNr = 65535) = false := by simpa using hseq
  simp only [bumpAck_seqNr, this, overflowIf_false]
  msimp
  simp only [World.setS, bumpAck_localAddr, bumpAck_incoming, bumpAck_sendWindow, bumpAck_receiverId, bumpAck_senderId, bumpAck_lastDropped,
    bumpAck_unsent, bumpAck_dupAcks, bumpAck_rtt, bumpAck_rttVar, bumpAck_pending,
    bumpAck_currWindow, bumpAck_baseDelays, bumpAck_currDelays, bumpAck_lastRollover, bumpAck_congTimeout, bumpAck_cwnd,
    bumpAck_maxRetries]

/-- The reply arrives. -/
theorem awaitReply_got {r : Packet} {src : Addr} (hr : Plain r .state) (hl : r.bytes.length = 20) (hn : E.net 0 = .dgram r.bytes src) (la a0 addr : Addr) :
    ∃ w, (∀ fuel, awaitReply E fuel (synWorld E la a0 addr) = (.ok (), w)) ∧ (∃ td ts, w.s = connectedSocket E la a0 src r td ts) ∧ w.nNet = 1 ∧
      w.log = (synWorld E la a0 addr).log ++ [.wait (some 1000)] := by
  obtain ⟨w1, hw1⟩ : ∃ w1 : World, w1 = { (synWorld E la a0 addr) with
      nNet := 1, log := (synWorld E la a0 addr).log ++ [.wait (some 1000)], s := { (synWorld E la a0 addr).s with connectedTo := src } } := ⟨_, rfl⟩
  have hb : r.bytes.take BUF_SIZE = r.bytes := List.take_of_length_le (by rw [hl]; decide)
  have hsyn : w1.s.state = .synSent := by rw [hw1]; rfl
  have hseq : w1.s.seqNr ≠ 65535 := by rw [hw1]; exact (by decide : (1 : U16) ≠ 65535)
  have h1 := handlePacket_answer (E := E) (src := src) hr.ty hsyn hseq
  have hc : w1.s.connectedTo = src := by rw [hw1]
  have h2 : M.andThen (udpRecv E (some 1000) BUF_SIZE) (fun x =>
    match x with
    | .ok (b, src) => M.andThen (modS fun s => { s with connectedTo := src }) fun _ => M.ret b
    | .error k => if isTimeout k then synLoop E 4 2000 else M.throw (.os k)) (synWorld E la a0 addr) = (.ok r.bytes, w1) := by
    have hn' : E.net (synWorld E la a0 addr).nNet = .dgram r.bytes src := hn
    unfold M.andThen udpRecv
    simp only [hn', hb]
    rw [hw1]
    rfl
  have h3 : orPanic (Packet.tryFrom r.bytes) w1 = (.ok (.ok r), w1) := by
    rw [hr.accepted]; rfl
  refine ⟨{ w1 with nNow := w1.nNow + 2, s := { w1.s with
        connectedTo := src, ackNr := r.seqNr, seqNr := w1.s.seqNr + 1, state := .connected, lastAcked := r.ackNr
        remoteWnd := r.wndSize, theirDelay := absDiff (E.now w1.nNow) r.timestamp, lastAckedTs := E.now (w1.nNow + 1) } }, fun fuel => ?_,
    ⟨absDiff (E.now w1.nNow) r.timestamp, E.now (w1.nNow + 1), ?_⟩, ?_, ?_⟩
  · unfold awaitReply
    rw [andThen_eq h2, andThen_eq (show getS w1 = (.ok w1.s, w1) from rfl), andThen_eq h3]
    simp only [hc]
    rw [andThen_eq (h1 _ _)]
    rfl
  · rw [hw1]; rfl
  · rw [hw1]
  · rw [hw1]

/-- A SYN arrives at a socket that is only bound. -/
theorem recv_syn {w : World} {p : Packet} {src : Addr} (hs : w.s.state = .new) (hi : w.s.incoming = []) (hpe : w.s.pending = []) (ht : 0 < w.s.maxRetries.toNat)
    (hn : E.net w.nNet = .dgram p.bytes src) (hp : Plain p .syn) (hl : p.bytes.length = 20) (hc : p.connectionId ≠ 65535) (hok : E.snd w.nSnd = .ok) :
    ∃ w', (∀ fuel len, recv E (fuel + 2) len w = (.ok ([], src), w')) ∧
      (∃ td, w'.s = { w.s with connectedTo := src, ackNr := p.seqNr, seqNr := E.rand w.nRand, receiverId := p.connectionId + 1, senderId := p.connectionId
                               state := .connected, lastDropped := p.seqNr, remoteWnd := p.wndSize, theirDelay := td }) ∧ w'.nNet = w.nNet + 1 ∧
      ∃ r t, AckPkt (E.rand w.nRand) p.seqNr p.connectionId r ∧ w'.log = w.log ++ [.wait t, .send src r.bytes true] := by
  have hb : Packet.tryFrom (p.bytes.take 1520) = some (.ok p) := by
    rw [List.take_of_length_le (by rw [hl]; omega)]
    exact hp.accepted
  obtain ⟨s, hs1⟩ : ∃ s : Socket, s = { w.s with
          connectedTo := src, ackNr := p.seqNr, seqNr := E.rand w.nRand, receiverId := p.connectionId + 1
          senderId := p.connectionId, state := .connected, lastDropped := p.seqNr
          remoteWnd := p.wndSize, theirDelay := absDiff (E.now w.nNow) p.timestamp } := ⟨_, rfl⟩
  obtain ⟨v, hv⟩ : ∃ v : World, v = { ((w.waited w.s.patience).setS s) with nNow := w.nNow + 2, nRand := w.nRand + 1 } := ⟨_, rfl⟩
  obtain ⟨r, hr⟩ : ∃ r, r = s.prepareReply (E.now (w.nNow + 1)) p .state := ⟨_, rfl⟩
  have hh : ∀ fuel rec, handlePacket E fuel rec p src (w.waited w.s.patience) = (.ok (some r), v) := by
    intro fuel rec
    rw [handlePacket_syn_new fuel rec src (w := w.waited w.s.patience) hp.ty hs, if_neg (by rintro ⟨_, h⟩; exact hc h), hr, hv, hs1]
    rfl
  have hvn : E.snd v.nSnd = .ok := by rw [hv]; exact hok
  have hfl : ∀ len, flushIncoming E len (v.answered src r) = (.ok [], v.answered src r) := by
    intro len
    unfold flushIncoming
    msimp
    have h1 : (v.answered src r).s.incoming = [] := by rw [hv, hs1]; exact hi
    have h2 : (v.answered src r).s.pending = [] := by rw [hv, hs1]; exact hpe
    simp only [h1, h2, ne_eq, not_true_eq_false, if_false]
    rfl
  refine ⟨v.answered src r, fun fuel len => ?_, ⟨absDiff (E.now w.nNow) p.timestamp, by rw [hv, hs1]; rfl⟩, by rw [hv]; rfl, r.setWndSize WINDOW_SIZE, w.s.patience, ?_, ?_⟩
  · rw [recv_dgram hn ht hb, recvPacket_eq (hh _ _) (sendReply_some hvn src r) hp.ty]
    have hk : (v.answered src r).setS ((v.answered src r).s.keep .syn p) = v.answered src r := by simp [Socket.keep, World.setS]
    rw [hk, andThen_eq (hfl len)]
    rfl
  · obtain ⟨f1, f2, f3, _⟩ := prepareReply_facts s (E.now (w.nNow + 1)) p .state
    have hpl := prepareReply_plain s (E.now (w.nNow + 1)) p .state
    rw [← hr] at f1 f2 f3 hpl
    refine ⟨hpl.setWndSize _, ?_, ?_, ?_, ?_⟩
    · rw [hr]; simp [Socket.prepareReply, show Packet.new.bytes.length = 20 by decide]
    · simp only [setWndSize_ackNr, f2]; rw [hs1]
    · simp only [setWndSize_connectionId, f3]; rw [hs1]
    · simp only [setWndSize_seqNr, f1]; rw [hs1]
  · rw [hv]
    simp [World.answered, World.waited, World.setS]

end Utp
