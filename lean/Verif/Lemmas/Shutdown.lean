import Verif.Spec.Shutdown
import Verif.Lemmas.Lossless
/-!
# Closing over a network that loses nothing
-/

namespace Utp
open M

variable {E : Env}

/-- Nothing is left to read or to be acknowledged. -/
structure Settled (s : Socket) : Prop where
  incoming : s.incoming = []
  pending : s.pending = []
  sendWindow : s.sendWindow = []

theorem flush_settled {w : World} (h : Settled w.s) (len : Nat) : flushIncoming E len w = (.ok [], w) := by
  unfold flushIncoming
  msimp
  simp only [h.incoming, h.pending, ne_eq, not_true_eq_false, if_false]
  rfl

theorem over_of {w : World} (hs : w.s.state = .closed) (h : Settled w.s) : Over E w := by
  refine ⟨fun fuel len => ?_, fun fuel buf => ?_, fun fuel => ?_, fun fuel => ?_⟩
  · have h1 : recvFrom E (fuel + 1) len w = (.ok ([], w.s.connectedTo), w) := by
      rw [recvFrom_quiet (flush_settled h len) (by rw [hs]; simp), recvFromLoop]
      msimp
      rw [if_pos hs]
    exact ⟨w.s.connectedTo, by rw [runOp, bind_def, andThen_eq h1]; rfl⟩
  · have h1 : sendTo E (fuel + 1) buf w = (.err (.sock .connectionClosed), w) := by
      unfold sendTo
      msimp
      rw [if_pos hs]
    rw [runOp, bind_def]
    unfold M.andThen
    rw [h1]
  · have h1 : Utp.flush E (fuel + 1) w = (.ok (), w) := by
      unfold Utp.flush M.whileM
      msimp
      simp only [h.sendWindow, ne_eq, not_true_eq_false, decide_false]
      rfl
    rw [runOp, bind_def, andThen_eq h1]
    rfl
  · have h1 : Utp.close E (fuel + 1) w = (.ok (), w) := by
      unfold Utp.close
      msimp
      rw [if_pos (.inl hs)]
    rw [runOp, bind_def, andThen_eq h1]
    rfl

/-- The FIN of the peer, in sequence. -/
structure FinPkt (q id : U16) (p : Packet) : Prop where
  plain : Plain p .fin
  len : p.bytes.length = 20
  seq : p.seqNr = q
  id : p.connectionId = id

/-- A FIN arrives on an open connection. -/
theorem recv_closing {w : World} {p : Packet} {src : Addr} {q : U16} (hs : w.s.state = .connected ∨ w.s.state = .finSent) (hq : Settled w.s) (ht : 0 < w.s.maxRetries.toNat)
    (hn : E.net w.nNet = .dgram p.bytes src) (hp : FinPkt q w.s.receiverId p) (htk : Takes w.s q) (hok : E.snd w.nSnd = .ok) :
    ∃ w', (∀ fuel len, recv E (fuel + 2) len w = (.ok ([], src), w')) ∧ w'.s.state = .closed ∧ Settled w'.s ∧
      ∃ r t, AckPkt w.s.seqNr q w.s.senderId r ∧ w'.log = w.log ++ [.wait t, .send src r.bytes true] := by
  have one : (1 : U16).toNat = 1 := rfl
  have hb : Packet.tryFrom (p.bytes.take 1520) = some (.ok p) := by
    rw [List.take_of_length_le (by rw [hp.len]; omega)]
    exact hp.plain.accepted
  obtain ⟨v, hv⟩ : ∃ v, v = (w.waited w.s.patience).heard E p := ⟨_, rfl⟩
  have hvs : v.s = { w.s with ackNr := q, remoteWnd := p.wndSize, theirDelay := absDiff (E.now w.nNow) p.timestamp } := by
    rw [hv]
    have : w.s.bumpAck p = { w.s with ackNr := q } := by
      unfold Socket.bumpAck
      rcases htk with ⟨h1, _⟩ | ⟨h1, _⟩
      · rw [if_pos (by rw [hp.seq, ← h1]; bv_omega), hp.seq]
      · rw [if_neg (by rw [hp.seq, h1]; intro h'; bv_omega)]
        rw [← h1]
    simp only [World.heard, World.waited, World.setS, this]
  obtain ⟨r, hr⟩ : ∃ r, r = v.s.prepareReply (E.now v.nNow) p .state := ⟨_, rfl⟩
  obtain ⟨v2, hv2⟩ : ∃ v2 : World, v2 = { (v.setS { v.s with state := .closed }) with nNow := v.nNow + 1 } := ⟨_, rfl⟩
  have hfin : onFin E p v = (.ok (some r), v2) := by
    unfold onFin withSack
    msimp
    have : v.s.ackNr = p.seqNr := by rw [hvs, hp.seq]
    rw [if_neg (by rw [this]; simp), hv2, hr]
    rfl
  have hh : ∀ fuel rec, handlePacket E fuel rec p src (w.waited w.s.patience) = (.ok (some r), v2) := by
    intro fuel rec
    rw [handlePacket_takes (w := w.waited w.s.patience) hp.plain.ty (.inr (.inr (.inr hp.id))), ← hv]
    have : (w.waited w.s.patience).s.state = w.s.state := rfl
    rw [this]
    rcases hs with h | h <;> rw [h] <;> exact hfin
  have hv2n : v2.nSnd = w.nSnd := by rw [hv2, hv]; rfl
  have hset : Settled (v2.answered src r).s := by
    have : (v2.answered src r).s = { v.s with state := .closed } := by rw [hv2]; rfl
    rw [this, hvs]
    exact ⟨hq.incoming, hq.pending, hq.sendWindow⟩
  refine ⟨v2.answered src r, fun fuel len => ?_, by rw [hv2]; rfl, hset, r.setWndSize WINDOW_SIZE, w.s.patience, ?_, ?_⟩
  · rw [recv_dgram hn ht hb, recvPacket_eq (hh _ _) (sendReply_some (by rw [hv2n]; exact hok) src r) hp.plain.ty]
    have hk : (v2.answered src r).setS ((v2.answered src r).s.keep .fin p) = v2.answered src r := by simp [Socket.keep, World.setS]
    rw [hk, andThen_eq (flush_settled hset len)]
    rfl
  · obtain ⟨f1, f2, f3, _⟩ := prepareReply_facts v.s (E.now v.nNow) p .state
    have hpl := (prepareReply_plain v.s (E.now v.nNow) p .state)
    rw [← hr] at f1 f2 f3 hpl
    refine ⟨hpl.setWndSize _, ?_, ?_, ?_, ?_⟩
    · rw [hr]; simp [Socket.prepareReply, show Packet.new.bytes.length = 20 by decide]
    · simp only [setWndSize_ackNr, f2]; rw [hvs]
    · simp only [setWndSize_connectionId, f3]; rw [hvs]
    · simp only [setWndSize_seqNr, f1]; rw [hvs]
  · rw [hv2, hv]
    simp [World.answered, World.heard, World.waited, World.setS]

/-- The acknowledgement of the FIN arrives. -/
theorem recv_finAck {w : World} {r : Packet} {src : Addr} {q : U16} (hs : w.s.state = .finSent) (hq : Settled w.s) (ht : 0 < w.s.maxRetries.toNat)
    (hn : E.net w.nNet = .dgram r.bytes src) (hp : AckPkt q w.s.seqNr w.s.receiverId r) :
    ∃ w', (∀ fuel len, recv E (fuel + 2) len w = (.ok ([], src), w')) ∧ w'.s.state = .closed ∧ Settled w'.s ∧ ∃ t, w'.log = w.log ++ [.wait t] := by
  have hb : Packet.tryFrom (r.bytes.take 1520) = some (.ok r) := by
    rw [List.take_of_length_le (by rw [hp.len]; omega)]
    exact hp.plain.accepted
  obtain ⟨v, hv⟩ : ∃ v, v = (w.waited w.s.patience).heard E r := ⟨_, rfl⟩
  obtain ⟨an, ha⟩ := bumpAck_eq w.s r
  have hvs : v.s = { w.s with ackNr := an, remoteWnd := r.wndSize, theirDelay := absDiff (E.now w.nNow) r.timestamp } := by
    rw [hv]
    simp only [World.heard, World.waited, World.setS, ha]
  obtain ⟨v2, hv2⟩ : ∃ v2 : World, v2 = v.setS { v.s with state := .closed } := ⟨_, rfl⟩
  have hack : onFinAck r v = (.ok none, v2) := by
    unfold onFinAck
    msimp
    have : r.ackNr = v.s.seqNr := by rw [hvs, hp.ack]
    rw [if_pos this, hv2]
  have hh : ∀ fuel rec, handlePacket E fuel rec r src (w.waited w.s.patience) = (.ok none, v2) := by
    intro fuel rec
    rw [handlePacket_takes (w := w.waited w.s.patience) hp.plain.ty (.inr (.inr (.inr hp.id))), ← hv]
    have : (w.waited w.s.patience).s.state = w.s.state := rfl
    rw [this, hs]
    exact hack
  have hset : Settled v2.s := by
    have : v2.s = { v.s with state := .closed } := by rw [hv2]; rfl
    rw [this, hvs]
    exact ⟨hq.incoming, hq.pending, hq.sendWindow⟩
  refine ⟨v2, fun fuel len => ?_, by rw [hv2]; rfl, hset, w.s.patience, ?_⟩
  · rw [recv_dgram hn ht hb, recvPacket_eq (hh _ _) (show sendReply E src none v2 = (.ok (), v2) from rfl) hp.plain.ty]
    have hk : v2.setS (v2.s.keep .state r) = v2 := by simp [Socket.keep, World.setS]
    rw [hk, andThen_eq (flush_settled hset len)]
    rfl
  · rw [hv2, hv]
    simp [World.heard, World.waited, World.setS]

/-- The loop at the end of `close`. -/
def closeLoop (E : Env) (fuel : Nat) : M Unit := whileM fuel (do let s ← getS; return decide (s.state ≠ .closed)) (scratchRecv E fuel)

/-- `close` of a settled connection sends the FIN and waits. -/
theorem close_settled {w : World} (hs : w.s.state = .connected) (hq : Settled w.s) (hok : E.snd w.nSnd = .ok) :
    ∃ w1 p, FinPkt w.s.seqNr w.s.senderId p ∧ w1.s = { w.s with state := .finSent } ∧ w1.nNet = w.nNet ∧ (∃ dst, w1.log = w.log ++ [.send dst p.bytes true]) ∧
      w1.nSnd = w.nSnd + 1 ∧ ∀ fuel, close E (fuel + 1) w = closeLoop E (fuel + 1) w1 := by
  obtain ⟨f1, _, f3⟩ := finPacket_facts w.s (E.now w.nNow)
  refine ⟨{ (w.setS { w.s with state := .finSent }) with
    nNow := w.nNow + 1, nSnd := w.nSnd + 1, log := w.log ++ [.send w.s.connectedTo (finPacket w.s (E.now w.nNow)).bytes true] }, finPacket w.s (E.now w.nNow),
    ⟨finPacket_plain _ _, by simp [finPacket, show Packet.new.bytes.length = 20 by decide], f1, f3⟩, rfl, rfl, ⟨_, rfl⟩, rfl, fun fuel => ?_⟩
  have h1 : flush E (fuel + 1) w = (.ok (), w) := by
    unfold flush whileM
    msimp
    simp only [hq.sendWindow, ne_eq, not_true_eq_false, decide_false]
    rfl
  unfold close
  msimp
  rw [if_neg (by simp [hs]), andThen_eq h1]
  msimp
  rw [andThen_eq (udpSend_ok (w := { w with nNow := w.nNow + 1 }) hok)]
  msimp
  rfl

/-- The loop ends with the packet that closes the socket. -/
theorem closeLoop_one {w w' : World} {x : Bytes × Addr} (hs : w.s.state = .finSent) (h : ∀ fuel len, recv E (fuel + 2) len w = (.ok x, w')) (hs' : w'.s.state = .closed) (fuel : Nat) :
    closeLoop E (fuel + 2) w = (.ok (), w') := by
  have h1 : scratchRecv E (fuel + 2) w = (.ok (), w') := by
    unfold scratchRecv
    rw [bind_def, andThen_eq (h _ _)]
    rfl
  unfold closeLoop
  rw [whileM]
  msimp
  simp only [hs, ne_eq, reduceCtorEq, not_false_eq_true, decide_true]
  rw [andThen_eq h1, whileM]
  msimp
  simp only [hs', not_true_eq_false, decide_false]
  rfl

theorem grows_closeLoop (fuel : Nat) : Grows (closeLoop E fuel) :=
  .whileM (.bind .getS fun _ => .ret) (.bind (grows_recv fuel _) fun _ => .ret) fuel

/-- `recv_from` of a FIN. -/
theorem recvFrom_closing {w w' : World} {src : Addr} (hs : w.s.state = .connected) (hq : Settled w.s) (h : ∀ fuel len, recv E (fuel + 2) len w = (.ok ([], src), w'))
    (hs' : w'.s.state = .closed) (fuel len : Nat) : recvFrom E (fuel + 2) len w = (.ok ([], w'.s.connectedTo), w') := by
  rw [recvFrom_quiet (flush_settled hq len) (by rw [hs]; simp), recvFromLoop]
  msimp
  rw [if_neg (by rw [hs]; simp), andThen_eq (h fuel len)]
  msimp
  rw [recvFromLoop]
  msimp
  rw [if_pos hs']
  rfl

end Utp
