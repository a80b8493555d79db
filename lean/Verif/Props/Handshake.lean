import Verif.Lemmas.Deliver
import Verif.Props.State
import Verif.Props.Time
import Verif.Spec.Handshake
import Verif.Samples
/-!
# The handshake: C08, C39, C40, C41
-/

namespace Utp
open M Packet

variable {E : Env}

theorem synPacket_syn (s : Socket) (t : U32) : IsSyn s.seqNr s.receiverId (synPacket s t).bytes :=
  ⟨⟨_, (synPacket_plain s t).accepted, (synPacket_plain s t).ty, (synPacket_facts s t).1, (synPacket_facts s t).2⟩,
    by simp [synPacket]; decide⟩

/-- How the SYN loop ends, after `n` attempts timed out. -/
inductive LoopEnd (E : Env) (w : World) (timeout : U64) (limit n : Nat) : Res Bytes → World → List Act → Prop
  | noReply {w' : World} : n = limit → LoopEnd E w timeout limit n (.ok []) w' []
  | sendFailed {k : ErrorKind} {b : Bytes} {w' : World} : n < limit → E.snd (w.nSnd + n) = .fail k → IsSyn w.s.seqNr w.s.receiverId b →
      LoopEnd E w timeout limit n (.err (.os k)) w' [.send w.s.connectedTo b false]
  | sending {b : Bytes} {w' : World} : n < limit → E.snd (w.nSnd + n) = .never → IsSyn w.s.seqNr w.s.receiverId b →
      LoopEnd E w timeout limit n .pending w' [.send w.s.connectedTo b false]
  | recvFailed {k : ErrorKind} {acts : List Act} {w' : World} : n < limit → E.net (w.nNet + n) = .fail k → ¬ (NetEvent.fail k).isTimeout →
      SynAttempt w.s.connectedTo w.s.seqNr w.s.receiverId (timeout * 2 ^ n) acts → LoopEnd E w timeout limit n (.err (.os k)) w' acts
  | waiting {acts : List Act} {w' : World} : n < limit → E.net (w.nNet + n) = .never →
      SynAttempt w.s.connectedTo w.s.seqNr w.s.receiverId (timeout * 2 ^ n) acts → LoopEnd E w timeout limit n .pending w' acts
  | got {b : Bytes} {src : Addr} {acts : List Act} {w' : World} : n < limit → E.net (w.nNet + n) = .dgram b src →
      SynAttempt w.s.connectedTo w.s.seqNr w.s.receiverId (timeout * 2 ^ n) acts →
      w'.s = { w.s with connectedTo := src, state := .synSent } → LoopEnd E w timeout limit n (.ok (b.take 1500)) w' acts

theorem synLoop_trace : ∀ n timeout (w : World),
    ∃ (blocks : List (List Act)) (tail : List Act),
      (synLoop E n timeout w).2.log = w.log ++ blocks.flatten ++ tail ∧
      (∀ i acts, blocks[i]? = some acts → SynAttempt w.s.connectedTo w.s.seqNr w.s.receiverId (timeout * 2 ^ i) acts ∧
        (E.net (w.nNet + i)).isTimeout) ∧
      LoopEnd E w timeout n blocks.length (synLoop E n timeout w).1 (synLoop E n timeout w).2 tail := by
  intro n
  induction n with
  | zero => intro timeout w; exact ⟨[], [], by simp [synLoop, pure_def, M.ret], by simp, .noReply rfl⟩
  | succ n ih =>
    intro timeout w
    have h0 : timeout * 2 ^ 0 = timeout := by simp
    unfold synLoop
    msimp
    obtain ⟨b, hb⟩ : ∃ b, b = (synPacket w.s (E.now w.nNow)).bytes := ⟨_, rfl⟩
    have hsyn : IsSyn w.s.seqNr w.s.receiverId b := hb ▸ synPacket_syn _ _
    rw [← hb]
    clear hb
    rcases hs : E.snd w.nSnd with _ | k | _
    · rw [andThen_eq (udpSend_ok (w := { w with nNow := w.nNow + 1 }) hs)]
      msimp
      obtain ⟨w1, hw1⟩ : ∃ w1 : World, w1 = { w with nNow := w.nNow + 1, nSnd := w.nSnd + 1, log := w.log ++ [.send w.s.connectedTo b true], s := { w.s with state := .synSent } } := ⟨_, rfl⟩
      show ∃ blocks tail, (M.andThen (udpRecv E (some timeout) BUF_SIZE) _ _).2.log = _ ∧ _ ∧ LoopEnd _ _ _ _ _ (M.andThen (udpRecv E (some timeout) BUF_SIZE) _ _).1 (M.andThen (udpRecv E (some timeout) BUF_SIZE) _ _).2 _
      have e : (World.setS { w with nNow := w.nNow + 1, nSnd := w.nSnd + 1, log := w.log ++ [.send w.s.connectedTo b true] } { w.s with state := .synSent }) = w1 := by
        rw [hw1]; rfl
      rw [e]
      have hat : ∀ _ : Nat, SynAttempt w.s.connectedTo w.s.seqNr w.s.receiverId (timeout * 2 ^ 0) [.send w.s.connectedTo b true, .wait (some timeout)] :=
        fun _ => ⟨b, hsyn, by rw [h0]⟩
      have hw1n : w1.nNet = w.nNet ∧ w1.nSnd = w.nSnd + 1 := by rw [hw1]; exact ⟨rfl, rfl⟩
      have hw1l : w1.log = w.log ++ [.send w.s.connectedTo b true] := by rw [hw1]
      have hw1s : w1.s = { w.s with state := .synSent } := by rw [hw1]
      clear e hw1
      rcases hn : E.net w.nNet with ⟨b0, src⟩ | k | _
      · rw [andThen_eq (udpRecv_dgram (by rw [hw1n.1]; exact hn) _ _)]
        simp only
        msimp
        refine ⟨[], [.send w.s.connectedTo b true, .wait (some timeout)], ?_, by simp, .got (by simp) (by simpa using hn) (hat 0) ?_⟩
        · simp [World.setS, World.waited, hw1l]
        · simp only [World.setS, World.waited, hw1s]
      · rw [andThen_eq (udpRecv_fail (by rw [hw1n.1]; exact hn) _ _)]
        simp only
        msimp
        split
        · rename_i hto
          have hto : (NetEvent.fail k).isTimeout := by
            simp only [isTimeout, Bool.or_eq_true, decide_eq_true_eq] at hto
            simp only [NetEvent.isTimeout, NetEvent.fail.injEq]
            exact hto.symm
          obtain ⟨w2, hw2⟩ : ∃ w2, w2 = w1.waited (some timeout) := ⟨_, rfl⟩
          rw [← hw2]
          have hw2s : w2.s = { w.s with state := .synSent } := by rw [hw2, ← hw1s]; rfl
          have hw2n : w2.nNet = w.nNet + 1 ∧ w2.nSnd = w.nSnd + 1 := by rw [hw2, ← hw1n.1, ← hw1n.2]; exact ⟨rfl, rfl⟩
          have hw2l : w2.log = w.log ++ [.send w.s.connectedTo b true, .wait (some timeout)] := by
            rw [hw2]; show w1.log ++ _ = _; rw [hw1l]; simp
          obtain ⟨blocks, tail, g1, g2, g3⟩ := ih (timeout * 2) w2
          have hpow : ∀ i, timeout * 2 * 2 ^ i = timeout * 2 ^ (i + 1) := by
            intro i
            rw [BitVec.pow_succ, BitVec.mul_assoc, BitVec.mul_comm 2]
          have hsat : ∀ {i acts}, SynAttempt w2.s.connectedTo w2.s.seqNr w2.s.receiverId (timeout * 2 * 2 ^ i) acts →
              SynAttempt w.s.connectedTo w.s.seqNr w.s.receiverId (timeout * 2 ^ (i + 1)) acts := by
            intro i acts h
            rw [hw2s, hpow] at h
            exact h
          have hnn : w2.nNet + blocks.length = w.nNet + (blocks.length + 1) := by omega
          have hnm : w2.nSnd + blocks.length = w.nSnd + (blocks.length + 1) := by omega
          refine ⟨[.send w.s.connectedTo b true, .wait (some timeout)] :: blocks, tail, ?_, ?_, ?_⟩
          · rw [g1, hw2l]; simp
          · intro i a hi
            cases i with
            | zero =>
              simp only [List.getElem?_cons_zero, Option.some.injEq] at hi
              rw [← hi]
              exact ⟨hat 0, by simpa [hn] using hto⟩
            | succ i =>
              simp only [List.getElem?_cons_succ] at hi
              obtain ⟨q1, q2⟩ := g2 i a hi
              refine ⟨hsat q1, ?_⟩
              rw [hw2n.1, Nat.add_right_comm] at q2
              exact q2
          · simp only [List.length_cons]
            have hc : w2.s.connectedTo = w.s.connectedTo ∧ w2.s.seqNr = w.s.seqNr ∧ w2.s.receiverId = w.s.receiverId := by
              rw [hw2s]; exact ⟨rfl, rfl, rfl⟩
            generalize (synLoop E n (timeout * 2) w2).1 = R at g3 ⊢
            generalize (synLoop E n (timeout * 2) w2).2 = W at g3 ⊢
            cases g3 with
            | noReply h => exact .noReply (by omega)
            | sendFailed h1 h2 h3 =>
              rw [hc.1]; rw [hc.2.1, hc.2.2] at h3
              exact .sendFailed (by omega) (hnm ▸ h2) h3
            | sending h1 h2 h3 =>
              rw [hc.1]; rw [hc.2.1, hc.2.2] at h3
              exact .sending (by omega) (hnm ▸ h2) h3
            | recvFailed h1 h2 h3 h4 => exact .recvFailed (by omega) (hnn ▸ h2) h3 (hsat h4)
            | waiting h1 h2 h4 => exact .waiting (by omega) (hnn ▸ h2) (hsat h4)
            | got h1 h2 h4 h5 => exact .got (by omega) (hnn ▸ h2) (hsat h4) (by rw [h5, hw2s])
        · rename_i hto
          refine ⟨[], [.send w.s.connectedTo b true, .wait (some timeout)], ?_, by simp, .recvFailed (by simp) (by simpa using hn) ?_ (hat 0)⟩
          · simp [World.waited, hw1l]
          · simp only [isTimeout, Bool.or_eq_true, decide_eq_true_eq] at hto
            simp only [NetEvent.isTimeout, NetEvent.fail.injEq]
            exact fun h => hto h.symm
      · rw [andThen_pending (udpRecv_never (by rw [hw1n.1]; exact hn) _ _)]
        refine ⟨[], [.send w.s.connectedTo b true, .wait (some timeout)], ?_, by simp, .waiting (by simp) (by simpa using hn) (hat 0)⟩
        simp [World.waited, hw1l]
    · rw [andThen_err (udpSend_fail (w := { w with nNow := w.nNow + 1 }) hs)]
      exact ⟨[], [.send w.s.connectedTo b false], by simp, by simp, .sendFailed (by simp) (by simpa using hs) hsyn⟩
    · rw [andThen_pending (udpSend_never (w := { w with nNow := w.nNow + 1 }) hs)]
      exact ⟨[], [.send w.s.connectedTo b false], by simp, by simp, .sending (by simp) (by simpa using hs) hsyn⟩

/-- What a packet does in state SynSent. -/
theorem handlePacket_synSent (fuel : Nat) (rec : M (Bytes × Addr)) {pkt : Packet} (src : Addr) {w : World} {ty : PacketType}
    (ht : pkt.getType = some ty) (hst : w.s.state = .synSent) (hseq : w.s.seqNr ≠ 65535) :
    (ty = .state → ∃ td ts, handlePacket E fuel rec pkt src w = (.ok none, { w with nNow := w.nNow + 2, s := { w.s with
        connectedTo := src, ackNr := pkt.seqNr, seqNr := w.s.seqNr + 1, state := .connected, lastAcked := pkt.ackNr
        remoteWnd := pkt.wndSize, theirDelay := td, lastAckedTs := ts } })) ∧
    (ty = .syn → ∃ reply w', handlePacket E fuel rec pkt src w = (.ok (some reply), w') ∧ w'.s.state = .synSent ∧ w'.log = w.log) ∧
    (ty ≠ .state → ty ≠ .syn → ∃ w', handlePacket E fuel rec pkt src w = (.err (.sock .invalidReply), w') ∧ w'.log = w.log ∧
      w'.s.state = .synSent) := by
  have e : handlePacket E fuel rec pkt src w = dispatch E fuel rec pkt src .synSent ty
      { w with nNow := w.nNow + 1, s := { w.s.bumpAck pkt with remoteWnd := pkt.wndSize, theirDelay := absDiff (E.now w.nNow) pkt.timestamp } } := by
    simp only [handlePacket]
    msimp
    simp only [ht]
    msimp
    simp only [World.setS, bumpAck_state, hst, ne_eq, not_true_eq_false, false_and, and_false, if_false]
  rw [e]
  refine ⟨?_, ?_, ?_⟩
  · intro h
    subst h
    refine ⟨absDiff (E.now w.nNow) pkt.timestamp, E.now (w.nNow + 1), ?_⟩
    simp only [dispatch, onSynAck]
    msimp
    have : decide (w.s.seqNr = 65535) = false := by simpa using hseq
    simp only [bumpAck_seqNr, this, overflowIf_false]
    msimp
    simp only [World.setS, bumpAck_localAddr, bumpAck_incoming, bumpAck_sendWindow, bumpAck_receiverId, bumpAck_senderId, bumpAck_lastDropped,
      bumpAck_unsent, bumpAck_dupAcks, bumpAck_rtt, bumpAck_rttVar, bumpAck_pending,
      bumpAck_currWindow, bumpAck_baseDelays, bumpAck_currDelays, bumpAck_lastRollover, bumpAck_congTimeout, bumpAck_cwnd,
      bumpAck_maxRetries]
  · intro h
    subst h
    simp only [dispatch, replyWith]
    msimp
    exact ⟨_, _, rfl, by simp [hst], rfl⟩
  · intro h1 h2
    cases ty <;> first | exact absurd rfl h1 | exact absurd rfl h2 | exact ⟨_, rfl, rfl, by simp [hst]⟩

/-- The socket a successful `connect` makes. -/
def connectedSocket (E : Env) (la a0 src : Addr) (pkt : Packet) (td : Int) (ts : U32) : Socket :=
  { Socket.fromRawParts la a0 (E.rand 0) with
    connectedTo := src, ackNr := pkt.seqNr, seqNr := 2, state := .connected, lastAcked := pkt.ackNr
    remoteWnd := pkt.wndSize, theirDelay := td, lastAckedTs := ts }

theorem connectM_trace (fuel : Nat) (la a0 addr : Addr) :
    ∃ (blocks : List (List Act)) (tail : List Act),
      (connectM E fuel addr (freshWorld E la a0)).2.log = blocks.flatten ++ tail ∧
      (∀ i acts, blocks[i]? = some acts → SynAttempt addr 1 (sequentialIdentifiers (E.rand 0)).1 (1000 * 2 ^ i) acts ∧
        (E.net i).isTimeout) ∧
      ConnectEnd E addr (sequentialIdentifiers (E.rand 0)).1 blocks.length (connectM E fuel addr (freshWorld E la a0)).1
        (connectM E fuel addr (freshWorld E la a0)).2.s tail ∧
      ((∃ b src pkt, E.net blocks.length = .dgram b src ∧ Packet.tryFrom (b.take 1500) = some (.ok pkt) ∧ pkt.getType = some .state ∧
        blocks.length < 5 ∧ tail.length = 2) →
        ∃ b src pkt td ts, E.net blocks.length = .dgram b src ∧ Packet.tryFrom (b.take 1500) = some (.ok pkt) ∧
          (connectM E fuel addr (freshWorld E la a0)).2.s = connectedSocket E la a0 src pkt td ts) := by
  obtain ⟨w1, hw1⟩ : ∃ w1, w1 = (freshWorld E la a0).setS { (freshWorld E la a0).s with connectedTo := addr } := ⟨_, rfl⟩
  have e : connectM E fuel addr (freshWorld E la a0) =
      M.andThen (synLoop E MAX_SYN_RETRIES INITIAL_CONGESTION_TIMEOUT) (fun b => M.andThen getS fun s =>
        M.andThen (orPanic (Packet.tryFrom b)) fun x =>
          match x with
          | .error e => M.throw (.parse e)
          | .ok pkt => M.andThen (handlePacket E fuel (recv E fuel BUF_SIZE) pkt s.connectedTo) fun _ => M.ret ()) w1 := by
    rw [hw1]; rfl
  rw [e]
  clear e
  obtain ⟨blocks, tail, g1, g2, g3⟩ := synLoop_trace (E := E) MAX_SYN_RETRIES INITIAL_CONGESTION_TIMEOUT w1
  have f1 : w1.s.connectedTo = addr := by rw [hw1]; rfl
  have f2 : w1.s.seqNr = 1 := by rw [hw1]; rfl
  have f3 : w1.s.receiverId = (sequentialIdentifiers (E.rand 0)).1 := by rw [hw1]; rfl
  have f4 : w1.nNet = 0 := by rw [hw1]; rfl
  have f5 : w1.nSnd = 0 := by rw [hw1]; rfl
  have f6 : w1.log = [] := by rw [hw1]; rfl
  have f7 : INITIAL_CONGESTION_TIMEOUT = 1000 := rfl
  have f8 : MAX_SYN_RETRIES = 5 := rfl
  rw [f6, List.nil_append] at g1
  simp only [f1, f2, f3, f4, f7, Nat.zero_add] at g2
  refine ⟨blocks, tail, ?_⟩
  have hlog : ∀ {r : Res Unit} {w' : World}, w'.log = blocks.flatten ++ tail → w'.log = blocks.flatten ++ tail ∧ ∀ i acts, blocks[i]? = some acts → SynAttempt addr 1 (sequentialIdentifiers (E.rand 0)).1 (1000 * 2 ^ i) acts ∧
        (E.net i).isTimeout := fun h => ⟨h, g2⟩
  rcases hr : synLoop E MAX_SYN_RETRIES INITIAL_CONGESTION_TIMEOUT w1 with ⟨r, w0⟩
  rw [hr] at g1 g3
  simp only at g1 g3
  have hat : ∀ {acts}, SynAttempt w1.s.connectedTo w1.s.seqNr w1.s.receiverId (INITIAL_CONGESTION_TIMEOUT * 2 ^ blocks.length) acts →
      SynAttempt addr 1 (sequentialIdentifiers (E.rand 0)).1 (1000 * 2 ^ blocks.length) acts := by
    intro acts h; rw [f1, f2, f3, f7] at h; exact h
  generalize ht : tail = tl at g3
  cases g3 with
  | noReply h =>
    rw [andThen_eq hr]
    msimp
    subst ht
    have : Packet.tryFrom [] = some (.error .invalidPacketLength) := rfl
    simp only [this]
    msimp
    exact ⟨g1, g2, .noReply (h.trans f8) rfl, by rintro ⟨b, src, pkt, -, -, -, -, h5⟩; simp at h5⟩
  | sendFailed h1 h2 h3 =>
    rw [andThen_err hr]
    subst ht
    rw [f1] at *
    rw [f2, f3] at h3
    rw [f5, Nat.zero_add] at h2
    exact ⟨g1, g2, .sendFailed h1 h2 h3, by rintro ⟨b, src, pkt, -, -, -, -, h5⟩; simp at h5⟩
  | sending h1 h2 h3 =>
    rw [andThen_pending hr]
    subst ht
    rw [f1] at *
    rw [f2, f3] at h3
    rw [f5, Nat.zero_add] at h2
    exact ⟨g1, g2, .sending h1 h2 h3, by rintro ⟨b, src, pkt, -, -, -, -, h5⟩; simp at h5⟩
  | recvFailed h1 h2 h3 h4 =>
    rw [andThen_err hr]
    subst ht
    rw [f4, Nat.zero_add] at h2
    exact ⟨g1, g2, .recvFailed h1 h2 h3 (hat h4), by rintro ⟨b, src, pkt, h5, -⟩; rw [h2] at h5; simp at h5⟩
  | waiting h1 h2 h4 =>
    rw [andThen_pending hr]
    subst ht
    rw [f4, Nat.zero_add] at h2
    exact ⟨g1, g2, .waiting h1 h2 (hat h4), by rintro ⟨b, src, pkt, h5, -⟩; rw [h2] at h5; simp at h5⟩
  | @got b src _ _ h1 h2 h4 h5 =>
    rw [andThen_eq hr]
    msimp
    subst ht
    rw [f4, Nat.zero_add] at h2
    have hs : w0.s = { Socket.fromRawParts la a0 (E.rand 0) with connectedTo := src, state := .synSent } := by
      rw [h5, hw1]; rfl
    rcases hp : Packet.tryFrom (b.take 1500) with _ | x
    · exact absurd hp (tryFrom_some _)
    · msimp
      cases x with
      | error e =>
        simp only
        msimp
        refine ⟨g1, g2, .badReply h1 h2 hp (hat h4), ?_⟩
        rintro ⟨b', src', pkt, h6, h7, -⟩
        rw [h2] at h6
        cases h6
        rw [hp] at h7
        simp at h7
      | ok pkt =>
        simp only
        obtain ⟨ty, hty, -⟩ := (C02_first_bytes hp).1
        obtain ⟨k1, k2, k3⟩ := handlePacket_synSent (E := E) fuel (recv E fuel BUF_SIZE) (pkt := pkt) w0.s.connectedTo (w := w0) hty (by rw [hs])
          (by rw [hs]; show (1 : U16) ≠ 65535; decide)
        by_cases c1 : ty = .state
        · obtain ⟨td, ts, k⟩ := k1 c1
          rw [andThen_eq k]
          msimp
          have hs' : (({ w0.s with
            connectedTo := w0.s.connectedTo, ackNr := pkt.seqNr, seqNr := w0.s.seqNr + 1, state := .connected, lastAcked := pkt.ackNr
            remoteWnd := pkt.wndSize, theirDelay := td, lastAckedTs := ts } : Socket)) = connectedSocket E la a0 src pkt td ts := by
            rw [hs]; rfl
          simp only [hs']
          exact ⟨g1, g2, .connected h1 h2 hp (c1 ▸ hty) rfl rfl rfl rfl rfl rfl (hat h4), fun _ => ⟨b, src, pkt, td, ts, h2, hp, rfl⟩⟩
        · have no : ¬ ∃ b src pkt, E.net blocks.length = .dgram b src ∧ Packet.tryFrom (b.take 1500) = some (.ok pkt) ∧ pkt.getType = some .state ∧
              blocks.length < 5 ∧ tail.length = 2 := by
            rintro ⟨b', src', pkt', h6, h7, h8, -⟩
            rw [h2] at h6
            cases h6
            rw [hp] at h7
            cases h7
            rw [hty] at h8
            cases h8
            exact c1 rfl
          by_cases c2 : ty = .syn
          · obtain ⟨reply, w', k, k4, k5⟩ := k2 c2
            rw [andThen_eq k]
            msimp
            exact ⟨by rw [k5, g1], g2, .synForSyn h1 h2 hp (c2 ▸ hty) k4 (hat h4), fun h => absurd h no⟩
          · obtain ⟨w', k, k5, -⟩ := k3 c1 c2
            rw [andThen_err k]
            exact ⟨by rw [k5, g1], g2, .refused h1 h2 hp (by rw [hty]; simpa using c1) (by rw [hty]; simpa using c2) rfl (hat h4),
              fun h => absurd h no⟩

/-- **C39.**  If `connect` gets as far as sending, it sends to the first resolved address; after some number of attempts
without a reply, the `i`-th waiting `1000 * 2 ^ i` ms, it ends in one of the ways of `ConnectEnd`.

Partial: the last of them, where `connect` succeeds without a connection, contradicts the property. -/
theorem C39_connect_partial {fuel : Nat} {resolved : Except ErrorKind (List Addr)} {wild : Except ErrorKind Addr} {r : Res Unit} {w : World}
    (h : connect E fuel resolved wild = .ok (r, w)) :
    ∃ addr rest la blocks tail, resolved = .ok (addr :: rest) ∧ wild = .ok la ∧ w.log = List.flatten blocks ++ tail ∧
      (∀ i acts, blocks[i]? = some acts → SynAttempt addr 1 (sequentialIdentifiers (E.rand 0)).1 (1000 * 2 ^ i) acts ∧ (E.net i).isTimeout) ∧
      ConnectEnd E addr (sequentialIdentifiers (E.rand 0)).1 blocks.length r w.s tail := by
  unfold connect takeAddress at h
  rcases resolved with k | _ | ⟨addr, rest⟩
  · simp at h
  · simp at h
  · simp only at h
    rcases wild with k | la
    · simp at h
    · simp only [Except.ok.injEq] at h
      obtain ⟨blocks, tail, h1, h2, h3, -⟩ := connectM_trace (E := E) fuel la { v6 := addr.v6, id := 0 } addr
      rw [h] at h1 h3
      exact ⟨addr, rest, la, blocks, tail, rfl, rfl, h1, h2, h3⟩

/-- **C39**, errors before anything is sent: name resolution failed, gave no address, or no socket could be bound. -/
theorem C39_no_socket {fuel : Nat} {resolved : Except ErrorKind (List Addr)} {wild : Except ErrorKind Addr} :
    (∃ e, connect E fuel resolved wild = .error e) ↔ (∀ a l, resolved ≠ .ok (a :: l)) ∨ (∃ k, wild = .error k) := by
  unfold connect takeAddress
  rcases resolved with k | _ | ⟨addr, rest⟩
  · simp
  · simp
  · rcases wild with k | la <;> simp

/-- **C39.**  `connect` sends nothing but at most five SYN packets, to the first resolved address, all with sequence number 1 and the
same connection identifier. -/
theorem C39_syns {fuel : Nat} {addr : Addr} {rest : List Addr} {wild : Except ErrorKind Addr} {r : Res Unit} {w : World}
    (h : connect E fuel (.ok (addr :: rest)) wild = .ok (r, w)) :
    (∀ dst b ok, .send dst b ok ∈ w.log → dst = addr ∧ IsSyn 1 (sequentialIdentifiers (E.rand 0)).1 b) ∧
    (w.log.filter Act.isSend).length ≤ 5 := by
  obtain ⟨addr', rest', la, blocks, tail, e1, e2, e3, e4, e5⟩ := C39_connect_partial h
  simp only [Except.ok.injEq, List.cons.injEq] at e1
  obtain ⟨rfl, rfl⟩ := e1
  have hat : ∀ {t acts}, SynAttempt addr 1 (sequentialIdentifiers (E.rand 0)).1 t acts →
      (∀ dst b ok, .send dst b ok ∈ acts → dst = addr ∧ IsSyn 1 (sequentialIdentifiers (E.rand 0)).1 b) ∧ (acts.filter Act.isSend).length = 1 := by
    rintro t acts ⟨b, hb, rfl⟩
    refine ⟨?_, rfl⟩
    intro dst b' ok hm
    simp only [List.mem_cons, Act.send.injEq, reduceCtorEq, List.not_mem_nil, or_false] at hm
    exact ⟨hm.1, hm.2.1 ▸ hb⟩
  have hone : ∀ {b}, IsSyn 1 (sequentialIdentifiers (E.rand 0)).1 b →
      (∀ dst b' ok, Act.send dst b' ok ∈ [Act.send addr b false] → dst = addr ∧ IsSyn 1 (sequentialIdentifiers (E.rand 0)).1 b') ∧
        (([Act.send addr b false] : List Act).filter Act.isSend).length = 1 := by
    intro b hb
    refine ⟨?_, rfl⟩
    intro dst b' ok hm
    simp only [List.mem_cons, Act.send.injEq, List.not_mem_nil, or_false] at hm
    exact ⟨hm.1, hm.2.1 ▸ hb⟩
  have ht : (∀ dst b ok, .send dst b ok ∈ tail → dst = addr ∧ IsSyn 1 (sequentialIdentifiers (E.rand 0)).1 b) ∧
      (blocks.length + (tail.filter Act.isSend).length ≤ 5) := by
    cases e5 with
    | noReply h1 h2 => exact ⟨by simp, by simp; omega⟩
    | sendFailed h1 h2 h3 => exact ⟨(hone h3).1, by have := (hone h3).2; omega⟩
    | sending h1 h2 h3 => exact ⟨(hone h3).1, by have := (hone h3).2; omega⟩
    | recvFailed h1 _ _ h2 => exact ⟨(hat h2).1, by have := (hat h2).2; omega⟩
    | waiting h1 _ h2 => exact ⟨(hat h2).1, by have := (hat h2).2; omega⟩
    | badReply h1 _ _ h2 => exact ⟨(hat h2).1, by have := (hat h2).2; omega⟩
    | refused h1 _ _ _ _ _ h2 => exact ⟨(hat h2).1, by have := (hat h2).2; omega⟩
    | connected h1 _ _ _ _ _ _ _ _ _ h2 => exact ⟨(hat h2).1, by have := (hat h2).2; omega⟩
    | synForSyn h1 _ _ _ _ h2 => exact ⟨(hat h2).1, by have := (hat h2).2; omega⟩
  rw [e3]
  constructor
  · intro dst b ok hm
    rw [List.mem_append, List.mem_flatten] at hm
    rcases hm with ⟨acts, ha, hm⟩ | hm
    · obtain ⟨i, hi⟩ := List.mem_iff_getElem?.mp ha
      exact (hat (e4 i acts hi).1).1 dst b ok hm
    · exact ht.1 dst b ok hm
  · have : ∀ (bl : List (List Act)), (∀ acts ∈ bl, (acts.filter Act.isSend).length = 1) → (bl.flatten.filter Act.isSend).length = bl.length := by
      intro bl
      induction bl with
      | nil => simp
      | cons a l ih =>
        intro hb
        rw [List.flatten_cons, List.filter_append, List.length_append, hb a (by simp), ih fun x hx => hb x (by simp [hx])]
        simp; omega
    rw [List.filter_append, List.length_append, this blocks]
    · exact ht.2
    · intro acts ha
      obtain ⟨i, hi⟩ := List.mem_iff_getElem?.mp ha
      exact (hat (e4 i acts hi).1).2

/-- **C39.**  Unless a SYN arrives, `connect` succeeds only when a State packet arrived, and the socket is then connected to the address
that sent it.  Partial: a SYN can arrive. -/
theorem C39_ok_partial {fuel : Nat} {resolved : Except ErrorKind (List Addr)} {wild : Except ErrorKind Addr} {w : World}
    (h : connect E fuel resolved wild = .ok (.ok (), w))
    (hs : ∀ n b src pkt, E.net n = .dgram b src → Packet.tryFrom (b.take 1500) = some (.ok pkt) → pkt.getType ≠ some .syn) :
    w.s.state = .connected ∧ ∃ n b pkt, n < 5 ∧ E.net n = .dgram b w.s.connectedTo ∧ Packet.tryFrom (b.take 1500) = some (.ok pkt) ∧
      pkt.getType = some .state ∧ w.s.ackNr = pkt.seqNr ∧ w.s.seqNr = 2 := by
  obtain ⟨addr, rest, la, blocks, tail, -, -, -, -, e⟩ := C39_connect_partial h
  cases e with
  | connected h1 h2 h3 h4 h5 h6 h7 h8 => exact ⟨h5, _, _, _, h1, h6 ▸ h2, h3, h4, h7, h8⟩
  | synForSyn h1 h2 h3 h4 => exact absurd h4 (hs _ _ _ _ h2 h3)

/-- A `connect` that succeeded got a reply in state SynSent: the socket is connected as described by the State packet received. -/
theorem connected_socket {fuel : Nat} {la a0 addr : Addr} (hr : (connectM E fuel addr (freshWorld E la a0)).1 = .ok ())
    (hs : (connectM E fuel addr (freshWorld E la a0)).2.s.state = .connected) :
    ∃ n b src pkt td ts, n < 5 ∧ E.net n = .dgram b src ∧ Packet.tryFrom (b.take 1500) = some (.ok pkt) ∧ pkt.getType = some .state ∧
      (connectM E fuel addr (freshWorld E la a0)).2.s = connectedSocket E la a0 src pkt td ts := by
  obtain ⟨blocks, tail, -, -, h3, h4⟩ := connectM_trace (E := E) fuel la a0 addr
  rw [hr] at h3
  generalize hw : (connectM E fuel addr (freshWorld E la a0)).2.s = s at *
  cases h3 with
  | connected h1 h2 h3 h5 _ _ _ _ _ _ h6 =>
    obtain ⟨b, src, pkt, td, ts, g1, g2, g3⟩ := h4 ⟨_, _, _, h2, h3, h5, h1, by obtain ⟨b, _, rfl⟩ := h6; rfl⟩
    rw [h2] at g1
    cases g1
    rw [h3] at g2
    cases g2
    exact ⟨_, _, _, _, _, _, h1, h2, h3, h5, g3⟩
  | synForSyn h1 h2 h3 h4 h5 => rw [h5] at hs; simp at hs

/-- **C41**, **C08.**  The socket `accept` makes and what it sends. -/
theorem C41_socket {fuel : Nat} {ev : NetEvent} {bound : Except ErrorKind Addr} {w : World} {src : Addr}
    (h : accept E fuel ev bound = .made (.ok ()) w src) :
    ∃ b pkt reply, ev = .dgram b src ∧ Packet.tryFrom (b.take 1500) = some (.ok pkt) ∧ pkt.getType = some .syn ∧
      w.s.state = .connected ∧ w.s.connectedTo = src ∧ bound = .ok w.s.localAddr ∧ w.s.ackNr = pkt.seqNr ∧ w.s.lastDropped = pkt.seqNr ∧
      w.s.senderId = pkt.connectionId ∧ w.s.receiverId = pkt.connectionId + 1 ∧ w.s.remoteWnd = pkt.wndSize ∧
      w.s.sendWindow = [] ∧ w.s.unsent = [] ∧ w.s.incoming = [] ∧ w.s.pending = [] ∧
      w.log = [.send src reply.bytes true] ∧ Packet.tryFrom reply.bytes = some (.ok reply) ∧ reply.bytes.length = 20 ∧
      reply.getType = some .state ∧ reply.ackNr = pkt.seqNr ∧ reply.connectionId = pkt.connectionId ∧ reply.seqNr = w.s.seqNr := by
  obtain ⟨b, pkt, la, h1, h2, h3, h4, h5, h6, h7⟩ := accept_inv h (by simp)
  have hsnd : E.snd 0 = .ok := by
    cases hs : E.snd 0 <;> simp [hs] at h6 ⊢
  have hpl := prepareReply_plain (acceptSocket E la src pkt) (E.now 1) pkt .state
  obtain ⟨f1, f2, f3, f4, f5⟩ := prepareReply_facts (acceptSocket E la src pkt) (E.now 1) pkt .state
  subst h7
  refine ⟨b, pkt, acceptReply E la src pkt, h1, h3, h4, rfl, rfl, h2, rfl, rfl, rfl, rfl, rfl, rfl, rfl, rfl, rfl, by simp [hsnd],
    hpl.accepted, (prepareReply_bytes _ _ _ _).1, hpl.ty, f2, f3, f1⟩

/-- **C41.**  `accept` returns a socket exactly when the datagram is a SYN, a local socket can be bound and the reply can be sent.

Partial: in a debug build, a SYN with connection identifier 65535 is a panic (`C41_counterexample`). -/
theorem C41_accept_partial {fuel : Nat} {ev : NetEvent} {bound : Except ErrorKind Addr} {src : Addr} :
    (∃ w, accept E fuel ev bound = .made (.ok ()) w src) ↔
      ∃ b pkt la, ev = .dgram b src ∧ Packet.tryFrom (b.take 1500) = some (.ok pkt) ∧ pkt.getType = some .syn ∧
        bound = .ok la ∧ E.snd 0 = .ok ∧ (E.checks = true → pkt.connectionId ≠ 65535) := by
  constructor
  · rintro ⟨w, h⟩
    obtain ⟨b, pkt, la, h1, h2, h3, h4, h5, h6, h7⟩ := accept_inv h (by simp)
    refine ⟨b, pkt, la, h1, h3, h4, h2, ?_, h5⟩
    cases hs : E.snd 0 <;> simp [hs] at h6 ⊢
  · rintro ⟨b, pkt, la, rfl, h2, h3, rfl, h5, h6⟩
    have h2' : Packet.tryFrom (b.take BUF_SIZE) = some (.ok pkt) := h2
    have hc : ¬ (E.checks = true ∧ pkt.connectionId = 65535) := fun h => h6 h.1 h.2
    have hs : E.snd (World.nSnd { ((freshWorld E la src).setS (acceptSocket E la src pkt)) with nNow := 2, nRand := 2 }) = .ok := h5
    simp only [accept, h2', h3, ne_eq, not_true_eq_false, if_false, acceptM, handlePacket_syn_new (E := E) fuel (recv E fuel BUF_SIZE) src h3
      (show (freshWorld E la src).s.state = .new from rfl), if_neg hc]
    refine ⟨_, by rw [udpSend_ok h5]⟩

/-- **C41.**  Any other datagram is an error and no socket is made: an undecodable one gives the parse error, another type of packet gives kind `Other`. -/
theorem C41_others {fuel : Nat} {b : Bytes} {src : Addr} {bound : Except ErrorKind Addr}
    (h : ∀ pkt, Packet.tryFrom (b.take 1500) = some (.ok pkt) → pkt.getType ≠ some .syn) :
    ∃ e, accept E fuel (.dgram b src) bound = .failed e ∧ e.kind = .other := by
  unfold accept
  have e0 : BUF_SIZE = 1500 := rfl
  simp only [e0]
  rcases hp : Packet.tryFrom (b.take 1500) with _ | e | pkt
  · exact absurd hp (tryFrom_some _)
  · exact ⟨_, rfl, rfl⟩
  · obtain ⟨ty, hty, -⟩ := (C02_first_bytes hp).1
    have := h pkt hp
    rw [hty] at this
    simp only [hty]
    rw [if_pos (by simpa using this)]
    exact ⟨_, rfl, rfl⟩

/-- **C08.**  When a SYN sent by `connect` is accepted, the identifiers of the accepting socket mirror those of the connecting one, and
are consecutive without overflow. -/
theorem C08_handshake {A : Env} {fuel fuel' : Nat} {resolved : Except ErrorKind (List Addr)} {wild bound : Except ErrorKind Addr} {w1 w2 : World}
    {dst src : Addr} {b : Bytes} {ok : Bool} (hc : connect E fuel resolved wild = .ok (.ok (), w1)) (hs : w1.s.state = .connected)
    (hm : .send dst b ok ∈ w1.log) (ha : accept A fuel' (.dgram b src) bound = .made (.ok ()) w2 src) :
    w2.s.senderId = w1.s.receiverId ∧ w2.s.receiverId = w1.s.senderId ∧ w1.s.senderId.toNat = w1.s.receiverId.toNat + 1 := by
  obtain ⟨addr, rest, la, blocks, tail, rfl, rfl, -⟩ := C39_connect_partial hc
  obtain ⟨g1, -⟩ := C39_syns hc
  obtain ⟨-, ⟨q, hq, -, -, hcid⟩, hlen⟩ := g1 _ _ _ hm
  simp only [connect, takeAddress, Except.ok.injEq] at hc
  obtain ⟨n, b', src', pkt, td, ts, -, -, -, -, he⟩ := connected_socket (E := E) (fuel := fuel) (la := la) (addr := addr) (a0 := { v6 := addr.v6, id := 0 })
    (by rw [hc]) (by rw [hc]; exact hs)
  rw [hc] at he
  simp only at he
  obtain ⟨b0, p, reply, k1, k2, -, -, -, -, -, -, k3, k4, -⟩ := C41_socket ha
  cases k1
  rw [List.take_of_length_le (by omega), hq] at k2
  cases k2
  have hd := C08_draw (E.rand 0)
  have hid : w1.s.receiverId = (sequentialIdentifiers (E.rand 0)).1 ∧ w1.s.senderId = (sequentialIdentifiers (E.rand 0)).2 := by
    rw [he]; exact ⟨rfl, rfl⟩
  refine ⟨by rw [k3, hcid, hid.1], ?_, by rw [hid.1, hid.2, hd]⟩
  rw [k4, hcid, hid.2]
  apply BitVec.eq_of_toNat_eq
  rw [hd, BitVec.toNat_add]
  have h1 : (1 : U16).toNat = 1 := rfl
  have := (sequentialIdentifiers (E.rand 0)).2.isLt
  rw [h1]
  omega

/-- A SYN sent by `connect` never makes `accept` panic. -/
theorem C08_no_overflow {A : Env} {fuel fuel' : Nat} {resolved : Except ErrorKind (List Addr)} {wild : Except ErrorKind Addr} {r : Res Unit} {w1 : World}
    {dst src la : Addr} {b : Bytes} {ok : Bool} (hc : connect E fuel resolved wild = .ok (r, w1)) (hm : .send dst b ok ∈ w1.log) (hs : A.snd 0 = .ok) :
    ∃ w2, accept A fuel' (.dgram b src) (.ok la) = .made (.ok ()) w2 src := by
  obtain ⟨addr, rest, la', blocks, tail, rfl, rfl, -⟩ := C39_connect_partial hc
  obtain ⟨g1, -⟩ := C39_syns hc
  obtain ⟨-, ⟨q, hq, hty, -, hcid⟩, hlen⟩ := g1 _ _ _ hm
  refine C41_accept_partial.mpr ⟨b, q, la, rfl, ?_, hty, rfl, hs, fun _ h => ?_⟩
  · rw [List.take_of_length_le (by omega), hq]
  · have hd := C08_draw (E.rand 0)
    have := (sequentialIdentifiers (E.rand 0)).2.isLt
    rw [← hcid, h] at hd
    have h1 : (65535 : U16).toNat = 65535 := rfl
    omega

/-- **C40.**  Whatever happens to the first SYN packets and their replies, if one of the five SYN packets is accepted by a listener and the reply of
that socket arrives in time, the connection is made: both sockets are connected, with mirrored identifiers, and each acknowledges the other's last number.

Partial: the property also covers a peer that is a socket made by `bind` and waiting in `recv_from`, for which it is false (`C40_counterexample`). -/
theorem C40_listener_partial {A : Env} {n fuel fuel' : Nat} {la la' addr src src' : Addr} {b : Bytes} {w2 : World} {reply : Bytes} (hn : n < 5)
    (hto : ∀ i, i < n → (E.net i).isTimeout) (hsnd : ∀ i, i ≤ n → E.snd i = .ok) (hsyn : IsSyn 1 (sequentialIdentifiers (E.rand 0)).1 b)
    (ha : accept A fuel' (.dgram b src) (.ok la') = .made (.ok ()) w2 src) (hl : w2.log = [.send src reply true])
    (hr : E.net n = .dgram reply src') :
    ∃ w1, connect E fuel (.ok [addr]) (.ok la) = .ok (.ok (), w1) ∧ w1.s.state = .connected ∧ w2.s.state = .connected ∧
      w1.s.connectedTo = src' ∧ w2.s.connectedTo = src ∧ w1.s.receiverId = w2.s.senderId ∧ w1.s.senderId = w2.s.receiverId ∧
      w1.s.ackNr = w2.s.seqNr ∧ w1.s.lastAcked = w2.s.ackNr ∧ w1.s.lastAcked + 1 = w1.s.seqNr := by
  obtain ⟨b0, p, rp, k1, k2, kt, k3, k4, k5, k6, k7, k8, k9, k10, -, -, -, -, k11, k12, k13, k14, k15, k16, k17⟩ := C41_socket ha
  cases k1
  obtain ⟨⟨q, hq, hqt, hqs, hqc⟩, hlen⟩ := hsyn
  rw [List.take_of_length_le (by omega), hq] at k2
  cases k2
  rw [k11] at hl
  simp only [List.cons.injEq, Act.send.injEq, and_true, true_and] at hl
  subst hl
  refine ⟨(connectM E fuel addr (freshWorld E la { v6 := addr.v6, id := 0 })).2, ?_⟩
  obtain ⟨blocks, tail, g1, g2, g3, g4⟩ := connectM_trace (E := E) fuel la { v6 := addr.v6, id := 0 } addr
  have hdone : blocks.length ≤ n := by
    refine Nat.le_of_not_lt fun hc => ?_
    obtain ⟨acts, ha⟩ : ∃ acts, blocks[n]? = some acts := ⟨_, List.getElem?_eq_getElem (by omega)⟩
    have := (g2 n acts ha).2
    rw [hr] at this
    simp [NetEvent.isTimeout] at this
  have hgot : ∀ {b : Bytes} {s : Addr}, E.net blocks.length = .dgram b s → blocks.length = n := by
    intro b s h
    refine Nat.le_antisymm hdone (Nat.le_of_not_lt fun hc => ?_)
    have := hto blocks.length hc
    rw [h] at this
    simp [NetEvent.isTimeout] at this
  have hpk : Packet.tryFrom (rp.bytes.take 1500) = some (.ok rp) := by rw [List.take_of_length_le (by omega)]; exact k12
  have hconn : (connectM E fuel addr (freshWorld E la { v6 := addr.v6, id := 0 })).1 = .ok () ∧
      (connectM E fuel addr (freshWorld E la { v6 := addr.v6, id := 0 })).2.s.state = .connected ∧ blocks.length = n ∧ tail.length = 2 := by
    generalize (connectM E fuel addr (freshWorld E la { v6 := addr.v6, id := 0 })).1 = R at *
    generalize (connectM E fuel addr (freshWorld E la { v6 := addr.v6, id := 0 })).2.s = S at *
    cases g3 with
    | noReply h1 h2 => omega
    | sendFailed h1 h2 h3 => rw [hsnd _ hdone] at h2; simp at h2
    | sending h1 h2 h3 => rw [hsnd _ hdone] at h2; simp at h2
    | recvFailed h1 h2 h3 h4 =>
      rcases Nat.lt_or_ge blocks.length n with h | h
      · exact absurd (h2 ▸ hto _ h) h3
      · have : blocks.length = n := by omega
        rw [this, hr] at h2; simp at h2
    | waiting h1 h2 h4 =>
      rcases Nat.lt_or_ge blocks.length n with h | h
      · have := hto _ h
        rw [h2] at this
        simp [NetEvent.isTimeout] at this
      · have : blocks.length = n := by omega
        rw [this, hr] at h2; simp at h2
    | badReply h1 h2 h3 h4 =>
      rw [hgot h2, hr] at h2
      cases h2
      rw [hpk] at h3
      simp at h3
    | refused h1 h2 h3 h4 h5 h6 =>
      rw [hgot h2, hr] at h2
      cases h2
      rw [hpk] at h3
      cases h3
      exact absurd k14 h4
    | connected h1 h2 h3 h4 h5 _ _ _ _ _ h6 =>
      exact ⟨rfl, h5, hgot h2, by obtain ⟨_, _, rfl⟩ := h6; rfl⟩
    | synForSyn h1 h2 h3 h4 h5 h6 =>
      rw [hgot h2, hr] at h2
      cases h2
      rw [hpk] at h3
      cases h3
      rw [k14] at h4
      simp at h4
  obtain ⟨c1, c2, c3, c4⟩ := hconn
  obtain ⟨b1, s1, pk, td, ts, m1, m2, m3⟩ := g4 ⟨_, _, rp, c3 ▸ hr, hpk, k14, by omega, c4⟩
  rw [c3, hr] at m1
  cases m1
  rw [hpk] at m2
  cases m2
  have hd := C08_draw (E.rand 0)
  refine ⟨by simp only [connect, takeAddress, ← c1], c2, k3, ?_, k4, ?_, ?_, ?_, ?_, ?_⟩
  · rw [m3]; rfl
  · rw [m3, k8, hqc]; rfl
  · rw [m3, k9, hqc]
    show (sequentialIdentifiers (E.rand 0)).2 = _
    apply BitVec.eq_of_toNat_eq
    rw [hd, BitVec.toNat_add]
    have h1 : (1 : U16).toNat = 1 := rfl
    have := (sequentialIdentifiers (E.rand 0)).2.isLt
    rw [h1]
    omega
  · rw [m3]; exact k17
  · rw [m3, k6]; exact k15
  · rw [m3]
    show rp.ackNr + 1 = 2
    rw [k15, hqs]
    decide

section
open Sample

/-- The first three SYN packets get no reply, the fourth does. -/
def fourth : Env := env ([.fail .timedOut, .fail .timedOut, .fail .wouldBlock, arr (dg .state 7 900 1)])

/-- **C39**: a case that meets the hypotheses. -/
example : connect fourth 20 (.ok [peer, other]) (.ok here) = .ok (.ok (), client fourth) ∧ (client fourth).s.state = .connected ∧
    (client fourth).log.filter (fun a => !a.isSend) = [.wait (some 1000), .wait (some 2000), .wait (some 4000), .wait (some 8000)] :=
  ⟨connect_client _ (by decide +kernel), by decide +kernel, by decide +kernel⟩

/-- **C39**: no reply at all. -/
example : ∃ e, (connectM (env (List.replicate 5 (.fail .timedOut))) 5 peer (bound fourth)).1 = .err e ∧ e.kind = .other := by
  refine ⟨.parse .invalidPacketLength, by decide +kernel, rfl⟩

/-- The peer answers the SYN with a SYN. -/
def synReply : Env := env [arr (dg .syn 7 1 0)]

/-- **C39 is false of the code**: a SYN as a reply makes `connect` return `Ok`, the connection is not established. -/
theorem C39_counterexample : connect synReply 20 (.ok [peer]) (.ok here) = .ok (.ok (), client synReply) ∧
    (client synReply).s.state = .synSent := ⟨connect_client _ (by decide +kernel), by decide +kernel⟩

/-- A State packet with another connection identifier, that acknowledges another number, from another address than the one the SYN was sent to. -/
def stranger : Env := env [.dgram (dg .state 4444 900 321) other]

/-- **C39 is false of the code**: the reply is not checked at all. -/
theorem C39_counterexample_stranger : connect stranger 20 (.ok [peer]) (.ok here) = .ok (.ok (), client stranger) ∧
    (client stranger).s.state = .connected ∧ (client stranger).s.connectedTo = other ∧ (client stranger).s.senderId ≠ 4444 ∧
    (client stranger).s.receiverId ≠ 4444 := ⟨connect_client _ (by decide +kernel), by decide +kernel⟩

/-- The connecting side, when no reply to the first SYN arrives in time. -/
def lostReply (second : NetEvent) : Env := env [.fail .timedOut, second]

/-- The two SYN packets it sends, received by a socket made by `bind`. -/
def boundPeer : Env := env ((sent (client (lostReply .never))).map arr)

/-- The replies of that socket. -/
def replies : List Bytes := sent (runs boundPeer 5 [.recvFrom 9] (bound boundPeer))

/-- **C40 is false of the code**: the peer (a socket made by `bind`, in `recv_from`) replies with a State packet to the first SYN and with
a reset to the second.  If the first reply is lost, `connect` fails with `ConnectionRefused`. -/
theorem C40_counterexample :
    Reach boundPeer (runs boundPeer 5 [.recvFrom 9] (bound boundPeer)) ∧
    replies.map (fun b => (Packet.mk b).getType) = [some .state, some .reset] ∧
    sent (client (lostReply (arr (replies.getD 1 [])))) = sent (client (lostReply .never)) ∧
    connect (lostReply (arr (replies.getD 1 []))) 20 (.ok [peer]) (.ok here) = .ok (.err (.sock .invalidReply), client (lostReply (arr (replies.getD 1 [])))) ∧
    (IoErr.sock .invalidReply).kind = .connectionRefused :=
  ⟨reach_bound 5 [.recvFrom 9] (by decide +kernel), by decide +kernel, by decide +kernel, connect_client _ (by decide +kernel), rfl⟩

/-- The fourth SYN arrives at a listener. -/
def fourthSyn : AcceptRes := accept (env []) 1 (.dgram ((sent (client fourth)).getD 3 []) here) (.ok other)

/-- **C08**, **C40**, **C41**: a case that meets the hypotheses. -/
example : (client fourth).log[6]? = some (.send peer ((sent (client fourth)).getD 3 []) true) ∧
    fourthSyn = .made (.ok ()) (acceptWorld fourthSyn) here ∧ (sent (acceptWorld fourthSyn)).length = 1 := by
  decide +kernel

/-- **C41**, other datagrams: a Data packet, and two bytes. -/
example : accept fourth 1 (arr (dg .data 5 1 0 [1])) (.ok here) = .failed (.sock .other) ∧
    accept fourth 1 (arr [1, 2]) (.ok here) = .failed (.parse .invalidPacketLength) := by decide +kernel

/-- **C41 is false of a debug build**: connection identifier 65535. -/
theorem C41_counterexample : ∃ w, accept (env [] (checks := true)) 1 (arr (dg .syn 65535 1 0)) (.ok here) = .made .panic w peer :=
  ⟨acceptWorld (accept (env [] (checks := true)) 1 (arr (dg .syn 65535 1 0)) (.ok here)), by decide +kernel⟩

end

end Utp
