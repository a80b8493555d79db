import Verif.Spec.Ack
import Verif.Props.Retransmit
import Verif.Props.Release
import Verif.Props.Congestion
import Verif.Props.Filter
/-!
# C63: an acknowledgement is processed completely
-/

namespace Utp
open M Packet Sample Spec

variable {E : Env}

/-- Reading changes only the receive buffers. -/
theorem flushIncoming_s (len : Nat) (w : World) : ∃ pe inc ack ld,
    (flushIncoming E len w).2 = w.setS { w.s with pending := pe, incoming := inc, ackNr := ack, lastDropped := ld } := by
  have hadv : ∀ s : Socket, ∃ inc ack ld, s.advanceIncoming = { s with incoming := inc, ackNr := ack, lastDropped := ld } := by
    intro s
    unfold Socket.advanceIncoming
    split
    · exact ⟨s.incoming, s.ackNr, s.lastDropped, rfl⟩
    · exact ⟨_, _, _, rfl⟩
  have hsame : ∃ pe inc ack ld, w = w.setS { w.s with pending := pe, incoming := inc, ackNr := ack, lastDropped := ld } :=
    ⟨w.s.pending, w.s.incoming, w.s.ackNr, w.s.lastDropped, rfl⟩
  unfold flushIncoming
  msimp
  split
  · simp only [Socket.takePending]
    split
    · obtain ⟨inc, ack, ld, h⟩ := hadv { w.s with pending := [] }
      exact ⟨[], inc, ack, ld, by rw [h]⟩
    · exact ⟨w.s.pending.drop len, w.s.incoming, w.s.ackNr, w.s.lastDropped, rfl⟩
  · rcases hi : w.s.incoming with _ | ⟨p, rest⟩
    · exact hsame
    · simp only
      by_cases ho : (E.checks && decide (w.s.ackNr ≠ p.seqNr ∧ w.s.ackNr = 65535)) = true
      · rw [andThen_eq_panic (w' := w) (by rw [overflowIf_run, if_pos ho])]
        exact hsame
      · rw [andThen_eq (w' := w) (a := ()) (by rw [overflowIf_run, if_neg ho])]
        split
        · cases p.payload with
          | none => exact hsame
          | some pl =>
            show ∃ pe inc ack ld, w.setS (w.s.takeHead pl len) = _
            unfold Socket.takeHead
            split
            · obtain ⟨inc, ack, ld, h⟩ := hadv w.s
              exact ⟨w.s.pending, inc, ack, ld, by rw [h]⟩
            · exact ⟨pl.drop len, w.s.incoming, w.s.ackNr, w.s.lastDropped, rfl⟩
        · exact hsame

/-- What a State packet of an open connection makes `recv` do: `handle_state_packet`, and then read. -/
theorem recv_state {w : World} {b : Bytes} {src : Addr} (hn : E.net w.nNet = .dgram b src) {fuel len : Nat}
    (hr : 0 < w.s.maxRetries.toNat) {pkt : Packet} (hp : Packet.tryFrom (b.take 1520) = some (.ok pkt))
    (ht : pkt.getType = some .state) (hst : w.s.state = .connected)
    (hid : pkt.connectionId = w.s.senderId ∨ pkt.connectionId = w.s.receiverId) {w' : World}
    (hm : handleState E (fuel + 1) (recv E (fuel + 1) BUF_SIZE) pkt ((w.waited w.s.patience).heard E pkt) = (.ok (), w')) :
    ∃ pe inc ack ld, (recv E (fuel + 2) len w).2 =
      w'.setS { w'.s with pending := pe, incoming := inc, ackNr := ack, lastDropped := ld } := by
  rw [recv_dgram hn hr hp]
  unfold recvPacket
  have hh : handlePacket E (fuel + 1) (recv E (fuel + 1) BUF_SIZE) pkt src (w.waited w.s.patience) = (.ok none, w') := by
    rw [handlePacket_takes ht (by
      rcases hid with h | h
      · exact .inr (.inr (.inl h))
      · exact .inr (.inr (.inr h)))]
    rw [show (w.waited w.s.patience).s.state = .connected from hst]
    show M.andThen (handleState E (fuel + 1) (recv E (fuel + 1) BUF_SIZE) pkt) (fun _ => ret none) _ = _
    rw [andThen_eq hm, ret_run]
  rw [bind_def, andThen_eq hh, bind_def, ht]
  simp only [sendReply]
  msimp
  simp only [reduceCtorEq, false_and, if_false]
  obtain ⟨pe, inc, ack, ld, hfl⟩ := flushIncoming_s (E := E) len (w'.setS w'.s)
  refine ⟨pe, inc, ack, ld, ?_⟩
  have key : ∀ f : Bytes → M (Bytes × Addr), (∀ a w, (f a w).2 = w) → (M.andThen (flushIncoming E len) f (w'.setS w'.s)).2 =
      (flushIncoming E len (w'.setS w'.s)).2 := by
    intro f hf
    unfold M.andThen
    rcases flushIncoming E len (w'.setS w'.s) with ⟨r, x⟩
    cases r <;> simp [hf]
  rw [key _ (fun _ _ => rfl), hfl]
  rfl

theorem updateBaseDelay_enters {s s' : Socket} {t : U32} {d : Int} (h : s.updateBaseDelay d t = some s') :
    Enters t d (s.lastRollover, s.baseDelays) (s'.lastRollover, s'.baseDelays) := by
  unfold Socket.updateBaseDelay at h
  split at h
  · next hc =>
    simp only [Option.some.injEq] at h
    rw [← h]
    rcases hb : s.baseDelays with _ | ⟨x, l⟩
    · exact .first
    · have hc' : 60000000 < (t.toNat : Int) - s.lastRollover.toNat := by
        rcases hc with hc | hc
        · simp [hb] at hc
        · exact hc
      split
      · next hl => exact .full hc' (by simp [BASE_HISTORY] at hl; exact hl)
      · next hl => exact .minute hc' (by simp) (by simpa [BASE_HISTORY] using hl)
  · next hc =>
    split at h
    · simp at h
    · next last hl =>
      have hb : s.baseDelays = s.baseDelays.dropLast ++ [last] := by
        obtain ⟨ys, hy⟩ := List.getLast?_eq_some_iff.mp hl
        rw [hy]; simp
      have hc' : (t.toNat : Int) - s.lastRollover.toNat ≤ 60000000 := by
        have : ¬ tsSub t s.lastRollover > MAX_BASE_DELAY_AGE := fun h => hc (.inr h)
        unfold tsSub MAX_BASE_DELAY_AGE at this
        omega
      have hs := Enters.same (d := d) (l := s.baseDelays.dropLast) (last := last) hc'
      rw [← hb] at hs
      split at h
      · next hlt =>
        simp only [Option.some.injEq] at h
        rw [← h]
        rw [show min d last = d by omega] at hs
        exact hs
      · next hlt =>
        simp only [Option.some.injEq] at h
        rw [← h]
        rw [show min d last = last by omega, ← hb] at hs
        exact hs

theorem clamp_timeout (s : Socket) (d : Int) (h0 : 0 ≤ (s.updateCongestionTimeout d).rtt + 4 * (s.updateCongestionTimeout d).rttVar)
    (h1 : (s.updateCongestionTimeout d).rtt + 4 * (s.updateCongestionTimeout d).rttVar < 2 ^ 64) :
    (s.updateCongestionTimeout d).congTimeout.toNat =
      max 500 (min 60000 ((s.updateCongestionTimeout d).rtt + 4 * (s.updateCongestionTimeout d).rttVar).toNat) := by
  simp only [Socket.updateCongestionTimeout] at *
  rw [Int.mul_comm 4] at *
  generalize s.rtt + (d - s.rtt).tdiv 8 = r at *
  generalize s.rttVar + (((s.rtt - d).natAbs : Int) - s.rttVar).tdiv 4 = v at *
  obtain ⟨x, hx⟩ : ∃ x, x = BitVec.ofInt 64 (r + v * 4) := ⟨_, rfl⟩
  have hn : x.toNat = (r + v * 4).toNat := by
    rw [hx, BitVec.toNat_ofInt]
    congr 1
    omega
  rw [← hx, ← hn]
  have e1 : MIN_CONGESTION_TIMEOUT.toNat = 500 := rfl
  have e2 : MAX_CONGESTION_TIMEOUT.toNat = 60000 := rfl
  simp only [BitVec.lt_def, e1, e2]
  split <;> split <;> omega

/-- The measurements. -/
theorem onNewAck_acknowledged {s s' : Socket} {i : Nat} {p : Packet} {t : U32} (h : s.onNewAck E i p t = some s')
    (hr : (0 ≤ s.rtt ∧ s.rtt ≤ maxRtt) ∧ (0 ≤ s.rttVar ∧ s.rttVar ≤ maxRtt)) :
    Enters t ((t.toNat : Int) - p.timestamp.toNat) (s.lastRollover, s.baseDelays) (s'.lastRollover, s'.baseDelays) ∧
    (∃ old kept, s.currDelays = old ++ kept ∧ s'.currDelays = kept ++ [(t, (t.toNat : Int) - p.timestamp.toNat)] ∧
      (∀ d ∈ old, (t.toNat : Int) - d.1.toNat > 100 * s.rtt) ∧ (∀ d, kept.head? = some d → (t.toNat : Int) - d.1.toNat ≤ 100 * s.rtt)) ∧
    (∃ base q sample : Int, IsLeast base s'.baseDelays ∧ q = E.ewma (s'.currDelays.map (·.2)) - base ∧
      s'.cwnd.toNat = max 2800 (min (s.currWindow + 1400).toNat
        (E.cwndStep s.cwnd (BitVec.ofInt 32 q) (BitVec.ofNat 32 (totalSize (s.sendWindow.take (i + 1))))).toNat) ∧
      sample = (((t.toNat : Int) - p.timestamp.toNat - q) % 2 ^ 32) / 1000 ∧
      s'.rtt = s.rtt + (sample - s.rtt).tdiv 8 ∧
      s'.rttVar = s.rttVar + (((s.rtt - sample).natAbs : Int) - s.rttVar).tdiv 4 ∧
      s'.congTimeout.toNat = max 500 (min 60000 (s'.rtt + 4 * s'.rttVar).toNat)) := by
  unfold Socket.onNewAck at h
  simp only at h
  rcases h1 : s.updateBaseDelay (tsSub t p.timestamp) t with _ | s1
  · simp [h1] at h
  · have hk : s1.currWindow = s.currWindow ∧ s1.cwnd = s.cwnd ∧ s1.rtt = s.rtt ∧ s1.rttVar = s.rttVar ∧ s1.currDelays = s.currDelays := by
      unfold Socket.updateBaseDelay at h1
      split at h1
      · simp at h1; rw [← h1]; simp
      · split at h1
        · simp at h1
        · split at h1 <;> (simp at h1; rw [← h1]; simp)
    have hent := updateBaseDelay_enters h1
    simp only [h1] at h
    obtain ⟨old, kept, hw1, hw2, hw3, hw4⟩ := C13_window s1 (tsSub t p.timestamp) t
    rcases h2 : (s1.updateCurrentDelay (tsSub t p.timestamp) t).updateCongestionWindow E
      (BitVec.ofNat 32 ((s.sendWindow.take (i + 1)).map Packet.len).sum) with _ | s2
    · rw [h2] at h; simp at h
    · simp only [h2, Option.some.injEq] at h
      unfold Socket.updateCongestionWindow at h2
      split at h2
      · simp at h2
      · simp only [Option.some.injEq] at h2
        have g1 : s2.baseDelays = s1.baseDelays ∧ s2.lastRollover = s1.lastRollover ∧ s2.currDelays = kept ++ [(t, tsSub t p.timestamp)] ∧
            s2.rtt = s.rtt ∧ s2.rttVar = s.rttVar := by
          rw [← h2, ← hk.2.2.1, ← hk.2.2.2.1]
          exact ⟨rfl, rfl, hw2, rfl, rfl⟩
        have gq : s2.queuingDelay E = (s1.updateCurrentDelay (tsSub t p.timestamp) t).queuingDelay E := by
          rw [← h2]; rfl
        have gc : s2.cwnd.toNat = max 2800 (min (s.currWindow + 1400).toNat
            (E.cwndStep s.cwnd (BitVec.ofInt 32 (s2.queuingDelay E)) (BitVec.ofNat 32 (totalSize (s.sendWindow.take (i + 1))))).toNat) := by
          rw [gq, ← h2]
          simp only [Socket.updateCurrentDelay, hk, delayToU32]
          generalize BitVec.ofInt 32 _ = x
          rw [show ((s.sendWindow.take (i + 1)).map Packet.len).sum = totalSize (s.sendWindow.take (i + 1)) from rfl]
          generalize E.cwndStep _ _ _ = c
          rw [toNat_atLeast, toNat_atMost]
          rfl
        obtain ⟨sm, hsm⟩ : ∃ sm : Int, sm = ((delayToU32 (tsSub t p.timestamp - s2.queuingDelay E)).toNat / 1000 : Nat) := ⟨_, rfl⟩
        have hsm' : sm = (((t.toNat : Int) - p.timestamp.toNat - s2.queuingDelay E) % 2 ^ 32) / 1000 := by
          rw [hsm]
          unfold delayToU32 tsSub
          rw [BitVec.toNat_ofInt]
          omega
        have hsr : 0 ≤ sm ∧ sm ≤ maxRtt := by
          have := Int.emod_lt_of_pos ((t.toNat : Int) - p.timestamp.toNat - s2.queuingDelay E) (b := 2 ^ 32) (by decide)
          have := Int.emod_nonneg ((t.toNat : Int) - p.timestamp.toNat - s2.queuingDelay E) (b := 2 ^ 32) (by decide)
          unfold maxRtt
          omega
        have hst := C11_step s2 sm (by rw [g1.2.2.2.1]; exact hr.1) (by rw [g1.2.2.2.2]; exact hr.2) hsr
        rw [← hsm] at h
        subst h
        refine ⟨?_, ⟨old, kept, hk.2.2.2.2 ▸ hw1, ?_, ?_, ?_⟩, s2.minBaseDelay, s2.queuingDelay E, sm, ?_, ?_, gc, hsm', ?_, ?_, ?_⟩
        · show Enters _ _ _ (s2.lastRollover, s2.baseDelays)
          rw [g1.1, g1.2.1]
          exact hent
        · exact g1.2.2.1
        · intro d hd
          have := hw3 d hd
          rw [hk.2.2.1] at this
          unfold tsSub at this
          omega
        · intro d hd
          rcases kept with _ | ⟨x, r⟩
          · simp at hd
          · simp only [List.head?_cons, Option.some.injEq] at hd
            have := hw4 x r rfl
            rw [hk.2.2.1, hd] at this
            unfold tsSub at this
            omega
        · show IsLeast _ s2.baseDelays
          refine (C12_min s2).2 ?_
          rw [g1.1]
          intro hb
          rw [hb] at hent
          generalize hx : (s.lastRollover, s.baseDelays) = x at hent
          generalize hy : (s1.lastRollover, ([] : List Int)) = y at hent
          cases hent <;> simp at hy
        · rfl
        · show s2.rtt + _ = _
          rw [g1.2.2.2.1]
        · show s2.rttVar + _ = _
          rw [g1.2.2.2.1, g1.2.2.2.2]
        · refine clamp_timeout s2 sm ?_ ?_
          · obtain ⟨⟨a1, a2⟩, ⟨a3, a4⟩, _⟩ := hst
            omega
          · obtain ⟨⟨a1, a2⟩, ⟨a3, a4⟩, _⟩ := hst
            unfold maxRtt at a2 a4
            omega

theorem heard_s (w : World) (pkt : Packet) : ∃ ack, ((w.waited w.s.patience).heard E pkt).s =
    { w.s with ackNr := ack, remoteWnd := pkt.wndSize, theirDelay := absDiff (E.now w.nNow) pkt.timestamp } := by
  have h : ∃ ack, w.s.bumpAck pkt = { w.s with ackNr := ack } := by
    unfold Socket.bumpAck
    split
    · exact ⟨_, rfl⟩
    · exact ⟨w.s.ackNr, rfl⟩
  obtain ⟨ack, h⟩ := h
  exact ⟨ack, by simp only [World.heard, World.waited, World.setS, h]⟩

theorem C63_ack_release (hc : E.checks = false) {w : World} (hw : Reach E w) {b : Bytes} {src : Addr} {pkt p : Packet} {acked rest : List Packet}
    {exts : List Extension} {fuel len : Nat}
    (hn : E.net w.nNet = .dgram b src) (hr : 0 < w.s.maxRetries.toNat) (hp : Packet.tryFrom (b.take 1520) = some (.ok pkt))
    (ht : pkt.getType = some .state) (hst : w.s.state = .connected)
    (hid : pkt.connectionId = w.s.senderId ∨ pkt.connectionId = w.s.receiverId)
    (hwin : w.s.sendWindow = acked ++ p :: rest) (hseq : p.seqNr = pkt.ackNr) (hfirst : ∀ q ∈ acked, q.seqNr ≠ pkt.ackNr)
    (hnew : w.s.lastAcked ≠ pkt.ackNr) (hext : pkt.extensions = some exts) (hnos : ∀ e ∈ exts, e.ty ≠ .selectiveAck) :
    ∃ w', (recv E (fuel + 2) len w).2 = w' ∧ w'.log = w.log ++ [.wait (some w.s.congTimeout)] ∧ w'.s.remoteWnd = pkt.wndSize ∧
      ∃ k, w.nNow ≤ k ∧ k < w'.nNow ∧ Acknowledged E.ewma E.cwndStep (E.now k) acked p rest w.s w'.s := by
  obtain ⟨ack, hs1⟩ := heard_s (E := E) w pkt
  generalize hw1 : (w.waited w.s.patience).heard E pkt = w1 at hs1
  have hlog1 : w1.log = w.log ++ [.wait (some w.s.congTimeout)] := by
    rw [← hw1]; simp [World.heard, World.waited, World.setS, Socket.patience, hst]
  have hnow1 : w1.nNow = w.nNow + 1 := by rw [← hw1]; simp [World.heard, World.waited, World.setS]
  have hcnt : countAck E pkt w1 =
      (.ok (), ({ w1 with nNow := w1.nNow + 1 } : World).setS { w1.s with lastAcked := pkt.ackNr, lastAckedTs := E.now w1.nNow, dupAcks := 1 }) := by
    unfold countAck
    msimp
    rw [if_neg (by rw [hs1]; exact fun h => hnew h.symm)]
  generalize hs2 : ({ w1.s with lastAcked := pkt.ackNr, lastAckedTs := E.now w1.nNow, dupAcks := 1 } : Socket) = s2 at hcnt
  have hidx : (s2.sendWindow.findIdx? fun q => pkt.ackNr == q.seqNr) = some acked.length := by
    rw [← hs2, hs1]
    simp only [hwin]
    rw [List.findIdx?_eq_some_iff_getElem]
    refine ⟨by simp, by simp [hseq], fun j hj => ?_⟩
    rw [List.getElem_append_left hj]
    simpa using (hfirst _ (List.getElem_mem hj)).symm
  have hget : s2.sendWindow[acked.length]? = some p := by
    rw [← hs2, hs1]
    simp [hwin]
  obtain ⟨s3, h3⟩ : ∃ s3, s2.onNewAck E acked.length p (E.now (w1.nNow + 1)) = some s3 := by
    rcases hx : s2.onNewAck E acked.length p (E.now (w1.nNow + 1)) with _ | s3
    · exact absurd hx (onNewAck_release hc _ _ _ _)
    · exact ⟨s3, rfl⟩
  have hmeas : measureAck E pkt (({ w1 with nNow := w1.nNow + 1 } : World).setS s2) = (.ok (), ({ w1 with nNow := w1.nNow + 2 } : World).setS s3) := by
    simp [measureAck, bind_def, pure_def, M.andThen, getS, M.ret, World.setS, hidx, now, orPanic, hget, h3, modS]
  have hla : s3.lastAcked = pkt.ackNr := by rw [onNewAck_lastAcked h3, ← hs2]
  have hdu : s3.dupAcks = 1 := by rw [onNewAck_dupAcks h3, ← hs2]
  have hsw : s3.sendWindow = acked ++ p :: rest := by rw [onNewAck_sendWindow h3, ← hs2, hs1]; exact hwin
  have hcw : s3.currWindow = w.s.currWindow := by rw [onNewAck_currWindow h3, ← hs2, hs1]
  have hidx3 : (s3.sendWindow.findIdx? fun q => q.seqNr == s3.lastAcked) = some acked.length := by
    rw [hsw, hla, List.findIdx?_eq_some_iff_getElem]
    refine ⟨by simp, by simp [hseq], fun j hj => ?_⟩
    rw [List.getElem_append_left hj]
    simpa using hfirst _ (List.getElem_mem hj)
  have htake : (acked ++ p :: rest).take (acked.length + 1) = acked ++ [p] := by
    rw [show acked ++ p :: rest = (acked ++ [p]) ++ rest by simp]; exact List.take_left' (by simp)
  have hdrop : (acked ++ p :: rest).drop (acked.length + 1) = rest := by
    rw [show acked ++ p :: rest = (acked ++ [p]) ++ rest by simp]; exact List.drop_left' (by simp)
  obtain ⟨c, hsl⟩ : ∃ c, Socket.subLens E s3.currWindow (acked ++ [p]) = some c := by
    rcases hx : Socket.subLens E s3.currWindow (acked ++ [p]) with _ | c
    · exact absurd hx (subLens_release hc _ _)
    · exact ⟨c, rfl⟩
  have hadv : s3.advanceSendWindow E = some { s3 with sendWindow := rest, currWindow := c } := by
    unfold Socket.advanceSendWindow
    rw [hidx3]
    simp only [hsw, htake, hdrop, hsl]
  have hhs : handleState E (fuel + 1) (recv E (fuel + 1) BUF_SIZE) pkt w1 =
      (.ok (), ({ w1 with nNow := w1.nNow + 2 } : World).setS { s3 with sendWindow := rest, currWindow := c }) := by
    unfold handleState
    rw [bind_def, andThen_eq hcnt, bind_def, andThen_eq hmeas, bind_def, andThen_getS, bind_def, hext, andThen_some, bind_def,
      andThen_eq (processExtensions_other _ _ _ hnos), bind_def]
    have hd : ¬ (s3.sendWindow ≠ [] ∧ s3.dupAcks = 3) := by rw [hdu]; simp
    have hfr : fastRetransmit E (fuel + 1) (recv E (fuel + 1) BUF_SIZE) pkt exts (({ w1 with nNow := w1.nNow + 2 } : World).setS s3) =
        (.ok (), ({ w1 with nNow := w1.nNow + 2 } : World).setS s3) := by
      unfold fastRetransmit
      msimp
      rw [if_neg]
      rintro ⟨h1, h2, -⟩
      exact hd ⟨h1, h2⟩
    rw [andThen_eq hfr]
    msimp
    simp [hdu, hadv, World.setS, M.andThen, orPanic, modS, getS, M.ret]
  rw [← hw1] at hhs
  obtain ⟨pe, inc, ack', ld, hrec⟩ := recv_state (len := len) hn hr hp ht hst hid hhs
  rw [hw1] at hrec
  refine ⟨_, rfl, ?_⟩
  rw [hrec]
  have hrt := C11_range hw
  have hrange : (0 ≤ s2.rtt ∧ s2.rtt ≤ maxRtt) ∧ (0 ≤ s2.rttVar ∧ s2.rttVar ≤ maxRtt) := by rw [← hs2, hs1]; exact hrt
  obtain ⟨q1, q2, q3⟩ := onNewAck_acknowledged h3 hrange
  refine ⟨by simpa using hlog1, ?_, w1.nNow + 1, by omega, Nat.lt_succ_self _, ?_⟩
  · show s3.remoteWnd = _
    rw [onNewAck_remoteWnd h3, ← hs2, hs1]
  · have f1 : s2.lastRollover = w.s.lastRollover ∧ s2.baseDelays = w.s.baseDelays ∧ s2.currDelays = w.s.currDelays ∧ s2.rtt = w.s.rtt ∧
        s2.rttVar = w.s.rttVar ∧ s2.cwnd = w.s.cwnd ∧ s2.currWindow = w.s.currWindow ∧ s2.sendWindow = w.s.sendWindow := by
      rw [← hs2, hs1]
      exact ⟨rfl, rfl, rfl, rfl, rfl, rfl, rfl, rfl⟩
    obtain ⟨f1, f2, f3, f4, f5, f6, f7, f8⟩ := f1
    rw [f1, f2] at q1
    rw [f3, f4] at q2
    rw [f4, f5, f6, f7, f8, hwin, htake] at q3
    exact ⟨rfl, by rw [← hcw]; exact subLens_exact _ _ _ hsl, ⟨hla.trans hseq.symm, hdu⟩, q1, q2, q3⟩

/-- **C63**: in every build and every reachable state of an open connection, the first State packet that acknowledges the outstanding packet `p` (and
carries no selective ack) removes `p` and all packets before it, and its delay enters all estimates.  Nothing is sent. -/
theorem C63_ack {w : World} (hw : Reach E w) {b : Bytes} {src : Addr} {pkt p : Packet} {acked rest : List Packet}
    {exts : List Extension} {fuel len : Nat}
    (hn : E.net w.nNet = .dgram b src) (hr : 0 < w.s.maxRetries.toNat) (hp : Packet.tryFrom (b.take 1520) = some (.ok pkt))
    (ht : pkt.getType = some .state) (hst : w.s.state = .connected)
    (hid : pkt.connectionId = w.s.senderId ∨ pkt.connectionId = w.s.receiverId)
    (hwin : w.s.sendWindow = acked ++ p :: rest) (hseq : p.seqNr = pkt.ackNr) (hfirst : ∀ q ∈ acked, q.seqNr ≠ pkt.ackNr)
    (hnew : w.s.lastAcked ≠ pkt.ackNr) (hext : pkt.extensions = some exts) (hnos : ∀ e ∈ exts, e.ty ≠ .selectiveAck)
    (hnp : (recv E (fuel + 2) len w).1 ≠ .panic) :
    ∃ w', (recv E (fuel + 2) len w).2 = w' ∧ w'.log = w.log ++ [.wait (some w.s.congTimeout)] ∧ w'.s.remoteWnd = pkt.wndSize ∧
      ∃ k, w.nNow ≤ k ∧ k < w'.nNow ∧ Acknowledged E.ewma E.cwndStep (E.now k) acked p rest w.s w'.s := by
  have h := C63_ack_release (E := E.release) (fuel := fuel) (len := len) rfl (C58_reach hw) hn hr hp ht hst hid hwin hseq hfirst hnew hext hnos
  rw [recv_release hnp] at h
  exact h

/-- A fresh socket has measured, counted, received and queued nothing; its timeout is a second and its window two packets.  Before its connection exists it knows
nothing about the peer. -/
theorem C63_start {w : World} (h : Start E w) : w.s.dupAcks = 0 ∧ w.s.sendWindow = [] ∧ w.s.currWindow = 0 ∧ w.s.baseDelays = [] ∧
    w.s.currDelays = [] ∧ w.s.rtt = 0 ∧ w.s.rttVar = 0 ∧ w.s.cwnd = 2800 ∧ w.s.congTimeout = 1000 ∧ w.s.maxRetries = 5 ∧
    w.s.incoming = [] ∧ w.s.pending = [] ∧ w.s.unsent = [] ∧ w.s.lastAcked = 0 ∧ w.s.lastRollover = 0 ∧
    (w.s.state ≠ .connected → w.s.seqNr = 1 ∧ w.s.ackNr = 0 ∧ w.s.remoteWnd = 0 ∧ w.s.theirDelay = 0) := by
  cases h with
  | bound => exact ⟨rfl, rfl, rfl, rfl, rfl, rfl, rfl, rfl, rfl, rfl, rfl, rfl, rfl, rfl, rfl, fun _ => ⟨rfl, rfl, rfl, rfl⟩⟩
  | connecting la a0 a st _ hs _ _ _ =>
    rw [hs]; exact ⟨rfl, rfl, rfl, rfl, rfl, rfl, rfl, rfl, rfl, rfl, rfl, rfl, rfl, rfl, rfl, fun _ => ⟨rfl, rfl, rfl, rfl⟩⟩
  | accepted => exact ⟨rfl, rfl, rfl, rfl, rfl, rfl, rfl, rfl, rfl, rfl, rfl, rfl, rfl, rfl, rfl, fun h => absurd rfl h⟩

/-- Counting a repeated acknowledgement of a packet that is not outstanding any more. -/
theorem dup_counted (hc : E.checks = false) {pkt : Packet} {w : World} (hack : w.s.lastAcked = pkt.ackNr)
    (hne : ∀ q ∈ w.s.sendWindow, q.seqNr ≠ pkt.ackNr) :
    countAck E pkt w = (.ok (), w.setS { w.s with dupAcks := w.s.dupAcks + 1 }) ∧
    measureAck E pkt (w.setS { w.s with dupAcks := w.s.dupAcks + 1 }) = (.ok (), w.setS { w.s with dupAcks := w.s.dupAcks + 1 }) := by
  constructor
  · unfold countAck
    msimp
    rw [if_pos hack.symm, overflowIf_release hc, andThen_ret]
    rfl
  · have : (w.s.sendWindow.findIdx? fun q => pkt.ackNr == q.seqNr) = none := by
      rw [List.findIdx?_eq_none_iff]
      intro q hq
      simpa using (hne q hq).symm
    simp [measureAck, bind_def, pure_def, M.andThen, getS, M.ret, World.setS, this]

theorem C63_repeated_release (hc : E.checks = false) {w : World} {b : Bytes} {src : Addr} {pkt : Packet}
    {exts : List Extension} {fuel len : Nat}
    (hn : E.net w.nNet = .dgram b src) (hr : 0 < w.s.maxRetries.toNat) (hp : Packet.tryFrom (b.take 1520) = some (.ok pkt))
    (ht : pkt.getType = some .state) (hst : w.s.state = .connected)
    (hid : pkt.connectionId = w.s.senderId ∨ pkt.connectionId = w.s.receiverId)
    (hack : w.s.lastAcked = pkt.ackNr) (hne : ∀ q ∈ w.s.sendWindow, q.seqNr ≠ pkt.ackNr) (hdup : w.s.dupAcks ≠ 2 ∨ w.s.sendWindow = [])
    (hext : pkt.extensions = some exts) (hnos : ∀ e ∈ exts, e.ty ≠ .selectiveAck) :
    ∃ w', (recv E (fuel + 2) len w).2 = w' ∧ w'.log = w.log ++ [.wait (some w.s.congTimeout)] ∧
      ∃ td pe inc ack ld, w'.s = { w.s with
        dupAcks := w.s.dupAcks + 1, remoteWnd := pkt.wndSize, theirDelay := td
        pending := pe, incoming := inc, ackNr := ack, lastDropped := ld } := by
  obtain ⟨ack, hs1⟩ := heard_s (E := E) w pkt
  generalize hw1 : (w.waited w.s.patience).heard E pkt = w1 at hs1
  have hlog1 : w1.log = w.log ++ [.wait (some w.s.congTimeout)] := by
    rw [← hw1]; simp [World.heard, World.waited, World.setS, Socket.patience, hst]
  obtain ⟨hcnt, hmeas⟩ := dup_counted (E := E) hc (pkt := pkt) (w := w1) (by rw [hs1]; exact hack) (by rw [hs1]; exact hne)
  obtain ⟨s2, hs2⟩ : ∃ s2, ({ w1.s with dupAcks := w1.s.dupAcks + 1 } : Socket) = s2 := ⟨_, rfl⟩
  rw [hs2] at hcnt hmeas
  have hd : ¬ (s2.sendWindow ≠ [] ∧ s2.dupAcks = 3) := by
    rw [← hs2, hs1]
    rintro ⟨h1, h2⟩
    rcases hdup with h | h
    · refine h ?_
      have h2 : w.s.dupAcks + 1 = 3 := h2
      have h3 := congrArg BitVec.toNat h2
      have h4 : (1 : U32).toNat = 1 := rfl
      have h5 : (3 : U32).toNat = 3 := rfl
      rw [BitVec.toNat_add, h4, h5] at h3
      apply BitVec.eq_of_toNat_eq
      show _ = 2
      have := w.s.dupAcks.isLt
      omega
    · exact h1 h
  have hadv : s2.advanceSendWindow E = some s2 := by
    unfold Socket.advanceSendWindow
    have : (s2.sendWindow.findIdx? fun q => q.seqNr == s2.lastAcked) = none := by
      rw [List.findIdx?_eq_none_iff, ← hs2, hs1]
      intro q hq
      simpa [hack] using hne q hq
    rw [this]
  have hhs : handleState E (fuel + 1) (recv E (fuel + 1) BUF_SIZE) pkt w1 = (.ok (), w1.setS s2) := by
    unfold handleState
    rw [bind_def, andThen_eq hcnt, bind_def, andThen_eq hmeas, bind_def, andThen_getS, bind_def, hext, andThen_some, bind_def,
      andThen_eq (processExtensions_other _ _ _ hnos), bind_def]
    have hfr : fastRetransmit E (fuel + 1) (recv E (fuel + 1) BUF_SIZE) pkt exts (w1.setS s2) = (.ok (), w1.setS s2) := by
      unfold fastRetransmit
      msimp
      rw [if_neg]
      rintro ⟨h1, h2, -⟩
      exact hd ⟨h1, h2⟩
    rw [andThen_eq hfr]
    msimp
    generalize hl : decide ((w1.setS s2).s.sendWindow ≠ [] ∧ (w1.setS s2).s.dupAcks = 3) = l
    have : l = false := by rw [← hl]; exact decide_eq_false hd
    subst this
    simp [hadv, World.setS, M.andThen, orPanic, modS, M.ret]
  rw [← hw1] at hhs
  obtain ⟨pe, inc, ack', ld, hrec⟩ := recv_state (len := len) hn hr hp ht hst hid hhs
  rw [hw1] at hrec
  refine ⟨_, rfl, ?_⟩
  rw [hrec]
  refine ⟨by simpa using hlog1, absDiff (E.now w.nNow) pkt.timestamp, pe, inc, ack', ld, ?_⟩
  rw [setS_s, setS_s, ← hs2, hs1]

/-- A repeated acknowledgement of a packet that is not outstanding any more, except for the third, is only counted. -/
theorem C63_repeated {w : World} {b : Bytes} {src : Addr} {pkt : Packet}
    {exts : List Extension} {fuel len : Nat}
    (hn : E.net w.nNet = .dgram b src) (hr : 0 < w.s.maxRetries.toNat) (hp : Packet.tryFrom (b.take 1520) = some (.ok pkt))
    (ht : pkt.getType = some .state) (hst : w.s.state = .connected)
    (hid : pkt.connectionId = w.s.senderId ∨ pkt.connectionId = w.s.receiverId)
    (hack : w.s.lastAcked = pkt.ackNr) (hne : ∀ q ∈ w.s.sendWindow, q.seqNr ≠ pkt.ackNr) (hdup : w.s.dupAcks ≠ 2 ∨ w.s.sendWindow = [])
    (hext : pkt.extensions = some exts) (hnos : ∀ e ∈ exts, e.ty ≠ .selectiveAck)
    (hnp : (recv E (fuel + 2) len w).1 ≠ .panic) :
    ∃ w', (recv E (fuel + 2) len w).2 = w' ∧ w'.log = w.log ++ [.wait (some w.s.congTimeout)] ∧
      ∃ td pe inc ack ld, w'.s = { w.s with
        dupAcks := w.s.dupAcks + 1, remoteWnd := pkt.wndSize, theirDelay := td
        pending := pe, incoming := inc, ackNr := ack, lastDropped := ld } := by
  have h := C63_repeated_release (E := E.release) (fuel := fuel) (len := len) rfl hn hr hp ht hst hid hack hne hdup hext hnos
  rw [recv_release hnp] at h
  exact h

theorem C63_third_release (hc : E.checks = false) {w : World} {b : Bytes} {src : Addr} {pkt p : Packet}
    {exts : List Extension} {fuel len : Nat}
    (hn : E.net w.nNet = .dgram b src) (hr : 0 < w.s.maxRetries.toNat) (hp : Packet.tryFrom (b.take 1520) = some (.ok pkt))
    (ht : pkt.getType = some .state) (hst : w.s.state = .connected)
    (hid : pkt.connectionId = w.s.senderId ∨ pkt.connectionId = w.s.receiverId)
    (hack : w.s.lastAcked = pkt.ackNr) (hne : ∀ q ∈ w.s.sendWindow, q.seqNr ≠ pkt.ackNr) (hdup : w.s.dupAcks = 2)
    (hout : w.s.sendWindow.find? (fun q => q.seqNr == pkt.ackNr + 1) = some p)
    (hroom : w.s.currWindow.toNat < max 2800 (min w.s.cwnd.toNat pkt.wndSize.toNat)) (hs : ∀ k, E.snd k ≠ .never)
    (hext : pkt.extensions = some exts) (hnos : ∀ e ∈ exts, e.ty ≠ .selectiveAck) :
    ∃ w', (recv E (fuel + 2) len w).2 = w' ∧
      ∃ td pe inc ack ld c, w'.s = { w.s with
        dupAcks := 3, remoteWnd := pkt.wndSize, theirDelay := td, cwnd := c
        pending := pe, incoming := inc, ackNr := ack, lastDropped := ld } ∧ c.toNat = max 2800 (w.s.cwnd.toNat / 2) := by
  obtain ⟨ack, hs1⟩ := heard_s (E := E) w pkt
  generalize hw1 : (w.waited w.s.patience).heard E pkt = w1 at hs1
  obtain ⟨hcnt, hmeas⟩ := dup_counted (E := E) hc (pkt := pkt) (w := w1) (by rw [hs1]; exact hack) (by rw [hs1]; exact hne)
  obtain ⟨s2, hs2⟩ : ∃ s2, ({ w1.s with dupAcks := w1.s.dupAcks + 1 } : Socket) = s2 := ⟨_, rfl⟩
  rw [hs2] at hcnt hmeas
  have hwin : s2.sendWindow ≠ [] := by
    rw [← hs2, hs1]
    show w.s.sendWindow ≠ []
    intro h
    rw [h] at hout
    simp at hout
  have hd : s2.dupAcks = 3 := by
    rw [← hs2, hs1]
    show w.s.dupAcks + 1 = 3
    rw [hdup]
    rfl
  obtain ⟨w2, h2, hres⟩ := resendLost_room (E := E) hs (fuel := fuel) (rec := recv E (fuel + 1) BUF_SIZE)
    (w := w1.setS s2) (nr := pkt.ackNr + 1) (by
      rw [setS_s, ← hs2, hs1]
      exact hroom) (by
      unfold TooFar
      rw [setS_s, ← hs2, hs1]
      simp only [hack]
      have h1 : (1 : U16).toNat = 1 := rfl
      rw [BitVec.toNat_sub, BitVec.toNat_add, h1]
      have := pkt.ackNr.isLt
      omega)
  have hfr : fastRetransmit E (fuel + 1) (recv E (fuel + 1) BUF_SIZE) pkt exts (w1.setS s2) = (.ok (), w2) := by
    unfold fastRetransmit
    msimp
    rw [if_pos ⟨hwin, hd, by simpa using hnos⟩, overflowIf_release hc, andThen_ret]
    exact h2
  have hadv : s2.halveWindow.advanceSendWindow E = some s2.halveWindow := by
    unfold Socket.advanceSendWindow
    have : (s2.halveWindow.sendWindow.findIdx? fun q => q.seqNr == s2.halveWindow.lastAcked) = none := by
      rw [List.findIdx?_eq_none_iff, ← hs2, hs1]
      intro q hq
      simpa [Socket.halveWindow, hack] using hne q hq
    rw [this]
  have hw2 : w2.s = s2 := hres.s
  have hhs : handleState E (fuel + 1) (recv E (fuel + 1) BUF_SIZE) pkt w1 = (.ok (), w2.setS s2.halveWindow) := by
    unfold handleState
    rw [bind_def, andThen_eq hcnt, bind_def, andThen_eq hmeas, bind_def, andThen_getS, bind_def, hext, andThen_some, bind_def,
      andThen_eq (processExtensions_other _ _ _ hnos), bind_def, andThen_eq hfr]
    msimp
    generalize hl : decide ((w1.setS s2).s.sendWindow ≠ [] ∧ (w1.setS s2).s.dupAcks = 3) = l
    have : l = true := by rw [← hl]; exact decide_eq_true ⟨hwin, hd⟩
    subst this
    simp [hw2, hadv, World.setS, M.andThen, orPanic, modS, M.ret]
  rw [← hw1] at hhs
  obtain ⟨pe, inc, ack', ld, hrec⟩ := recv_state (len := len) hn hr hp ht hst hid hhs
  refine ⟨_, rfl, absDiff (E.now w.nNow) pkt.timestamp, pe, inc, ack', ld, s2.halveWindow.cwnd, ?_, ?_⟩
  · rw [hrec, setS_s, setS_s, ← hd, ← hs2, hs1]
    rfl
  · rw [← hs2, hs1]
    simp only [Socket.halveWindow]
    rw [toNat_atLeast, BitVec.toNat_udiv]
    rfl

/-- The third acknowledgement halves the congestion window (and makes the socket retransmit the next packet, `C19_fast`); nothing else changes. -/
theorem C63_third {w : World} {b : Bytes} {src : Addr} {pkt p : Packet}
    {exts : List Extension} {fuel len : Nat}
    (hn : E.net w.nNet = .dgram b src) (hr : 0 < w.s.maxRetries.toNat) (hp : Packet.tryFrom (b.take 1520) = some (.ok pkt))
    (ht : pkt.getType = some .state) (hst : w.s.state = .connected)
    (hid : pkt.connectionId = w.s.senderId ∨ pkt.connectionId = w.s.receiverId)
    (hack : w.s.lastAcked = pkt.ackNr) (hne : ∀ q ∈ w.s.sendWindow, q.seqNr ≠ pkt.ackNr) (hdup : w.s.dupAcks = 2)
    (hout : w.s.sendWindow.find? (fun q => q.seqNr == pkt.ackNr + 1) = some p)
    (hroom : w.s.currWindow.toNat < max 2800 (min w.s.cwnd.toNat pkt.wndSize.toNat)) (hs : ∀ k, E.snd k ≠ .never)
    (hext : pkt.extensions = some exts) (hnos : ∀ e ∈ exts, e.ty ≠ .selectiveAck)
    (hnp : (recv E (fuel + 2) len w).1 ≠ .panic) :
    ∃ w', (recv E (fuel + 2) len w).2 = w' ∧
      ∃ td pe inc ack ld c, w'.s = { w.s with
        dupAcks := 3, remoteWnd := pkt.wndSize, theirDelay := td, cwnd := c
        pending := pe, incoming := inc, ackNr := ack, lastDropped := ld } ∧ c.toNat = max 2800 (w.s.cwnd.toNat / 2) := by
  have h := C63_third_release (E := E.release) (fuel := fuel) (len := len) rfl hn hr hp ht hst hid hack hne hdup hout hroom hs hext hnos
  rw [recv_release hnp] at h
  exact h

/-! ### Cases -/

/-- Three packets are sent; the second is acknowledged, and then twice more. -/
def ackEnv : Env :=
  env [arr (dg .state 6 2 101), arr (dg .state 6 2 101), arr (dg .data 6 2 100 [9]), arr (dg .state 6 2 101)] (now := fun k => BitVec.ofNat 32 (1000 * k))
def ackOps : List Op := [.sendTo [1], .sendTo [2], .sendTo [3]]

/-- A case of `C63_ack`: the first two of three packets are acknowledged. -/
example : ∃ (w : World) (a p r : Packet), Reach ackEnv w ∧ w.s.sendWindow = [a] ++ p :: [r] ∧ p.seqNr = 101 ∧
    ∃ w', (recv ackEnv 5 9 w).2 = w' ∧ w'.log = w.log ++ [.wait (some w.s.congTimeout)] ∧
      ∃ k, Acknowledged ackEnv.ewma ackEnv.cwndStep (ackEnv.now k) [a] p [r] w.s w'.s := by
  generalize hw : runs ackEnv 20 ackOps (server ackEnv) = w
  have hr : Reach ackEnv w := hw ▸ reach_server 20 ackOps (by decide +kernel) (by decide +kernel)
  have h1 : ackEnv.net w.nNet = .dgram (dg .state 6 2 101) peer := by rw [← hw]; decide +kernel
  have h2 : 0 < w.s.maxRetries.toNat := by rw [← hw]; decide +kernel
  have h3 : w.s.state = .connected := by rw [← hw]; decide +kernel
  have h4 : (6 : U16) = w.s.receiverId := by rw [← hw]; decide +kernel
  have h5 : w.s.lastAcked ≠ 101 := by rw [← hw]; decide +kernel
  have h6 : w.s.sendWindow.map (·.seqNr) = [100, 101, 102] := by rw [← hw]; decide +kernel
  have h7 : (recv ackEnv 5 9 w).1 ≠ .panic := by rw [← hw]; decide +kernel
  obtain ⟨a, l, e1, h61, h6⟩ := List.map_eq_cons_iff.mp h6
  obtain ⟨p, l', rfl, h62, h6⟩ := List.map_eq_cons_iff.mp h6
  obtain ⟨r, l'', rfl, h63, h6⟩ := List.map_eq_cons_iff.mp h6
  obtain rfl := List.map_eq_nil_iff.mp h6
  have ha : (Packet.mk (dg .state 6 2 101)).ackNr = 101 := by decide
  obtain ⟨w', g1, g2, -, k, -, -, g3⟩ := C63_ack hr (fuel := 3) (len := 9) (b := dg .state 6 2 101) (src := peer) (pkt := ⟨dg .state 6 2 101⟩)
    (exts := []) (acked := [a]) (p := p) (rest := [r]) h1 h2 (by rfl) (by decide) h3 (.inr h4) e1 (by rw [ha, h62])
    (by simp only [List.mem_singleton, forall_eq, ha, h61]; decide) (by rw [ha]; exact h5) (by decide) (by decide) h7
  exact ⟨w, a, p, r, hr, e1, h62, w', g1, g2, k, g3⟩

/-- Cases of `C63_ack`, `C63_repeated` and `C63_third`, computed: two packets are acknowledged; the acknowledgement is repeated; the third one
halves the window (to its minimum) and the third packet is sent again. -/
example : let w0 := runs ackEnv 20 ackOps (server ackEnv)
    let w1 := (recv ackEnv 5 9 w0).2
    let w2 := (recv ackEnv 5 9 w1).2
    let w3 := (recv ackEnv 5 9 w2).2
    let w4 := (recv ackEnv 5 9 w3).2
    (w0.s.sendWindow.map (·.seqNr), w0.s.dupAcks, w0.s.rtt, w0.s.currDelays) = ([100, 101, 102], 0, 0, []) ∧
    (w1.s.sendWindow.map (·.seqNr), w1.s.dupAcks, w1.s.baseDelays.length, w1.s.currDelays.length) = ([102], 1, 1, 1) ∧
    (w2.s.sendWindow.map (·.seqNr), w2.s.dupAcks, w2.s.currDelays) = ([102], 2, w1.s.currDelays) ∧
    (w4.s.sendWindow.map (·.seqNr), w4.s.dupAcks, w4.s.cwnd, (sent w4).length) = ([102], 3, 2800, (sent w3).length + 1) := by
  decide +kernel

end Utp
