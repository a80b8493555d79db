import Verif.Props.Shutdown
import Verif.Props.Advert
import Verif.Lemmas.LossyBase
/-!
# C109: closing a connection over a network that loses datagrams
-/

namespace Utp
open M

section
variable {E A B : Env} {a b : World}

/-- A socket that waits for the acknowledgement of its FIN: what stays the same while the waits time out, and the FINs sent meanwhile. -/
structure Refin (w w' : World) (n : Nat) : Prop where
  s : w'.s = { w.s with congTimeout := w'.s.congTimeout, cwnd := w'.s.cwnd }
  time : w'.s.congTimeout.toNat = w.s.congTimeout.toNat * 2 ^ n % 2 ^ 64
  nNet : w'.nNet = w.nNet + n
  log : ∃ l, w'.log = w.log ++ l ∧ (datagramsOf l).length = n ∧ ∀ d ∈ datagramsOf l, ∃ p, FinPkt w.s.seqNr w.s.senderId p ∧ d = p.bytes

/-- After each timeout the FIN is sent again. -/
theorem recvWait_refin {w : World} (hs : w.s.state = .finSent) (hw : w.s.sendWindow = []) (hok : ∀ k, E.snd k = .ok) : ∀ n, n ≤ w.s.maxRetries.toNat →
    (E.checks = true → w.s.congTimeout.toNat * 2 ^ n < 2 ^ 64) → (∀ i, i < n → (E.net (w.nNet + i)).isTimeout) →
    ∃ w', Refin w w' n ∧ ∀ fuel, recvWait E (fuel + n) 0 w = recvWait E fuel n w'
  | 0, _, _, _ => ⟨w, ⟨rfl, by simp [Nat.mod_eq_of_lt w.s.congTimeout.isLt], rfl, [], by simp, rfl, by simp [datagramsOf]⟩, fun _ => rfl⟩
  | n + 1, hn, hno, hto => by
    obtain ⟨v, hv, h⟩ := recvWait_refin hs hw hok n (by omega) (fun h => by have := hno h; rw [Nat.pow_succ, ← Nat.mul_assoc] at this; omega) (fun i hi => hto i (by omega))
    have hvs : v.s.state = .finSent := by rw [hv.s]; exact hs
    have hvw : v.s.sendWindow = [] := by rw [hv.s]; exact hw
    have hvr : v.s.maxRetries = w.s.maxRetries := by rw [hv.s]
    obtain ⟨l, hl, hlen, hfin⟩ := hv.log
    obtain ⟨f1, _, f3⟩ := finPacket_facts v.s (E.now v.nNow)
    obtain ⟨x, hx⟩ : ∃ x : World, x = { (v.waited v.s.patience) with
        s := { v.s with congTimeout := v.s.congTimeout * 2, cwnd := MSS }, nNow := v.nNow + 1, nSnd := v.nSnd + 1
        log := (v.waited v.s.patience).log ++ [.send v.s.connectedTo (finPacket v.s (E.now v.nNow)).bytes true] } := ⟨_, rfl⟩
    have hh : handleReceiveTimeout E (v.waited v.s.patience) = (.ok (), x) := by
      unfold handleReceiveTimeout overflowIf
      msimp
      have e1 : (v.waited v.s.patience).s = v.s := rfl
      rw [if_neg (by
        intro hc
        rw [Bool.and_eq_true, decide_eq_true_eq, e1] at hc
        have := hno hc.1
        have h3 := hv.time
        rw [Nat.pow_succ, ← Nat.mul_assoc] at this
        rw [Nat.mod_eq_of_lt (by omega)] at h3
        omega)]
      simp only [e1, hvw, hvs, if_true]
      msimp
      rw [hx, udpSend_ok (hok _)]
      rw [← hvs, ← hvw]
      rfl
    refine ⟨x, ⟨?_, ?_, ?_, l ++ [.wait v.s.patience, .send v.s.connectedTo (finPacket v.s (E.now v.nNow)).bytes true], ?_, ?_, ?_⟩, fun fuel => ?_⟩
    · rw [hx]
      simp only
      rw [hv.s]
    · rw [hx]
      show (v.s.congTimeout * 2).toNat = _
      rw [BitVec.toNat_mul, hv.time, Nat.pow_succ, Nat.mod_mul_mod, Nat.mul_assoc]
      rfl
    · rw [hx]
      show v.nNet + 1 = _
      rw [hv.nNet]; omega
    · rw [hx]
      show (v.log ++ [.wait v.s.patience]) ++ _ = _
      rw [hl]; simp
    · rw [datagramsOf_append, List.length_append, hlen]; rfl
    · intro d hd
      rw [datagramsOf_append, List.mem_append] at hd
      rcases hd with hd | hd
      · exact hfin d hd
      · have hd : d = (finPacket v.s (E.now v.nNow)).bytes := by simpa [datagramsOf] using hd
        refine ⟨_, ⟨finPacket_plain _ _, by simp [finPacket, show Packet.new.bytes.length = 20 by decide], ?_, ?_⟩, hd⟩
        · rw [f1, hv.s]
        · rw [f3, hv.s]
    · rw [show fuel + (n + 1) = (fuel + 1) + n by omega, h (fuel + 1)]
      exact recvWait_expires (by rw [hv.nNet]; exact hto n (by omega)) (by rw [hvr]; omega) hh

/-- Timeouts before a datagram make no difference but for the FINs. -/
theorem recv_refin {w w' : World} {n : Nat} (h : ∀ fuel, recvWait E (fuel + n) 0 w = recvWait E fuel n w') {d : Bytes} {src : Addr} (hn : E.net w'.nNet = .dgram d src)
    (hr : n < w'.s.maxRetries.toNat) (fuel len : Nat) : recv E (fuel + n + 2) len w = recv E (fuel + n + 2) len w' := by
  have h1 : ∀ fuel k, k < w'.s.maxRetries.toNat → recvWait E (fuel + 1) k w' = (.ok (d.take (BUF_SIZE + HEADER_SIZE), src), w'.waited w'.s.patience) := by
    intro fuel k hk
    rw [recvWait]
    msimp
    rw [if_neg (by omega), andThen_eq (udpRecv_dgram hn _ _)]
    rfl
  have h2 : recvWait E (fuel + n + 1) 0 w = recvWait E (fuel + n + 1) 0 w' := by
    rw [show fuel + n + 1 = (fuel + 1) + n by omega, h, h1 _ _ hr, show fuel + 1 + n = (fuel + n) + 1 by omega, h1 _ _ (by omega)]
  rw [show fuel + n + 2 = (fuel + n + 1) + 1 from rfl, recv, recv, recvBody, bind_def]
  unfold M.andThen
  rw [h2]

/-- The datagrams that `close` sends on a connection with nothing outstanding in its first `n` waits, all of which time out, are FINs. -/
theorem close_refin {n : Nat} (hs : a.s.state = .connected) (hq : Settled a.s) (hA : ∀ k, A.snd k = .ok) (hn : n ≤ a.s.maxRetries.toNat)
    (hno : A.checks = true → a.s.congTimeout.toNat * 2 ^ n < 2 ^ 64) (hto : ∀ i, i < n → (A.net (a.nNet + i)).isTimeout) :
    ∃ w1 w', w1.s = { a.s with state := .finSent } ∧ (∀ fuel, close A (fuel + 1) a = closeLoop A (fuel + 1) w1) ∧ Refin w1 w' n ∧ w'.nNet = a.nNet + n ∧
      (∀ fuel, recvWait A (fuel + n) 0 w1 = recvWait A fuel n w') ∧ (sentSince a w').length = n + 1 ∧ a.log <+: w'.log ∧
      ∀ d ∈ sentSince a w', ∃ p, FinPkt a.s.seqNr a.s.senderId p ∧ d = p.bytes := by
  obtain ⟨w1, p, hp, h1, h2, ⟨dst, h3⟩, _, h4⟩ := close_settled (E := A) hs hq (hA _)
  obtain ⟨w', g1, g2⟩ := recvWait_refin (E := A) (w := w1) (by rw [h1]) (by rw [h1]; exact hq.sendWindow) hA n (by rw [h1]; exact hn) (by rw [h1]; exact hno) (by rw [h2]; exact hto)
  obtain ⟨l, k1, k2, k3⟩ := g1.log
  have hlog : sentSince a w' = p.bytes :: datagramsOf l := by
    unfold sentSince
    rw [k1, h3, List.append_assoc, List.drop_left]
    rfl
  refine ⟨w1, w', h1, h4, g1, by rw [g1.nNet, h2], g2, by rw [hlog, List.length_cons, k2], ⟨_, by rw [k1, h3, List.append_assoc]⟩, fun d hd => ?_⟩
  rw [hlog, List.mem_cons] at hd
  rcases hd with rfl | hd
  · exact ⟨p, hp, rfl⟩
  · have := k3 d hd
    rwa [h1] at this

/-- The loop ends with the packet that closes the socket. -/
theorem closeLoop_at {w w' : World} {x : Bytes × Addr} {m : Nat} (hs : w.s.state = .finSent) (h : ∀ len, recv E (m + 2) len w = (.ok x, w')) (hs' : w'.s.state = .closed) :
    closeLoop E (m + 2) w = (.ok (), w') := by
  have h1 : scratchRecv E (m + 2) w = (.ok (), w') := by
    unfold scratchRecv
    rw [bind_def, andThen_eq (h _)]
    rfl
  unfold closeLoop
  rw [whileM]
  msimp
  simp only [hs, ne_eq, reduceCtorEq, not_false_eq_true, decide_true]
  rw [andThen_eq h1, whileM]
  msimp
  simp only [hs', not_true_eq_false, decide_false]
  rfl

/-- **C109.**  `close` survives the loss of FINs: nothing is outstanding; the first `n` waits of `close` time out, `n` being less than the limit of retries; the other side receives one of the
`n + 1` FINs that `close` sends until then, and its answer arrives.  Then `close` returns Ok, `recv_from` on the other side returns 0 bytes, and the connection is over on both sides.

Partial: if the answer is lost, `close` fails (`C109_answer_lost`). -/
theorem C109_fin_lost_partial {n len : Nat} (h : Linked a b) (hr : Ready a.s b.s) (hb : b.s.sendWindow = []) (hA : ∀ k, A.snd k = .ok) (hB : B.snd b.nSnd = .ok)
    (hn : n < a.s.maxRetries.toNat) (hno : A.checks = true → a.s.congTimeout.toNat * 2 ^ n < 2 ^ 64) (hto : ∀ i, i < n → (A.net (a.nNet + i)).isTimeout)
    (hfin : ∃ d src, d ∈ sentSince a (close A (n + 1) a).2 ∧ B.net b.nNet = .dgram d src)
    (hans : ∀ fuel d, (sentSince b (recvFrom B fuel len b).2)[0]? = some d → ∃ src, A.net (a.nNet + n) = .dgram d src) :
    ∃ a' b' src, (∀ fuel, close A (fuel + n + 2) a = (.ok (), a') ∧ recvFrom B (fuel + 2) len b = (.ok ([], src), b')) ∧
      Over A a' ∧ Over B b' ∧ (sentSince a a').length = n + 1 ∧ (sentSince b b').length = 1 := by
  obtain ⟨w1, v, h1, h2, h3, h4, h5, h6, hgr, h7⟩ := close_refin (n := n) h.aOpen ⟨h.aRead.1, h.aRead.2, hr.sent.1⟩ hA (by omega) hno hto
  have hpend : (close A (n + 1) a).2 = v := by
    have hrv : ∀ len, recv A (n + 1) len w1 = (.pending, v) := by
      intro len
      have := h5 0
      rw [Nat.zero_add, recvWait] at this
      rw [recv, recvBody, bind_def]
      unfold M.andThen
      rw [this]
      rfl
    rw [h2]
    unfold closeLoop scratchRecv
    rw [whileM]
    msimp
    rw [if_pos (by rw [h1]; simp)]
    unfold M.andThen
    rw [hrv]
  obtain ⟨d, src, hd, hnet⟩ := hfin
  rw [hpend] at hd
  obtain ⟨p, hp, rfl⟩ := h7 d hd
  rw [h.toB] at hp
  obtain ⟨b', g1, g2, g3, r, t, g4, g5⟩ := recv_closing (.inl h.bOpen) ⟨h.bRead.1, h.bRead.2, hb⟩ (tries_pos h.bTries) hnet hp hr.next hB
  have g6 := recvFrom_closing h.bOpen ⟨h.bRead.1, h.bRead.2, hb⟩ g1 g2
  obtain ⟨src', hn'⟩ := hans 2 r.bytes (by
    unfold sentSince
    rw [g6 0, g5, List.drop_left]
    rfl)
  rw [h.toA] at g4
  have hvs : v.s.state = .finSent ∧ Settled v.s ∧ v.s.maxRetries = a.s.maxRetries ∧ v.s.seqNr = a.s.seqNr ∧ v.s.receiverId = a.s.receiverId := by
    rw [h3.s, h1]
    exact ⟨rfl, ⟨h.aRead.1, h.aRead.2, hr.sent.1⟩, rfl, rfl, rfl⟩
  obtain ⟨s1, s2, s3, s4, s5⟩ := hvs
  rw [← h4] at hn'
  obtain ⟨a', k1, k2, k3, t', k4⟩ := recv_finAck (E := A) (w := v) (q := b.s.seqNr) s1 s2 (by rw [s3]; exact tries_pos h.aTries) hn' (by rw [s4, s5]; exact g4)
  refine ⟨a', b', _, fun fuel => ⟨?_, g6 fuel len⟩, over_of k2 k3, over_of g2 g3, ?_, ?_⟩
  · rw [show fuel + n + 2 = (fuel + n + 1) + 1 from rfl, h2]
    exact closeLoop_at (by rw [h1]) (fun len => (recv_refin h5 hn' (by rw [s3]; exact hn) fuel len).trans (k1 _ _)) k2
  · obtain ⟨l, hl⟩ := hgr
    rw [← h6]
    unfold sentSince
    rw [k4, ← hl, List.append_assoc, List.drop_left, List.drop_left, datagramsOf_append]
    simp [datagramsOf]
  · unfold sentSince
    rw [g5, List.drop_left]
    rfl

/-- **C109.**  If the answer to the FIN is lost, `close` fails, whatever the limit of retries: the side that answered is done with the connection and never answers again, so each further
FIN is ignored.  Its `recv_from` has returned 0 bytes: one side sees a connection that ended in order, the other one that was lost. -/
theorem C109_answer_lost {len : Nat} (h : Linked a b) (hr : Ready a.s b.s) (hb : b.s.sendWindow = []) (hA : ∀ k, A.snd k = .ok) (hB : B.snd b.nSnd = .ok)
    (hno : A.checks = true → a.s.congTimeout.toNat * 2 ^ a.s.maxRetries.toNat < 2 ^ 64) (hfin : ∃ d src, d ∈ sentSince a (close A (a.s.maxRetries.toNat + 2) a).2 ∧ B.net b.nNet = .dgram d src) (hlost : ∀ j, a.nNet ≤ j → (A.net j).isTimeout) :
    ∃ a' b' src, (∀ fuel, a.s.maxRetries.toNat + 1 < fuel → close A fuel a = (.err (.sock .connectionTimedOut), a')) ∧ a'.s.state = .closed ∧
      (∀ fuel, recvFrom B (fuel + 2) len b = (.ok ([], src), b')) ∧ Over B b' ∧
      (sentSince a a').length = a.s.maxRetries.toNat + 1 ∧ (∀ d ∈ sentSince a a', kind d = 1) ∧ (sentSince b b').length = 1 := by
  obtain ⟨w1, v, h1, h2, h3, h4, h5, h6, ⟨l, hl⟩, h7⟩ := close_refin (A := A) (a := a) h.aOpen ⟨h.aRead.1, h.aRead.2, hr.sent.1⟩ hA (Nat.le_refl _) hno (fun i _ => hlost _ (by omega))
  have hv : v.s.maxRetries = a.s.maxRetries := by rw [h3.s, h1]
  have key : ∀ fuel, a.s.maxRetries.toNat + 1 < fuel → close A fuel a = (.err (.sock .connectionTimedOut), v.setS { v.s with state := .closed }) := by
    intro fuel hf
    obtain ⟨m, rfl⟩ : ∃ m, fuel = m + a.s.maxRetries.toNat + 2 := ⟨fuel - (a.s.maxRetries.toNat + 2), by omega⟩
    have hrw : recvWait A (m + a.s.maxRetries.toNat + 1) 0 w1 = (.err (.sock .connectionTimedOut), v.setS { v.s with state := .closed }) := by
      rw [show m + a.s.maxRetries.toNat + 1 = (m + 1) + a.s.maxRetries.toNat by omega, h5, recvWait]
      msimp
      rw [if_pos (by rw [hv])]
    have hrv : ∀ len, recv A (m + a.s.maxRetries.toNat + 2) len w1 = (.err (.sock .connectionTimedOut), v.setS { v.s with state := .closed }) := fun len => by
      rw [recv, recvBody, bind_def, andThen_err hrw]
    have hsc : scratchRecv A (m + a.s.maxRetries.toNat + 2) w1 = (.err (.sock .connectionTimedOut), v.setS { v.s with state := .closed }) := by
      unfold scratchRecv
      rw [bind_def, andThen_err (hrv _)]
    rw [show m + a.s.maxRetries.toNat + 2 = (m + a.s.maxRetries.toNat + 1) + 1 from rfl, h2]
    unfold closeLoop
    rw [whileM]
    msimp
    rw [if_pos (by rw [h1]; simp), andThen_err hsc]
  obtain ⟨d, src, hd, hnet⟩ := hfin
  rw [key _ (by omega)] at hd
  obtain ⟨p, hp, rfl⟩ := h7 d hd
  rw [h.toB] at hp
  obtain ⟨b', g1, g2, g3, r, t, g4, g5⟩ := recv_closing (.inl h.bOpen) ⟨h.bRead.1, h.bRead.2, hb⟩ (tries_pos h.bTries) hnet hp hr.next hB
  refine ⟨_, b', _, key, rfl, fun fuel => recvFrom_closing h.bOpen ⟨h.bRead.1, h.bRead.2, hb⟩ g1 g2 fuel len, over_of g2 g3, h6, fun d hd => ?_, ?_⟩
  · obtain ⟨q, hq, rfl⟩ := h7 d hd
    exact getType_kind hq.plain.ty
  · unfold sentSince
    rw [g5, List.drop_left]
    rfl

end

namespace Sample

/-- The answer to the SYN; two timeouts; the acknowledgement of the FIN. -/
def refinA : List NetEvent := [arr (dg .state 7 100 1 [] 0), .fail .timedOut, .fail .wouldBlock, arr (dg .state 7 100 2)]

/-- The FIN and its first repetition are lost. -/
example : ∃ a' b' src, (∀ fuel, close (senv refinA []) (fuel + 2 + 2) (client (senv refinA [])) = (.ok (), a') ∧
    recvFrom (senv endB []) (fuel + 2) 10 (readerStart endB []) = (.ok ([], src), b')) ∧ Over (senv refinA []) a' ∧ Over (senv endB []) b' ∧
    (sentSince (client (senv refinA [])) a').length = 3 ∧ (sentSince (readerStart endB []) b').length = 1 := by
  have hr : Ready (client (senv refinA [])).s (readerStart endB []).s := ⟨by decide +kernel, by decide +kernel, by decide +kernel⟩
  have hl : Linked (client (senv refinA [])) (readerStart endB []) :=
    ⟨by decide +kernel, by decide +kernel, by decide +kernel, by decide +kernel, by decide +kernel, by decide +kernel, by decide +kernel, by decide +kernel⟩
  have hm : (client (senv refinA [])).s.maxRetries.toNat = 5 := by decide +kernel
  have hn : (client (senv refinA [])).nNet = 1 := by decide +kernel
  have hn' : (readerStart endB []).nNet = 0 := by decide +kernel
  have hs : sentSince (client (senv refinA [])) (close (senv refinA []) (2 + 1) (client (senv refinA []))).2 = List.replicate 3 (dg .fin 8 2 100 [] 0) := by decide +kernel
  have h2 : ((fun fuel => recvFrom (senv endB []) fuel 10) 5 (readerStart endB [])).1 ≠ .pending := by decide +kernel
  have hb : Arrives (fun fuel => recvFrom (senv endB []) fuel 10) (readerStart endB []) (senv endA []) (client (senv endA [])) :=
    arrives_of 5 (fun f h => le_recvFrom h 10) h2 (by decide +kernel)
  refine C109_fin_lost_partial (n := 2) hl hr (by decide +kernel) (fun n => by simp [senv, env]) (by simp [senv, env]) (by rw [hm]; decide) (fun h => absurd h (by decide)) ?_ ?_ ?_
  · rw [hn]
    intro i hi
    rcases i with _ | _ | i
    · exact .inl rfl
    · exact .inr rfl
    · omega
  · exact ⟨dg .fin 8 2 100 [] 0, peer, by rw [hs]; simp, by rw [hn']; rfl⟩
  · intro fuel d hd
    obtain ⟨src, h⟩ := hb fuel 0 d hd
    rw [hn]
    refine ⟨src, ?_⟩
    rw [← h, show (client (senv endA [])).nNet = 1 by decide +kernel]
    rfl

/-- After the answer to the SYN every receive times out. -/
def lostAnswer : Env := { senv [arr (dg .state 7 100 1 [] 0)] [] with net := fun k => [arr (dg .state 7 100 1 [] 0)].getD k (.fail .timedOut) }

end Sample

section
open Sample

/-- The FIN arrives, and the answer is lost. -/
theorem C109_counterexample : ∃ a' b' src, (∀ fuel, 6 < fuel → close lostAnswer fuel (client lostAnswer) = (.err (.sock .connectionTimedOut), a')) ∧ a'.s.state = .closed ∧
    (∀ fuel, recvFrom (senv endB []) (fuel + 2) 10 (readerStart endB []) = (.ok ([], src), b')) ∧ Over (senv endB []) b' ∧
    (sentSince (client lostAnswer) a').length = 6 ∧ (∀ d ∈ sentSince (client lostAnswer) a', kind d = 1) ∧ (sentSince (readerStart endB []) b').length = 1 := by
  have hr : Ready (client lostAnswer).s (readerStart endB []).s := ⟨by decide +kernel, by decide +kernel, by decide +kernel⟩
  have hl : Linked (client lostAnswer) (readerStart endB []) :=
    ⟨by decide +kernel, by decide +kernel, by decide +kernel, by decide +kernel, by decide +kernel, by decide +kernel, by decide +kernel, by decide +kernel⟩
  have hm : (client lostAnswer).s.maxRetries.toNat = 5 := by decide +kernel
  have hn : (client lostAnswer).nNet = 1 := by decide +kernel
  have hs : sentSince (client lostAnswer) (close lostAnswer 7 (client lostAnswer)).2 = List.replicate 6 (dg .fin 8 2 100 [] 0) := by decide +kernel
  have hn' : (readerStart endB []).nNet = 0 := by decide +kernel
  have key := C109_answer_lost (A := lostAnswer) (B := senv endB []) (len := 10) hl hr (by decide +kernel) (fun n => by simp [lostAnswer, senv, env]) (by simp [senv, env]) (fun h => absurd h (by decide))
    ⟨dg .fin 8 2 100 [] 0, peer, by rw [hm, hs]; simp, by rw [hn']; rfl⟩ (fun j hj => by
    rw [hn] at hj
    obtain ⟨i, rfl⟩ : ∃ i, j = i + 1 := ⟨j - 1, by omega⟩
    exact .inl rfl)
  rw [hm] at key
  exact key

end

end Utp
