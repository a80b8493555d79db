import Verif.Lemmas.Deliver
import Verif.Props.State
import Verif.Samples
/-!
# Timeouts: C20, C42
-/

namespace Utp
open M Packet

variable {E : Env}

theorem SameBut.refl (lo hi : Nat) (a : Bytes) : SameBut lo hi a a := ⟨rfl, fun _ _ => rfl⟩

theorem SameBut.trans {lo hi : Nat} {a b c : Bytes} (h : SameBut lo hi a b) (h' : SameBut lo hi b c) : SameBut lo hi a c :=
  ⟨h.1.trans h'.1, fun i hi => (h.2 i hi).trans (h'.2 i hi)⟩

theorem sameBut_setTimestamp (p : Packet) (t : U32) : SameBut 4 8 p.bytes (p.setTimestamp t).bytes :=
  ⟨(setTimestamp_length p t).symm, fun i h => (put32_other p.bytes 4 t i (by omega)).symm⟩

theorem Plain.control {s : Socket} {q : Packet} {ty : PacketType} (h : Plain q ty) (hl : q.bytes.length = 20)
    (h1 : q.seqNr = s.seqNr ∧ q.ackNr = s.ackNr ∧ q.connectionId = s.senderId) : IsControl s ty q.bytes :=
  ⟨⟨q, h.accepted, h.ty, h1.1, h1.2.1, h1.2.2⟩, hl⟩

theorem resendRequest_control (s : Socket) (t : U32) : IsControl s .state (resendRequest s t).bytes :=
  (resendRequest_plain s t).control (by simp [resendRequest]; decide) (resendRequest_facts s t)

theorem finPacket_control (s : Socket) (t : U32) : IsControl s .fin (finPacket s t).bytes :=
  (finPacket_plain s t).control (by simp [finPacket]; decide) (finPacket_facts s t)

theorem fastResendOne_eval (w : World) : ∃ n l b ok, (fastResendOne E w).2 = { w with nNow := n, nSnd := w.nSnd + 1, log := w.log ++ l } ∧
    l = [.send w.s.connectedTo b ok] ∧ IsControl w.s .state b ∧
    ((fastResendOne E w).1 = .ok () ∨ (fastResendOne E w).1 = .pending ∧ E.snd w.nSnd = .never) := by
  unfold fastResendOne
  msimp
  obtain ⟨b, hb⟩ : ∃ b, b = (resendRequest w.s (E.now w.nNow)).bytes := ⟨_, rfl⟩
  rw [← hb]
  unfold ignoreErr udpSend
  simp only
  cases E.snd w.nSnd with
  | ok => exact ⟨_, _, b, true, rfl, rfl, hb ▸ resendRequest_control _ _, .inl rfl⟩
  | fail k => exact ⟨_, _, b, false, rfl, rfl, hb ▸ resendRequest_control _ _, .inl rfl⟩
  | never => exact ⟨_, _, b, false, rfl, rfl, hb ▸ resendRequest_control _ _, .inr ⟨rfl, rfl⟩⟩

theorem fastResendRequest_eval (w : World) : ∃ n l k, (fastResendRequest E w).2 = { w with nNow := n, nSnd := k, log := w.log ++ l } ∧
    (∀ a ∈ l, ∃ b ok, a = .send w.s.connectedTo b ok ∧ IsControl w.s .state b) ∧ l.length ≤ 3 ∧ w.nSnd ≤ k ∧
    ((fastResendRequest E w).1 = .ok () ∧ l.length = 3 ∨ (fastResendRequest E w).1 = .pending ∧ ∃ j, w.nSnd ≤ j ∧ E.snd j = .never) := by
  unfold fastResendRequest
  rw [bind_def]
  obtain ⟨n1, l1, b1, ok1, h1, e1, c1, r1⟩ := fastResendOne_eval (E := E) w
  rcases hm1 : fastResendOne E w with ⟨r, w1⟩
  rw [hm1] at h1 r1
  simp only at h1 r1
  rcases r1 with rfl | ⟨rfl, hn⟩
  · rw [andThen_eq hm1, bind_def]
    obtain ⟨n2, l2, b2, ok2, h2, e2, c2, r2⟩ := fastResendOne_eval (E := E) w1
    rcases hm2 : fastResendOne E w1 with ⟨r, w2⟩
    rw [hm2] at h2 r2
    simp only at h2 r2
    have q1 : w1.s = w.s := by rw [h1]
    rcases r2 with rfl | ⟨rfl, hn⟩
    · rw [andThen_eq hm2]
      obtain ⟨n3, l3, b3, ok3, h3, e3, c3, r3⟩ := fastResendOne_eval (E := E) w2
      have q2 : w2.s = w.s := by rw [h2, h1]
      rw [q2] at e3 c3
      rw [q1] at e2 c2
      refine ⟨n3, l1 ++ l2 ++ l3, w.nSnd + 3, ?_, ?_, ?_, by omega, ?_⟩
      · rw [h3, h2, h1]; simp
      · rw [e1, e2, e3]
        simp only [List.cons_append, List.nil_append, List.mem_cons, List.not_mem_nil, or_false]
        rintro a (rfl | rfl | rfl)
        · exact ⟨_, _, rfl, c1⟩
        · exact ⟨_, _, rfl, c2⟩
        · exact ⟨_, _, rfl, c3⟩
      · rw [e1, e2, e3]; simp
      · rcases r3 with h | ⟨h, hn⟩
        · exact .inl ⟨h, by rw [e1, e2, e3]; simp⟩
        · exact .inr ⟨h, _, by rw [h2, h1]; show w.nSnd ≤ w.nSnd + 1 + 1; omega, hn⟩
    · rw [andThen_pending hm2]
      rw [q1] at e2 c2
      refine ⟨n2, l1 ++ l2, w.nSnd + 2, by simp only [h2, h1, List.append_assoc], ?_, by rw [e1, e2]; simp, by omega, .inr ⟨rfl, _, ?_, hn⟩⟩
      · rw [e1, e2]
        simp only [List.cons_append, List.nil_append, List.mem_cons, List.not_mem_nil, or_false]
        rintro a (rfl | rfl)
        · exact ⟨_, _, rfl, c1⟩
        · exact ⟨_, _, rfl, c2⟩
      · rw [h1]; exact Nat.le_succ _
  · rw [andThen_pending hm1]
    refine ⟨n1, l1, w.nSnd + 1, h1, ?_, by rw [e1]; simp, by omega, .inr ⟨rfl, _, Nat.le_refl _, hn⟩⟩
    rw [e1]
    simp only [List.mem_singleton]
    rintro a rfl
    exact ⟨_, _, rfl, c1⟩

/-- The send window of a socket before and after a timeout. -/
def Refreshed (a b : List Packet) : Prop := a = b ∨ ∃ p q rest, a = p :: rest ∧ b = q :: rest ∧ SameBut 4 8 p.bytes q.bytes

theorem TimeoutSends.congr {s s' : Socket} {done : Prop} {acts : List Act} (h : TimeoutSends E s' done acts)
    (hr : Refreshed s.sendWindow s'.sendWindow)
    (hs : s'.connectedTo = s.connectedTo ∧ s'.state = s.state ∧ s'.seqNr = s.seqNr ∧ s'.ackNr = s.ackNr ∧ s'.senderId = s.senderId) :
    TimeoutSends E s done acts := by
  obtain ⟨h1, h2, h3, h4, h5⟩ := hs
  have hc : ∀ ty b, IsControl s' ty b → IsControl s ty b := by
    rintro ty b ⟨⟨q, a1, a2, a3, a4, a5⟩, a6⟩
    exact ⟨⟨q, a1, a2, a3.trans h3, a4.trans h4, a5.trans h5⟩, a6⟩
  unfold TimeoutSends at *
  rcases hr with hr | ⟨p, q, rest, hp, hq, hsame⟩
  · rw [hr]
    rcases hw : s'.sendWindow with _ | ⟨p, rest⟩
    · rw [hw] at h
      simp only at h ⊢
      rw [h2, h1] at h
      split at h
      · rename_i hf
        rw [if_pos hf]
        obtain ⟨b, ok, g1, g2, g3⟩ := h
        exact ⟨b, ok, g1, hc _ _ g2, g3⟩
      · rename_i hf
        rw [if_neg hf]
        split at h
        · rename_i hn; rw [if_pos hn]; exact h
        · rename_i hn
          rw [if_neg hn]
          refine ⟨h.1, h.2.1, fun a ha => ?_⟩
          obtain ⟨b, ok, g1, g2⟩ := h.2.2 a ha
          exact ⟨b, ok, g1, hc _ _ g2⟩
    · rw [hw] at h
      simp only at h ⊢
      rw [h1] at h
      exact h
  · rw [hq] at h
    rw [hp]
    simp only at h ⊢
    rw [h1] at h
    obtain ⟨b, ok, g1, g2, g3, g4⟩ := h
    exact ⟨b, ok, g1, hsame.trans g2, g3, fun hl => g4 (by rw [← hsame.1]; exact hl)⟩

/-- What `handle_receive_timeout` does: it doubles the timeout, sets the congestion window to one segment, and sends what
`TimeoutSends` says. -/
theorem C20_timeout (w : World) (hno : E.checks = true → w.s.congTimeout.toNat * 2 < 2 ^ 64) :
    ∃ r w' acts sw, handleReceiveTimeout E w = (r, w') ∧ w'.log = w.log ++ acts ∧
      TimeoutSends E w.s (r = .ok ()) acts ∧
      w'.s = { w.s with congTimeout := w.s.congTimeout * 2, cwnd := 1400, sendWindow := sw } ∧
      Refreshed w.s.sendWindow sw ∧ w'.nNet = w.nNet ∧ w'.nRand = w.nRand ∧ w.nSnd ≤ w'.nSnd ∧
      (r = .ok () ∨ (∃ k, r = .err (.os k) ∧ ∃ j, w.nSnd ≤ j ∧ E.snd j = .fail k) ∨ (r = .pending ∧ ∃ j, w.nSnd ≤ j ∧ E.snd j = .never)) := by
  have hov : overflowIf E (decide (2 ^ 64 ≤ w.s.congTimeout.toNat * 2)) = M.ret () := by
    unfold overflowIf
    rw [if_neg]
    simp only [Bool.and_eq_true, decide_eq_true_eq, not_and]
    intro h; have := hno h; omega
  unfold handleReceiveTimeout
  msimp
  rw [hov]
  msimp
  generalize hv : w.setS _ = v
  have hvs : v.s = { w.s with congTimeout := w.s.congTimeout * 2, cwnd := 1400 } := by rw [← hv]; rfl
  have hvl : v.log = w.log ∧ v.nNet = w.nNet ∧ v.nRand = w.nRand ∧ v.nSnd = w.nSnd := by rw [← hv]; exact ⟨rfl, rfl, rfl, rfl⟩
  clear hv
  obtain ⟨hl1, hl2, hl3, hl4⟩ := hvl
  rcases hw : w.s.sendWindow with _ | ⟨p, rest⟩
  · simp only
    msimp
    have hvs' : v.s = { w.s with congTimeout := w.s.congTimeout * 2, cwnd := 1400, sendWindow := [] } := by rw [hvs, ← hw]
    by_cases hf : w.s.state = .finSent
    · rw [if_pos hf]
      obtain ⟨b, hb⟩ : ∃ b, b = (finPacket w.s (E.now v.nNow)).bytes := ⟨_, rfl⟩
      have hctl : IsControl w.s .fin b := hb ▸ finPacket_control w.s (E.now v.nNow)
      rw [← hb]
      clear hb
      obtain ⟨r, ok, h1, h2⟩ := udpSend_cases (E := E) w.s.connectedTo b { v with nNow := v.nNow + 1 }
      refine ⟨r, _, _, [], h1, by rw [← hl1], ?_, hvs', .inl rfl, hl2, hl3, by rw [← hl4]; exact Nat.le_succ _, ?_⟩
      · unfold TimeoutSends
        rw [hw]
        simp only
        rw [if_pos hf]
        refine ⟨b, ok, rfl, hctl, ?_⟩
        intro hr
        rcases h2 with h2 | ⟨k, h2, _⟩ | ⟨h2, _⟩
        · exact h2.2.1
        · simp [h2] at hr
        · simp [h2] at hr
      · rcases h2 with h2 | ⟨k, h2, h3⟩ | ⟨h2, h3⟩
        · exact .inl h2.1
        · exact .inr (.inl ⟨k, h2, _, Nat.le_of_eq hl4.symm, h3⟩)
        · exact .inr (.inr ⟨h2, _, Nat.le_of_eq hl4.symm, h3⟩)
    · rw [if_neg hf]
      by_cases hn : w.s.state = .new
      · rw [if_neg (by simp [hn])]
        refine ⟨_, _, [], [], rfl, by rw [hl1]; simp, ?_, hvs', .inl rfl, hl2, hl3, Nat.le_of_eq hl4.symm, .inl rfl⟩
        unfold TimeoutSends
        rw [hw]
        simp only
        rw [if_neg hf, if_pos hn]
        trivial
      · rw [if_pos hn]
        obtain ⟨n, l, k, h1, h2, h3, h5, h4⟩ := fastResendRequest_eval (E := E) v
        rcases hm : fastResendRequest E v with ⟨r, v'⟩
        rw [hm] at h1 h4
        simp only at h1 h4
        refine ⟨r, v', l, [], rfl, by rw [h1, ← hl1], ?_, by rw [h1]; exact hvs', .inl rfl, by rw [h1]; exact hl2,
          by rw [h1]; exact hl3, by rw [h1, ← hl4]; exact h5, ?_⟩
        · unfold TimeoutSends
          rw [hw]
          simp only
          rw [if_neg hf, if_neg hn]
          refine ⟨h3, fun hr => ?_, fun a ha => ?_⟩
          · rcases h4 with h4 | h4
            · exact h4.2
            · rw [h4.1] at hr; simp at hr
          · obtain ⟨b, ok, g1, ⟨q, g2⟩, g3⟩ := h2 a ha
            rw [hvs] at g1 g2
            exact ⟨b, ok, g1, ⟨q, g2⟩, g3⟩
        · rcases h4 with h4 | ⟨h4, j, h5, h6⟩
          · exact .inl h4.1
          · exact .inr (.inr ⟨h4, j, by omega, h6⟩)
  · simp only
    msimp
    obtain ⟨q, hq⟩ : ∃ q, q = p.setTimestamp (E.now v.nNow) := ⟨_, rfl⟩
    have hs : SameBut 4 8 p.bytes q.bytes := hq ▸ sameBut_setTimestamp p (E.now v.nNow)
    have ht : 8 ≤ p.bytes.length → Packet.timestamp q = E.now v.nNow :=
      fun hl => hq ▸ be32_put32 _ (by omega)
    rw [← hq]
    clear hq
    obtain ⟨r, ok, h1, h2⟩ := udpSend_cases (E := E) w.s.connectedTo q.bytes
      (World.setS { v with nNow := v.nNow + 1 } { v.s with sendWindow := q :: rest })
    refine ⟨r, _, _, q :: rest, h1, by rw [← hl1]; rfl, ?_, ?_, .inr ⟨p, q, rest, rfl, rfl, hs⟩, hl2, hl3,
      by rw [← hl4]; exact Nat.le_succ _, ?_⟩
    · unfold TimeoutSends
      rw [hw]
      simp only
      refine ⟨q.bytes, ok, rfl, hs, ?_, fun hl => ⟨v.nNow, ht hl⟩⟩
      intro hr
      rcases h2 with h2 | ⟨k, h2, _⟩ | ⟨h2, _⟩
      · exact h2.2.1
      · simp [h2] at hr
      · simp [h2] at hr
    · show { v.s with sendWindow := q :: rest } = _
      rw [hvs]
    · rcases h2 with h2 | ⟨k, h2, h3⟩ | ⟨h2, h3⟩
      · exact .inl h2.1
      · exact .inr (.inl ⟨k, h2, _, Nat.le_of_eq hl4.symm, h3⟩)
      · exact .inr (.inr ⟨h2, _, Nat.le_of_eq hl4.symm, h3⟩)

theorem isTimeout_iff (k : ErrorKind) : isTimeout k = true ↔ (NetEvent.fail k).isTimeout := by
  simp only [isTimeout, NetEvent.isTimeout, NetEvent.fail.injEq, Bool.or_eq_true, decide_eq_true_eq]
  exact Or.comm

theorem recvWait_trace : ∀ fuel retries (w : World), retries ≤ w.s.maxRetries.toNat →
    (E.checks = true → w.s.congTimeout.toNat * 2 ^ (w.s.maxRetries.toNat - retries) < 2 ^ 64) →
    WaitTrace E w fuel (w.s.maxRetries.toNat - retries) (recvWait E fuel retries w).1 (recvWait E fuel retries w).2 := by
  intro fuel
  induction fuel with
  | zero =>
    intro retries w hr _
    exact ⟨[], [], by simp, by simp [recvWait, M.never], by simp, .fuel (by simp)⟩
  | succ m ih =>
    intro retries w hr hno
    have hw0 : Act.wait w.s.patience = waitAct w.s 0 := by
      simp [waitAct, Socket.patience]
    unfold recvWait
    msimp
    split
    · rename_i hge
      exact ⟨[], [], by simp, by simp [World.setS], by simp, .gaveUp (by simp; omega)⟩
    · rename_i hlt
      rcases hn : E.net w.nNet with ⟨b, src⟩ | k | _
      case never =>
        rw [andThen_pending (udpRecv_never hn _ _)]
        exact ⟨[], [waitAct w.s 0], by simp, by simp only [World.waited]; rw [← hw0]; simp [Socket.patience], by simp, .waiting (by simp; omega) hn⟩
      case dgram =>
        rw [andThen_eq (udpRecv_dgram hn _ _)]
        simp only
        msimp
        exact ⟨[], [waitAct w.s 0], by simp, by simp only [World.waited]; rw [← hw0]; simp [Socket.patience], by simp,
          .got (by simp; omega) hn⟩
      case fail =>
        rw [andThen_eq (udpRecv_fail hn _ _)]
        simp only
        msimp
        split
        · rename_i hto
          rw [isTimeout_iff] at hto
          obtain ⟨w1, hw1⟩ : ∃ w1, w1 = w.waited (if w.s.state ≠ .new then some w.s.congTimeout else none) := ⟨_, rfl⟩
          rw [← hw1]
          have hw1s : w1.s = w.s := by rw [hw1]; rfl
          have hw1n : w1.nNet = w.nNet + 1 ∧ w1.nSnd = w.nSnd := by rw [hw1]; exact ⟨rfl, rfl⟩
          have hw1l : w1.log = w.log ++ [waitAct w.s 0] := by rw [hw1, ← hw0]; rfl
          clear hw1
          have hex : w.s.maxRetries.toNat - retries = (w.s.maxRetries.toNat - (retries + 1)) + 1 := by omega
          have hno1 : E.checks = true → w1.s.congTimeout.toNat * 2 < 2 ^ 64 := by
            intro hc
            have := hno hc
            rw [hex, Nat.pow_succ] at this
            rw [hw1s]
            have hp : 0 < 2 ^ (w.s.maxRetries.toNat - (retries + 1)) := Nat.pow_pos (by omega)
            refine Nat.lt_of_le_of_lt ?_ this
            exact Nat.mul_le_mul_left _ (Nat.le_mul_of_pos_left _ hp)
          obtain ⟨r, w2, acts, sw, hh, hl, hts, hs2, href, hnet, _, hsnd, hcase⟩ := C20_timeout w1 hno1
          rw [hw1s] at hts hs2 href
          rcases hcase with rfl | ⟨k', rfl, j, hj, hjf⟩ | ⟨rfl, j, hj, hjf⟩
          · rw [andThen_eq hh]
            have hmax : w2.s.maxRetries = w.s.maxRetries := by rw [hs2]
            obtain ⟨blocks, tail, g1, g2, g3, g4⟩ := ih (retries + 1) w2 (by rw [hmax]; omega) (by
              intro hc
              have := hno hc
              rw [hmax, hs2]
              show (w.s.congTimeout * 2).toNat * _ < _
              rw [hex, Nat.pow_succ] at this
              have h2 : (w.s.congTimeout * 2).toNat ≤ w.s.congTimeout.toNat * 2 := by
                rw [BitVec.toNat_mul]
                exact Nat.mod_le _ _
              refine Nat.lt_of_le_of_lt (Nat.mul_le_mul_right _ h2) ?_
              rw [Nat.mul_assoc, Nat.mul_comm 2]
              exact this)
            rw [hmax] at g1 g4
            have hact : ∀ i, waitAct w2.s i = waitAct w.s (i + 1) := by
              intro i
              unfold waitAct
              rw [hs2]
              simp only
              rw [BitVec.pow_succ, BitVec.mul_assoc, BitVec.mul_comm 2]
            have hcongr : ∀ {d : Prop} {acts : List Act}, TimeoutSends E w2.s d acts → TimeoutSends E w.s d acts := by
              intro d acts h
              refine h.congr ?_ ?_
              · rw [hs2]; exact href
              · rw [hs2]; exact ⟨rfl, rfl, rfl, rfl, rfl⟩
            refine ⟨(waitAct w.s 0 :: acts) :: blocks, tail, ?_, ?_, ?_, ?_⟩
            · simp only [List.length_cons]; omega
            · rw [g2, hl, hw1l]; simp
            · intro i a hi
              cases i with
              | zero =>
                simp only [List.getElem?_cons_zero, Option.some.injEq] at hi
                rw [← hi]
                refine ⟨⟨acts, rfl, ?_⟩, hn ▸ hto⟩
                have e : (Res.ok () = Res.ok ()) = True := by simp
                rw [e] at hts
                exact hts
              | succ i =>
                simp only [List.getElem?_cons_succ] at hi
                obtain ⟨⟨sends, q1, q2⟩, q3⟩ := g3 i a hi
                refine ⟨⟨sends, by rw [q1, hact], hcongr q2⟩, ?_⟩
                rw [hnet, hw1n.1, Nat.add_right_comm] at q3
                exact q3
            · have hst : w2.s.state = w.s.state := by rw [hs2]
              have hnn : w2.nNet + blocks.length = w.nNet + (blocks.length + 1) := by rw [hnet, hw1n.1]; omega
              rw [hex]
              generalize w.s.maxRetries.toNat - (retries + 1) = L at *
              generalize (recvWait E m (retries + 1) w2).1 = R at *
              generalize (recvWait E m (retries + 1) w2).2.s.state = S at *
              simp only [List.length_cons]
              cases g4 with
              | got h1 h2 => rw [hst, hact]; exact .got (by omega) (hnn ▸ h2)
              | gaveUp h1 => exact .gaveUp (by omega)
              | failed h0 h1 h2 => rw [hst, hact]; exact .failed (by omega) (hnn ▸ h1) h2
              | sendFailed h0 h1 h2 h3 => rw [hst, hact]; exact .sendFailed (by omega) (by omega) h2 (hcongr h3)
              | waiting h0 h1 => rw [hst, hact]; exact .waiting (by omega) (hnn ▸ h1)
              | sending h0 h1 h2 h3 => rw [hst, hact]; exact .sending (by omega) (by omega) h2 (hcongr h3)
              | fuel h1 => rw [hst]; exact .fuel (by omega)
          · rw [andThen_err hh]
            have e : (Res.err (IoErr.os k') = (Res.ok () : Res Unit)) = False := by simp
            rw [e] at hts
            refine ⟨[], waitAct w.s 0 :: acts, by simp, by rw [hl, hw1l]; simp, by simp, ?_⟩
            have hst : w2.s.state = w.s.state := by rw [hs2]
            rw [hst]
            exact .sendFailed (by simp; omega) (by omega) hjf hts
          · rw [andThen_pending hh]
            have e : (Res.pending = (Res.ok () : Res Unit)) = False := by simp
            rw [e] at hts
            refine ⟨[], waitAct w.s 0 :: acts, by simp, by rw [hl, hw1l]; simp, by simp, ?_⟩
            have hst : w2.s.state = w.s.state := by rw [hs2]
            rw [hst]
            exact .sending (by simp; omega) (by omega) hjf hts
        · rename_i hto
          rw [isTimeout_iff] at hto
          exact ⟨[], [waitAct w.s 0], by simp, by simp only [World.waited]; rw [← hw0]; simp [Socket.patience], by simp, .failed (by simp; omega) hn hto⟩

/-! ### C42 -/

/-- One wait for a packet (the loop of `recv`): at most `max_retransmission_retries` timeouts, the waiting time doubles each
time, and the wait ends in one of the ways of `WaitEnd`; it gives up exactly when the limit is reached. -/
theorem C42_wait (fuel : Nat) (w : World)
    (hno : E.checks = true → w.s.congTimeout.toNat * 2 ^ w.s.maxRetries.toNat < 2 ^ 64) :
    WaitTrace E w fuel w.s.maxRetries.toNat (recvWait E fuel 0 w).1 (recvWait E fuel 0 w).2 :=
  recvWait_trace fuel 0 w (Nat.zero_le _) hno

/-- If nothing arrives, the wait gives up after exactly `max_retransmission_retries` timeouts. -/
theorem C42_gives_up (fuel : Nat) (w : World) (hno : E.checks = true → w.s.congTimeout.toNat * 2 ^ w.s.maxRetries.toNat < 2 ^ 64)
    (hf : w.s.maxRetries.toNat < fuel) (hs : ∀ j, w.nSnd ≤ j → E.snd j = .ok)
    (hn : ∀ i, i < w.s.maxRetries.toNat → (E.net (w.nNet + i)).isTimeout) :
    ∃ w', recvWait E fuel 0 w = (.err (.sock .connectionTimedOut), w') ∧ w'.s.state = .closed ∧
      ∃ blocks : List (List Act), blocks.length = w.s.maxRetries.toNat ∧ w'.log = w.log ++ blocks.flatten ∧
        ∀ i acts, blocks[i]? = some acts → Attempt E w.s i acts := by
  obtain ⟨blocks, tail, g1, g2, g3, g4⟩ := C42_wait fuel w hno
  rcases hr : recvWait E fuel 0 w with ⟨r, w'⟩
  rw [hr] at g2 g4
  simp only at g2 g4
  have hto : ∀ {x : NetEvent}, x.isTimeout → x = .fail .timedOut ∨ x = .fail .wouldBlock := id
  generalize hS : w'.s.state = S at g4
  cases g4 with
  | gaveUp h => exact ⟨w', rfl, hS, blocks, h, by simpa using g2, fun i a h => (g3 i a h).1⟩
  | got h1 h2 => rcases hto (hn _ h1) with h | h <;> rw [h] at h2 <;> simp at h2
  | failed h0 h1 h2 => have := hn _ h0; rw [h1] at this; exact absurd this h2
  | sendFailed _ h1 h2 => rw [hs _ h1] at h2; simp at h2
  | waiting h0 h1 => rcases hto (hn _ h0) with h | h <;> rw [h] at h1 <;> simp at h1
  | sending _ h1 h2 => rw [hs _ h1] at h2; simp at h2
  | fuel h => omega

/-- `recv_from` on an open socket with nothing to deliver, when nothing arrives: TimedOut after exactly
`max_retransmission_retries` waits, and the socket is closed. -/
theorem C42_recv_from {w : World} (hw : Reach E w) (hd : w.s.deliverable = []) (hne : w.s.NoEmpty)
    (hst : w.s.state ≠ .closed ∧ w.s.state ≠ .resetReceived) (fuel len : Nat)
    (hno : E.checks = true → w.s.ackNr ≠ 65535 ∧ w.s.congTimeout.toNat * 2 ^ w.s.maxRetries.toNat < 2 ^ 64)
    (hf : w.s.maxRetries.toNat < fuel) (hs : ∀ j, w.nSnd ≤ j → E.snd j = .ok)
    (hn : ∀ i, i < w.s.maxRetries.toNat → (E.net (w.nNet + i)).isTimeout) :
    ∃ e w', runOp E (fuel + 1) (.recvFrom len) w = (.err e, w') ∧ e.kind = .timedOut ∧ w'.s.state = .closed ∧
      ∃ blocks : List (List Act), blocks.length = w.s.maxRetries.toNat ∧ w'.log = w.log ++ blocks.flatten ∧
        ∀ i acts, blocks[i]? = some acts → Attempt E w.s i acts := by
  obtain ⟨w', h1, h2, h3⟩ := C42_gives_up fuel w (fun h => (hno h).2) hf hs hn
  refine ⟨.sock .connectionTimedOut, w', ?_, rfl, h2, h3⟩
  have hq := flush_quiet (E := E) (reach_any hw).inc hd hne (fun h => (hno h).1) len
  have hrecv : recv E (fuel + 1) len w = (.err (.sock .connectionTimedOut), w') := by
    rw [recv, recvBody, bind_def, andThen_err h1]
  have hloop : recvFromLoop E (fuel + 1) len (fuel + 1) w = (.err (.sock .connectionTimedOut), w') := by
    rw [recvFromLoop]
    msimp
    rw [if_neg hst.1, andThen_err hrecv]
  have : recvFrom E (fuel + 1) len w = (.err (.sock .connectionTimedOut), w') := by
    rw [recvFrom_quiet hq hst.2, hloop]
  show M.andThen (recvFrom E (fuel + 1) len) _ w = _
  rw [andThen_err this]

section
open Sample

/-- Nothing ever arrives. -/
def silence : Env := env (List.replicate 20 (.fail .timedOut))

/-- The socket waits 1, 2, 4, 8 and 16 seconds, and sends three State packets after each; then it gives up. -/
example :
    let w := server silence
    Reach silence w ∧ w.s.deliverable = [] ∧ w.s.state = .connected ∧ w.s.maxRetries = 5 ∧
    results silence 10 [.recvFrom 9] w = [.err (.sock .connectionTimedOut)] ∧
    ((runs silence 10 [.recvFrom 9] w).log.filterMap fun a => match a with | .wait (some t) => some t | _ => none) = [1000, 2000, 4000, 8000, 16000] ∧
    (sent (runs silence 10 [.recvFrom 9] w)).length = 1 + 15 :=
  ⟨reach_server 0 [] (by decide +kernel) (by decide +kernel), by decide +kernel⟩

/-- With a limit of 0 a socket is closed at once. -/
example : results silence 10 [.setMaxRetries 0, .recvFrom 9, .recvFrom 9] (server silence) =
    [.ok .unit, .err (.sock .connectionTimedOut), .ok (.bytes [] peer)] := by decide +kernel

/-- Outstanding data is sent again. -/
example : ((sent (runs silence 10 [.sendTo [1, 2], .recvFrom 9] (server silence))).map List.length) = [20, 22, 22, 22, 22, 22, 22] := by
  decide +kernel

/-- The peer answers the SYN with a SYN; then nothing arrives. -/
def synForSyn : Env := env (arr (dg .syn 7 1 0) :: List.replicate 20 (.fail .timedOut))

/-- `connect` succeeds though the socket is not connected (see C39); on a timeout it sends State packets. -/
theorem C20_counterexample :
    let w := client synForSyn
    Reach synForSyn w ∧ w.s.state = .synSent ∧ w.s.sendWindow = [] ∧
    (runs synForSyn 10 [.recvFrom 9] w).log.length = w.log.length + 5 + 15 :=
  ⟨reach_client 0 [] (by decide +kernel) (by decide +kernel), by decide +kernel⟩

end

end Utp
