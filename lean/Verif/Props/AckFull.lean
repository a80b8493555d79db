import Verif.Props.AckOrder
import Verif.Lemmas.Deliver
import Verif.Props.Retransmit
/-!
# C94: an answer acknowledges everything that has arrived without a gap
-/

namespace Utp
open Spec Packet

variable {E : Env}

/-- C94 (partial).  A connection from its beginning on.  If packets arrive in order and the application finishes reading a packet before it writes, flushes or closes, every State
datagram acknowledges the highest number that had arrived when it was sent, over any 32767 receives. -/
theorem C94_partial {w0 w : World} (hm : Made E w0) (hs : w0.s.state ≠ .new ∧ w0.s.state ≠ .synSent) (h : RunWith TidyReads E w0 w)
    (hj : NoJump E w0.s.ackNr w0.nNet (w.nNet - w0.nNet)) (hn : w.nNet ≤ w0.nNet + 32767) :
    ∃ l, w.log = w0.log ++ l ∧ CompleteAnswers E w0.s.ackNr w0.nNet l := by
  have h1 := acks_run h (made_acks hm hs).any
  obtain ⟨u, _, _, l, h3, _⟩ := h1.num
  have e : BitVec.ofNat 16 w0.s.ackNr.toNat = w0.s.ackNr := by simp
  have h2 := h1.full.2
  rw [e] at h2
  exact ⟨l, h3, (h2 hj (by omega)).log l h3⟩

/-- C94 fails whenever a gap is filled: if the next packet arrives at a connected socket that holds the one after it, the one answer acknowledges the packet that arrived only, and has no
extension that would tell of the one held. -/
theorem C94_gap (hc : E.checks = false) {w : World} (hs : w.s.state = .connected) {d : Bytes} {src : Addr} {pkt held : Packet} (hn : E.net w.nNet = .dgram d src)
    (hp : Packet.tryFrom (d.take 1520) = some (.ok pkt)) (ht : pkt.getType = some .data) (hid : pkt.connectionId = w.s.senderId ∨ pkt.connectionId = w.s.receiverId)
    (hr : 0 < w.s.maxRetries.toNat) (hok : E.snd w.nSnd = .ok) (hnr : pkt.seqNr = w.s.ackNr + 1) (_ : held ∈ w.s.incoming) (h2 : held.seqNr = w.s.ackNr + 2) (fuel len : Nat) :
    ∃ t b, (recv E (fuel + 2) len w).2.log = w.log ++ [.wait t, .send src b true] ∧ b.length = 20 ∧ b.getD 1 0 = 0 ∧ kind b = 2 ∧
      (b.getD 18 0).toNat * 256 + (b.getD 19 0).toNat = (w.s.ackNr + 1).toNat ∧ (w.s.ackNr + 1).toNat ≠ held.seqNr.toNat := by
  obtain ⟨reply, v, sack, hv, _, _, hty, hre, hrec⟩ := recv_data_at hc (.inl hs) hn hp ht hid hr hok
  have hva : v.s.ackNr = w.s.ackNr + 1 := by
    rw [hv]
    have : pkt.seqNr - w.s.ackNr = 1 := by rw [hnr]; bv_omega
    show (w.s.bumpAck pkt).ackNr = _
    rw [Socket.bumpAck, if_pos this, ← hnr]
  have hplain : reply = v.s.prepareReply (E.now v.nNow) pkt .state := by
    rcases hre with ⟨h, _⟩ | ⟨h, _⟩
    · rw [h, hs]; rfl
    · rw [hva, hnr] at h
      have : (w.s.ackNr + 1 - (w.s.ackNr + 1)).toNat = 0 := by simp
      omega
  have hb := prepareReply_bytes v.s (E.now v.nNow) pkt .state
  refine ⟨w.s.patience, (reply.setWndSize WINDOW_SIZE).bytes, ?_, ?_, ?_, ?_, ?_, ?_⟩
  · rw [hrec]
    unfold M.andThen
    have hl : ∀ u : World, (flushIncoming E len u).2.log = u.log := by
      intro u
      exact flushIncoming_log len u
    rcases e : flushIncoming E len _ with ⟨r, u⟩
    have h1 := hl { (v.setS (v.s.keep .data pkt)) with
          nNow := v.nNow + 1, nSnd := v.nSnd + 1, log := v.log ++ [.send src (reply.setWndSize WINDOW_SIZE).bytes true] }
    rw [e] at h1
    have h3 : v.log = w.log ++ [.wait w.s.patience] := by rw [hv]; rfl
    cases r <;> (simp only [M.ret]; rw [h1]; simp [h3])
  · rw [setWndSize_length, hplain]; exact hb.1
  · have h1 := byteAt_put32 reply.bytes 12 WINDOW_SIZE 1 (by omega)
    have h2 : byteAt reply.bytes 1 = 0 := by
      unfold byteAt
      rw [List.getD_eq_getElem?_getD, hplain, hb.2]; rfl
    exact h1.trans h2
  · rw [getType_kind (t := .state) (by rw [setWndSize_getType, hty, hs]; rfl)]
    rfl
  · rw [ackNr_bytes, setWndSize_ackNr, hplain, (prepareReply_facts v.s (E.now v.nNow) pkt .state).2.1, hva]
  · rw [h2]; bv_omega

open Sample

/-- Packet 3 arrives before packet 2. -/
def swapEnv : Env := env [arr (dg .data 6 3 0 [7]), arr (dg .data 6 2 0 [8])]

/-- The application has read packets 2 and 3, all that was sent; only 2 was acknowledged. -/
theorem C94_counterexample : Made swapEnv (server swapEnv) ∧ (server swapEnv).s.state = .connected ∧
    results swapEnv 6 [.recvFrom 10, .recvFrom 10] (server swapEnv) = [.ok (.bytes [8] peer), .ok (.bytes [7] peer)] ∧
    ackNumbers (runs swapEnv 6 [.recvFrom 10, .recvFrom 10] (server swapEnv)).log = ackNumbers (server swapEnv).log ++ [1, 2] := by
  exact ⟨.accept 1 (arr (dg .syn 5 1 0)) (.ok here) (r := .ok ()) (src := peer) (by decide +kernel) (by simp), by decide +kernel, by decide +kernel, by decide +kernel⟩

/-- C94_gap applies there, at the receive of packet 2. -/
example : ∃ t b, (recv swapEnv 2 10 (recv swapEnv 2 10 (server swapEnv)).2).2.log = (recv swapEnv 2 10 (server swapEnv)).2.log ++ [.wait t, .send peer b true] ∧ b.length = 20 ∧ b.getD 1 0 = 0 ∧ kind b = 2 ∧
    (b.getD 18 0).toNat * 256 + (b.getD 19 0).toNat = 2 ∧ 2 ≠ 3 :=
  C94_gap (E := swapEnv) (w := (recv swapEnv 2 10 (server swapEnv)).2) rfl (by decide +kernel) (src := peer) (d := dg .data 6 2 0 [8]) (pkt := ⟨dg .data 6 2 0 [8]⟩) (held := ⟨dg .data 6 3 0 [7]⟩)
    (by decide +kernel) (by decide +kernel) (by decide +kernel) (by decide +kernel) (by decide +kernel) (by decide +kernel) (by decide +kernel) (by decide +kernel) (by decide +kernel) 0 10

theorem backEnv_noJump : NoJump backEnv 1 0 4 := by
  intro k hk p hp
  have hk : k = 0 ∨ k = 1 ∨ k = 2 ∨ k = 3 := by omega
  rcases hk with rfl | rfl | rfl | rfl
  · rw [show arrival backEnv (0 + 0) = some ⟨dg .data 6 2 0 [1, 2, 3]⟩ by decide +kernel] at hp
    cases hp
    exact .inl (by decide +kernel)
  · rw [show arrival backEnv (0 + 1) = some ⟨dg .data 6 3 0 [4]⟩ by decide +kernel] at hp
    cases hp
    exact .inl (by decide +kernel)
  · rw [show arrival backEnv (0 + 2) = some ⟨dg .data 6 4 0 [5]⟩ by decide +kernel] at hp
    cases hp
    exact .inl (by decide +kernel)
  · rw [show arrival backEnv (0 + 3) = none by decide +kernel] at hp
    cases hp

/-- C94_partial applies: packets 2 to 4 arrive in order (`backEnv`), the second and third inside `flush`. -/
example : ∃ l, (runs backEnv 6 [.recvFrom 1500, .sendTo [9], .flush] (server backEnv)).log = (server backEnv).log ++ l ∧ CompleteAnswers backEnv 1 0 l := by
  have h1 : (server backEnv).s.ackNr = 1 := by decide +kernel
  have h2 : (server backEnv).nNet = 0 := by decide +kernel
  have h3 : (runs backEnv 6 [.recvFrom 1500, .sendTo [9], .flush] (server backEnv)).nNet = 4 := by decide +kernel
  have h := C94_partial (w0 := server backEnv) (w := runs backEnv 6 [.recvFrom 1500, .sendTo [9], .flush] (server backEnv))
    (.accept 1 (arr (dg .syn 5 1 0)) (.ok here) (r := .ok ()) (src := peer) (by decide +kernel) (by simp)) (by decide +kernel)
    (runWith_runs 6 _ .refl (by decide +kernel) fun k h => by
      match k, h with
      | 0, _ => exact (by decide : 0 < 1500)
      | 1, _ => exact (by decide +kernel : (runs backEnv 6 [.recvFrom 1500] (server backEnv)).s.pending = [])
      | 2, _ => exact (by decide +kernel : (runs backEnv 6 [.recvFrom 1500, .sendTo [9]] (server backEnv)).s.pending = []))
  rw [h1, h2, h3] at h
  exact h backEnv_noJump (by decide)

/-- The answers were 2, 3, 4. -/
example : ackNumbers (runs backEnv 6 [.recvFrom 1500, .sendTo [9], .flush] (server backEnv)).log = ackNumbers (server backEnv).log ++ [2, 3, 4] ∧ (List.range 4).map (highest backEnv 1 0) = [1, 2, 3, 4] := by
  decide +kernel

end Utp
