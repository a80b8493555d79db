import Verif.Lemmas.Recv
import Verif.Lemmas.Log
import Verif.Spec.Receive
/-!
# Reading from the buffers
-/

namespace Utp
open M

variable {E : Env}

/-- The world changed in nothing but the receive buffers. -/
def OnlyBuffers (w w' : World) : Prop := ∃ inc pend ack ld,
  w' = w.setS { w.s with incoming := inc, pending := pend, ackNr := ack, lastDropped := ld } ∧ ∀ p ∈ inc, p ∈ w.s.incoming

theorem takePending_spec (s : Socket) (len : Nat) (h : s.pending ≠ []) :
    (s.takePending len).1 ++ (s.takePending len).2.deliverable = s.deliverable ∧
    (s.takePending len).1 = s.pending.take len ∧
    ∃ inc pend ack ld, (s.takePending len).2 = { s with incoming := inc, pending := pend, ackNr := ack, lastDropped := ld } ∧
      ∀ p ∈ inc, p ∈ s.incoming := by
  unfold Socket.takePending
  simp only
  split
  · rename_i hl
    have e : s.pending.take len = s.pending := by
      exact List.take_of_length_le (by simp at hl; omega)
    simp only [e]
    unfold Socket.advanceIncoming
    rcases hi : s.incoming with _ | ⟨p, rest⟩
    · exact ⟨by simp [Socket.deliverable, hi, h, readable], trivial, _, _, _, _, rfl, by simp⟩
    · exact ⟨by simp [Socket.deliverable, hi, h], trivial, _, _, _, _, rfl, fun p h => List.mem_cons_of_mem _ h⟩
  · rename_i hl
    have hne : s.pending.drop len ≠ [] := by
      intro hd
      rw [List.drop_eq_nil_iff] at hd
      apply hl
      simp; omega
    refine ⟨?_, rfl, _, _, _, _, rfl, fun p h => h⟩
    simp [Socket.deliverable, h, hne, ← List.append_assoc]

theorem takeHead_spec (s : Socket) (p : Packet) (rest : List Packet) (pl : Bytes) (len : Nat) (h0 : s.pending = [])
    (hi : s.incoming = p :: rest) (hp : p.payload = some pl) (ha : s.ackNr = p.seqNr ∨ s.ackNr + 1 = p.seqNr) :
    pl.take len ++ (s.takeHead pl len).deliverable = s.deliverable ∧
    ∃ inc pend ack ld, (s.takeHead pl len) = { s with incoming := inc, pending := pend, ackNr := ack, lastDropped := ld } ∧
      ∀ p ∈ inc, p ∈ s.incoming := by
  have e : s.deliverable = pl ++ readable p.seqNr rest := by
    rw [Socket.deliverable, if_pos h0, hi, readable, if_pos ha, hp]; rfl
  unfold Socket.takeHead
  split
  · rename_i hl
    have e' : pl.take len = pl := by
      exact List.take_of_length_le (by simp at hl; omega)
    unfold Socket.advanceIncoming
    rw [hi]
    refine ⟨?_, _, _, _, _, rfl, fun p h => List.mem_cons_of_mem _ h⟩
    rw [e, e']
    simp [Socket.deliverable, h0]
  · rename_i hl
    have hne : pl.drop len ≠ [] := by
      intro hd
      rw [List.drop_eq_nil_iff] at hd
      apply hl
      simp; omega
    refine ⟨?_, _, _, _, _, rfl, fun p h => h⟩
    rw [e]
    simp [Socket.deliverable, hne, hi, ← List.append_assoc]

/-- What `flush_incoming_buffer` does when it does not panic. -/
theorem flushIncoming_spec (len : Nat) (w : World) (hp : (flushIncoming E len w).1 ≠ .panic) :
    ∃ out w', flushIncoming E len w = (.ok out, w') ∧ out ++ w'.s.deliverable = w.s.deliverable ∧ out.length ≤ len ∧
      OnlyBuffers w w' ∧ (out = [] → 0 < len → w.s.NoEmpty → w' = w ∧ w.s.deliverable = []) ∧
      (w.s.deliverable = [] → w.s.NoEmpty → w' = w) := by
  unfold flushIncoming at hp ⊢
  msimp at hp ⊢
  split at hp
  · rename_i h
    rw [if_pos h]
    obtain ⟨h1, h2, inc, pend, ack, ld, h3, h4⟩ := takePending_spec w.s len h
    have hne : w.s.deliverable ≠ [] := by simp [Socket.deliverable, h]
    refine ⟨_, _, rfl, h1, by rw [h2]; simp; omega, ⟨inc, pend, ack, ld, by rw [h3], h4⟩, ?_, fun h => absurd h hne⟩
    intro h0 hl
    rw [h2, List.take_eq_nil_iff] at h0
    rcases h0 with h0 | h0
    · omega
    · exact absurd h0 h
  · rename_i h
    rw [if_neg h]
    simp only [ne_eq, Decidable.not_not] at h
    have same : OnlyBuffers w w := ⟨_, _, _, _, rfl, fun _ h => h⟩
    rcases hi : w.s.incoming with _ | ⟨p, rest⟩
    · exact ⟨[], w, rfl, rfl, by simp, same, fun _ _ _ => ⟨rfl, by simp [Socket.deliverable, h, hi, readable]⟩, fun _ _ => rfl⟩
    · rw [hi] at hp
      simp only at hp ⊢
      unfold overflowIf at hp ⊢
      msimp at hp ⊢
      split at hp
      · exact absurd rfl hp
      · rename_i hof
        rw [if_neg hof]
        split at hp
        · rename_i ha
          rw [if_pos ha]
          rcases hpl : p.payload with _ | pl
          · rw [hpl] at hp; exact absurd rfl hp
          · msimp
            obtain ⟨h1, inc, pend, ack, ld, h3, h4⟩ := takeHead_spec w.s p rest pl len h hi hpl ha
            refine ⟨_, _, rfl, h1, by simp; omega, ⟨inc, pend, ack, ld, by rw [h3], h4⟩, ?_, ?_⟩
            · intro h0 hl hne
              rw [List.take_eq_nil_iff] at h0
              rcases h0 with h0 | h0
              · omega
              · exact absurd (h0 ▸ hpl) (hne p (by simp [hi]))
            · intro hd hne
              rw [Socket.deliverable, if_pos h, hi, readable, if_pos ha, hpl] at hd
              simp only [Option.getD_some, List.append_eq_nil_iff] at hd
              exact absurd (hd.1 ▸ hpl) (hne p (by simp [hi]))
        · rename_i ha
          rw [if_neg ha]
          exact ⟨[], w, rfl, rfl, by simp, same,
            fun _ _ _ => ⟨rfl, by rw [Socket.deliverable, if_pos h, hi, readable, if_neg ha]⟩, fun _ _ => rfl⟩

/-- In a reachable world of a build without overflow checks reading from the buffers does not panic. -/
theorem flushIncoming_no_panic (hc : E.checks = false) (len : Nat) (w : World) (hv : ∀ p ∈ w.s.incoming, ValidData p) :
    (flushIncoming E len w).1 ≠ .panic :=
  (at_flushIncoming (V := ⟨fun _ => True, True, True, True, True⟩) len hv).safe hc

theorem OnlyBuffers.refl (w : World) : OnlyBuffers w w := ⟨_, _, _, _, rfl, fun _ h => h⟩

/-! ### One packet -/

theorem recvPacket_eq {fuel : Nat} {rec : M (Bytes × Addr)} {pkt : Packet} {src : Addr} {w w2 w3 : World}
    {reply : Option Packet} {ty : PacketType} (h2 : handlePacket E fuel rec pkt src w = (.ok reply, w2))
    (h3 : sendReply E src reply w2 = (.ok (), w3)) (ht : pkt.getType = some ty) (len : Nat) :
    recvPacket E fuel rec len pkt src w =
      M.andThen (flushIncoming E len) (fun out => M.ret (out, src)) (w3.setS (w3.s.keep ty pkt)) := by
  unfold recvPacket
  rw [bind_def, andThen_eq h2, bind_def, andThen_eq h3, ht]
  msimp
  rfl

/-- The world after a reply was sent. -/
def World.answered (w : World) (dst : Addr) (reply : Packet) : World :=
  { w with nSnd := w.nSnd + 1, log := w.log ++ [.send dst (reply.setWndSize WINDOW_SIZE).bytes true] }

theorem sendReply_some {w : World} (h : E.snd w.nSnd = .ok) (src : Addr) (r : Packet) :
    sendReply E src (some r) w = (.ok (), w.answered src r) := udpSend_ok h

theorem flush_quiet {w : World} (hv : ∀ p ∈ w.s.incoming, ValidData p) (hd : w.s.deliverable = []) (hn : w.s.NoEmpty)
    (hq : E.checks = true → w.s.ackNr ≠ 65535) (len : Nat) : flushIncoming E len w = (.ok [], w) := by
  have hp : (flushIncoming E len w).1 ≠ .panic := by
    unfold flushIncoming overflowIf
    msimp
    split
    · simp
    · rcases hi : w.s.incoming with _ | ⟨p, rest⟩
      · simp [pure_def, M.ret]
      · simp only
        msimp
        rw [if_neg]
        · obtain ⟨pl, hpl⟩ := (hv p (by simp [hi])).payload
          rw [hpl]
          msimp
          split <;> simp
        · simp only [Bool.and_eq_true, decide_eq_true_eq, not_and]
          intro h1 _ h3
          exact hq h1 h3
  obtain ⟨out, w', h1, h2, _, _, _, h6⟩ := flushIncoming_spec len w hp
  have := h6 hd hn
  subst this
  rw [hd] at h2
  rw [h1, (List.append_eq_nil_iff.mp h2).1]

theorem recvFromLoop_again {fuel len n : Nat} {w w1 : World} {a : Addr} (hs : w.s.state ≠ .closed)
    (h : recv E fuel len w = (.ok ([], a), w1)) :
    recvFromLoop E fuel len (n + 1) w = recvFromLoop E fuel len n w1 := by
  rw [recvFromLoop]
  msimp
  rw [if_neg hs, andThen_eq h]
  rfl

theorem recvFrom_quiet {fuel len : Nat} {w : World} (h : flushIncoming E len w = (.ok [], w)) (hs : w.s.state ≠ .resetReceived) :
    recvFrom E fuel len w = recvFromLoop E fuel len fuel w := by
  unfold recvFrom
  rw [bind_def, andThen_eq h]
  msimp
  rw [if_neg (by simp), if_neg hs]

theorem bump_iff (s : Socket) (pkt : Packet) : pkt.seqNr - s.ackNr = 1 ↔ pkt.seqNr = s.ackNr + 1 := by
  have : (1 : U16).toNat = 1 := rfl
  constructor <;> intro h <;> bv_omega

theorem bumpAck_of_ne {s : Socket} {pkt : Packet} (h : pkt.seqNr ≠ s.ackNr + 1) : s.bumpAck pkt = s := by
  unfold Socket.bumpAck
  rw [if_neg (by rw [bump_iff]; exact h)]

theorem bumpAck_of_eq {s : Socket} {pkt : Packet} (h : pkt.seqNr = s.ackNr + 1) : s.bumpAck pkt = { s with ackNr := pkt.seqNr } := by
  unfold Socket.bumpAck
  rw [if_pos (by rw [bump_iff]; exact h)]

/-- Attaching a selective ack in a build without overflow checks. -/
theorem withSack_eval (hc : E.checks = false) (s : Socket) (pkt : Packet) (t : U32) {ty : PacketType}
    (hty : ty = .state ∨ (ty = .fin ∧ s.state = .finSent)) (w : World) :
    ∃ r sack, withSack E s pkt (s.prepareReply t pkt ty) w = (.ok r, w) ∧ s.buildSack E = some sack ∧ IsReply E s pkt r ∧
      r.getType = some ty ∧
      ((r = s.prepareReply t pkt ty ∧ ((pkt.seqNr - s.ackNr).toNat ≤ 1 ∨ sack = [])) ∨
       (1 < (pkt.seqNr - s.ackNr).toNat ∧ sack ≠ [] ∧ (s.prepareReply t pkt ty).setSack sack = some r)) := by
  obtain ⟨sack, hsack⟩ : ∃ sack, s.buildSack E = some sack := by
    rcases h : s.buildSack E with _ | sack
    · exact absurd h (buildSack_release hc)
    · exact ⟨sack, rfl⟩
  have hplain : IsReply E s pkt (s.prepareReply t pkt ty) :=
    ⟨t, ty, by rcases hty with h | h <;> simp [h], .inl rfl⟩
  have hpt := (prepareReply_plain s t pkt ty).ty
  unfold withSack
  by_cases h1 : (pkt.seqNr - s.ackNr).toNat > 1
  · rw [if_pos h1, hsack]
    msimp
    by_cases h2 : sack = []
    · rw [if_neg (by simp [h2])]
      exact ⟨_, sack, rfl, rfl, hplain, hpt, .inl ⟨rfl, .inr h2⟩⟩
    · rw [if_pos h2]
      have hb := prepareReply_bytes s t pkt ty
      have hset := setSack_plain hb.1 hb.2 (buildSack_len hsack) h2
      obtain ⟨g1, _⟩ := setSack_reply hb.1 hb.2 (buildSack_len hsack) h2 hset
      rw [hset]
      refine ⟨_, sack, rfl, rfl, ⟨t, ty, by rcases hty with h | h <;> simp [h], .inr ⟨sack, hsack, h2, ?_, hset⟩⟩, g1.trans hpt, .inr ⟨h1, h2, hset⟩⟩
      rcases hty with h | h <;> simp [h]
  · rw [if_neg h1]
    exact ⟨_, sack, rfl, hsack, hplain, hpt, .inl ⟨rfl, .inl (by omega)⟩⟩

/-- `recv` of a data packet of this connection in a build without overflow checks. -/
theorem recv_data_at (hc : E.checks = false) {w : World} (hs : w.s.state = .connected ∨ w.s.state = .finSent)
    {b : Bytes} {src : Addr} {pkt : Packet} (hn : E.net w.nNet = .dgram b src)
    (hp : Packet.tryFrom (b.take 1520) = some (.ok pkt)) (ht : pkt.getType = some .data)
    (hid : pkt.connectionId = w.s.senderId ∨ pkt.connectionId = w.s.receiverId) (hr : 0 < w.s.maxRetries.toNat)
    (hok : E.snd w.nSnd = .ok) :
    ∃ reply v sack, v = (w.waited w.s.patience).heard E pkt ∧ v.s.buildSack E = some sack ∧ IsReply E v.s pkt reply ∧
      reply.getType = some (if w.s.state = .finSent then .fin else .state) ∧
      ((reply = v.s.prepareReply (E.now v.nNow) pkt (if w.s.state = .finSent then .fin else .state) ∧ ((pkt.seqNr - v.s.ackNr).toNat ≤ 1 ∨ sack = [])) ∨
       (1 < (pkt.seqNr - v.s.ackNr).toNat ∧ sack ≠ [] ∧
        (v.s.prepareReply (E.now v.nNow) pkt (if w.s.state = .finSent then .fin else .state)).setSack sack = some reply)) ∧
      ∀ fuel len, recv E (fuel + 2) len w = M.andThen (flushIncoming E len) (fun out => M.ret (out, src))
        { (v.setS (v.s.keep .data pkt)) with
          nNow := v.nNow + 1, nSnd := v.nSnd + 1, log := v.log ++ [.send src (reply.setWndSize WINDOW_SIZE).bytes true] } := by
  obtain ⟨v, hv⟩ : ∃ v, v = (w.waited w.s.patience).heard E pkt := ⟨_, rfl⟩
  have hvs : v.s.state = w.s.state := by rw [hv]; simp [World.heard, World.waited]
  have hvn : v.nSnd = w.nSnd := by rw [hv]; rfl
  obtain ⟨reply, sack, h1, h2, h3, h4, h5⟩ := withSack_eval hc v.s pkt (E.now v.nNow) (ty := if w.s.state = .finSent then .fin else .state)
    (by rw [hvs]; split <;> simp_all) { v with nNow := v.nNow + 1 }
  refine ⟨reply, v, sack, hv, h2, h3, h4, h5, fun fuel len => ?_⟩
  have hd : dispatch E (fuel + 1) (recv E (fuel + 1) BUF_SIZE) pkt src w.s.state .data v =
      (.ok (some reply), { v with nNow := v.nNow + 1 }) := by
    have : (do let r ← handleData E pkt; return some r : M (Option Packet)) v = (.ok (some reply), { v with nNow := v.nNow + 1 }) := by
      unfold handleData
      msimp
      rw [hvs, andThen_eq h1]
      rfl
    rcases hs with h | h <;> rw [h] <;> exact this
  have hh : handlePacket E (fuel + 1) (recv E (fuel + 1) BUF_SIZE) pkt src (w.waited w.s.patience) =
      (.ok (some reply), { v with nNow := v.nNow + 1 }) := by
    rw [handlePacket_takes (w := w.waited w.s.patience) ht (.inr (.inr hid)), ← hv]
    exact hd
  rw [recv_dgram hn hr hp, recvPacket_eq hh (sendReply_some (w := { v with nNow := v.nNow + 1 }) (by rw [hvn]; exact hok) src reply) ht]
  rfl

/-- The same without the time in the reply. -/
theorem recv_data (hc : E.checks = false) {w : World} (hs : w.s.state = .connected ∨ w.s.state = .finSent)
    {b : Bytes} {src : Addr} {pkt : Packet} (hn : E.net w.nNet = .dgram b src)
    (hp : Packet.tryFrom (b.take 1520) = some (.ok pkt)) (ht : pkt.getType = some .data)
    (hid : pkt.connectionId = w.s.senderId ∨ pkt.connectionId = w.s.receiverId) (hr : 0 < w.s.maxRetries.toNat)
    (hok : E.snd w.nSnd = .ok) :
    ∃ reply v sack t, v = (w.waited w.s.patience).heard E pkt ∧ v.s.buildSack E = some sack ∧ IsReply E v.s pkt reply ∧
      reply.getType = some (if w.s.state = .finSent then .fin else .state) ∧
      ((reply = v.s.prepareReply t pkt (if w.s.state = .finSent then .fin else .state) ∧ ((pkt.seqNr - v.s.ackNr).toNat ≤ 1 ∨ sack = [])) ∨
       (1 < (pkt.seqNr - v.s.ackNr).toNat ∧ sack ≠ [] ∧
        (v.s.prepareReply t pkt (if w.s.state = .finSent then .fin else .state)).setSack sack = some reply)) ∧
      ∀ fuel len, recv E (fuel + 2) len w = M.andThen (flushIncoming E len) (fun out => M.ret (out, src))
        { (v.setS (v.s.keep .data pkt)) with
          nNow := v.nNow + 1, nSnd := v.nSnd + 1, log := v.log ++ [.send src (reply.setWndSize WINDOW_SIZE).bytes true] } := by
  obtain ⟨reply, v, sack, h⟩ := recv_data_at hc hs hn hp ht hid hr hok
  exact ⟨reply, v, sack, _, h⟩

end Utp
