import Verif.Lemmas.Deliver
import Verif.Props.State
import Verif.Samples
/-!
# FIN and SYN on an open connection: C43, C44
-/

namespace Utp
open M

variable {E : Env}

theorem heard_incoming (w : World) (pkt : Packet) : (w.heard E pkt).s.incoming = w.s.incoming := by
  show (w.s.bumpAck pkt).incoming = _
  unfold Socket.bumpAck
  split <;> rfl

/-- `recv` of a FIN of this connection in a build without overflow checks. -/
theorem recv_fin (hc : E.checks = false) {w : World} (hs : w.s.state = .connected ∨ w.s.state = .finSent)
    {b : Bytes} {src : Addr} {pkt : Packet} (hn : E.net w.nNet = .dgram b src)
    (hp : Packet.tryFrom (b.take 1520) = some (.ok pkt)) (ht : pkt.getType = some .fin)
    (hid : pkt.connectionId = w.s.senderId ∨ pkt.connectionId = w.s.receiverId) (hr : 0 < w.s.maxRetries.toNat)
    (hok : E.snd w.nSnd = .ok) :
    ∃ reply v, v = (w.waited w.s.patience).heard E pkt ∧ IsReply E v.s pkt reply ∧ reply.getType = some .state ∧
      ∀ fuel len, recv E (fuel + 2) len w = M.andThen (flushIncoming E len) (fun out => M.ret (out, src))
        { (v.setS { v.s with state := .closed }) with
          nNow := v.nNow + 1, nSnd := v.nSnd + 1, log := v.log ++ [.send src (reply.setWndSize WINDOW_SIZE).bytes true] } := by
  obtain ⟨v, hv⟩ : ∃ v, v = (w.waited w.s.patience).heard E pkt := ⟨_, rfl⟩
  have hvs : v.s.state = w.s.state := by rw [hv]; simp [World.heard, World.waited]
  have hvn : v.nSnd = w.nSnd := by rw [hv]; rfl
  obtain ⟨reply, sack, h1, h2, h3, h4, h5⟩ := withSack_eval hc v.s pkt (E.now v.nNow) (ty := .state) (.inl rfl) { v with nNow := v.nNow + 1 }
  refine ⟨reply, v, hv, h3, h4, fun fuel len => ?_⟩
  have hd : dispatch E (fuel + 1) (recv E (fuel + 1) BUF_SIZE) pkt src w.s.state .fin v =
      (.ok (some reply), { (v.setS { v.s with state := .closed }) with nNow := v.nNow + 1 }) := by
    have : onFin E pkt v = (.ok (some reply), { (v.setS { v.s with state := .closed }) with nNow := v.nNow + 1 }) := by
      unfold onFin
      msimp
      rw [andThen_eq h1]
      msimp
      rfl
    rcases hs with h | h <;> rw [h] <;> exact this
  have hh : handlePacket E (fuel + 1) (recv E (fuel + 1) BUF_SIZE) pkt src (w.waited w.s.patience) =
      (.ok (some reply), { (v.setS { v.s with state := .closed }) with nNow := v.nNow + 1 }) := by
    rw [handlePacket_takes (w := w.waited w.s.patience) ht (.inr (.inr hid)), ← hv]
    exact hd
  rw [recv_dgram hn hr hp, recvPacket_eq hh (sendReply_some (w := { (v.setS { v.s with state := .closed }) with nNow := v.nNow + 1 })
    (by show E.snd v.nSnd = _; rw [hvn]; exact hok) src reply) ht]
  rfl

/-- What reading from the buffers does to a world with valid packets. -/
theorem flush_ok (hc : E.checks = false) {w : World} (hv : ∀ p ∈ w.s.incoming, ValidData p) (len : Nat) (src : Addr) :
    ∃ out w', M.andThen (flushIncoming E len) (fun out => M.ret (out, src)) w = (.ok (out, src), w') ∧ OnlyBuffers w w' ∧
      out ++ w'.s.deliverable = w.s.deliverable := by
  obtain ⟨out, w', h1, h2, _, h4, _⟩ := flushIncoming_spec len w (flushIncoming_no_panic hc len w hv)
  exact ⟨out, w', by rw [andThen_eq h1]; rfl, h4, h2⟩

theorem heard_deliverable {s : Socket} {pkt : Packet} (hne : pkt.seqNr ≠ s.ackNr + 1) (r : U32) (d : Int) :
    ({ s.bumpAck pkt with remoteWnd := r, theirDelay := d } : Socket).deliverable = s.deliverable := by
  rw [bumpAck_of_ne hne]
  rfl

/-- A FIN of this connection closes an open socket at once, whether or not data before it is missing.  It is answered
to the sender of the datagram by a State packet, which acknowledges the FIN itself if it is next in sequence, and the
same as before otherwise. -/
theorem C43_fin (hc : E.checks = false) {w : World} (hw : Reach E w) (hs : w.s.state = .connected ∨ w.s.state = .finSent)
    {b : Bytes} {src : Addr} {pkt : Packet} (hn : E.net w.nNet = .dgram b src)
    (hp : Packet.tryFrom (b.take 1520) = some (.ok pkt)) (ht : pkt.getType = some .fin)
    (hid : pkt.connectionId = w.s.senderId ∨ pkt.connectionId = w.s.receiverId) (hr : 0 < w.s.maxRetries.toNat)
    (hok : E.snd w.nSnd = .ok) (fuel len : Nat) :
    ∃ out w' reply, recv E (fuel + 2) len w = (.ok (out, src), w') ∧ w'.s.state = .closed ∧
      w'.log = w.log ++ [.wait w.s.patience, .send src (Packet.bytes reply) true] ∧
      20 ≤ reply.bytes.length ∧ reply.getType = some .state ∧ reply.connectionId = w.s.senderId ∧
      reply.ackNr = if pkt.seqNr = w.s.ackNr + 1 then pkt.seqNr else w.s.ackNr := by
  obtain ⟨reply, v, hv, h1, h2, h3⟩ := recv_fin hc hs hn hp ht hid hr hok
  have hvinc : v.s.incoming = w.s.incoming := by rw [hv]; exact heard_incoming _ _
  obtain ⟨out, w', g1, g2, _⟩ := flush_ok hc (w := { (v.setS { v.s with state := .closed }) with
          nNow := v.nNow + 1, nSnd := v.nSnd + 1, log := v.log ++ [.send src (reply.setWndSize WINDOW_SIZE).bytes true] })
          (by show ∀ p ∈ v.s.incoming, _; rw [hvinc]; exact (reach_any hw).inc) len src
  obtain ⟨_, _, f3, f4, f5, _⟩ := h1.facts
  obtain ⟨_, _, _, _, e, _⟩ := g2
  refine ⟨out, w', reply.setWndSize WINDOW_SIZE, by rw [h3, g1], by rw [e]; rfl, ?_, by simpa using f5, by simpa using h2, ?_, ?_⟩
  · rw [e]
    show v.log ++ _ = _
    rw [hv]
    simp [World.heard, World.waited]
  · simp only [setWndSize_connectionId, f4]
    rw [hv]; simp [World.heard, World.waited]
  · simp only [setWndSize_ackNr, f3]
    rw [hv]
    simp only [World.heard, World.waited, World.setS]
    by_cases h : pkt.seqNr = w.s.ackNr + 1
    · rw [bumpAck_of_eq h, if_pos h]
    · rw [bumpAck_of_ne h, if_neg h]

/-- A FIN received by a closed socket is acknowledged again: this concerns `flush`, which goes on receiving on a closed socket
while data is outstanding.  (Missing for C43: `recv_from` does not receive on a closed socket, see the
counterexample.) -/
theorem C43_repeat_partial (hc : E.checks = false) {w : World} (hw : Reach E w) (hs : w.s.state = .closed)
    {b : Bytes} {src : Addr} {pkt : Packet} (hn : E.net w.nNet = .dgram b src)
    (hp : Packet.tryFrom (b.take 1520) = some (.ok pkt)) (ht : pkt.getType = some .fin)
    (hid : pkt.connectionId = w.s.senderId ∨ pkt.connectionId = w.s.receiverId) (hr : 0 < w.s.maxRetries.toNat)
    (hok : E.snd w.nSnd = .ok) (fuel len : Nat) :
    ∃ out w' reply, recv E (fuel + 2) len w = (.ok (out, src), w') ∧ w'.s.state = .closed ∧
      w'.log = w.log ++ [.wait w.s.patience, .send src (Packet.bytes reply) true] ∧
      20 ≤ reply.bytes.length ∧ reply.getType = some .state ∧ reply.connectionId = w.s.senderId ∧
      reply.ackNr = if pkt.seqNr = w.s.ackNr + 1 then pkt.seqNr else w.s.ackNr := by
  obtain ⟨v, hv⟩ : ∃ v, v = (w.waited w.s.patience).heard E pkt := ⟨_, rfl⟩
  have hvn : v.nSnd = w.nSnd := by rw [hv]; rfl
  obtain ⟨reply, hreply⟩ : ∃ reply, reply = v.s.prepareReply (E.now v.nNow) pkt .state := ⟨_, rfl⟩
  have hh : handlePacket E (fuel + 1) (recv E (fuel + 1) BUF_SIZE) pkt src (w.waited w.s.patience) =
      (.ok (some reply), { v with nNow := v.nNow + 1 }) := by
    rw [handlePacket_takes (w := w.waited w.s.patience) ht (.inr (.inr hid)), ← hv]
    show dispatch E _ _ pkt src w.s.state .fin v = _
    rw [hs]
    show replyWith E pkt .state v = _
    unfold replyWith
    msimp
    rw [hreply]
  obtain ⟨w2, hw2⟩ : ∃ w2, w2 = (({ v with nNow := v.nNow + 1 } : World).answered src reply) := ⟨_, rfl⟩
  have h3 := recvPacket_eq hh (sendReply_some (w := { v with nNow := v.nNow + 1 }) (by show E.snd v.nSnd = _; rw [hvn]; exact hok) src reply) ht len
  rw [← hw2] at h3
  have hk : w2.setS (w2.s.keep .fin pkt) = w2 := by
    unfold Socket.keep; rw [if_neg (by simp)]; rfl
  rw [hk] at h3
  have hw2s : w2.s = v.s := by rw [hw2]; rfl
  have hvinc : w2.s.incoming = w.s.incoming := by rw [hw2s, hv]; exact heard_incoming _ _
  obtain ⟨out, w', g1, g2, _⟩ := flush_ok hc (w := w2) (by rw [hvinc]; exact (reach_any hw).inc) len src
  obtain ⟨f1, f2, f3, _⟩ := prepareReply_facts v.s (E.now v.nNow) pkt .state
  have f0 := prepareReply_plain v.s (E.now v.nNow) pkt .state
  rw [← hreply] at f0 f2 f3
  obtain ⟨_, _, _, _, e, _⟩ := g2
  refine ⟨out, w', reply.setWndSize WINDOW_SIZE, by rw [recv_dgram hn hr hp, h3, g1], ?_, ?_, by simpa using f0.len, by simpa using f0.ty, ?_, ?_⟩
  · rw [e]
    show w2.s.state = _
    rw [hw2s, hv]
    simp [World.heard, World.waited, hs]
  · rw [e]
    show w2.log = _
    rw [hw2]
    show v.log ++ _ = _
    rw [hv]
    simp [World.heard, World.waited]
  · simp only [setWndSize_connectionId, f3]
    rw [hv]; simp [World.heard, World.waited]
  · simp only [setWndSize_ackNr, f2]
    rw [hv]
    simp only [World.heard, World.waited, World.setS]
    by_cases h : pkt.seqNr = w.s.ackNr + 1
    · rw [bumpAck_of_eq h, if_pos h]
    · rw [bumpAck_of_ne h, if_neg h]

/-- A SYN received by an open socket (from anywhere, with any identifier) is answered by a Reset.  The connection is not
disturbed, except that the peer's window and delay are taken from the SYN, if the SYN's number is not the one expected
next: the state, the numbers and what can be read stay the same.  (Missing for C44: the window and the delay, and a SYN
with the number expected next, see the counterexamples.) -/
theorem C44_partial (hc : E.checks = false) {w : World} (hw : Reach E w) (hs : w.s.state = .connected)
    {b : Bytes} {src : Addr} {pkt : Packet} (hn : E.net w.nNet = .dgram b src)
    (hp : Packet.tryFrom (b.take 1520) = some (.ok pkt)) (ht : pkt.getType = some .syn)
    (hseq : pkt.seqNr ≠ w.s.ackNr + 1) (hr : 0 < w.s.maxRetries.toNat)
    (hok : E.snd w.nSnd = .ok) (fuel len : Nat) :
    ∃ out w1 w' reply, recv E (fuel + 2) len w = (.ok (out, src), w') ∧
      (∃ d, w1.s = { w.s with remoteWnd := pkt.wndSize, theirDelay := d }) ∧ OnlyBuffers w1 w' ∧
      out ++ w'.s.deliverable = w.s.deliverable ∧
      w'.log = w.log ++ [.wait w.s.patience, .send src (Packet.bytes reply) true] ∧ reply.getType = some .reset := by
  obtain ⟨v, hv⟩ : ∃ v, v = (w.waited w.s.patience).heard E pkt := ⟨_, rfl⟩
  have hvn : v.nSnd = w.nSnd := by rw [hv]; rfl
  obtain ⟨reply, hreply⟩ : ∃ reply, reply = v.s.prepareReply (E.now v.nNow) pkt .reset := ⟨_, rfl⟩
  have hh : handlePacket E (fuel + 1) (recv E (fuel + 1) BUF_SIZE) pkt src (w.waited w.s.patience) =
      (.ok (some reply), { v with nNow := v.nNow + 1 }) := by
    rw [handlePacket_takes (w := w.waited w.s.patience) ht (.inl rfl), ← hv]
    show dispatch E _ _ pkt src w.s.state .syn v = _
    rw [hs]
    show replyWith E pkt .reset v = _
    unfold replyWith
    msimp
    rw [hreply]
  obtain ⟨w2, hw2⟩ : ∃ w2, w2 = (({ v with nNow := v.nNow + 1 } : World).answered src reply) := ⟨_, rfl⟩
  have h3 := recvPacket_eq hh (sendReply_some (w := { v with nNow := v.nNow + 1 }) (by show E.snd v.nSnd = _; rw [hvn]; exact hok) src reply) ht len
  rw [← hw2] at h3
  have hk : w2.setS (w2.s.keep .syn pkt) = w2 := by
    unfold Socket.keep; rw [if_neg (by simp)]; rfl
  rw [hk] at h3
  have hw2s : w2.s = { w.s with remoteWnd := pkt.wndSize, theirDelay := absDiff (E.now w.nNow) pkt.timestamp } := by
    rw [hw2]
    show v.s = _
    rw [hv]
    simp only [World.heard, World.setS]
    rw [show (w.waited w.s.patience).s = w.s from rfl, bumpAck_of_ne hseq]
    rfl
  obtain ⟨out, w', g1, g2, g3⟩ := flush_ok hc (w := w2) (by rw [hw2s]; exact (reach_any hw).inc) len src
  have f0 := prepareReply_plain v.s (E.now v.nNow) pkt .reset
  rw [← hreply] at f0
  refine ⟨out, w2, w', reply.setWndSize WINDOW_SIZE, by rw [recv_dgram hn hr hp, h3, g1], ⟨_, hw2s⟩, g2, ?_, ?_, by simpa using f0.ty⟩
  · rw [g3, hw2s]; rfl
  · obtain ⟨_, _, _, _, e, _⟩ := g2
    rw [e]
    show w2.log = _
    rw [hw2]
    show v.log ++ _ = _
    rw [hv]
    simp [World.heard, World.waited]

section
open Sample

/-- A FIN, and the same again. -/
def twoFins : Env := env [arr (dg .fin 6 2 100), arr (dg .fin 6 2 100)]

/-- The FIN closes the socket and is acknowledged. -/
example :
    let w := server twoFins
    Reach twoFins w ∧ w.s.state = .connected ∧
    results twoFins 10 [.recvFrom 9] w = [.ok (.bytes [] peer)] ∧
    ((sent (runs twoFins 10 [.recvFrom 9] w)).map fun b => (Packet.getType ⟨b⟩, Packet.ackNr ⟨b⟩)) = [(some .state, 1), (some .state, 2)] :=
  ⟨reach_server 0 [] (by decide +kernel) (by decide +kernel), by decide +kernel⟩

/-- The repeated FIN is not even received by further calls of `recv_from`. -/
theorem C43_counterexample :
    let w := runs twoFins 10 [.recvFrom 9, .recvFrom 9, .recvFrom 9] (server twoFins)
    Reach twoFins w ∧ w.s.state = .closed ∧ w.nNet = 1 ∧ (sent w).length = 2 :=
  ⟨reach_server _ _ (by decide +kernel) (by decide +kernel), by decide +kernel⟩

/-- A FIN with a gap before it. -/
def finGap : Env := env [arr (dg .data 6 2 100 [9]), arr (dg .fin 6 4 100), arr (dg .fin 6 4 100)]

/-- It closes the socket as well; packet 3 is never received. Sent data outstanding: `flush` acknowledges the FIN again. -/
example :
    let w := server finGap
    results finGap 10 [.recvFrom 9, .sendTo [1], .recvFrom 9, .flush] w = [.ok (.bytes [9] peer), .ok (.count 1), .ok (.bytes [] peer), .pending] ∧
    ((sent (runs finGap 10 [.recvFrom 9, .sendTo [1], .recvFrom 9, .flush] w)).map fun b => (Packet.getType ⟨b⟩, Packet.ackNr ⟨b⟩)) =
      [(some .state, 1), (some .state, 2), (some .data, 2), (some .state, 2), (some .state, 2)] := by decide +kernel

/-- Data packet 2 is lost; a stray SYN with number 2 arrives, then data packet 3. -/
def straySyn : Env := env [.dgram (dg .syn 1000 2 0 [] 0) other, arr (dg .data 6 3 100 [3])]

/-- The SYN is refused, but it counts as packet 2: the bytes of packet 3 are delivered though packet 2 never came; and the
peer's window is now what the SYN said. -/
theorem C44_counterexample :
    let w := server straySyn
    Reach straySyn w ∧ w.s.ackNr = 1 ∧ w.s.remoteWnd = 1048576 ∧
    results straySyn 10 [.recvFrom 9] w = [.ok (.bytes [3] peer)] ∧
    ((sent (runs straySyn 10 [.recvFrom 9] w)).map fun b => (Packet.getType ⟨b⟩, Packet.ackNr ⟨b⟩)) =
      [(some .state, 1), (some .reset, 2), (some .state, 3)] :=
  ⟨reach_server 0 [] (by decide +kernel) (by decide +kernel), by decide +kernel⟩

/-- A stray SYN with number 9 that advertises an empty window. -/
def straySyn9 : Env := env [.dgram (dg .syn 1000 9 0 [] 0) other, arr (dg .data 6 2 100 [2] 7)]

/-- It is refused with a Reset, and only the window (and delay) change. -/
theorem C44_counterexample_window :
    let w := server straySyn9
    Reach straySyn9 w ∧ w.s.state = .connected ∧ w.s.remoteWnd = 1048576 ∧ (recv straySyn9 10 9 w).2.s.remoteWnd = 0 :=
  ⟨reach_server 0 [] (by decide +kernel) (by decide +kernel), by decide +kernel⟩

end

end Utp
