import Verif.Lemmas.Echo
import Verif.Props.Lossless
/-!
# C105: messages that cross are lost
-/

namespace Utp
open M

variable {E : Env}

/-- `recv` of the acknowledgement of the only outstanding packet. -/
theorem recv_last_ack {w : World} {p r : Packet} {src : Addr} {q k : U16} (hs : w.s.state = .connected) (htr : 0 < w.s.maxRetries.toNat) (hq : w.s.incoming = [] ∧ w.s.pending = [])
    (hw : w.s.sendWindow = [p]) (hp : p.seqNr = k) (hl : p.len ≤ 1400) (hc : w.s.currWindow = BitVec.ofNat 32 p.len) (hk : w.s.lastAcked ≠ k) (hseq : w.s.ackNr + 1 = q)
    (hr : AckPkt q k w.s.receiverId r) (hn : E.net w.nNet = .dgram r.bytes src) :
    ∃ w', (∀ fuel len, recv E (fuel + 2) len w = (.ok ([], src), w')) ∧ w'.nNet = w.nNet + 1 ∧ (∃ t, w'.log = w.log ++ [.wait t]) ∧
      w'.s.state = .connected ∧ w'.s.maxRetries = w.s.maxRetries ∧ w'.s.senderId = w.s.senderId ∧ w'.s.receiverId = w.s.receiverId ∧
      (w'.s.incoming = [] ∧ w'.s.pending = []) ∧ w'.s.sendWindow = [] ∧ w'.s.unsent = w.s.unsent ∧ w'.s.currWindow = 0 ∧ w'.s.lastAcked = k ∧ w'.s.seqNr = w.s.seqNr ∧
      w'.s.ackNr = q ∧ w'.s.lastDropped = w.s.lastDropped := by
  obtain ⟨v, hv⟩ : ∃ v, v = (w.waited w.s.patience).heard E r := ⟨_, rfl⟩
  obtain ⟨rw', td, hvs⟩ : ∃ rw' td, v.s = { w.s with ackNr := q, remoteWnd := rw', theirDelay := td } := by
    refine ⟨r.wndSize, absDiff (E.now w.nNow) r.timestamp, ?_⟩
    rw [hv]
    have : (w.waited w.s.patience).s = w.s := rfl
    simp only [World.heard, World.setS, this, bumpAck_of_eq (show r.seqNr = w.s.ackNr + 1 by rw [hr.seq, hseq]), hr.seq]
    rfl
  have hsz : w.s.currWindow.toNat = p.len := by
    rw [hc, BitVec.toNat_ofNat]
    exact Nat.mod_eq_of_lt (by omega)
  obtain ⟨w1, h1, h2, h3, ts, bd, cd, lr, cw, rt, rv, ct, h4⟩ := handleState_first (E := E) (w := v) (p := p) (pkt := r) (rest := []) (exts := [])
    (by rw [hvs]; exact hw) (by rw [hr.ack, hp]) (by rw [hvs, hr.ack]; exact hk.symm) hr.plain.extensions (by simp)
    (by rw [hvs]; show _ ≤ w.s.currWindow.toNat; omega) (by rw [hvs]; show w.s.currWindow.toNat + _ < _; omega)
  have h5 : w1.s.incoming = [] ∧ w1.s.pending = [] := by rw [h4, hvs]; exact hq
  refine ⟨w1, fun fuel len => recv_ack_state hr hs htr hn (fun f rec => by rw [← hv]; exact h1 _ _) h5 fuel len, ?_, ⟨w.s.patience, ?_⟩, ?_⟩
  · rw [h2, hv]; rfl
  · rw [h3, hv]; rfl
  · rw [h4, hvs]
    refine ⟨hs, rfl, rfl, rfl, hq, rfl, rfl, ?_, hr.ack, rfl, rfl, rfl⟩
    show w.s.currWindow - BitVec.ofNat 32 p.len = 0
    rw [hc]
    simp

/-- What one end does: it sends its message; when the packet of the peer arrives, it acknowledges it; when the acknowledgement arrives, it is done. -/
theorem cross_half {a b : World} (h : Linked a b) (hr : Ready a.s b.s) (hr' : Ready b.s a.s) (hok : ∀ n, E.snd n = .ok) {m : Bytes} (hm1 : 0 < m.length) (hm2 : m.length ≤ 1380)
    (hlead : a.s.lead ≤ 32768) :
    ∃ p a1 d, (∀ fuel, sendTo E (fuel + 2) m a = (.ok m.length, a1)) ∧ Piece a.s.seqNr b.s.receiverId m p ∧ a1.log = a.log ++ [.send d p.bytes true] ∧ a1.s.sendWindow ≠ [] ∧
      ∀ m' q src, Piece b.s.seqNr a.s.receiverId m' q → E.net a.nNet = .dgram q.bytes src →
        ∃ a2 t d' r, (∀ fuel, recv E (fuel + 2) 1500 a1 = (.ok (m', src), a2)) ∧ a2.log = a1.log ++ [.wait t, .send d' r.bytes true] ∧
          AckPkt (a.s.seqNr + 1) b.s.seqNr b.s.receiverId r ∧ a2.s.sendWindow ≠ [] ∧
          ∀ r' src', AckPkt (b.s.seqNr + 1) a.s.seqNr a.s.receiverId r' → E.net (a.nNet + 1) = .dgram r'.bytes src' →
            ∃ a3 t', (∀ fuel, recv E (fuel + 2) 1500 a2 = (.ok ([], src'), a3)) ∧ a3.log = a2.log ++ [.wait t'] ∧ a3.nNet = a.nNet + 2 ∧
              a3.s.state = .connected ∧ a3.s.maxRetries = a.s.maxRetries ∧ a3.s.senderId = a.s.senderId ∧ a3.s.receiverId = a.s.receiverId ∧
              (a3.s.incoming = [] ∧ a3.s.pending = []) ∧ (a3.s.sendWindow = [] ∧ a3.s.unsent = [] ∧ a3.s.currWindow = 0) ∧ a3.s.lastAcked = a.s.seqNr ∧
              a3.s.seqNr = a.s.seqNr + 1 ∧ a3.s.ackNr = b.s.seqNr + 1 ∧ a3.s.lastDropped = b.s.seqNr := by
  have one : (1 : U16).toNat = 1 := rfl
  obtain ⟨p, a1, s1, s2, s3, s4, s5, _⟩ := sendTo_single (E := E) h hr hok hm1 hm2 hlead
  have hpc : Piece a.s.seqNr a.s.senderId m p := by
    obtain ⟨c, h1, h2⟩ := s2.pieces 0 p rfl
    cases h1
    simpa using h2
  have hwin : a1.s.sendWindow = [p] := by rw [s2.window]; rfl
  have hsize : a1.s.currWindow = BitVec.ofNat 32 p.len := by rw [s2.size]; simp [totalSize, Packet.len]
  have hacked : a1.s.lastAcked = a.s.lastAcked := by simpa using s2.acked
  have htr : 0 < a1.s.maxRetries.toNat := by
    rw [s2.tries]
    have : a.s.maxRetries.toNat ≠ 0 := fun e => h.aTries (BitVec.eq_of_toNat_eq e)
    omega
  refine ⟨p, a1, _, s1, by rw [← h.toB]; exact hpc, s3, by rw [hwin]; simp, fun m' q src hq hn => ?_⟩
  obtain ⟨d, hx⟩ : ∃ d, Expects a1.s d b.s.seqNr [] := by
    rcases s2.takes hr'.next with ⟨h1, h2⟩ | ⟨h1, h2⟩
    · refine ⟨true, s2.state, htr, s2.quiet.2, fun _ => s2.quiet.1, fun _ => ?_, fun h => absurd rfl h⟩
      rw [if_pos rfl]
      rw [← h1] at h2 ⊢
      constructor <;> bv_omega
    · exact ⟨false, s2.state, htr, s2.quiet.2, fun _ => s2.quiet.1, fun _ => by simpa using ⟨h1, h2⟩, fun h => absurd rfl h⟩
  have hdec : Packet.tryFrom (q.bytes.take 1520) = some (.ok q) := by
    rw [List.take_of_length_le (by rw [hq.len]; have := hq.bound; omega)]
    exact hq.plain.accepted
  obtain ⟨a2, r1, r2, r3, r4, ⟨t, d', r, r5, r6, r7, r8, r9, r10⟩, r11⟩ := recv_one (p := q) (c := m') hx ⟨hq.plain.ty, hq.seq, hq.payload, .inr (by rw [hq.id, s2.rid])⟩
    (by rw [s2.net]; exact hn) hdec (hok _) 1500
  have hb := hq.bound
  rw [List.take_of_length_le (by omega : m'.length ≤ 1500)] at r1
  rw [List.drop_eq_nil_of_le (by omega : m'.length ≤ 1500)] at r2
  have hf := r2.fresh rfl
  rw [if_pos rfl] at hf
  have hback : b.s.seqNr + 1 - 1 = b.s.seqNr := by bv_omega
  rw [hback] at hf
  refine ⟨a2, t, d', r, r1, r5, ⟨r6, r7, r8, by rw [r9, s2.sid, h.toB], by rw [r10, s5]⟩, by rw [r11.sendWindow, hwin]; simp, fun r' src' hr' hn' => ?_⟩
  have hrid : a2.s.receiverId = a.s.receiverId := by rw [r3.2, s2.rid]
  obtain ⟨a3, k1, k2, ⟨t', k3⟩, k4, k5, k6, k7, k8, k9, k10, k11, k12, k13, k14, k15⟩ := recv_last_ack (E := E) (w := a2) (p := p) (r := r') (src := src') (q := b.s.seqNr + 1)
    (k := a.s.seqNr) r2.state (by rw [r11.maxRetries]; exact htr) ⟨r2.empty rfl, r2.pending⟩ (by rw [r11.sendWindow]; exact hwin) hpc.seq
    (by show p.bytes.length ≤ _; rw [hpc.len]; omega) (by rw [r11.currWindow]; exact hsize) (by rw [r11.lastAcked, hacked]; exact hr.acked) (by rw [hf.1]) (by rw [hrid]; exact hr')
    (by rw [r4, s2.net]; exact hn')
  refine ⟨a3, t', fun f => k1 f _, k3, by rw [k2, r4, s2.net], k4, by rw [k5, r11.maxRetries, s2.tries], by rw [k6, r3.1, s2.sid], by rw [k7, hrid], k8,
    ⟨k9, by rw [k10, r11.unsent, s4], k11⟩, k12, by rw [k13, r11.seqNr, s5], k14, by rw [k15, hf.2]⟩

/-- `flush` while a packet is outstanding receives. -/
theorem flush_on {fuel : Nat} {w w' : World} {x : Bytes × Addr} (hw : w.s.sendWindow ≠ []) (hrec : ∀ f, recv E (f + 2) 1500 w = (.ok x, w')) (n : Nat) :
    whileM (n + 1) (do let s ← getS; return decide (s.sendWindow ≠ [])) (scratchRecv E (fuel + 2)) w =
      whileM n (do let s ← getS; return decide (s.sendWindow ≠ [])) (scratchRecv E (fuel + 2)) w' := by
  rw [whileM]
  have e : scratchRecv E (fuel + 2) w = (.ok (), w') := by
    unfold scratchRecv
    rw [bind_def, show BUF_SIZE = 1500 from rfl, andThen_eq (hrec fuel)]
    rfl
  rw [andThen_eq (a := true) (w' := w) (by msimp; simp [hw])]
  rw [if_pos rfl, andThen_eq e]

theorem flush_off {fuel n : Nat} {w : World} (hw : w.s.sendWindow = []) :
    whileM (n + 1) (do let s ← getS; return decide (s.sendWindow ≠ [])) (scratchRecv E fuel) w = (.ok (), w) := by
  rw [whileM, andThen_eq (a := false) (w' := w) (by msimp; simp [hw])]
  rfl

theorem log_andThen_ret {m : M Unit} {w : World} : (andThen m (fun _ => ret ()) w).2.log = (m w).2.log := by
  unfold andThen
  rcases m w with ⟨_ | _ | _ | _, w'⟩ <;> rfl

theorem transfer_one {m : Bytes} {a a1 : World} {n fuel : Nat} (h : sendTo E fuel m a = (.ok n, a1)) :
    transfer E fuel [[m]] a = andThen (flush E fuel) (fun _ => ret ()) a1 := by
  unfold transfer sendAll
  have : andThen (sendTo E fuel m) (fun _ => sendAll E fuel []) a = (.ok (), a1) := by rw [andThen_eq h]; rfl
  rw [andThen_eq this]
  rfl

section
variable {A B : Env} {a b : World} {m1 m2 : Bytes}

/-- **C105.**  Both ends of an open connection send a message, each in one packet, and flush; the network loses nothing.  Both flushes succeed, after each end has
received and acknowledged the message of the other; and neither message can be read any more: it has been taken from the network and is not in any buffer. -/
theorem C105_lost (h : Linked a b) (hr : Ready a.s b.s) (hr' : Ready b.s a.s) (hA : ∀ n, A.snd n = .ok) (hB : ∀ n, B.snd n = .ok)
    (hm1 : 0 < m1.length ∧ m1.length ≤ 1380) (hm2 : 0 < m2.length ∧ m2.length ≤ 1380) (hla : a.s.lead ≤ 32768) (hlb : b.s.lead ≤ 32768)
    (ha : Arrives (fun fuel => transfer A fuel [[m1]]) a B b) (hb : Arrives (fun fuel => transfer B fuel [[m2]]) b A a) :
    ∃ a' b', (∀ fuel, 3 ≤ fuel → transfer A fuel [[m1]] a = (.ok (), a') ∧ transfer B fuel [[m2]] b = (.ok (), b')) ∧
      Linked a' b' ∧ Ready a'.s b'.s ∧ Ready b'.s a'.s ∧ a'.s.lead = 1 ∧ b'.s.lead = 1 ∧
      (a'.nNet = a.nNet + 2 ∧ (datagramsOf (a'.log.drop a.log.length)).length = 2) ∧
      (b'.nNet = b.nNet + 2 ∧ (datagramsOf (b'.log.drop b.log.length)).length = 2) := by
  have one : (1 : U16).toNat = 1 := rfl
  obtain ⟨p, a1, d, x1, x2, x3, x4, x5⟩ := cross_half (E := A) h hr hr' hA hm1.1 hm1.2 hla
  obtain ⟨q, b1, e, y1, y2, y3, y4, y5⟩ := cross_half (E := B) (Linked.symm h) hr' hr hB hm2.1 hm2.2 hlb
  -- the messages arrive
  have gA : ∀ f, Grows (andThen (flush A f) (fun _ => ret ())) := fun f => .andThen (grows_flush f) fun _ => .ret
  have gB : ∀ f, Grows (andThen (flush B f) (fun _ => ret ())) := fun f => .andThen (grows_flush f) fun _ => .ret
  obtain ⟨src, hp⟩ : ∃ src, B.net b.nNet = .dgram p.bytes src := by
    obtain ⟨t, ht⟩ := gA 2 a1
    refine ha 2 0 p.bytes ?_
    show (datagramsOf ((transfer A 2 [[m1]] a).2.log.drop _))[0]? = _
    rw [transfer_one (x1 0), ← ht, x3, List.append_assoc, List.drop_left]
    rfl
  obtain ⟨src', hq⟩ : ∃ src, A.net a.nNet = .dgram q.bytes src := by
    obtain ⟨t, ht⟩ := gB 2 b1
    refine hb 2 0 q.bytes ?_
    show (datagramsOf ((transfer B 2 [[m2]] b).2.log.drop _))[0]? = _
    rw [transfer_one (y1 0), ← ht, y3, List.append_assoc, List.drop_left]
    rfl
  obtain ⟨a2, t1, d1, r, u1, u2, u3, u4, u5⟩ := x5 m2 q src' y2 hq
  obtain ⟨b2, t2, d2, r', v1, v2, v3, v4, v5⟩ := y5 m1 p src x2 hp
  -- the acknowledgements arrive
  obtain ⟨src1, hr1⟩ : ∃ src, B.net (b.nNet + 1) = .dgram r.bytes src := by
    obtain ⟨t, ht⟩ := (Grows.whileM (c := do let s ← getS; return decide (s.sendWindow ≠ [])) (.bind .getS fun _ => .ret) (.bind (grows_recv 2 BUF_SIZE) fun _ => .ret) 1 : Grows (whileM 1 _ (scratchRecv A 2))) a2
    refine ha 2 1 r.bytes ?_
    show (datagramsOf ((transfer A 2 [[m1]] a).2.log.drop _))[1]? = _
    have hfl : (andThen (flush A 2) (fun _ => ret ()) a1).2.log = a2.log ++ t := by
      have : flush A 2 a1 = whileM 1 (do let s ← getS; return decide (s.sendWindow ≠ [])) (scratchRecv A 2) a2 := flush_on (fuel := 0) x4 u1 1
      rw [log_andThen_ret, this]; exact ht.symm
    rw [transfer_one (x1 0), hfl, u2, x3, List.append_assoc, List.append_assoc, List.drop_left]
    rfl
  obtain ⟨src2, hr2⟩ : ∃ src, A.net (a.nNet + 1) = .dgram r'.bytes src := by
    obtain ⟨t, ht⟩ := (Grows.whileM (c := do let s ← getS; return decide (s.sendWindow ≠ [])) (.bind .getS fun _ => .ret) (.bind (grows_recv 2 BUF_SIZE) fun _ => .ret) 1 : Grows (whileM 1 _ (scratchRecv B 2))) b2
    refine hb 2 1 r'.bytes ?_
    show (datagramsOf ((transfer B 2 [[m2]] b).2.log.drop _))[1]? = _
    have hfl : (andThen (flush B 2) (fun _ => ret ()) b1).2.log = b2.log ++ t := by
      have : flush B 2 b1 = whileM 1 (do let s ← getS; return decide (s.sendWindow ≠ [])) (scratchRecv B 2) b2 := flush_on (fuel := 0) y4 v1 1
      rw [log_andThen_ret, this]; exact ht.symm
    rw [transfer_one (y1 0), hfl, v2, y3, List.append_assoc, List.append_assoc, List.drop_left]
    rfl
  obtain ⟨a3, t3, f1, f2, f3, f4, f5, f6, f7, f8, f9, f10, f11, f12, f13⟩ := u5 r' src2 v3 hr2
  obtain ⟨b3, t4, g1, g2, g3, g4, g5, g6, g7, g8, g9, g10, g11, g12, g13⟩ := v5 r src1 u3 hr1
  have lone : ∀ k : U16, (k + 1 - k).toNat = 1 := fun k => by bv_omega
  have lne : ∀ k : U16, k ≠ k + 1 := fun k h => by bv_omega
  refine ⟨a3, b3, fun fuel hf => ⟨?_, ?_⟩, ⟨f4, g4, ?_, ?_, ?_, ?_, f8, g8⟩, ⟨f9, ?_, .inr ⟨?_, ?_⟩⟩, ⟨g9, ?_, .inr ⟨?_, ?_⟩⟩, ?_, ?_, ⟨f3, ?_⟩, g3, ?_⟩
  · obtain ⟨n, rfl⟩ : ∃ n, fuel = n + 3 := ⟨fuel - 3, by omega⟩
    have : flush A (n + 3) a1 = (.ok (), a3) := by
      unfold flush
      rw [show n + 3 = (n + 1) + 2 from rfl, flush_on (fuel := n + 1) x4 u1, flush_on (fuel := n + 1) u4 f1, flush_off f9.1]
    rw [transfer_one (x1 (n + 1)), andThen_eq this]
    rfl
  · obtain ⟨n, rfl⟩ : ∃ n, fuel = n + 3 := ⟨fuel - 3, by omega⟩
    have : flush B (n + 3) b1 = (.ok (), b3) := by
      unfold flush
      rw [show n + 3 = (n + 1) + 2 from rfl, flush_on (fuel := n + 1) y4 v1, flush_on (fuel := n + 1) v4 g1, flush_off g9.1]
    rw [transfer_one (y1 (n + 1)), andThen_eq this]
    rfl
  · rw [f5]; exact h.aTries
  · rw [g5]; exact h.bTries
  · rw [f6, g7]; exact h.toB
  · rw [g6, f7]; exact h.toA
  · rw [f10, f11]; exact lne _
  · rw [g12, f11]
  · rw [g13, f11]; exact lne _
  · rw [g10, g11]; exact lne _
  · rw [f12, g11]
  · rw [f13, g11]; exact lne _
  · unfold Socket.lead; rw [f10, f11]; exact lone _
  · unfold Socket.lead; rw [g10, g11]; exact lone _
  · rw [f2, u2, x3, List.append_assoc, List.append_assoc, List.drop_left]; rfl
  · rw [g2, v2, y3, List.append_assoc, List.append_assoc, List.drop_left]; rfl

/-- **C105.**  And the loss is not noticed: what is sent next is delivered, as if the lost messages had never been sent. -/
theorem C105_silent (h : Linked a b) (hr : Ready a.s b.s) (hr' : Ready b.s a.s) (hA : ∀ n, A.snd n = .ok) (hB : ∀ n, B.snd n = .ok)
    (hm1 : 0 < m1.length ∧ m1.length ≤ 1380) (hm2 : 0 < m2.length ∧ m2.length ≤ 1380) (hla : a.s.lead ≤ 32768) (hlb : b.s.lead ≤ 32768)
    (ha : Arrives (fun fuel => transfer A fuel [[m1]]) a B b) (hb : Arrives (fun fuel => transfer B fuel [[m2]]) b A a) :
    ∃ a' b', (∀ fuel, 3 ≤ fuel → transfer A fuel [[m1]] a = (.ok (), a') ∧ transfer B fuel [[m2]] b = (.ok (), b')) ∧
      ∀ (batches : List (List Bytes)) (len : Nat), (∀ bs ∈ batches, (bs.map packetsOf).sum ≤ 32768) → 0 < len → Arrives (fun fuel => transfer A fuel batches) a' B b' →
        Arrives (fun fuel => readUntil B len batches.flatten.flatten.length fuel) b' A a' → ∃ a'' b'', Delivered A B a' b' batches len a'' b'' := by
  obtain ⟨a', b', h1, h2, h3, _, h5, _⟩ := C105_lost h hr hr' hA hB hm1 hm2 hla hlb ha hb
  refine ⟨a', b', h1, fun batches len hf hl k1 k2 => ?_⟩
  obtain ⟨a'', b'', k, _⟩ := C67_transfer_partial h2 h3 hA hB (fun bs hbs => by have := hf bs hbs; rw [h5]; omega) hl k1 k2
  exact ⟨a'', b'', k⟩

end

namespace Sample

/-- The answer to the SYN, then the message of the peer and its acknowledgement of ours. -/
def meetA : List NetEvent := [arr (dg .state 7 100 1 [] 0), arr (dg .data 7 100 1 [9] 0), arr (dg .state 7 101 2), arr (dg .state 7 101 3)]
/-- The message of the peer and its acknowledgement of ours; then the next message. -/
def meetB : List NetEvent := [arr (dg .data 8 2 100 [1, 2] 0), arr (dg .state 8 3 100), arr (dg .data 8 3 101 [5] 0)]

theorem meet_links : Linked (client (senv meetA [])) (readerStart meetB []) ∧ Ready (client (senv meetA [])).s (readerStart meetB []).s ∧
    Ready (readerStart meetB []).s (client (senv meetA [])).s :=
  ⟨⟨by decide +kernel, by decide +kernel, by decide +kernel, by decide +kernel, by decide +kernel, by decide +kernel, by decide +kernel, by decide +kernel⟩,
    ⟨by decide +kernel, by decide +kernel, by decide +kernel⟩, ⟨by decide +kernel, by decide +kernel, by decide +kernel⟩⟩

theorem meet_arrives : Arrives (fun fuel => transfer (senv meetA []) fuel [[[1, 2]]]) (client (senv meetA [])) (senv meetB []) (readerStart meetB []) ∧
    Arrives (fun fuel => transfer (senv meetB []) fuel [[[9]]]) (readerStart meetB []) (senv meetA []) (client (senv meetA [])) := by
  have h1 : ((fun fuel => transfer (senv meetA []) fuel [[[1, 2]]]) 5 (client (senv meetA []))).1 ≠ .pending := by decide +kernel
  have h2 : ((fun fuel => transfer (senv meetB []) fuel [[[9]]]) 5 (readerStart meetB [])).1 ≠ .pending := by decide +kernel
  exact ⟨arrives_of 5 (fun f h => le_transfer h _) h1 (by decide +kernel), arrives_of 5 (fun f h => le_transfer h _) h2 (by decide +kernel)⟩

/-- The messages `[1, 2]` and `[9]` cross, and the message `[5]`, sent later, is the first that is read. -/
example : ∃ a' b' a'' b'', (∀ fuel, 3 ≤ fuel → transfer (senv meetA []) fuel [[[1, 2]]] (client (senv meetA [])) = (.ok (), a') ∧
    transfer (senv meetB []) fuel [[[9]]] (readerStart meetB []) = (.ok (), b')) ∧ Delivered (senv meetA []) (senv meetB []) a' b' [[[5]]] 10 a'' b'' := by
  have hla : (client (senv meetA [])).s.lead ≤ 32768 := by decide +kernel
  have hlb : (readerStart meetB []).s.lead ≤ 32768 := by decide +kernel
  obtain ⟨a', b', h1, h2⟩ := C105_silent meet_links.1 meet_links.2.1 meet_links.2.2 (fun n => by simp [senv, env]) (fun n => by simp [senv, env]) (by decide) (by decide) hla hlb
    meet_arrives.1 meet_arrives.2
  have e1 : a' = (transfer (senv meetA []) 5 [[[1, 2]]] (client (senv meetA []))).2 := (congrArg Prod.snd (h1 5 (by omega)).1).symm
  have e2 : b' = (transfer (senv meetB []) 5 [[[9]]] (readerStart meetB [])).2 := (congrArg Prod.snd (h1 5 (by omega)).2).symm
  have k1 : Arrives (fun fuel => transfer (senv meetA []) fuel [[[5]]]) a' (senv meetB []) b' := by
    rw [e1, e2]
    exact arrives_of 5 (fun f h => le_transfer h _) (by decide +kernel) (by decide +kernel)
  have k2 : Arrives (fun fuel => readUntil (senv meetB []) 10 1 fuel) b' (senv meetA []) a' := by
    rw [e1, e2]
    exact arrives_of 5 (fun f h => le_readLoop h _ h) (by decide +kernel) (by decide +kernel)
  obtain ⟨a'', b'', h3⟩ := h2 [[[5]]] 10 (by decide) (by omega) k1 k2
  exact ⟨a', b', a'', b'', h1, h3⟩

end Sample

end Utp
