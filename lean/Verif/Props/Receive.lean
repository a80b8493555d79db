import Verif.Lemmas.Buffer
import Verif.Props.State
import Verif.Props.Safety
import Verif.Samples
/-!
# Receiving: C26-C32
-/

namespace Utp
open M

variable {E : Env}

/-! ### C26 -/

/-- Reading with a buffer of `len` bytes, when some bytes of a packet can be read, returns the next `len` bytes of this
packet (or its rest), without touching the network; what remains of the packet is read next, and nothing else that is
deliverable changes. -/
theorem C26_read {w : World} (hf : w.s.front ≠ []) (hc : E.checks = true → w.s.pending = [] → w.s.ackNr ≠ 65535) (fuel : Nat) {len : Nat}
    (hl : 0 < len) :
    ∃ w', runOp E fuel (.recvFrom len) w = (.ok (.bytes (w.s.front.take len) w.s.connectedTo), w') ∧ OnlyBuffers w w' ∧
      w.s.front.take len ++ w'.s.deliverable = w.s.deliverable ∧
      (len < w.s.front.length → w'.s.pending = w.s.front.drop len) := by
  have key : ∃ w', flushIncoming E len w = (.ok (w.s.front.take len), w') ∧
      (len < w.s.front.length → w'.s.pending = w.s.front.drop len) := by
    unfold Socket.front at hf ⊢
    by_cases h : w.s.pending = []
    · rw [if_pos h] at hf ⊢
      rcases hi : w.s.incoming with _ | ⟨p, rest⟩
      · rw [hi] at hf; simp at hf
      · rw [hi] at hf
        simp only at hf ⊢
        by_cases ha : w.s.ackNr = p.seqNr ∨ w.s.ackNr + 1 = p.seqNr
        · rw [if_pos ha] at hf ⊢
          rcases hp : p.payload with _ | pl
          · rw [hp] at hf; simp at hf
          · unfold flushIncoming overflowIf
            msimp
            rw [if_neg (by simp [h]), hi]
            simp only
            msimp
            rw [if_neg, if_pos ha, hp]
            · msimp
              refine ⟨_, rfl, ?_⟩
              intro hlt
              simp only [Option.getD_some] at hlt
              show (w.s.takeHead pl len).pending = _
              unfold Socket.takeHead
              rw [if_neg (by simp; omega)]
              rfl
            · simp only [Bool.and_eq_true, decide_eq_true_eq, not_and]
              intro h1 h2 h3
              exact hc h1 h h3
        · rw [if_neg ha] at hf; simp at hf
    · rw [if_neg h]
      unfold flushIncoming
      msimp
      rw [if_pos h, (takePending_spec w.s len h).2.1]
      refine ⟨_, rfl, ?_⟩
      intro hlt
      show (w.s.takePending len).2.pending = _
      unfold Socket.takePending
      simp only
      rw [if_neg (by simp; omega)]
  obtain ⟨w', h1, h2⟩ := key
  have hsp := flushIncoming_spec (E := E) len w (by rw [h1]; simp)
  obtain ⟨out, w'', g1, g2, _, g4, _⟩ := hsp
  rw [h1] at g1
  simp only [Prod.mk.injEq, Res.ok.injEq] at g1
  obtain ⟨rfl, rfl⟩ := g1
  refine ⟨w', ?_, g4, g2, h2⟩
  show M.andThen (recvFrom E fuel len) _ w = _
  unfold recvFrom
  rw [bind_def, andThen_assoc, andThen_eq h1]
  msimp
  rw [if_pos]
  · obtain ⟨_, _, _, _, e, _⟩ := g4
    rw [e]; rfl
  · rw [ne_eq, List.take_eq_nil_iff]
    simp only [not_or]
    exact ⟨by omega, hf⟩

/-- A packet read with any sequence of non-empty buffers, until its last byte is read, is returned cut at the sizes of
these buffers. -/
theorem C26_split (fuel : Nat) : ∀ (lens : List Nat) {w : World}, w.s.front ≠ [] →
    (E.checks = true → w.s.pending = [] → w.s.ackNr ≠ 65535) →
    (∀ l ∈ lens, 0 < l) → lens.dropLast.sum < w.s.front.length →
    results E fuel (lens.map .recvFrom) w = (cuts lens w.s.front).map fun b => .ok (.bytes b w.s.connectedTo)
  | [], _, _, _, _, _ => rfl
  | len :: rest, w, hf, hc, hp, hs => by
    obtain ⟨w', h1, h2, _, h4⟩ := C26_read hf hc fuel (hp len (by simp))
    simp only [List.map_cons, results, cuts, h1, List.cons.injEq, true_and]
    cases rest with
    | nil => rfl
    | cons l2 r2 =>
      simp only [List.dropLast_cons_cons, List.sum_cons] at hs
      have hlt : len < w.s.front.length := by omega
      have hpend := h4 hlt
      have hne : w'.s.pending ≠ [] := by
        rw [hpend, ne_eq, List.drop_eq_nil_iff]; omega
      have hfr : w'.s.front = w.s.front.drop len := by
        rw [Socket.front, if_neg hne, hpend]
      have := C26_split fuel (l2 :: r2) (w := w') (by rw [hfr]; exact hpend ▸ hne) (fun _ h => absurd h hne)
        (fun l hl => hp l (List.mem_cons_of_mem _ hl)) (by rw [hfr]; simp only [List.length_drop]; omega)
      rw [this, hfr]
      obtain ⟨_, _, _, _, e, _⟩ := h2
      rw [e]; rfl

/-- If something is deliverable then a packet can be read. -/
theorem front_ne {s : Socket} (hv : ∀ p ∈ s.incoming, ValidData p) (hn : s.NoEmpty) (h : s.deliverable ≠ []) : s.front ≠ [] := by
  unfold Socket.front Socket.deliverable at *
  by_cases hp : s.pending = []
  · rw [if_pos hp] at h ⊢
    rcases hi : s.incoming with _ | ⟨p, rest⟩
    · rw [hi] at h; simp [readable] at h
    · rw [hi] at h
      simp only [readable] at h ⊢
      by_cases ha : s.ackNr = p.seqNr ∨ s.ackNr + 1 = p.seqNr
      · rw [if_pos ha]
        obtain ⟨pl, hpl⟩ := (hv p (by simp [hi])).payload
        have := hn p (by simp [hi])
        rw [hpl] at this ⊢
        simpa using this
      · rw [if_neg ha] at h; simp at h
  · rw [if_neg hp]
    exact hp

/-- Successive reads while something is deliverable return non-empty pieces that, with what is then still
deliverable, are exactly what was deliverable: nothing is lost, repeated or reordered.  The network is not touched. -/
theorem C26_all (hc : E.checks = false) {w0 : World} (hw : Reach E w0) (hn : w0.s.NoEmpty) (fuel : Nat) (lens : List Nat)
    (hl : ∀ l ∈ lens, 0 < l)
    (hd : ∀ i < lens.length, (runs E fuel ((lens.take i).map .recvFrom) w0).s.deliverable ≠ []) :
    ∃ outs : List Bytes, results E fuel (lens.map .recvFrom) w0 = outs.map (fun b => .ok (.bytes b w0.s.connectedTo)) ∧
      (∀ b ∈ outs, b ≠ []) ∧
      outs.flatten ++ (runs E fuel (lens.map .recvFrom) w0).s.deliverable = w0.s.deliverable ∧
      OnlyBuffers w0 (runs E fuel (lens.map .recvFrom) w0) := by
  have hv := (reach_any hw).inc
  clear hw
  induction lens generalizing w0 with
  | nil => exact ⟨[], rfl, by simp, rfl, .refl _⟩
  | cons len rest ih =>
    have hd0 := hd 0 (by simp)
    have hf := front_ne hv hn hd0
    obtain ⟨w', h1, h2, h3, _⟩ := C26_read (E := E) hf (by simp [hc]) fuel (hl len (by simp))
    have hw' : runs E fuel ((len :: rest).map .recvFrom) w0 = runs E fuel (rest.map .recvFrom) w' := by
      simp only [List.map_cons, runs, h1]
    obtain ⟨inc, pend, ack, ld, e, hsub⟩ := h2
    have ei : w'.s.incoming = inc := by rw [e]; rfl
    have ec : w'.s.connectedTo = w0.s.connectedTo := by rw [e]; rfl
    obtain ⟨outs, g1, g2, g3, g4⟩ := ih (w0 := w') (fun p hp => hn p (hsub p (ei ▸ hp)))
      (fun l hl' => hl l (List.mem_cons_of_mem _ hl')) (by
        intro i hi
        have := hd (i + 1) (by simp; omega)
        simpa only [List.take_succ_cons, List.map_cons, runs, h1] using this) (fun p hp => hv p (hsub p (ei ▸ hp)))
    refine ⟨w0.s.front.take len :: outs, ?_, ?_, ?_, ?_⟩
    · simp only [List.map_cons, results, h1, g1, ec]
    · intro b hb
      rcases List.mem_cons.mp hb with rfl | hb
      · rw [ne_eq, List.take_eq_nil_iff]
        simp only [not_or]
        have := hl len (by simp)
        exact ⟨by omega, hf⟩
      · exact g2 b hb
    · rw [hw', List.flatten_cons, List.append_assoc, g3, h3]
    · rw [hw']
      obtain ⟨inc', pend', ack', ld', e', hsub'⟩ := g4
      exact ⟨inc', pend', ack', ld', by rw [e', e]; rfl, fun p hp => hsub p (ei ▸ hsub' p hp)⟩

section
open Sample

/-- Packet 3 arrives before packet 2, which is read in two pieces. -/
def smallReads : Env := env [arr (dg .data 6 3 100 [6, 7, 8]), arr (dg .data 6 2 100 [1, 2, 3, 4, 5])]

example : let w := runs smallReads 10 [.recvFrom 2] (server smallReads)
    Reach smallReads w ∧ w.s.NoEmpty ∧ w.s.front = [3, 4, 5] ∧ w.s.deliverable = [3, 4, 5, 6, 7, 8] ∧
    results smallReads 10 [.recvFrom 1, .recvFrom 1, .recvFrom 9, .recvFrom 2, .recvFrom 2] w =
      ([[3], [4], [5], [6, 7], [8]] : List Bytes).map (fun b => .ok (.bytes b peer)) :=
  ⟨reach_server _ _ (by decide +kernel) (by decide +kernel), by unfold Socket.NoEmpty; decide +kernel, by decide +kernel⟩

end

/-! ### C32 -/

/-- A datagram that is not a valid packet, received by any socket: the receive returns no bytes, nothing is sent and the
socket is as before, so `recv_from` carries on waiting as if the datagram had not come. -/
theorem C32_ignored {w : World} {b : Bytes} {src : Addr} (hn : E.net w.nNet = .dgram b src) (hb : ¬ Spec.IsDatagram (b.take 1520))
    (hr : 0 < w.s.maxRetries.toNat) :
    ∃ w1, w1.s = w.s ∧ (∃ t, w1.log = w.log ++ [.wait t]) ∧ w1.nNet = w.nNet + 1 ∧ w1.nNow = w.nNow ∧ w1.nSnd = w.nSnd ∧
      w1.nRand = w.nRand ∧
      ∀ fuel len, recv E (fuel + 2) len w = (.ok ([], w.s.connectedTo), w1) ∧
        (w.s.state ≠ .closed → ∀ n, recvFromLoop E (fuel + 2) len (n + 1) w = recvFromLoop E (fuel + 2) len n w1) := by
  have hp : ∃ e, Packet.tryFrom (b.take 1520) = some (.error e) := by
    rcases C01_decides (b.take 1520) with ⟨p, h⟩ | ⟨e, h⟩
    · exact absurd ((C01_accept_iff _).mp ⟨p, h⟩) hb
    · exact ⟨e, h⟩
  obtain ⟨e, hp⟩ := hp
  refine ⟨w.waited w.s.patience, rfl, ⟨_, rfl⟩, rfl, rfl, rfl, rfl, fun fuel len => ?_⟩
  have := recv_bad (len := len) (fuel := fuel) hn hr hp
  exact ⟨this, fun hs n => recvFromLoop_again hs this⟩

section
open Sample

/-- An empty datagram, one with a bad version and one with a bad extension, then data. -/
def garbage : Env := env [arr [], arr (0x02 :: List.replicate 19 0), arr (0x01 :: 1 :: List.replicate 18 0), arr (dg .data 6 2 100 [9])]

example : ¬ Spec.IsDatagram ([] : Bytes) := by
  rintro ⟨d, h1, h2⟩
  have := congrArg List.length h2
  simp [Spec.Datagram.bytes, h1.headerLen] at this
  omega

example : results garbage 10 [.recvFrom 9] (server garbage) = [.ok (.bytes [9] peer)] ∧
    (sent (runs garbage 10 [.recvFrom 9] (server garbage))).length = 2 := by decide +kernel

end

/-! ### C29 -/

/-- What happens to a packet that is neither a SYN nor data, not of this connection, and whose number is not the next one. -/
theorem recv_stray {w : World} (hfl : ∀ v : World, v.s = w.s → ∀ len, flushIncoming E len v = (.ok [], v))
    {b : Bytes} {src : Addr} {pkt : Packet} {ty : PacketType} (hn : E.net w.nNet = .dgram b src)
    (hp : Packet.tryFrom (b.take 1520) = some (.ok pkt)) (ht : pkt.getType = some ty) (h1 : ty ≠ .syn) (h2 : ty ≠ .data)
    (hs : w.s.state ≠ .synSent) (hid : pkt.connectionId ≠ w.s.senderId) (hid' : pkt.connectionId ≠ w.s.receiverId)
    (hseq : pkt.seqNr ≠ w.s.ackNr + 1) (hr : 0 < w.s.maxRetries.toNat) (hok : E.snd w.nSnd = .ok) :
    ∃ w1 t, ∃ reply : Packet, reply = (w.s.prepareReply (E.now w.nNow) pkt .reset).setWndSize WINDOW_SIZE ∧ w1.s = w.s ∧ w1.log = w.log ++ [.wait t, .send src reply.bytes true] ∧ IsControl w.s .reset reply.bytes ∧
      w1.nNet = w.nNet + 1 ∧ w1.nSnd = w.nSnd + 1 ∧
      ∀ fuel len, recv E (fuel + 2) len w = (.ok ([], src), w1) ∧
        (w.s.state ≠ .closed → ∀ n, recvFromLoop E (fuel + 2) len (n + 1) w = recvFromLoop E (fuel + 2) len n w1) := by
  have hnt : ¬ (w.waited w.s.patience).s.takes pkt ty := by
    rintro (h | h | h | h)
    · exact h1 h
    · exact hs h
    · exact hid h
    · exact hid' h
  have hbump : (w.waited w.s.patience).s.bumpAck pkt = w.s := bumpAck_of_ne (s := w.s) hseq
  obtain ⟨v, hvdef⟩ : ∃ v, v = { (w.waited w.s.patience) with nNow := w.nNow + 1 } := ⟨_, rfl⟩
  have hvs : v.s = w.s := by rw [hvdef]; rfl
  have hret : ∀ fuel len, recv E (fuel + 2) len w =
      (.ok ([], src), v.answered src (w.s.prepareReply (E.now w.nNow) pkt .reset)) := by
    intro fuel len
    have hf := handlePacket_foreign ht hnt (E := E) (fuel + 1) (recv E (fuel + 1) BUF_SIZE) src
    rw [hbump] at hf
    have hf' : handlePacket E (fuel + 1) (recv E (fuel + 1) BUF_SIZE) pkt src (w.waited w.s.patience) =
      (.ok (some (w.s.prepareReply (E.now w.nNow) pkt .reset)), v) := by rw [hf, hvdef]; rfl
    rw [recv_dgram hn hr hp, recvPacket_eq hf' (sendReply_some (by rw [hvdef]; exact hok) src _) ht]
    have hk : v.s.keep ty pkt = v.s := by unfold Socket.keep; rw [if_neg (by simp [h2])]
    have he : (v.answered src (w.s.prepareReply (E.now w.nNow) pkt .reset)).setS
        ((v.answered src (w.s.prepareReply (E.now w.nNow) pkt .reset)).s.keep ty pkt) =
        v.answered src (w.s.prepareReply (E.now w.nNow) pkt .reset) := by
      show (v.answered src (w.s.prepareReply (E.now w.nNow) pkt .reset)).setS (v.s.keep ty pkt) = _
      rw [hk]; rfl
    rw [he, andThen_eq (hfl (v.answered src (w.s.prepareReply (E.now w.nNow) pkt .reset)) hvs len)]
    rfl
  refine ⟨v.answered src (w.s.prepareReply (E.now w.nNow) pkt .reset), w.s.patience,
    (w.s.prepareReply (E.now w.nNow) pkt .reset).setWndSize WINDOW_SIZE, rfl, hvs, ?_, ?_, ?_, ?_, fun fuel len => ⟨hret fuel len, fun hs' n =>
      recvFromLoop_again hs' (hret fuel len)⟩⟩
  · rw [hvdef]; simp [World.answered, World.waited]
  · obtain ⟨f1, f2, f3, _⟩ := prepareReply_facts w.s (E.now w.nNow) pkt .reset
    exact ⟨⟨_, ((prepareReply_plain ..).setWndSize _).accepted, by rw [setWndSize_getType]; exact (prepareReply_plain ..).ty, by rw [setWndSize_seqNr, f1],
      by rw [setWndSize_ackNr, f2], by rw [setWndSize_connectionId, f3]⟩, by rw [setWndSize_length]; exact (prepareReply_bytes ..).1⟩
  · rw [hvdef]; rfl
  · rw [hvdef]; rfl

/-- A packet that is neither a SYN nor data, not of this connection, and whose number is not the next one: it is answered
with a Reset of this connection to its sender, the socket is as before, and `recv_from` carries on waiting.  (Missing for C29: data packets and packets
with the next number, see the counterexamples.) -/
theorem C29_partial {w : World} (hw : Reach E w) (hd : w.s.deliverable = []) (hne : w.s.NoEmpty)
    (hq : E.checks = true → w.s.ackNr ≠ 65535)
    {b : Bytes} {src : Addr} {pkt : Packet} {ty : PacketType} (hn : E.net w.nNet = .dgram b src)
    (hp : Packet.tryFrom (b.take 1520) = some (.ok pkt)) (ht : pkt.getType = some ty) (h1 : ty ≠ .syn) (h2 : ty ≠ .data)
    (hs : w.s.state ≠ .synSent) (hid : pkt.connectionId ≠ w.s.senderId) (hid' : pkt.connectionId ≠ w.s.receiverId)
    (hseq : pkt.seqNr ≠ w.s.ackNr + 1) (hr : 0 < w.s.maxRetries.toNat) (hok : E.snd w.nSnd = .ok) :
    ∃ w1 t, ∃ reply : Packet, w1.s = w.s ∧ w1.log = w.log ++ [.wait t, .send src reply.bytes true] ∧ IsControl w.s .reset reply.bytes ∧
      w1.nNet = w.nNet + 1 ∧
      ∀ fuel len, recv E (fuel + 2) len w = (.ok ([], src), w1) ∧
        (w.s.state ≠ .closed → ∀ n, recvFromLoop E (fuel + 2) len (n + 1) w = recvFromLoop E (fuel + 2) len n w1) := by
  obtain ⟨w1, t, reply, _, g1, g2, g3, g4, _, g5⟩ := recv_stray
    (fun v hv => flush_quiet (by rw [hv]; exact (reach_any hw).inc) (by rw [hv]; exact hd) (by rw [hv]; exact hne) (by rw [hv]; exact hq)) hn hp ht h1 h2 hs hid hid' hseq hr hok
  exact ⟨w1, t, reply, g1, g2, g3, g4, g5⟩

section
open Sample

/-- A State packet with a connection id that nobody uses. -/
def strayState : Env := env [.dgram (dg .state 77 9 100) other, arr (dg .data 6 2 100 [9])]

example : let w := server strayState
    Reach strayState w ∧ w.s.deliverable = [] ∧ w.s.ackNr = 1 ∧ w.s.senderId = 5 ∧ w.s.receiverId = 6 ∧
    results strayState 10 [.recvFrom 9] w = [.ok (.bytes [9] peer)] ∧
    (sent (runs strayState 10 [.recvFrom 9] w)).map (fun b => (Packet.mk b).getType) = [some .state, some .reset, some .state] :=
  ⟨reach_server 1 [] (by decide +kernel) (by decide +kernel), by decide +kernel⟩

/-- A data packet of another connection, from another host. -/
def strayData : Env := env [.dgram (dg .data 77 2 100 [66]) other, arr (dg .data 6 3 100 [3])]

/-- What is missing for C29: a data packet with a foreign connection identifier is answered with a Reset, but it is also
acknowledged and its bytes are returned by `recv_from`. -/
theorem C29_counterexample :
    results strayData 10 [.recvFrom 9, .recvFrom 9] (server strayData) = [.ok (.bytes [66] other), .ok (.bytes [3] peer)] ∧
    (runs strayData 10 [.recvFrom 9] (server strayData)).s.ackNr = 2 ∧
    (sent (runs strayData 10 [.recvFrom 9] (server strayData))).map (fun b => (Packet.mk b).getType) = [some .state, some .reset] := by
  decide +kernel

/-- A State packet of another connection with the next number; then the data packet after the missing one. -/
def strayNext : Env := env [.dgram (dg .state 77 2 100) other, arr (dg .data 6 3 100 [3])]

/-- And a packet without data but with the next number counts as that number having been received, so that the data after
it is returned although the data packet 2 never arrived. -/
theorem C29_counterexample_next :
    results strayNext 10 [.recvFrom 9] (server strayNext) = [.ok (.bytes [3] peer)] := by decide +kernel

end

/-! ### C28 -/

/-- In every reachable state the packets held for reordering have strictly increasing numbers and are valid data packets. -/
theorem C28_sorted {w : World} (hw : Reach E w) :
    w.s.incoming.Pairwise (fun a b => a.seqNr.toNat < b.seqNr.toNat) ∧
    ∀ p ∈ w.s.incoming, Spec.IsDatagram p.bytes ∧ p.getType = some .data := by
  constructor
  · refine reach_inv (I := fun w => Sorted w.s.incoming) ?_ (fun a b h _ => step_sorted h) hw
    intro w h
    cases h with
    | bound la src => exact .nil
    | connecting la a0 a st w h _ _ _ => rw [h]; exact .nil
    | accepted la src pkt ok n _ _ _ => exact .nil
  · intro p hp
    obtain ⟨⟨b, hb⟩, ht⟩ := (reach_any hw).inc p hp
    refine ⟨?_, ht⟩
    rw [C02_lossless hb]
    exact (C01_accept_iff _).mp ⟨p, hb⟩

/-- Inserting a packet whose number is held changes nothing: the first copy is kept.  Inserting another one keeps all
held packets and puts it between those with smaller and those with greater numbers. -/
theorem C28_insert {w : World} (hw : Reach E w) (p : Packet) :
    ((∃ q ∈ w.s.incoming, q.seqNr = p.seqNr) → w.s.insertIntoBuffer p = w.s) ∧
    ((∀ q ∈ w.s.incoming, q.seqNr ≠ p.seqNr) → ∃ a b, w.s.incoming = a ++ b ∧ w.s.insertIntoBuffer p = { w.s with incoming := a ++ p :: b } ∧
      (∀ q ∈ a, q.seqNr.toNat < p.seqNr.toNat) ∧ ∀ q ∈ b, p.seqNr.toNat < q.seqNr.toNat) := by
  have hsd : Sorted w.s.incoming := (C28_sorted hw).1
  constructor
  · rintro ⟨q, hq, he⟩
    unfold Socket.insertIntoBuffer
    rw [insertPkt_held hsd hq he]
  · intro h
    rcases insertPkt_spec hsd p with ⟨⟨q, hq, he⟩, _⟩ | ⟨a, b, h1, h2, h3, h4⟩
    · exact absurd he (h q hq)
    · exact ⟨a, b, h1, by unfold Socket.insertIntoBuffer; rw [h4], h2, h3⟩

section
open Sample

/-- Packets 5, 3, 9, another 3 and 4 arrive. -/
def shuffled : Env := env [arr (dg .data 6 5 100 [5]), arr (dg .data 6 3 100 [3]), arr (dg .data 6 9 100 [9]), arr (dg .data 6 3 100 [33]),
  arr (dg .data 6 4 100 [4])]

example : let w := runs shuffled 10 [.recvFrom 9] (server shuffled)
    Reach shuffled w ∧ w.s.incoming.map (fun p => (p.seqNr, p.payload)) = [(3, some [3]), (4, some [4]), (5, some [5]), (9, some [9])] :=
  ⟨reach_server _ _ (by decide +kernel) (by decide +kernel), by decide +kernel⟩

end

/-! ### C27 -/

/-- A data packet that is held for reordering, or is the last one that was read, arrives again: apart from the window and
the delay its header reports, the socket is as before, and the receive goes on to return what could be read without
this packet.  The reply acknowledges the same number as before.  (Missing for C27: duplicates of packets read earlier, see the
counterexample.) -/
theorem C27_partial (hc : E.checks = false) {w : World} (hw : Reach E w) (hs : w.s.state = .connected ∨ w.s.state = .finSent)
    {b : Bytes} {src : Addr} {pkt : Packet} (hn : E.net w.nNet = .dgram b src)
    (hp : Packet.tryFrom (b.take 1520) = some (.ok pkt)) (ht : pkt.getType = some .data)
    (hid : pkt.connectionId = w.s.senderId ∨ pkt.connectionId = w.s.receiverId)
    (hdup : pkt.seqNr = w.s.lastDropped ∨ ∃ q ∈ w.s.incoming, q.seqNr = pkt.seqNr) (hseq : pkt.seqNr ≠ w.s.ackNr + 1)
    (hr : 0 < w.s.maxRetries.toNat) (hok : E.snd w.nSnd = .ok) :
    ∃ w1 d t, ∃ reply : Packet, w1.s = { w.s with remoteWnd := pkt.wndSize, theirDelay := d } ∧
      w1.log = w.log ++ [.wait t, .send src reply.bytes true] ∧ reply.ackNr = w.s.ackNr ∧
      ∀ fuel len, recv E (fuel + 2) len w = M.andThen (flushIncoming E len) (fun out => M.ret (out, src)) w1 ∧
        ∃ out w2, recv E (fuel + 2) len w = (.ok (out, src), w2) ∧ out ++ w2.s.deliverable = w.s.deliverable := by
  obtain ⟨reply, v, sack, t, h1, _, h3, _, _, h5⟩ := recv_data hc hs hn hp ht hid hr hok
  have hvs : v.s = { w.s with remoteWnd := pkt.wndSize, theirDelay := absDiff (E.now w.nNow) pkt.timestamp } := by
    rw [h1]
    simp only [World.heard, World.setS]
    rw [show (w.waited w.s.patience).s = w.s from rfl, bumpAck_of_ne hseq]
    rfl
  have hk : v.s.keep .data pkt = v.s := by
    unfold Socket.keep
    split
    · rename_i hlt
      rcases hdup with h | ⟨q, hq, he⟩
      · rw [h, hvs] at hlt
        simp at hlt
      · unfold Socket.insertIntoBuffer
        rw [insertPkt_held (buf := v.s.incoming) (by rw [hvs]; exact (C28_sorted hw).1) (by rw [hvs]; exact hq) he]
    · rfl
  obtain ⟨w1, hw1⟩ : ∃ w1 : World, w1 = { (v.setS (v.s.keep .data pkt)) with
      nNow := v.nNow + 1, nSnd := v.nSnd + 1, log := v.log ++ [.send src (reply.setWndSize WINDOW_SIZE).bytes true] } := ⟨_, rfl⟩
  have hs1 : w1.s = { w.s with remoteWnd := pkt.wndSize, theirDelay := absDiff (E.now w.nNow) pkt.timestamp } := by
    rw [hw1, hk]; exact hvs
  rw [← hw1] at h5
  refine ⟨w1, _, w.s.patience, reply.setWndSize WINDOW_SIZE, hs1, ?_, ?_, fun fuel len => ⟨h5 fuel len, ?_⟩⟩
  · rw [hw1, h1]; simp [World.heard, World.waited]
  · rw [setWndSize_ackNr, h3.facts.2.2.1, hvs]
  · obtain ⟨out, w2, g1, g2, _⟩ := flushIncoming_spec (E := E) len w1 (flushIncoming_no_panic hc len w1 (by rw [hs1]; exact (reach_any hw).inc))
    refine ⟨out, w2, by rw [h5, andThen_eq g1]; rfl, ?_⟩
    rw [g2, hs1]
    rfl

section
open Sample

/-- Packet 4 arrives early twice, then packet 2 twice. -/
def twice : Env := env [arr (dg .data 6 4 100 [4]), arr (dg .data 6 4 100 [4]), arr (dg .data 6 2 100 [2]), arr (dg .data 6 2 100 [2]),
  arr (dg .data 6 3 100 [3])]

/-- Between the two reads the socket meets the hypotheses for the repetition of packet 2, which was read last. -/
example : let w := runs twice 10 [.recvFrom 9] (server twice)
    Reach twice w ∧ w.s.state = .connected ∧ w.s.lastDropped = 2 ∧ w.s.ackNr = 2 ∧ twice.net w.nNet = arr (dg .data 6 2 100 [2]) ∧
    results twice 10 [.recvFrom 9, .recvFrom 9, .recvFrom 9, .recvFrom 9] (server twice) =
      [.ok (.bytes [2] peer), .ok (.bytes [3] peer), .ok (.bytes [4] peer), .pending] :=
  ⟨reach_server _ _ (by decide +kernel) (by decide +kernel), by decide +kernel⟩

/-- Packets 2 and 3 arrive, then a delayed copy of packet 2, then packets 4 and 5. -/
def oldDuplicate : Env := env [arr (dg .data 6 2 100 [2]), arr (dg .data 6 3 100 [3]), arr (dg .data 6 2 100 [2]), arr (dg .data 6 4 100 [4]),
  arr (dg .data 6 5 100 [5])]

/-- What is missing for C27: a delayed copy of a packet that was read before the last one is put at the front of the
reorder buffer, and nothing is ever returned again, although packets 4 and 5 are received and acknowledged. -/
theorem C27_counterexample :
    results oldDuplicate 10 [.recvFrom 9, .recvFrom 9, .recvFrom 9] (server oldDuplicate) =
      [.ok (.bytes [2] peer), .ok (.bytes [3] peer), .pending] ∧
    (runs oldDuplicate 10 [.recvFrom 9, .recvFrom 9, .recvFrom 9] (server oldDuplicate)).s.ackNr = 5 ∧
    (runs oldDuplicate 10 [.recvFrom 9, .recvFrom 9, .recvFrom 9] (server oldDuplicate)).s.incoming.map Packet.seqNr = [2, 4, 5] := by
  decide +kernel

end

/-! ### C30 -/

/-- The bitmap built from the reorder buffer: bit `i` is set exactly when the packet with number `ack + 2 + i` is held; the
length is a multiple of 4, and it is empty exactly when no packet beyond `ack + 1` is held.  (Missing for C30: packets whose number has
wrapped around and `ack = 65535`, see the counterexamples.) -/
theorem C30_bits_partial {s : Socket} {sack : Bytes} (h : s.buildSack E = some sack) (ha : s.ackNr ≠ 65535)
    (hnw : ∀ p ∈ s.incoming, p.seqNr = s.ackNr ∨ p.seqNr = s.ackNr + 1 ∨ s.ackNr + 1 < p.seqNr) :
    (∀ i, Spec.bitAt sack i = true ↔ i < 65534 ∧ ∃ p ∈ s.incoming, p.seqNr = s.ackNr + 2 + BitVec.ofNat 16 i) ∧
    sack.length % 4 = 0 ∧ (sack = [] ↔ ∀ p ∈ s.incoming, p.seqNr = s.ackNr ∨ p.seqNr = s.ackNr + 1) := by
  have c1 : (1 : U16).toNat = 1 := rfl
  have c2 : (2 : U16).toNat = 2 := rfl
  have ha' : s.ackNr.toNat ≠ 65535 := fun h => ha (BitVec.eq_of_toNat_eq h)
  refine ⟨fun i => ?_, buildSack_len h, ?_⟩
  · rw [buildSack_bits h]
    constructor
    · rintro ⟨p, h1, h2, h3⟩
      refine ⟨?_, p, h1, ?_⟩
      · subst h3; bv_omega
      · rw [← h3]; simp; bv_omega
    · rintro ⟨hi, p, h1, h2⟩
      refine ⟨p, h1, ?_, ?_⟩
      · rcases hnw p h1 with h3 | h3 | h3
        · exfalso; bv_omega
        · exfalso; bv_omega
        · exact h3
      · rw [h2]; bv_omega
  · rw [buildSack_nil h]
    constructor
    · intro hall p hp
      rcases hnw p hp with h3 | h3 | h3
      · exact .inl h3
      · exact .inr h3
      · exact absurd h3 (hall p hp)
    · intro hall p hp hlt
      rcases hall p hp with h3 | h3 <;> bv_omega

/-- The reply to a data packet that arrives out of order: it acknowledges `ack` and its only extension is a selective ack with
the bitmap described above; it has no extension if nothing beyond `ack + 1` is held.  (Missing for C30: as above, and packets more
than 2000 numbers ahead, for which the bitmap does not fit into an extension, see C46.) -/
theorem C30_reply_partial (hc : E.checks = false) {w : World} (hs : w.s.state = .connected ∨ w.s.state = .finSent)
    {b : Bytes} {src : Addr} {pkt : Packet} (hn : E.net w.nNet = .dgram b src)
    (hp : Packet.tryFrom (b.take 1520) = some (.ok pkt)) (ht : pkt.getType = some .data)
    (hid : pkt.connectionId = w.s.senderId ∨ pkt.connectionId = w.s.receiverId)
    (hseq : pkt.seqNr ≠ w.s.ackNr ∧ pkt.seqNr ≠ w.s.ackNr + 1) (ha : w.s.ackNr ≠ 65535)
    (hnw : ∀ p ∈ w.s.incoming, p.seqNr = w.s.ackNr ∨ p.seqNr = w.s.ackNr + 1 ∨ w.s.ackNr + 1 < p.seqNr)
    (hfar : ∀ p ∈ w.s.incoming, (p.seqNr - w.s.ackNr).toNat ≤ 2000)
    (hr : 0 < w.s.maxRetries.toNat) (hok : E.snd w.nSnd = .ok) (fuel len : Nat) :
    ∃ t, ∃ reply : Spec.Datagram, (recv E (fuel + 2) len w).2.log = w.log ++ [.wait t, .send src reply.bytes true] ∧ reply.Ok ∧
      (Packet.mk reply.bytes).ackNr = w.s.ackNr ∧ reply.payload = [] ∧
      (if ∀ p ∈ w.s.incoming, p.seqNr = w.s.ackNr ∨ p.seqNr = w.s.ackNr + 1 then reply.exts = []
       else ∃ bm, reply.exts = [⟨1, bm⟩] ∧
        ∀ i, Spec.bitAt bm i = true ↔ i < 65534 ∧ ∃ p ∈ w.s.incoming, p.seqNr = w.s.ackNr + 2 + BitVec.ofNat 16 i) := by
  obtain ⟨reply, v, sack, t, h1, h2, h3, _, h4, h5⟩ := recv_data hc hs hn hp ht hid hr hok
  have hvs : v.s = { w.s with remoteWnd := pkt.wndSize, theirDelay := absDiff (E.now w.nNow) pkt.timestamp } := by
    rw [h1]
    simp only [World.heard, World.setS]
    rw [show (w.waited w.s.patience).s = w.s from rfl, bumpAck_of_ne hseq.2]
    rfl
  have hva : v.s.ackNr = w.s.ackNr := by rw [hvs]
  have hvi : v.s.incoming = w.s.incoming := by rw [hvs]
  obtain ⟨hbits, hmod, hnil⟩ := C30_bits_partial h2 (by rw [hva]; exact ha) (by rw [hva, hvi]; exact hnw)
  rw [hva, hvi] at hnil
  simp only [hva, hvi] at hbits
  have hack := h3.facts.2.2.1
  have hlog : (recv E (fuel + 2) len w).2.log = w.log ++ [.wait w.s.patience, .send src (reply.setWndSize WINDOW_SIZE).bytes true] := by
    rw [h5]
    obtain ⟨inc, pend, ack, ld, hfl⟩ := flushIncoming_frame (E := E) len ({ (v.setS (v.s.keep .data pkt)) with
          nNow := v.nNow + 1, nSnd := v.nSnd + 1, log := v.log ++ [.send src (reply.setWndSize WINDOW_SIZE).bytes true] })
    rw [andThen_ret_snd, hfl, h1]
    simp [World.heard, World.waited, World.setS]
  have c1 : (1 : U16).toNat = 1 := rfl
  have c2 : (2 : U16).toNat = 2 := rfl
  have hgt : 1 < (pkt.seqNr - v.s.ackNr).toNat := by
    rw [hva]
    have := hseq.1
    have := hseq.2
    bv_omega
  have hpl := prepareReply_plain v.s t pkt (if w.s.state = .finSent then .fin else .state)
  have hlen := (prepareReply_bytes v.s t pkt (if w.s.state = .finSent then .fin else .state)).1
  generalize v.s.prepareReply t pkt (if w.s.state = .finSent then .fin else .state) = q at hpl hlen h4
  have hdrop : List.drop 20 q.bytes = [] := List.drop_eq_nil_of_le (by omega)
  have fin : ∀ d : Spec.Datagram, d.Ok → reply = ⟨d.bytes⟩ → ∃ d' : Spec.Datagram, d'.Ok ∧ (reply.setWndSize WINDOW_SIZE).bytes = d'.bytes ∧
      d'.exts = d.exts ∧ d'.payload = d.payload := by
    intro d hd he
    obtain ⟨h', g1, g2⟩ := setWndSize_datagram hd WINDOW_SIZE
    exact ⟨_, g1, by rw [he, g2], rfl, rfl⟩
  rcases h4 with ⟨h4, h6⟩ | ⟨_, hne, hset⟩
  · have hse : sack = [] := by
      rcases h6 with h | h
      · omega
      · exact h
    obtain ⟨d', g1, g2, g3, g4⟩ := fin _ hpl.datagram.1 (by rw [h4]; exact congrArg Packet.mk hpl.datagram.2)
    refine ⟨w.s.patience, d', by rw [hlog, g2], g1, ?_, ?_, ?_⟩
    · rw [← g2, ← hva, ← hack]; exact setWndSize_ackNr ..
    · rw [g4]; exact hdrop
    · rw [if_pos (hnil.mp hse)]; rw [g3]
  · have hpos : 0 < sack.length := List.length_pos_iff.mpr hne
    have hle : sack.length ≤ 252 := by
      refine buildSack_le h2 63 ?_
      rw [hva, hvi]
      intro p hp hlt
      have := hfar p hp
      bv_omega
    obtain ⟨d1, d2, _⟩ := C04_set_sack_partial hpl.datagram.1 (bv := sack) (by omega) hmod hle
    rw [← hpl.datagram.2] at d1
    obtain ⟨d', g1, g2, g3, g4⟩ := fin _ d2 (by
      have : (⟨q.bytes⟩ : Packet) = q := rfl
      rw [this, hset] at d1
      simpa using d1)
    refine ⟨w.s.patience, d', by rw [hlog, g2], g1, ?_, ?_, ?_⟩
    · rw [← g2, ← hva, ← hack]; exact setWndSize_ackNr ..
    · rw [g4]; exact hdrop
    · rw [if_neg (fun h => hne (hnil.mpr h))]
      exact ⟨sack, by rw [g3]; rfl, hbits⟩

section
open Sample

/-- Packets 4, 5 and 7 arrive, then packet 9. -/
def withGaps : Env := env [arr (dg .data 6 4 100 [4]), arr (dg .data 6 5 100 [5]), arr (dg .data 6 7 100 [7]), arr (dg .data 6 9 100 [9])]

/-- The replies carry the bitmaps of what is held when they are sent. -/
example : (sent (runs withGaps 10 [.recvFrom 9] (server withGaps))).map (fun b => (Packet.mk b).extensions.map (·.map Extension.data)) =
    [some [], some [], some [[2, 0, 0, 0]], some [[6, 0, 0, 0]], some [[22, 0, 0, 0]]] := by decide +kernel

/-- The SYN has number 65532.  Packets 65534, 65535, 0 and 1 arrive. -/
def wrapGap : Env := env [arr (dg .data 6 65534 100 [4]), arr (dg .data 6 65535 100 [5]), arr (dg .data 6 0 100 [6]), arr (dg .data 6 1 100 [7])]

/-- What is missing for C30: packet 0 is held when the reply to packet 1 is sent, but its bit (number 2) is not set. -/
theorem C30_counterexample :
    let w := runs wrapGap 10 [.recvFrom 9] (serverAt 65532 wrapGap)
    Reach wrapGap w ∧ w.s.incoming.map Packet.seqNr = [0, 1, 65534, 65535] ∧
    (sent w).map (fun b => (Packet.mk b).extensions.map (·.map Extension.data)) =
      [some [], some [], some [[1, 0, 0, 0]], some [[3, 0, 0, 0]], some [[3, 0, 0, 0]]] :=
  ⟨reach_serverAt _ _ _ (by decide +kernel) (by decide +kernel), by decide +kernel⟩

/-- The SYN has number 65534.  Packet 65535 arrives and is half read; then, while `flush` waits, packet 1 arrives. -/
def halfRead : Env := env [arr (dg .data 6 65535 100 [4, 5]), arr (dg .data 6 1 100 [7]), arr (dg .state 6 9 100)]

/-- And when 65535 is acknowledged while this packet is being read, the packet itself counts as 65534 numbers ahead: the
reply is a datagram of 8214 bytes. -/
theorem C30_counterexample_huge :
    let w := runs halfRead 10 [.recvFrom 1, .sendTo [1], .flush] (serverAt 65534 halfRead)
    Reach halfRead w ∧ (sent w).map List.length = [20, 20, 21, 8214] :=
  ⟨reach_serverAt _ _ _ (by decide +kernel) (by decide +kernel), by decide +kernel⟩

end

/-! ### C31 -/

/-- A data packet that arrives while `send_to`, `flush` or `close` waits, and that cannot be returned yet because an earlier
one is missing, is kept (or the copy of it that is already held), together with all others that are held.  (Missing for C31:
packets that can be returned at once, which are lost, see the counterexample.) -/
theorem C31_partial (hc : E.checks = false) {w : World} (hw : Reach E w) (hs : w.s.state = .connected ∨ w.s.state = .finSent)
    (hd : w.s.deliverable = []) (hne : w.s.NoEmpty)
    {b : Bytes} {src : Addr} {pkt : Packet} (hn : E.net w.nNet = .dgram b src)
    (hp : Packet.tryFrom (b.take 1520) = some (.ok pkt)) (ht : pkt.getType = some .data)
    (hid : pkt.connectionId = w.s.senderId ∨ pkt.connectionId = w.s.receiverId)
    (hseq : pkt.seqNr ≠ w.s.ackNr ∧ pkt.seqNr ≠ w.s.ackNr + 1) (hlast : pkt.seqNr ≠ w.s.lastDropped)
    (hr : 0 < w.s.maxRetries.toNat) (hok : E.snd w.nSnd = .ok) (fuel : Nat) :
    ∃ w1, scratchRecv E (fuel + 2) w = (.ok (), w1) ∧ w1.s.pending = [] ∧ w1.s.ackNr = w.s.ackNr ∧
      (∀ p ∈ w.s.incoming, p ∈ w1.s.incoming) ∧ ∃ p ∈ w1.s.incoming, p.seqNr = pkt.seqNr ∧ (p = pkt ∨ p ∈ w.s.incoming) := by
  obtain ⟨reply, v, sack, t, h1, _, _, _, _, h5⟩ := recv_data hc hs hn hp ht hid hr hok
  have hvs : v.s = { w.s with remoteWnd := pkt.wndSize, theirDelay := absDiff (E.now w.nNow) pkt.timestamp } := by
    rw [h1]
    simp only [World.heard, World.setS]
    rw [show (w.waited w.s.patience).s = w.s from rfl, bumpAck_of_ne hseq.2]
    rfl
  have hpend : w.s.pending = [] := by
    unfold Socket.deliverable at hd
    split at hd
    · assumption
    · exact (List.append_eq_nil_iff.mp hd).1
  have hk : v.s.keep .data pkt = { v.s with incoming := Socket.insertPkt w.s.incoming pkt } := by
    unfold Socket.keep Socket.insertIntoBuffer
    rw [if_pos, hvs]
    refine ⟨rfl, ?_⟩
    have : v.s.lastDropped = w.s.lastDropped := by rw [hvs]
    rw [this]
    bv_omega
  rw [hk] at h5
  obtain ⟨w1, hw1⟩ : ∃ w1 : World, w1 = { (v.setS { v.s with incoming := Socket.insertPkt w.s.incoming pkt }) with
      nNow := v.nNow + 1, nSnd := v.nSnd + 1, log := v.log ++ [.send src (reply.setWndSize WINDOW_SIZE).bytes true] } := ⟨_, rfl⟩
  rw [← hw1] at h5
  have hi1 : w1.s.incoming = Socket.insertPkt w.s.incoming pkt := by rw [hw1]; rfl
  have ha1 : w1.s.ackNr = w.s.ackNr := by rw [hw1]; show v.s.ackNr = _; rw [hvs]
  have hp1 : w1.s.pending = [] := by rw [hw1]; show v.s.pending = _; rw [hvs]; exact hpend
  have hspec := insertPkt_spec (C28_sorted hw).1 pkt
  have hold : ∀ p ∈ w.s.incoming, p ∈ w1.s.incoming := by
    rw [hi1]
    rcases hspec with ⟨_, h⟩ | ⟨a, b', h6, _, _, h⟩
    · rw [h]; exact fun _ h => h
    · rw [h, h6]
      intro p hp
      simp only [List.mem_append, List.mem_cons] at hp ⊢
      rcases hp with hp | hp <;> simp [hp]
  have hfl : flushIncoming E BUF_SIZE w1 = (.ok [], w1) := by
    have hhead : ∀ p rest, w1.s.incoming = p :: rest → ¬ (w1.s.ackNr = p.seqNr ∨ w1.s.ackNr + 1 = p.seqNr) := by
      intro p rest he
      rw [hi1] at he
      rw [ha1]
      have hpkt : ¬ (w.s.ackNr = pkt.seqNr ∨ w.s.ackNr + 1 = pkt.seqNr) := fun h => h.elim (fun h => hseq.1 h.symm) (fun h => hseq.2 h.symm)
      have holdh : ∀ q r, w.s.incoming = q :: r → ¬ (w.s.ackNr = q.seqNr ∨ w.s.ackNr + 1 = q.seqNr) := by
        intro q r hq hcontra
        rw [Socket.deliverable, if_pos hpend, hq, readable, if_pos hcontra] at hd
        obtain ⟨pl, hpl⟩ := ((reach_any hw).inc q (by simp [hq])).payload
        rw [hpl] at hd
        have := hne q (by simp [hq])
        rw [hpl] at this
        exact this (congrArg some (List.append_eq_nil_iff.mp hd).1)
      rcases hspec with ⟨_, h⟩ | ⟨a, b', h6, _, _, h⟩
      · rw [h] at he; exact holdh p rest he
      · rw [h] at he
        cases a with
        | nil =>
          simp only [List.nil_append, List.cons.injEq] at he
          rw [← he.1]; exact hpkt
        | cons a0 a' =>
          simp only [List.cons_append, List.cons.injEq] at he
          rw [← he.1]
          exact holdh a0 (a' ++ b') (by rw [h6]; rfl)
    unfold flushIncoming
    msimp
    rw [if_neg (by simp [hp1])]
    rcases hi : w1.s.incoming with _ | ⟨p, rest⟩
    · rfl
    · simp only
      rw [overflowIf_release hc]
      msimp
      rw [if_neg (hhead p rest hi)]
  refine ⟨w1, ?_, hp1, ha1, hold, ?_⟩
  · have hrec : recv E (fuel + 2) BUF_SIZE w = (.ok ([], src), w1) := by
      rw [h5, andThen_eq hfl]
      rfl
    unfold scratchRecv
    rw [bind_def, andThen_eq hrec]
    rfl
  · rw [hi1]
    rcases hspec with ⟨⟨q, hq, he⟩, h⟩ | ⟨a, b', h6, _, _, h⟩
    · exact ⟨q, by rw [h]; exact hq, he, .inr hq⟩
    · exact ⟨pkt, by rw [h]; simp, rfl, .inl rfl⟩

section
open Sample

/-- While `flush` waits, packets 3 and 2 arrive, then the acknowledgement of our packet; then nothing. -/
def dataInFlush : Env := env [arr (dg .data 6 3 100 [3]), arr (dg .data 6 2 100 [2]), arr (dg .state 6 9 100)]

/-- The out-of-order packet 3 is kept, as `C31_partial` says (its hypotheses hold here). -/
example :
    let w := runs dataInFlush 10 [.sendTo [1]] (server dataInFlush)
    Reach dataInFlush w ∧ w.s.state = .connected ∧ w.s.deliverable = [] ∧ 0 < w.s.maxRetries.toNat ∧
    (scratchRecv dataInFlush 10 w).2.s.incoming.map Packet.seqNr = [3] :=
  ⟨reach_server _ _ (by decide +kernel) (by decide +kernel), by decide +kernel⟩

/-- When packet 2 arrives the read that `flush` makes takes both, acknowledges both, and nothing is left to read. -/
theorem C31_counterexample :
    let w := runs dataInFlush 10 [.sendTo [1]] (server dataInFlush)
    Reach dataInFlush w ∧
    results dataInFlush 10 [.flush, .recvFrom 9] w = [.ok .unit, .pending] ∧
    (runs dataInFlush 10 [.flush] w).s.ackNr = 3 :=
  ⟨reach_server _ _ (by decide +kernel) (by decide +kernel), by decide +kernel⟩

end

end Utp
