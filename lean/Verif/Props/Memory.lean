import Verif.Spec.Advert
import Verif.Props.Advert
import Verif.Props.Receive
/-!
# C82: how much received data a socket holds
-/

namespace Utp
open M Packet Sample

variable {E : Env}

/-- What is held of received data: packets of at most 1520 bytes, and at most 1500 bytes of the packet being read. -/
def SmallBuffers (w : World) : Prop := (∀ p ∈ w.s.incoming, p.bytes.length ≤ 1520) ∧ w.s.pending.length ≤ 1500

theorem advanceIncoming_mem {s : Socket} {p : Packet} (h : p ∈ s.advanceIncoming.incoming) : p ∈ s.incoming := by
  unfold Socket.advanceIncoming at h
  split at h
  · exact h
  · rename_i q rest e
    rw [e]
    exact List.mem_cons_of_mem _ h

theorem payload_small {p : Packet} (hv : ValidData p) {pl : Bytes} (h : p.payload = some pl) : pl.length + 20 ≤ p.bytes.length := by
  obtain ⟨⟨b, hb⟩, _⟩ := hv
  obtain ⟨d, hd, e⟩ := (C01_accept_iff b).mp ⟨p, hb⟩
  have e' : p.bytes = d.bytes := (C02_lossless hb).trans e
  have := C03_payload hd
  rw [← e'] at this
  rw [show (Packet.mk p.bytes).payload = p.payload from rfl, h] at this
  cases this
  rw [e']
  have := hd.headerLen
  simp only [Spec.Datagram.bytes, List.length_append]
  omega

theorem step_small {a b : World} (h : Step E .any a b) (hi : Inv .any a) (hs : SmallBuffers a) : SmallBuffers b := by
  obtain ⟨h1, h2⟩ := hs
  cases h with
  | insert pkt src hr _ _ =>
    refine ⟨fun p hp => ?_, h2⟩
    rcases mem_insertPkt hp with h | rfl
    · exact h1 p h
    · obtain ⟨k, bytes, n, _, hn, _, ht⟩ := hr
      rw [C02_lossless ht, List.length_take]
      omega
  | deliverPending len h =>
    show (∀ p ∈ (a.s.takePending len).2.incoming, _) ∧ (a.s.takePending len).2.pending.length ≤ _
    unfold Socket.takePending
    simp only
    split
    · exact ⟨fun p hp => h1 p (advanceIncoming_mem (s := { a.s with pending := [] }) hp), by rw [advanceIncoming_pending]; simp⟩
    · exact ⟨h1, by simp; omega⟩
  | deliverHead p rest pl len e1 e2 e3 e4 =>
    show (∀ p ∈ (a.s.takeHead pl len).incoming, _) ∧ (a.s.takeHead pl len).pending.length ≤ _
    unfold Socket.takeHead
    split
    · exact ⟨fun p hp => h1 p (advanceIncoming_mem hp), by rw [advanceIncoming_pending]; exact h2⟩
    · refine ⟨h1, ?_⟩
      have hm : p ∈ a.s.incoming := by rw [e2]; simp
      have := payload_small (hi.inc p hm) e4
      have := h1 p hm
      simp only [List.length_drop]
      omega
  | measure pkt src i p t s' hg ht _ _ hf hp hm =>
    unfold SmallBuffers
    rw [show (a.setS s').s = s' from rfl, onNewAck_incoming hm, onNewAck_pending hm]; exact ⟨h1, h2⟩
  | advance s' _ hm =>
    unfold SmallBuffers
    rw [show (a.setS s').s = s' from rfl, advanceSendWindow_incoming hm, advanceSendWindow_pending hm]; exact ⟨h1, h2⟩
  | arrive pkt src _ => unfold SmallBuffers; simpa [World.setS] using ⟨h1, h2⟩
  | _ => exact ⟨h1, h2⟩

theorem sorted_length : ∀ {l : List Packet} {n : Nat}, Sorted l → (∀ p ∈ l, n ≤ p.seqNr.toNat) → l.length + n ≤ 65536 ∨ l = []
  | [], _, _, _ => .inr rfl
  | p :: rest, n, h, hn => by
    left
    have h0 := hn p (by simp)
    have := p.seqNr.isLt
    rcases sorted_length (n := p.seqNr.toNat + 1) (l := rest) (List.pairwise_cons.mp h).2 (fun q hq => (List.pairwise_cons.mp h).1 q hq) with h' | h'
    · simp only [List.length_cons]; omega
    · subst h'; simp only [List.length_cons, List.length_nil]; omega

/-- **C82**, what holds: however the peer and the user behave, a socket holds at most 65536 received packets, each of at most 1520 bytes, and at most 1500 bytes of the packet
being read: less than 100 MB.

Partial: not the 1 MiB it advertises (`C82_counterexample`). -/
theorem C82_partial {w : World} (hw : Reach E w) :
    w.s.incoming.length ≤ 65536 ∧ (∀ p ∈ w.s.incoming, p.bytes.length ≤ 1520) ∧ w.s.pending.length ≤ 1500 ∧
    totalSize w.s.incoming ≤ 65536 * 1520 := by
  have hs : SmallBuffers w := by
    refine reach_inv (I := SmallBuffers) ?_ (fun a b h hi => step_small h hi) hw
    intro w h
    cases h with
    | bound la src => exact ⟨by simp [freshWorld, Socket.fromRawParts], by simp [freshWorld, Socket.fromRawParts]⟩
    | connecting la a0 a st w h _ _ _ => unfold SmallBuffers; rw [h]; exact ⟨by simp [Socket.fromRawParts], by simp [Socket.fromRawParts]⟩
    | accepted la src pkt ok n _ _ _ => exact ⟨by simp [acceptSocket, Socket.fromRawParts], by simp [acceptSocket, Socket.fromRawParts]⟩
  have hl : w.s.incoming.length ≤ 65536 := by
    rcases sorted_length (n := 0) (C28_sorted hw).1 (fun _ _ => Nat.zero_le _) with h | h
    · omega
    · simp [h]
  refine ⟨hl, hs.1, hs.2, ?_⟩
  have : ∀ l : List Packet, (∀ p ∈ l, p.bytes.length ≤ 1520) → totalSize l ≤ l.length * 1520 := by
    intro l
    induction l with
    | nil => intro _; simp [totalSize]
    | cons p l ih =>
      intro h
      have h1 := ih fun q hq => h q (by simp [hq])
      have h2 := h p (by simp)
      simp only [totalSize, List.map_cons, List.sum_cons, List.length_cons] at *
      omega
  exact (this _ hs.1).trans (Nat.mul_le_mul_right _ hl)

/-- 1500 bytes. -/
def filler : Bytes := List.replicate 1500 7

theorem filler_length : filler.length = 1500 := List.length_replicate

/-- The data packet number `i + 3`, of 1520 bytes. -/
def ahead (i : Nat) : Packet :=
  ((((((Packet.withPayload filler).setType .data).setConnectionId 6).setSeqNr (BitVec.ofNat 16 (i + 3))).setAckNr 100).setWndSize 0)

/-- The peer sends packets 3, 4, 5, … and never packet 2. -/
def gapEnv : Env := { env [] with net := fun k => arr (ahead k).bytes }

theorem ahead_plain (i : Nat) : Plain (ahead i) .data :=
  (((((withPayload_plain _).setType _).setConnectionId _).setSeqNr _).setAckNr _).setWndSize _

theorem ahead_length (i : Nat) : (ahead i).bytes.length = 1520 := by
  simp [ahead, withPayload_bytes, filler_length]

theorem ahead_seqNr (i : Nat) : (ahead i).seqNr = BitVec.ofNat 16 (i + 3) := by
  simp only [ahead, setWndSize_seqNr, setAckNr_seqNr]
  exact setSeqNr_seqNr (by simp [withPayload_bytes]) _

theorem ahead_connectionId (i : Nat) : (ahead i).connectionId = 6 := by
  simp only [ahead, setWndSize_connectionId, setAckNr_connectionId, setSeqNr_connectionId]
  exact setConnectionId_connectionId (by simp [withPayload_bytes]) _

theorem ahead_payload (i : Nat) : (ahead i).payload ≠ some [] := by
  rw [(ahead_plain i).payload]
  intro h
  have := congrArg List.length (Option.some.inj h)
  rw [List.length_drop, ahead_length] at this
  simp at this

/-- The state after `k` of these packets. -/
structure GapAt (k : Nat) (w : World) : Prop where
  net : w.nNet = k
  state : w.s.state = .connected
  pending : w.s.pending = []
  ack : w.s.ackNr = 1
  dropped : w.s.lastDropped = 1
  receiver : w.s.receiverId = 6
  retries : w.s.maxRetries = 5
  held : w.s.incoming = (List.range k).map ahead
  count : (Sample.sent w).length = k + 1
  sent : ∀ b ∈ (Sample.sent w).drop 1, advertised b = 1048576

theorem GapAt.deliverable {k : Nat} (hk : k ≤ 60000) {w : World} (h : GapAt k w) : w.s.deliverable = [] := by
  unfold Socket.deliverable
  rw [if_pos h.pending, h.ack, h.held]
  rcases k with _ | k
  · rfl
  · rw [List.range_succ_eq_map, List.map_cons, readable, if_neg]
    rw [ahead_seqNr]
    decide

theorem GapAt.valid {k : Nat} {w : World} (h : GapAt k w) : (∀ p ∈ w.s.incoming, ValidData p) ∧ w.s.NoEmpty := by
  unfold Socket.NoEmpty
  rw [h.held]
  constructor
  · intro p hp
    obtain ⟨i, _, rfl⟩ := List.mem_map.mp hp
    exact ⟨⟨_, (ahead_plain i).accepted⟩, (ahead_plain i).ty⟩
  · intro p hp
    obtain ⟨i, _, rfl⟩ := List.mem_map.mp hp
    exact ahead_payload i

theorem insertPkt_ahead {k : Nat} (hk : k < 60000) : Socket.insertPkt ((List.range k).map ahead) (ahead k) = (List.range (k + 1)).map ahead := by
  rw [List.range_succ, List.map_append, List.map_cons, List.map_nil]
  rcases k with _ | k
  · rfl
  · unfold Socket.insertPkt
    rw [if_pos]
    unfold Socket.afterLast
    rw [List.range_succ, List.map_append, List.map_cons, List.map_nil, List.getLast?_append]
    simp only [List.getLast?_singleton, Option.some_or, decide_eq_true_eq]
    rw [ahead_seqNr, ahead_seqNr, BitVec.lt_def, BitVec.toNat_ofNat, BitVec.toNat_ofNat]
    omega

theorem GapAt.recv {k : Nat} (hk : k < 60000) {w : World} (h : GapAt k w) :
    ∃ w', GapAt (k + 1) w' ∧ ∀ fuel len, Utp.recv gapEnv (fuel + 2) len w = (.ok ([], peer), w') := by
  have hn : gapEnv.net w.nNet = .dgram (ahead k).bytes peer := by rw [h.net]; rfl
  have hp : Packet.tryFrom ((ahead k).bytes.take 1520) = some (.ok (ahead k)) := by
    rw [List.take_of_length_le (by rw [ahead_length])]
    exact (ahead_plain k).accepted
  have hs : (ahead k).seqNr.toNat = k + 3 := by rw [ahead_seqNr, BitVec.toNat_ofNat]; omega
  obtain ⟨reply, v, sack, t, h1, _, h3, _, _, h5⟩ := recv_data (E := gapEnv) rfl (.inl h.state) hn hp (ahead_plain k).ty
    (.inr (by rw [ahead_connectionId, h.receiver])) (by rw [h.retries]; decide) rfl
  have hne : (ahead k).seqNr ≠ w.s.ackNr + 1 := by
    rw [h.ack]; intro e
    rw [e] at hs
    have : ((1 : U16) + 1).toNat = 2 := rfl
    omega
  have hvs : v.s = { w.s with remoteWnd := (ahead k).wndSize, theirDelay := absDiff (gapEnv.now w.nNow) (ahead k).timestamp } := by
    rw [h1]
    simp only [World.heard, World.setS]
    rw [show (w.waited w.s.patience).s = w.s from rfl, bumpAck_of_ne hne]
    rfl
  have hkeep : v.s.keep .data (ahead k) = { v.s with incoming := (List.range (k + 1)).map ahead } := by
    unfold Socket.keep
    rw [if_pos]
    · unfold Socket.insertIntoBuffer
      rw [show v.s.incoming = w.s.incoming by rw [hvs], h.held, insertPkt_ahead hk]
    · refine ⟨rfl, ?_⟩
      rw [show v.s.lastDropped = w.s.lastDropped by rw [hvs], h.dropped]
      have : (1 : U16).toNat = 1 := rfl
      rw [BitVec.toNat_sub]
      omega
  obtain ⟨u, hu⟩ : ∃ u : World, u = { (v.setS (v.s.keep .data (ahead k))) with
          nNow := v.nNow + 1, nSnd := v.nSnd + 1, log := v.log ++ [.send peer (reply.setWndSize WINDOW_SIZE).bytes true] } := ⟨_, rfl⟩
  have hus : u.s = { w.s with remoteWnd := (ahead k).wndSize, theirDelay := absDiff (gapEnv.now w.nNow) (ahead k).timestamp, incoming := (List.range (k + 1)).map ahead } := by
    rw [hu]; show v.s.keep _ _ = _
    rw [hkeep, hvs]
  have hlog : u.log = w.log ++ [.wait w.s.patience, .send peer (reply.setWndSize WINDOW_SIZE).bytes true] := by
    rw [hu]; show v.log ++ _ = _
    rw [h1]; simp [World.heard, World.waited]
  have hg : GapAt (k + 1) u := by
    refine ⟨?_, ?_, ?_, ?_, ?_, ?_, ?_, ?_, ?_, ?_⟩
    · rw [hu, h1]; show w.nNet + 1 = _; rw [h.net]
    · rw [hus]; exact h.state
    · rw [hus]; exact h.pending
    · rw [hus]; exact h.ack
    · rw [hus]; exact h.dropped
    · rw [hus]; exact h.receiver
    · rw [hus]; exact h.retries
    · rw [hus]
    · unfold Sample.sent; rw [hlog, List.filterMap_append, List.length_append]
      have := h.count
      unfold Sample.sent at this
      rw [this]; rfl
    · intro b hb
      have e : Sample.sent u = Sample.sent w ++ [(reply.setWndSize WINDOW_SIZE).bytes] := by
        unfold Sample.sent; rw [hlog]; simp
      rw [e] at hb
      rcases List.mem_append.mp (List.drop_append ▸ hb) with hb | hb
      · exact h.sent b hb
      · rw [List.mem_singleton.mp (List.mem_of_mem_drop hb), ← wndSize_advertised, setWndSize_wndSize h3.facts.2.2.2.2.1]; rfl
  rw [← hu] at h5
  refine ⟨u, hg, fun fuel len => ?_⟩
  rw [h5, andThen_eq (flush_quiet hg.valid.1 (hg.deliverable (by omega)) hg.valid.2 (fun hc => by cases hc) len)]
  rfl

theorem GapAt.loop (fuel len : Nat) : ∀ {n k : Nat}, k + n ≤ 60000 → ∀ {w : World}, GapAt k w →
    ∃ w', recvFromLoop gapEnv (fuel + 2) len n w = (.pending, w') ∧ GapAt (k + n) w'
  | 0, _, _, w, h => ⟨w, rfl, h⟩
  | n + 1, k, hk, w, h => by
    obtain ⟨w1, g1, g2⟩ := h.recv (by omega)
    obtain ⟨w2, g3, g4⟩ := GapAt.loop fuel len (n := n) (k := k + 1) (by omega) g1
    exact ⟨w2, by rw [recvFromLoop_again (by rw [h.state]; simp) (g2 fuel len)]; exact g3, by rw [show k + (n + 1) = k + 1 + n by omega]; exact g4⟩

theorem gap_start : GapAt 0 (server gapEnv) := by
  refine ⟨?_, ?_, ?_, ?_, ?_, ?_, ?_, ?_, ?_, ?_⟩ <;> decide +kernel

/-- **C82.**  A read on an open connection whose peer leaves out one packet holds every packet that comes after it, up to at least 60000 of them, and asks for more each time: every answer advertises 1 MiB. -/
theorem C82_held (n : Nat) (h2 : 2 ≤ n) (hn : n ≤ 60000) (len : Nat) : ∃ w, Reach gapEnv w ∧ runOp gapEnv n (.recvFrom len) (server gapEnv) = (.pending, w) ∧
    w.s.incoming.length = n ∧ totalSize w.s.incoming = 1520 * n ∧ (sent w).length = n + 1 ∧ (∀ b ∈ (sent w).drop 1, advertised b = 1048576) := by
  obtain ⟨fuel, rfl⟩ := Nat.exists_eq_add_of_le' h2
  obtain ⟨w, e, g⟩ := gap_start.loop fuel len (n := fuel + 2) (by omega)
  have hq := flush_quiet gap_start.valid.1 (gap_start.deliverable (by omega)) gap_start.valid.2 (E := gapEnv) (fun hc => by cases hc) len
  have he : runOp gapEnv (fuel + 2) (.recvFrom len) (server gapEnv) = (.pending, w) := by
    have e1 : recvFrom gapEnv (fuel + 2) len (server gapEnv) = (.pending, w) := by
      rw [recvFrom_quiet hq (by rw [gap_start.state]; simp), e]
    have e2 : ∀ m v, runOp gapEnv m (.recvFrom len) v = M.andThen (recvFrom gapEnv m len) (fun x => M.ret (.bytes x.1 x.2)) v := fun _ _ => rfl
    rw [e2]
    unfold M.andThen
    rw [e1]
  rw [Nat.zero_add] at g
  refine ⟨w, ?_, he, by rw [g.held]; simp, ?_, g.count, g.sent⟩
  · have h := reach_server (E := gapEnv) (fuel + 2) [.recvFrom len] (by decide +kernel) (by simp [results, he])
    simpa [runs, he] using h
  · rw [g.held]
    unfold totalSize
    rw [List.map_map, show ((fun p : Packet => p.bytes.length) ∘ ahead) = fun _ => 1520 from funext ahead_length, List.map_const', List.length_range]
    generalize fuel + 2 = m
    induction m with
    | zero => rfl
    | succ m ih => rw [List.replicate_succ, List.sum_cons, ih]; omega

/-- **C82 is false**: 91 MB are held by a socket that advertises 1 MiB. -/
theorem C82_counterexample : ∃ w, Reach gapEnv w ∧ totalSize w.s.incoming = 91200000 ∧ (sent w).length = 60001 ∧ ∀ b ∈ (sent w).drop 1, advertised b = 1048576 := by
  obtain ⟨w, h1, _, _, h2, h3, h4⟩ := C82_held 60000 (by omega) (by omega) 9
  exact ⟨w, h1, h2, h3, h4⟩

end Utp
