import Verif.Lemmas.Exact
import Verif.Props.EndToEnd
/-!
# C47 and C48 are false for connections of more than 65534 packets
-/

namespace Utp
open M Sample

/-- The data packet number `2 + i` of the sender, when the clocks stand still. -/
def stepData (i : Nat) (c : Bytes) : Packet :=
  (((((Packet.withPayload c).setSeqNr (BitVec.ofNat 16 (2 + i))).setAckNr 100).setConnectionId 8).setTimestamp 0).setTimestampDifference 0

/-- The reader's reply to it. -/
def stepAck (i : Nat) : Packet :=
  ((((((Packet.new.setType .state).setTimestamp 0).setTimestampDifference 0).setConnectionId 7).setSeqNr 100).setAckNr (BitVec.ofNat 16 (2 + i))).setWndSize WINDOW_SIZE

/-- An environment whose clock stands still. -/
def stepEnv (net : Nat → NetEvent) : Env := { senv [] [] with net := net }

/-- The network of the sender: the reply to the SYN, then the first `n` replies to data packets. -/
def acksNet (n : Nat) : Nat → NetEvent
  | 0 => arr (dg .state 7 100 1 [] 0)
  | i + 1 => if i < n then arr (stepAck i).bytes else .never

theorem stepData_piece {i : Nat} {c : Bytes} (h1 : 0 < c.length) (h2 : c.length ≤ 1380) : Piece (BitVec.ofNat 16 (2 + i)) 8 c (stepData i c) := by
  obtain ⟨s, hs⟩ : ∃ s : Socket, s = { (bound (senv [] [])).s with seqNr := BitVec.ofNat 16 (2 + i), ackNr := 100, senderId := 8 } := ⟨_, rfl⟩
  have hf := dataPacket_facts s c
  have h0 : Piece (BitVec.ofNat 16 (2 + i)) 8 c (dataPacket s c) :=
    ⟨dataPacket_plain _ _, by rw [hf.1, hs], by rw [hf.2.2.1, hs], hf.2.2.2.1, hf.2.2.2.2, h1, h2⟩
  have e : stepData i c = stamped (stepEnv (acksNet 0)) (bound (senv [] [])) (dataPacket s c) := by rw [hs]; rfl
  rw [e]
  exact h0.stamped _ _

theorem stepAck_pkt (i : Nat) : AckPkt 100 (BitVec.ofNat 16 (2 + i)) 7 (stepAck i) := by
  obtain ⟨s, hs⟩ : ∃ s : Socket, s = { (bound (senv [] [])).s with seqNr := 100, ackNr := BitVec.ofNat 16 (2 + i), senderId := 7 } := ⟨_, rfl⟩
  have e : stepAck i = (s.prepareReply 0 Packet.new .state).setWndSize WINDOW_SIZE := by rw [hs]; rfl
  have hf := prepareReply_facts s 0 Packet.new .state
  rw [e]
  refine ⟨(prepareReply_plain _ _ _ _).setWndSize _, by simp [Socket.prepareReply, show Packet.new.bytes.length = 20 by decide], ?_, ?_, ?_⟩
  · rw [setWndSize_ackNr, hf.2.1, hs]
  · rw [setWndSize_connectionId, hf.2.2.1, hs]
  · rw [setWndSize_seqNr, hf.1, hs]

/-- The sender after `j` rounds: everything given to `send_to` was acknowledged. -/
structure OutStep (cs : List Bytes) (j : Nat) (w : World) : Prop where
  state : w.s.state = .connected
  tries : 0 < w.s.maxRetries.toNat
  sid : w.s.senderId = 8
  rid : w.s.receiverId = 7
  net : w.nNet = 1 + j
  quiet : w.s.incoming = [] ∧ w.s.pending = []
  acked : w.s.lastAcked = BitVec.ofNat 16 (1 + j)
  next : w.s.seqNr = BitVec.ofNat 16 (2 + j)
  ack : w.s.ackNr = 100
  delay : w.s.theirDelay = 0
  unsent : w.s.unsent = []
  window : w.s.sendWindow = []
  size : w.s.currWindow = 0
  syn : ∃ dst, Sent w dst theSyn
  sent : ∀ i c, i < j → cs[i]? = some c → ∃ dst, Sent w dst (stepData i c).bytes

theorem Sent.grow {w w' : World} {b : Bytes} (h : ∃ dst, Sent w dst b) (hl : w.log <+: w'.log) : ∃ dst, Sent w' dst b := by
  obtain ⟨dst, ok, h⟩ := h
  exact ⟨dst, ok, hl.subset h⟩

/-- What `connect` leaves behind. -/
def OutStart (w : World) : Prop :=
  w.s.state = .connected ∧ 0 < w.s.maxRetries.toNat ∧ w.s.senderId = 8 ∧ w.s.receiverId = 7 ∧ w.nNet = 1 ∧ w.s.incoming = [] ∧ w.s.pending = [] ∧ w.s.lastAcked = 1 ∧
    w.s.seqNr = 2 ∧ w.s.ackNr = 100 ∧ w.s.theirDelay = 0 ∧ w.s.unsent = [] ∧ w.s.sendWindow = [] ∧ w.s.currWindow = 0 ∧ .send peer theSyn true ∈ w.log

instance (w : World) : Decidable (OutStart w) := by unfold OutStart; infer_instance

theorem out_start {w : World} (h : OutStart w) (cs : List Bytes) : OutStep cs 0 w := by
  obtain ⟨h1, h2, h3, h4, h5, h6, h7, h8, h9, h10, h11, h12, h13, h14, h15⟩ := h
  exact ⟨h1, h2, h3, h4, h5, ⟨h6, h7⟩, h8, h9, h10, h11, h12, h13, h14, ⟨peer, true, h15⟩, by simp⟩

/-- One round of the sender: `send_to` and `flush`. -/
theorem out_round {N : Nat} {cs : List Bytes} {j : Nat} {w : World} (h : OutStep cs j w) (hj : j < N) {c : Bytes} (hc : cs[j]? = some c) (h1 : 0 < c.length) (h2 : c.length ≤ 1380) :
    ∃ w1 w2, sendTo (stepEnv (acksNet N)) 20 c w = (.ok c.length, w1) ∧ w1.s.state = .connected ∧ flush (stepEnv (acksNet N)) 20 w1 = (.ok (), w2) ∧ OutStep cs (j + 1) w2 := by
  obtain ⟨E, hE⟩ : ∃ E, E = stepEnv (acksNet N) := ⟨_, rfl⟩
  rw [← hE]
  have one : (1 : U16).toNat = 1 := rfl
  have hnow : ∀ n, E.now n = 0 := fun n => by rw [hE]; rfl
  have hnext : w.s.lastAcked + 1 = w.s.seqNr := by
    rw [h.acked, h.next, show 2 + j = (1 + j) + 1 by omega, BitVec.ofNat_add (1 + j) 1]
    rfl
  obtain ⟨p, hp, e1⟩ := send_one (E := E) (fun n => by rw [hE]; rfl) (w := w) (by rw [h.state]; simp) h.unsent h1 h2 (by rw [h.size]; simp) (near_next hnext) 18
  have hps : p = stepData j c := by
    rw [hp, stamped, hnow, h.delay]
    unfold dataPacket
    rw [h.next, h.ack, h.sid]
    rfl
  have hpi := stepData_piece (i := j) h1 h2
  rw [← hps] at hpi
  have hpl : p.len = 20 + c.length := hpi.len
  obtain ⟨w1, hw1⟩ : ∃ w1 : World, w1 = ⟨{ w.s with unsent := [], seqNr := w.s.seqNr + 1, currWindow := w.s.currWindow + BitVec.ofNat 32 p.len, sendWindow := w.s.sendWindow ++ [p] },
    w.nNow + 2, w.nRand, w.nNet, w.nSnd + 1, w.log ++ [.send w.s.connectedTo p.bytes true]⟩ := ⟨_, rfl⟩
  rw [← hw1] at e1
  have hak := stepAck_pkt j
  obtain ⟨w2, g0, g1, g2, g3, g4, g5, g6, g7, g8, g9, g10, g11, g12, g13, g14, g15⟩ := acked_one (E := E) (w := w1) (p := p) (pkt := stepAck j) (src := peer) (q := 100) (k := BitVec.ofNat 16 (2 + j))
    (by rw [hw1]; show AckPkt _ _ w.s.receiverId _; rw [h.rid]; exact hak) (by rw [hw1]; exact h.state) (by rw [hw1]; exact h.tries)
    (by rw [hw1, hE]; show acksNet N w.nNet = _; rw [h.net, Nat.add_comm, acksNet, if_pos hj]; rfl) (by rw [hw1]; simp [h.window]) hpi.seq.symm
    (by rw [hw1]; show w.s.lastAcked ≠ _; rw [← h.next, ← hnext]; intro h'; bv_omega)
    (by rw [hw1]; show (w.s.currWindow + _).toNat = _; rw [h.size]; simp; omega) (by omega) (by rw [hw1]; exact h.quiet)
  have hpre : w.log <+: w2.log := by rw [g2, hw1]; simp [List.append_assoc]
  refine ⟨w1, w2, e1, by rw [hw1]; exact h.state, ?_, ?_⟩
  · unfold flush
    rw [whileM]
    msimp
    have hne : w1.s.sendWindow ≠ [] := by rw [hw1]; simp
    simp only [hne, ne_eq, not_false_eq_true, decide_true, if_true]
    unfold scratchRecv
    msimp
    rw [andThen_eq (g0 18 BUF_SIZE)]
    msimp
    rw [whileM]
    msimp
    simp only [g6, not_true_eq_false, decide_false]
    rfl
  · constructor
    case state => rw [g8, hw1]; exact h.state
    case tries => rw [g9, hw1]; exact h.tries
    case sid => rw [g10, hw1]; exact h.sid
    case rid => rw [g11, hw1]; exact h.rid
    case net => rw [g1, hw1]; show w.nNet + 1 = _; rw [h.net]; omega
    case quiet => exact ⟨g12, g13⟩
    case acked => rw [g5]; congr 1; omega
    case next => rw [g15, hw1]; show w.s.seqNr + 1 = _; rw [h.next, show 2 + (j + 1) = (2 + j) + 1 by omega, BitVec.ofNat_add (2 + j) 1]; rfl
    case ack =>
      rw [g3]
      have e : w1.s.ackNr = 100 := by rw [hw1]; exact h.ack
      rw [bumpAck_of_ne (by rw [hak.seq, e]; decide)]
      exact e
    case delay =>
      rw [g4, hnow]
      have : (stepAck j).timestamp = 0 := by
        simp [stepAck]
        decide
      rw [this]
      rfl
    case unsent => rw [g14, hw1]
    case window => exact g6
    case size => exact g7
    case syn => exact Sent.grow h.syn hpre
    case sent =>
      intro i d hi hd
      by_cases hij : i = j
      · subst hij
        obtain rfl : d = c := by rw [hc] at hd; exact (Option.some.inj hd).symm
        refine ⟨w.s.connectedTo, true, ?_⟩
        rw [g2, hw1, ← hps]
        simp
      · exact Sent.grow (h.sent i d (by omega) hd) hpre

/-- All rounds of the sender. -/
theorem out_rounds {N : Nat} {cs : List Bytes} {w0 : World} (h0 : OutStep cs 0 w0) (hcs : ∀ c ∈ cs, 0 < c.length ∧ c.length ≤ 1380) :
    ∀ n, n ≤ N → n ≤ cs.length → ∃ w, Exec (stepEnv (acksNet N)) (fun op r => (op = .flush ∨ ∃ buf, op = .sendTo buf) ∧ SendsOk op r) w0 (cs.take n) w ∧ OutStep cs n w := by
  intro n
  induction n with
  | zero => intro _ _; exact ⟨w0, by simpa using Exec.refl, h0⟩
  | succ n ih =>
    intro hN hn
    obtain ⟨w, hx, h⟩ := ih (by omega) (by omega)
    have hc : cs[n]? = some cs[n] := List.getElem?_eq_getElem (by omega)
    obtain ⟨g1, g2⟩ := hcs cs[n] (List.getElem_mem _)
    obtain ⟨w1, w2, e1, hst, e2, h'⟩ := out_round (N := N) h (by omega) hc g1 g2
    have r1 : runOp (stepEnv (acksNet N)) 20 (.sendTo cs[n]) w = (.ok (.count cs[n].length), w1) := by
      unfold runOp
      msimp
      rw [andThen_eq e1]
      rfl
    have r2 : runOp (stepEnv (acksNet N)) 20 .flush w1 = (.ok .unit, w2) := by
      unfold runOp
      msimp
      rw [andThen_eq e2]
      rfl
    have x1 := Exec.op 20 (.sendTo cs[n]) [cs[n]] hx (by rw [r1]; simp) ⟨.inr ⟨_, rfl⟩, fun _ => ⟨_, by rw [r1]⟩⟩ (by
      simp only [Adds, if_neg (show w.s.state ≠ .closed by rw [h.state]; simp)]
      exact ⟨by simp, by simpa using List.length_pos_iff.mp g1, by simpa using g2, by simp⟩)
    rw [r1] at x1
    have x2 := Exec.op 20 .flush [] x1 (by rw [r2]; simp) ⟨.inl rfl, by rintro ⟨_, h⟩; cases h⟩ rfl
    rw [r2] at x2
    refine ⟨w2, ?_, h'⟩
    rw [List.append_nil] at x2
    rw [List.take_add_one, hc]
    exact x2

/-! ### The reader -/

/-- The network of the reader: the packets whose indices are given. -/
def dataNet (cs : List Bytes) (is : Nat → Option Nat) (n : Nat) : NetEvent :=
  match is n with
  | some i => arr (stepData i (cs.getD i [])).bytes
  | none => .never

/-- The reader after `j` rounds. -/
structure InStep (j : Nat) (w : World) : Prop where
  exp : Expects w.s true (BitVec.ofNat 16 (2 + j)) []
  sid : w.s.senderId = 7
  rid : w.s.receiverId = 8
  seq : w.s.seqNr = 100
  net : w.nNet = j
  first : ∃ dst, Sent w dst (dg .state 7 100 1 [] 0)
  sent : ∀ i, i < j → ∃ dst, Sent w dst (stepAck i).bytes

/-- What `accept` leaves behind. -/
def InStart (w : World) : Prop :=
  w.s.state = .connected ∧ 0 < w.s.maxRetries.toNat ∧ w.s.pending = [] ∧ w.s.incoming = [] ∧ w.s.ackNr = 1 ∧ w.s.lastDropped = 1 ∧ w.s.senderId = 7 ∧ w.s.receiverId = 8 ∧
    w.s.seqNr = 100 ∧ w.nNet = 0 ∧ .send peer (dg .state 7 100 1 [] 0) true ∈ w.log

instance (w : World) : Decidable (InStart w) := by unfold InStart; infer_instance

theorem in_start {w : World} (h : InStart w) : InStep 0 w := by
  obtain ⟨h1, h2, h3, h4, h5, h6, h7, h8, h9, h10, h11⟩ := h
  exact ⟨⟨h1, h2, h3, fun _ => h4, fun _ => by rw [if_pos rfl, h5, h6]; decide, fun h => absurd rfl h⟩, h7, h8, h9, h10, ⟨peer, true, h11⟩, by simp⟩

theorem stepData_arrives {i : Nat} {c : Bytes} (h1 : 0 < c.length) (h2 : c.length ≤ 1380) : Packet.tryFrom ((stepData i c).bytes.take 1520) = some (.ok (stepData i c)) := by
  have hp := stepData_piece (i := i) h1 h2
  rw [List.take_of_length_le (by rw [hp.len]; omega)]
  exact hp.plain.accepted

theorem stepData_pkt {s : Socket} (hs : s.receiverId = 8) {i : Nat} {c : Bytes} (h1 : 0 < c.length) (h2 : c.length ≤ 1380) : DataPkt s (BitVec.ofNat 16 (2 + i)) c (stepData i c) := by
  have hp := stepData_piece (i := i) h1 h2
  exact ⟨hp.plain.ty, hp.seq, hp.payload, .inr (by rw [hp.id, hs])⟩

/-- One round of the reader. -/
theorem in_round {cs : List Bytes} {is : Nat → Option Nat} {j : Nat} {w : World} (h : InStep j w) (hj : is j = some j) {c : Bytes} (hc : cs[j]? = some c) (h1 : 0 < c.length) (h2 : c.length ≤ 1380) :
    ∃ w', recvFrom (stepEnv (dataNet cs is)) 20 1380 w = (.ok (c, peer), w') ∧ InStep (j + 1) w' := by
  obtain ⟨E, hE⟩ : ∃ E, E = stepEnv (dataNet cs is) := ⟨_, rfl⟩
  rw [← hE]
  have hnow : ∀ n, E.now n = 0 := fun n => by rw [hE]; rfl
  have hgd : cs.getD j [] = c := by rw [List.getD_eq_getElem?_getD, hc]; rfl
  obtain ⟨w', g1, g2, g3, g4, g5, g6⟩ := read_one (E := E) (by rw [hE]; rfl) h.exp (stepData_pkt h.rid h1 h2) (b := (stepData j c).bytes) (src := peer)
    (by rw [hE, h.net]; show dataNet cs is j = _; unfold dataNet; rw [hj]; simp only [hgd]; rfl) (stepData_arrives h1 h2) (by rw [hE]; rfl) h2 (List.length_pos_iff.mp h1)
  have hr : ackReply E w (BitVec.ofNat 16 (2 + j)) (stepData j c) = stepAck j := by
    unfold ackReply Socket.prepareReply
    have : (stepData j c).timestamp = 0 := by
      rw [stepData, setTimestampDifference_timestamp]
      refine setTimestamp_timestamp ?_ _
      have := (stepData_piece (i := j) h1 h2).len
      simp [stepData] at this ⊢
      omega
    simp only [hnow, this, h.sid, h.seq]
    rfl
  have hpre : w.log <+: w'.log := by rw [g6]; exact List.prefix_append _ _
  refine ⟨w', g1 18, ?_, by rw [g3.1]; exact h.sid, by rw [g3.2]; exact h.rid, by rw [g5.seqNr]; exact h.seq, by rw [g4, h.net], Sent.grow h.first hpre, ?_⟩
  · rw [show 2 + (j + 1) = (2 + j) + 1 by omega, BitVec.ofNat_add (2 + j) 1]
    exact g2
  · intro i hi
    by_cases hij : i = j
    · subst hij
      refine ⟨peer, true, ?_⟩
      rw [g6, hr]
      simp
    · exact Sent.grow (h.sent i (by omega)) hpre

/-- All rounds of the reader. -/
theorem in_rounds {cs : List Bytes} {is : Nat → Option Nat} {w0 : World} (h0 : InStep 0 w0) (hcs : ∀ c ∈ cs, 0 < c.length ∧ c.length ≤ 1380) :
    ∀ n, n ≤ cs.length → (∀ i, i < n → is i = some i) → ∃ w, Reads (stepEnv (dataNet cs is)) w0 w (cs.take n).flatten ∧ InStep n w := by
  intro n
  induction n with
  | zero => intro _ _; exact ⟨w0, by simpa using Reads.refl, h0⟩
  | succ n ih =>
    intro hn hi
    obtain ⟨w, hx, h⟩ := ih (by omega) (fun i hi' => hi i (by omega))
    have hc : cs[n]? = some cs[n] := List.getElem?_eq_getElem (by omega)
    obtain ⟨g1, g2⟩ := hcs cs[n] (List.getElem_mem _)
    obtain ⟨w', e, h'⟩ := in_round h (hi n (by omega)) hc g1 g2
    have r : runOp (stepEnv (dataNet cs is)) 20 (.recvFrom 1380) w = (.ok (.bytes cs[n] peer), w') := by
      unfold runOp
      msimp
      rw [andThen_eq e]
      rfl
    have x := Reads.read 20 1380 hx (by decide) (by rw [r]; simp)
    rw [r] at x
    refine ⟨w', ?_, h'⟩
    rw [List.take_add_one, hc, List.flatten_append]
    simpa [Res.read] using x

theorem delivers_acks {N : Nat} {b : World} (h0 : ∃ dst, Sent b dst (dg .state 7 100 1 [] 0)) (h : ∀ i, i < N → ∃ dst, Sent b dst (stepAck i).bytes) : Delivers (stepEnv (acksNet N)) b := by
  rintro n d src hn
  replace hn : acksNet N n = .dgram d src := hn
  cases n with
  | zero =>
    obtain ⟨rfl, _⟩ := NetEvent.dgram.inj hn
    exact h0
  | succ i =>
    rw [acksNet] at hn
    split at hn
    · rename_i hi
      obtain ⟨rfl, _⟩ := NetEvent.dgram.inj hn
      exact h i hi
    · cases hn

theorem delivers_data {cs : List Bytes} {is : Nat → Option Nat} {a : World} (h : ∀ n i, is n = some i → ∃ dst, Sent a dst (stepData i (cs.getD i [])).bytes) : Delivers (stepEnv (dataNet cs is)) a := by
  rintro n d src hn
  replace hn : dataNet cs is n = .dgram d src := hn
  unfold dataNet at hn
  split at hn
  · rename_i i hi
    obtain ⟨rfl, _⟩ := NetEvent.dgram.inj hn
    exact h n i hi
  · cases hn

/-- The last two packets are sent without waiting for an acknowledgement. -/
theorem out_two {N : Nat} {cs : List Bytes} {j : Nat} {w : World} (h : OutStep cs j w) {c d : Bytes} (h1 : 0 < c.length) (h2 : c.length ≤ 1380) (h3 : 0 < d.length) (h4 : d.length ≤ 1380) :
    ∃ w1 w2, sendTo (stepEnv (acksNet N)) 20 c w = (.ok c.length, w1) ∧ w1.s.state = .connected ∧ sendTo (stepEnv (acksNet N)) 20 d w1 = (.ok d.length, w2) ∧
      w.log <+: w2.log ∧ (∃ dst, Sent w2 dst (stepData j c).bytes) ∧ (∃ dst, Sent w2 dst (stepData (j + 1) d).bytes) := by
  obtain ⟨E, hE⟩ : ∃ E, E = stepEnv (acksNet N) := ⟨_, rfl⟩
  rw [← hE]
  have one : (1 : U16).toNat = 1 := rfl
  have hnow : ∀ n, E.now n = 0 := fun n => by rw [hE]; rfl
  have hok : ∀ n, E.snd n = .ok := fun n => by rw [hE]; rfl
  have hnext : w.s.lastAcked + 1 = w.s.seqNr := by
    rw [h.acked, h.next, show 2 + j = (1 + j) + 1 by omega, BitVec.ofNat_add (1 + j) 1]
    rfl
  have hnext' : w.s.seqNr + 1 = BitVec.ofNat 16 (2 + (j + 1)) := by
    rw [h.next, show 2 + (j + 1) = (2 + j) + 1 by omega, BitVec.ofNat_add (2 + j) 1]
    rfl
  obtain ⟨p, hp, e1⟩ := send_one hok (w := w) (by rw [h.state]; simp) h.unsent h1 h2 (by rw [h.size]; simp) (near_next hnext) 18
  have hps : p = stepData j c := by
    rw [hp, stamped, hnow, h.delay]
    unfold dataPacket
    rw [h.next, h.ack, h.sid]
    rfl
  have hpl : p.len = 20 + c.length := by rw [hps]; exact (stepData_piece (i := j) h1 h2).len
  obtain ⟨w1, hw1⟩ : ∃ w1 : World, w1 = ⟨{ w.s with unsent := [], seqNr := w.s.seqNr + 1, currWindow := w.s.currWindow + BitVec.ofNat 32 p.len, sendWindow := w.s.sendWindow ++ [p] },
    w.nNow + 2, w.nRand, w.nNet, w.nSnd + 1, w.log ++ [.send w.s.connectedTo p.bytes true]⟩ := ⟨_, rfl⟩
  rw [← hw1] at e1
  have hs1 : w1.s.state = .connected := by rw [hw1]; exact h.state
  obtain ⟨q, hq, e2⟩ := send_one hok (w := w1) (buf := d) (by rw [hs1]; simp) (by rw [hw1]) h3 h4
    (by rw [hw1]; show (w.s.currWindow + _).toNat ≤ _; rw [h.size]; simp; omega) (by
      rw [hw1]
      unfold TooFar
      show ¬ _ < ((w.s.seqNr + 1) - w.s.lastAcked).toNat
      rw [← hnext]
      bv_omega) 18
  have hqs : q = stepData (j + 1) d := by
    rw [hq, stamped, hnow]
    have a1 : w1.s.theirDelay = 0 := by rw [hw1]; exact h.delay
    have a2 : w1.s.seqNr = BitVec.ofNat 16 (2 + (j + 1)) := by rw [hw1]; exact hnext'
    have a3 : w1.s.ackNr = 100 := by rw [hw1]; exact h.ack
    have a4 : w1.s.senderId = 8 := by rw [hw1]; exact h.sid
    rw [show (({ w1 with nNow := w1.nNow + 1 } : World)).s.theirDelay = 0 from a1]
    unfold dataPacket
    rw [a2, a3, a4]
    rfl
  refine ⟨w1, _, e1, hs1, e2, ?_, ⟨w.s.connectedTo, true, ?_⟩, ⟨w1.s.connectedTo, true, ?_⟩⟩
  · rw [hw1]; simp [List.append_assoc]
  · rw [hw1, ← hps]; simp
  · rw [← hqs]; simp

/-- One `send_to` that succeeds. -/
theorem exec_send {E : Env} {w0 w w1 : World} {cs : List Bytes} {c : Bytes} (hx : Exec E (fun op r => (op = .flush ∨ ∃ buf, op = .sendTo buf) ∧ SendsOk op r) w0 cs w)
    (hs : w.s.state = .connected) (e : sendTo E 20 c w = (.ok c.length, w1)) (h1 : 0 < c.length) (h2 : c.length ≤ 1380) :
    Exec E (fun op r => (op = .flush ∨ ∃ buf, op = .sendTo buf) ∧ SendsOk op r) w0 (cs ++ [c]) w1 := by
  have r1 : runOp E 20 (.sendTo c) w = (.ok (.count c.length), w1) := by
    unfold runOp
    msimp
    rw [andThen_eq e]
    rfl
  have x1 := Exec.op 20 (.sendTo c) [c] hx (by rw [r1]; simp) ⟨.inr ⟨_, rfl⟩, fun _ => ⟨_, by rw [r1]⟩⟩ (by
    simp only [Adds, if_neg (show w.s.state ≠ .closed by rw [hs]; simp)]
    exact ⟨by simp, by simpa using List.length_pos_iff.mp h1, by simpa using h2, by simp⟩)
  rw [r1] at x1
  exact x1

/-- `m` times the byte 1, and then the byte 2, each in a packet of its own. -/
def onesTwo (m : Nat) : List Bytes := List.replicate m [1] ++ [[2]]

theorem onesTwo_len (m : Nat) : ∀ c ∈ onesTwo m, 0 < c.length ∧ c.length ≤ 1380 := by
  intro c hc
  simp only [onesTwo, List.mem_append, List.mem_replicate, List.mem_singleton] at hc
  rcases hc with ⟨_, rfl⟩ | rfl <;> simp

theorem onesTwo_one {m i : Nat} (h : i < m) : (onesTwo m)[i]? = some [1] := by
  simp [onesTwo, List.getElem?_append, h]

theorem onesTwo_two (m : Nat) : (onesTwo m)[m]? = some [2] := by
  simp [onesTwo]

theorem ones_flatten (m : Nat) : (List.replicate m ([1] : Bytes)).flatten = List.replicate m 1 := by
  induction m with
  | zero => rfl
  | succ m ih => rw [List.replicate_succ, List.flatten_cons, ih]; rfl

theorem onesTwo_take {m n : Nat} (h : n ≤ m) : ((onesTwo m).take n).flatten = List.replicate n 1 := by
  rw [onesTwo, List.take_append_of_le_length (by simpa using h), List.take_replicate, Nat.min_eq_left h, ones_flatten]

/-- The packets numbered 65535 and 0 change places. -/
def swapped (n : Nat) : Option Nat :=
  if n < 65533 then some n else if n = 65533 then some 65534 else if n = 65534 then some 65533 else none

/-- The accepted socket. -/
def stepReader (E : Env) : World := acceptWorld (accept E 1 (arr theSyn) (.ok here))

/-- C47 is false for 65535 packets: when the packets numbered 65535 and 0 change places, the second one is delivered in the place of the first. -/
theorem C47_counterexample_wrap : ∃ A B cs a b bs, Session A B SendsOk cs a b bs ∧ (∀ n, B.snd n = .ok) ∧ cs.length = 65535 ∧ ¬ bs <+: cs.flatten := by
  obtain ⟨cs, hcs⟩ : ∃ cs, cs = onesTwo 65534 := ⟨_, rfl⟩
  have hlen : cs.length = 65535 := by rw [hcs]; simp only [onesTwo, List.length_append, List.length_replicate, List.length_singleton]
  have hsz : ∀ c ∈ cs, 0 < c.length ∧ c.length ≤ 1380 := by rw [hcs]; exact onesTwo_len _
  have c1 : cs[65533]? = some [1] := by rw [hcs]; exact onesTwo_one (by omega)
  have c2 : cs[65534]? = some [2] := by rw [hcs]; exact onesTwo_two _
  have htake : (cs.take 65533).flatten = List.replicate 65533 1 := by rw [hcs]; exact onesTwo_take (by omega)
  have hall : cs = cs.take 65533 ++ [[1]] ++ [[2]] := by
    have e1 : cs.take 65534 = cs.take 65533 ++ [[1]] := by rw [List.take_add_one, c1]; rfl
    have e2 : cs.take 65535 = cs.take 65534 ++ [[2]] := by rw [List.take_add_one, c2]; rfl
    rw [← e1, ← e2, List.take_of_length_le (by omega)]
  -- the sender
  have hconn : connect (stepEnv (acksNet 65533)) 20 (.ok [peer]) (.ok here) = .ok (.ok (), client (stepEnv (acksNet 65533))) := connect_client [] (by decide +kernel)
  have hout : OutStart (client (stepEnv (acksNet 65533))) := by decide +kernel
  obtain ⟨w, hx, hw⟩ := out_rounds (N := 65533) (out_start hout cs) hsz 65533 (by omega) (by omega)
  obtain ⟨w1, a, e1, hs1, e2, hpre, s1, s2⟩ := out_two (N := 65533) hw (c := [1]) (d := [2]) (by simp) (by simp) (by simp) (by simp)
  have hx1 := exec_send hx hw.state e1 (by simp) (by simp)
  have hx2 := exec_send hx1 hs1 e2 (by simp) (by simp)
  rw [← hall] at hx2
  -- the reader
  have hacc : accept (stepEnv (dataNet (onesTwo 65534) swapped)) 1 (arr theSyn) (.ok here) = .made (.ok ()) (stepReader (stepEnv (dataNet (onesTwo 65534) swapped))) peer := by decide +kernel
  have hin : InStart (stepReader (stepEnv (dataNet (onesTwo 65534) swapped))) := by decide +kernel
  rw [← hcs] at hacc hin
  have hsw : ∀ i, i < 65533 → swapped i = some i := fun i hi => by unfold swapped; rw [if_pos hi]
  have d1 : swapped 65533 = some 65534 := by unfold swapped; rw [if_neg (by omega), if_pos rfl]
  have d2 : swapped 65534 = some 65533 := by unfold swapped; rw [if_neg (by omega), if_neg (by omega), if_pos rfl]
  obtain ⟨v, hr, hv⟩ := in_rounds (in_start hin) hsz 65533 (by omega) hsw
  obtain ⟨E, hE⟩ : ∃ E, E = stepEnv (dataNet cs swapped) := ⟨_, rfl⟩
  rw [← hE] at hr hacc
  have hexp : Expects v.s true 65535 [] := hv.exp
  have g1 : cs.getD 65533 [] = [1] := by rw [List.getD_eq_getElem?_getD, c1]; rfl
  have g2 : cs.getD 65534 [] = [2] := by rw [List.getD_eq_getElem?_getD, c2]; rfl
  obtain ⟨b, hb1, hb2⟩ := read_swapped (E := E) (by rw [hE]; rfl) (fun n => by rw [hE]; rfl) (w := v) (p := stepData 65533 [1]) (q := stepData 65534 [2]) (c := [1]) (d := [2]) hexp
    (stepData_pkt (i := 65533) (c := [1]) hv.rid (by simp) (by simp)) (stepData_pkt (i := 65534) (c := [2]) hv.rid (by simp) (by simp)) (b := (stepData 65534 [2]).bytes) (src := peer) (b' := (stepData 65533 [1]).bytes) (src' := peer)
    (by rw [hE, hv.net]; show dataNet cs swapped 65533 = _; unfold dataNet; rw [d1]; simp only [g2]; rfl) (stepData_arrives (by simp) (by simp))
    (by rw [hE, hv.net]; show dataNet cs swapped 65534 = _; unfold dataNet; rw [d2]; simp only [g1]; rfl) (stepData_arrives (by simp) (by simp)) (len := 1380) (by simp) (by simp)
  have r : runOp E 20 (.recvFrom 1380) v = (.ok (.bytes [2] peer), b) := by
    unfold runOp
    msimp
    rw [andThen_eq (hb1 18)]
    rfl
  have x := Reads.read 20 1380 hr (by decide) (by rw [r]; simp)
  rw [r, htake] at x
  simp only [Res.read] at x
  obtain ⟨dst, hsyn⟩ := Sent.grow hw.syn hpre
  refine ⟨stepEnv (acksNet 65533), E, cs, a, b, _, ⟨⟨20, .ok [peer], .ok here, _, _, hconn, hx2, .refl⟩, ⟨theSyn, dst, ⟨1, peer, .ok here, _, hacc, x⟩, hsyn⟩, ?_, ?_⟩,
    fun n => by rw [hE]; rfl, hlen, ?_⟩
  · exact delivers_acks (Sent.grow hv.first hb2) fun i hi => Sent.grow (hv.sent i hi) hb2
  · rw [hE]
    refine delivers_data fun n i hn => ?_
    unfold swapped at hn
    split at hn
    · rename_i h
      obtain rfl := Option.some.inj hn
      have hc : cs[n]? = some cs[n] := List.getElem?_eq_getElem (by omega)
      rw [List.getD_eq_getElem?_getD, hc]
      exact Sent.grow (hw.sent n _ h hc) hpre
    · split at hn
      · obtain rfl := Option.some.inj hn
        rw [g2]
        exact s2
      · split at hn
        · obtain rfl := Option.some.inj hn
          rw [g1]
          exact s1
        · cases hn
  · rw [hall, List.flatten_append, List.flatten_append, htake, List.append_assoc, List.prefix_append_right_inj]
    decide

/-- C48 is false for 65537 packets: the acknowledgement of the first packet, repeated by the network, is taken for the acknowledgement of the packet with the same number. -/
theorem C48_counterexample_wrap : ∃ A B cs a a' b bs fuel, Session A B SendsOk cs a b bs ∧ (∀ n, B.snd n = .ok) ∧ cs.length = 65537 ∧
    runOp A fuel .flush a = (.ok .unit, a') ∧ cs[65536]? = some [2] ∧ ∀ pkt src, Received B b pkt src → pkt.payload ≠ some [2] := by
  obtain ⟨cs, hcs⟩ : ∃ cs, cs = onesTwo 65536 := ⟨_, rfl⟩
  have hlen : cs.length = 65537 := by rw [hcs]; simp only [onesTwo, List.length_append, List.length_replicate, List.length_singleton]
  have hsz : ∀ c ∈ cs, 0 < c.length ∧ c.length ≤ 1380 := by rw [hcs]; exact onesTwo_len _
  have c1 : ∀ i, i < 65536 → cs[i]? = some [1] := fun i hi => by rw [hcs]; exact onesTwo_one hi
  have c2 : cs[65536]? = some [2] := by rw [hcs]; exact onesTwo_two _
  -- the sender
  have hconn : connect (stepEnv (acksNet 65537)) 20 (.ok [peer]) (.ok here) = .ok (.ok (), client (stepEnv (acksNet 65537))) := connect_client [] (by decide +kernel)
  have hout : OutStart (client (stepEnv (acksNet 65537))) := by decide +kernel
  obtain ⟨a, hx, hw⟩ := out_rounds (N := 65537) (out_start hout cs) hsz 65537 (by omega) (by omega)
  rw [List.take_of_length_le (by omega)] at hx
  -- the reader
  have hacc : accept (stepEnv (dataNet (onesTwo 65536) fun i => if i < 65536 then some i else none)) 1 (arr theSyn) (.ok here) =
    .made (.ok ()) (stepReader (stepEnv (dataNet (onesTwo 65536) fun i => if i < 65536 then some i else none))) peer := by decide +kernel
  have hin : InStart (stepReader (stepEnv (dataNet (onesTwo 65536) fun i => if i < 65536 then some i else none))) := by decide +kernel
  rw [← hcs] at hacc hin
  obtain ⟨is, his⟩ : ∃ is : Nat → Option Nat, is = fun i => if i < 65536 then some i else none := ⟨_, rfl⟩
  rw [← his] at hacc hin
  obtain ⟨b, hr, hv⟩ := in_rounds (is := is) (in_start hin) hsz 65536 (by omega) (fun i hi => by rw [his]; exact if_pos hi)
  obtain ⟨dst, hsyn⟩ := hw.syn
  have hrange : ∀ n i, is n = some i → i = n ∧ n < 65536 := by
    intro n i hi
    rw [his] at hi
    simp only at hi
    split at hi
    · exact ⟨(Option.some.inj hi).symm, by assumption⟩
    · cases hi
  refine ⟨stepEnv (acksNet 65537), stepEnv (dataNet cs is), cs, a, a, b, _, 20,
    ⟨⟨20, .ok [peer], .ok here, _, _, hconn, hx, .refl⟩, ⟨theSyn, dst, ⟨1, peer, .ok here, _, hacc, hr⟩, hsyn⟩, ?_, ?_⟩, fun n => rfl, hlen, ?_, c2, ?_⟩
  · refine delivers_acks hv.first fun i hi => ?_
    by_cases h : i = 65536
    · have : stepAck i = stepAck 0 := by rw [h]; rfl
      rw [this]
      exact hv.sent 0 (by omega)
    · exact hv.sent i (by omega)
  · refine delivers_data fun n i hi => ?_
    obtain ⟨rfl, h⟩ := hrange n i hi
    rw [List.getD_eq_getElem?_getD, c1 i h]
    exact hw.sent i _ (by omega) (c1 i h)
  · unfold runOp flush
    msimp
    rw [whileM]
    msimp
    simp only [hw.window]
    rfl
  · rintro pkt src ⟨n, d, k, _, hk, hd, hp⟩
    replace hd : dataNet cs is n = .dgram d src := hd
    unfold dataNet at hd
    split at hd
    · rename_i i hi
      obtain ⟨rfl, h⟩ := hrange n i hi
      rw [List.getD_eq_getElem?_getD, c1 i h] at hd
      obtain ⟨rfl, _⟩ := NetEvent.dgram.inj hd
      have hpc := stepData_piece (i := i) (c := [1]) (by simp) (by simp)
      have hl : (stepData i [1]).bytes.length = 21 := hpc.len
      rw [show ((stepData i ((some [1]).getD [])).bytes) = (stepData i [1]).bytes from rfl, List.take_of_length_le (by omega), hpc.plain.accepted] at hp
      obtain rfl := Except.ok.inj (Option.some.inj hp)
      rw [hpc.payload]
      decide
    · cases hd

end Utp
