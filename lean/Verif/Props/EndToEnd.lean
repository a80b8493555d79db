import Verif.Lemmas.EndToEnd
import Verif.Samples
/-!
# C47, C48: two sockets and the network between them
-/

namespace Utp
open M

variable {A B : Env} {P : Op → Res Out → Prop}

theorem two_add (i : Nat) : (2 : U16) + BitVec.ofNat 16 i = BitVec.ofNat 16 (2 + i) := by
  apply BitVec.eq_of_toNat_eq
  have h2 : (2 : U16).toNat = 2 := rfl
  simp only [BitVec.toNat_add, BitVec.toNat_ofNat, h2]
  omega

/-- The reader only gets what the sender sent. -/
theorem Joined.fromPeer {cs : List Bytes} {a b : World} {bs : Bytes} {a0 b0 : World} (h : Joined A B P cs a b bs a0 b0) (hB : Delivers B a)
    {n k : Nat} {d : Bytes} {src : Addr} {p : Packet} (hn : B.net n = .dgram d src) (hk : 1400 ≤ k) (hp : Packet.tryFrom (d.take k) = some (.ok p)) :
    FromPeer b0.s 2 cs p := by
  obtain ⟨dst, hs⟩ := hB n d src hn
  cases h.sent dst d hs with
  | first hsyn =>
    obtain ⟨⟨q, hq, h1, h2, _⟩, hlen⟩ := hsyn
    rw [List.take_of_length_le (by omega), hq] at hp
    cases hp
    exact .syn h1 (by rw [h2]; rfl) (by rw [h2]; decide)
  | data q hd hpl hca =>
    obtain ⟨i, c, g1, g2, g3, g4, g5⟩ := hca
    have hb := (exec_pieces h.exec c (List.mem_of_getElem? g1)).2
    rw [hd, List.take_of_length_le (by omega), hpl.accepted] at hp
    cases hp
    exact .data g1 ⟨hpl.ty, by rw [g2, two_add], g3, .inr (by rw [g4, h.bIds.2])⟩
  | fin q _ hd hpl hseq hid =>
    obtain ⟨g1, g2, g3, _⟩ := decoded_header (by omega) hd hp
    exact .fin (by rw [g1, hpl.ty]) (by rw [g3, hseq, two_add]) (.inr (by rw [g2, hid, h.bIds.2]))

theorem Joined.peerNet {cs : List Bytes} {a b : World} {bs : Bytes} {a0 b0 : World} (h : Joined A B P cs a b bs a0 b0) (hB : Delivers B a) :
    PeerNet B b0.s 2 cs := fun _ _ _ _ hn hp => h.fromPeer hB hn (by omega) hp

/-- **C47.**  The bytes read are a prefix of the bytes sent, for a connection between a socket that connects, sends and closes and a socket that
is accepted and reads, over a network that does not forge datagrams.

Partial: at most 65533 packets (the numbers do not wrap around), and the replies of the reader are taken by its operating system;
without the latter it is false (`C47_counterexample`). -/
theorem C47_partial {cs : List Bytes} {a b : World} {bs : Bytes} (h : Session A B P cs a b bs) (hn : cs.length ≤ 65533) (hok : ∀ n, B.snd n = .ok) :
    bs <+: cs.flatten := by
  obtain ⟨a0, b0, hj⟩ := h.joined
  have hone : b0.s.lastDropped.toNat + 1 = 2 := by rw [hj.bAck.2]; rfl
  exact C24_partial (by omega) (fun c hc => (exec_pieces hj.exec c hc).1) hj.bState hj.bEmpty.1 hj.bEmpty.2.1 (by rw [hj.bAck.1, hj.bAck.2])
    (by rw [hone]; exact hj.peerNet h.toReceiver) hok hj.reads

/-! ### C48 -/

/-- The piece number `i` of a stream numbered from `b` has arrived. -/
def PieceArrived (E : Env) (b : Nat) (cs : List Bytes) (w : World) (i : Nat) : Prop :=
  ∃ c pkt src, cs[i]? = some c ∧ Received E w pkt src ∧ pkt.getType = some .data ∧ pkt.seqNr = BitVec.ofNat 16 (b + i) ∧ pkt.payload = some c

/-- All pieces with numbers up to `v` have arrived, except perhaps the first `l` ones. -/
def Got (E : Env) (l b : Nat) (cs : List Bytes) (w : World) (v : Nat) : Prop := ∀ i, l ≤ i → i < cs.length → b + i ≤ v → PieceArrived E b cs w i

/-- The acknowledgement number is honest, and will be after the packet that is being read. -/
structure AckOk (E : Env) (l b : Nat) (cs : List Bytes) (w : World) : Prop where
  lo : b + l ≤ w.s.ackNr.toNat + 1
  got : Got E l b cs w w.s.ackNr.toNat
  inc : ∀ p ∈ w.s.incoming, ∃ i, i < cs.length ∧ p.seqNr.toNat = b + i ∧ PieceArrived E b cs w i
  pend : w.s.pending ≠ [] → ∃ p rest, w.s.incoming = p :: rest ∧ Got E l b cs w p.seqNr.toNat

theorem PieceArrived.later {E : Env} {b : Nat} {cs : List Bytes} {w w' : World} {i : Nat} (h : PieceArrived E b cs w i) (hn : w.nNet ≤ w'.nNet) : PieceArrived E b cs w' i := by
  obtain ⟨c, pkt, src, h1, ⟨k, d, n, h2, h3⟩, h4⟩ := h
  exact ⟨c, pkt, src, h1, ⟨k, d, n, by omega, h3⟩, h4⟩

theorem Got.later {E : Env} {l b : Nat} {cs : List Bytes} {w w' : World} {v : Nat} (h : Got E l b cs w v) (hn : w.nNet ≤ w'.nNet) : Got E l b cs w' v :=
  fun i hl hi hv => (h i hl hi hv).later hn

theorem AckOk.same {E : Env} {l b : Nat} {cs : List Bytes} {w w' : World} (h : AckOk E l b cs w) (h1 : w'.s.ackNr = w.s.ackNr) (h2 : w'.s.incoming = w.s.incoming)
    (h3 : w'.s.pending = w.s.pending) (hn : w.nNet ≤ w'.nNet) : AckOk E l b cs w' := by
  refine ⟨by rw [h1]; exact h.lo, by rw [h1]; exact h.got.later hn, ?_, ?_⟩
  · rw [h2]
    intro p hp
    obtain ⟨i, g1, g2, g3⟩ := h.inc p hp
    exact ⟨i, g1, g2, g3.later hn⟩
  · rw [h3, h2]
    intro hp
    obtain ⟨p, rest, g1, g2⟩ := h.pend hp
    exact ⟨p, rest, g1, g2.later hn⟩

/-- The first packet after an insertion has no larger number than the first packet before. -/
theorem insertPkt_head {q p : Packet} {rest : List Packet} :
    ∃ q' rest', Socket.insertPkt (q :: rest) p = q' :: rest' ∧ q'.seqNr.toNat ≤ q.seqNr.toNat ∧ (q' = q ∨ q' = p) := by
  have hidx : ∀ i, (i = 0 → p.seqNr.toNat ≤ q.seqNr.toNat) →
      ∃ q' rest', (q :: rest).insertIdx i p = q' :: rest' ∧ q'.seqNr.toNat ≤ q.seqNr.toNat ∧ (q' = q ∨ q' = p) := by
    intro i hi
    cases i with
    | zero => exact ⟨p, q :: rest, rfl, hi rfl, .inr rfl⟩
    | succ i => exact ⟨q, rest.insertIdx i p, by rw [List.insertIdx_succ_cons], Nat.le_refl _, .inl rfl⟩
  have hzero : (List.filter (fun x => decide (x.seqNr < p.seqNr)) (q :: rest)).length = 0 → p.seqNr.toNat ≤ q.seqNr.toNat := by
    intro h
    have := List.filter_eq_nil_iff.mp (List.length_eq_zero_iff.mp h) q (by simp)
    simp only [decide_eq_true_eq, BitVec.lt_def] at this
    omega
  unfold Socket.insertPkt
  split
  · exact ⟨q, rest ++ [p], rfl, Nat.le_refl _, .inl rfl⟩
  · simp only
    split
    · split
      · exact hidx _ hzero
      · exact ⟨q, rest, rfl, Nat.le_refl _, .inl rfl⟩
    · exact hidx _ hzero

/-- The socket acknowledges only what has arrived. -/
theorem AckOk.step {E : Env} {V : Ctx} {l b : Nat} {cs : List Bytes} {s0 : Socket} (hb : 1 ≤ b) (hl : l ≤ 1) (hN : b + cs.length ≤ 65535)
    {w w' : World} (hs : Step E V w w') (he : Established w) (hin : ∀ pkt src, Received E w pkt src → FromPeer s0 b cs pkt ∨ 1 ≤ l ∧ SynAnswer s0 b pkt)
    (h : AckOk E l b cs w) : AckOk E l b cs w' := by
  have hnew : ∀ {pkt src}, Received E w pkt src → pkt.getType = some .data → ∃ i, i < cs.length ∧ pkt.seqNr.toNat = b + i ∧ PieceArrived E b cs w i := by
    intro pkt src hg ht
    cases (hin pkt src hg).resolve_right fun h => by have := h.2.ty; rw [ht] at this; simp at this with
    | data hc hd =>
      rename_i i c
      have hi := (List.getElem?_eq_some_iff.mp hc).1
      exact ⟨i, hi, by rw [hd.seq, BitVec.toNat_ofNat]; omega, c, pkt, src, hc, hg, ht, hd.seq, hd.payload⟩
    | fin h => rw [ht] at h; simp at h
    | syn h => rw [ht] at h; simp at h
  have hnext : ∀ {p : Packet} {i : Nat}, i < cs.length → p.seqNr.toNat = b + i → PieceArrived E b cs w i →
      (w.s.ackNr = p.seqNr ∨ w.s.ackNr + 1 = p.seqNr) → Got E l b cs w p.seqNr.toNat := by
    intro p i hi hp ha hq j hjl hj hv
    rcases hq with hq | hq
    · exact h.got j hjl hj (by rw [hq]; exact hv)
    · by_cases hji : j = i
      · subst hji; exact ha
      · refine h.got j hjl hj ?_
        have h' : p.seqNr.toNat = (w.s.ackNr.toNat + 1) % 65536 := by rw [← hq, BitVec.toNat_add]; rfl
        have := w.s.ackNr.isLt
        omega
  cases hs with
  | wait => exact h.same rfl rfl rfl (by simp)
  | arrive pkt src hg =>
    by_cases hq : pkt.seqNr = w.s.ackNr + 1
    · rw [bumpAck_of_eq hq]
      have h' : pkt.seqNr.toNat = (w.s.ackNr.toNat + 1) % 65536 := by rw [hq, BitVec.toNat_add]; rfl
      have hlt := w.s.ackNr.isLt
      have hlo := h.lo
      have hfp := (hin pkt src hg).resolve_right fun ⟨h1, h2⟩ => by have := h2.seq; omega
      refine ⟨?_, ?_, h.inc, h.pend⟩
      · simp only [setS_s]
        cases hfp with
        | data hc hd =>
          rename_i i c
          have hi := (List.getElem?_eq_some_iff.mp hc).1
          rw [hd.seq, BitVec.toNat_ofNat]
          omega
        | fin _ hd =>
          rw [hd, BitVec.toNat_ofNat]
          omega
        | syn _ hd h0 =>
          have : pkt.seqNr.toNat ≠ 0 := fun h => h0 (BitVec.eq_of_toNat_eq h)
          omega
      · intro j hjl hj hv
        simp only [setS_s] at hv
        by_cases hle : b + j ≤ w.s.ackNr.toNat
        · exact h.got j hjl hj hle
        · cases hfp with
          | data hc hd =>
            rename_i i c
            have hi := (List.getElem?_eq_some_iff.mp hc).1
            have hij : i = j := by
              have : pkt.seqNr.toNat = b + i := by rw [hd.seq, BitVec.toNat_ofNat]; omega
              omega
            subst hij
            exact ⟨c, pkt, src, hc, hg, hd.ty, hd.seq, hd.payload⟩
          | fin _ hd =>
            have : pkt.seqNr.toNat = b + cs.length := by rw [hd, BitVec.toNat_ofNat]; omega
            omega
          | syn _ hd => omega
    · rw [bumpAck_of_ne hq]; exact h
  | syn pkt src r _ _ hst => exact absurd hst he.1
  | synAck pkt src t _ _ hst => exact absurd hst he.2
  | measure pkt src i p t s' _ _ _ _ _ _ hm =>
    obtain ⟨_, _, _, _, _, _, _, rfl⟩ := onNewAck_shape hm
    exact h.same rfl rfl rfl (Nat.le_refl _)
  | advance s' _ hm =>
    obtain ⟨_, _, rfl⟩ := advanceSendWindow_shape hm
    exact h.same rfl rfl rfl (Nat.le_refl _)
  | insert pkt src hg ht _ =>
    have hw : w.nNet ≤ (w.setS (w.s.insertIntoBuffer pkt)).nNet := Nat.le_refl _
    refine ⟨h.lo, h.got, ?_, ?_⟩
    · intro p hp
      simp only [setS_s, Socket.insertIntoBuffer] at hp
      rcases mem_insertPkt hp with hp | rfl
      · exact h.inc p hp
      · exact hnew hg ht
    · intro hp
      obtain ⟨q, rest, g1, g2⟩ := h.pend hp
      obtain ⟨q', rest', k1, k2, _⟩ := insertPkt_head (q := q) (p := pkt) (rest := rest)
      refine ⟨q', rest', ?_, fun j hjl hj hv => g2 j hjl hj (by omega)⟩
      simp only [setS_s, Socket.insertIntoBuffer, g1, k1]
  | deliverPending len hp =>
    obtain ⟨q, rest, g1, g2⟩ := h.pend hp
    unfold Socket.takePending
    simp only
    split
    · obtain ⟨i, i1, i2, i3⟩ := h.inc q (by simp [g1])
      simp only [Socket.advanceIncoming, g1]
      exact ⟨by simp only [setS_s]; omega, g2, fun p hp => h.inc p (by rw [g1]; exact List.mem_cons_of_mem _ hp), by simp⟩
    · exact ⟨h.lo, h.got, h.inc, fun _ => ⟨q, rest, g1, g2⟩⟩
  | deliverHead p rest pl len hp hi hq _ =>
    obtain ⟨i, i1, i2, i3⟩ := h.inc p (by simp [hi])
    have hgot := hnext i1 i2 i3 hq
    unfold Socket.takeHead
    split
    · simp only [Socket.advanceIncoming, hi]
      exact ⟨by simp only [setS_s]; omega, hgot, fun p hp => h.inc p (by rw [hi]; exact List.mem_cons_of_mem _ hp), fun hne => absurd hp hne⟩
    · exact ⟨h.lo, h.got, h.inc, fun _ => ⟨p, rest, hi, hgot⟩⟩
  | _ => exact h.same rfl rfl rfl (Nat.le_refl _)

theorem AckOk.steps {E : Env} {V : Ctx} {l b : Nat} {cs : List Bytes} {s0 : Socket} (hb : 1 ≤ b) (hl : l ≤ 1) (hN : b + cs.length ≤ 65535)
    (hin : ∀ w pkt src, Received E w pkt src → FromPeer s0 b cs pkt ∨ 1 ≤ l ∧ SynAnswer s0 b pkt)
    {w w' : World} (hs : Steps E V w w') (he : Established w) (h : AckOk E l b cs w) : AckOk E l b cs w' := by
  induction hs with
  | refl => exact h
  | tail h1 h2 ih => exact ih.step hb hl hN h2 (he.steps h1) (hin _)

/-- An acknowledgement of the piece number `j` means that all pieces up to it have arrived. -/
theorem Joined.honest {cs : List Bytes} {a b : World} {bs : Bytes} {a0 b0 : World} (hj : Joined A B P cs a b bs a0 b0) (hA : Delivers A b) (hB : Delivers B a)
    (hn : cs.length ≤ 65533) {pkt : Packet} {src : Addr} (hrec : Received A a pkt src) {j : Nat} (hjl : j < cs.length) (hack : pkt.ackNr = 2 + BitVec.ofNat 16 j) :
    ∀ i c, i ≤ j → cs[i]? = some c →
      ∃ pkt src, Received B b pkt src ∧ pkt.getType = some .data ∧ pkt.seqNr = BitVec.ofNat 16 (2 + i) ∧ pkt.payload = some c := by
  intro i c hij hic
  obtain ⟨k, d', n, _, hk, hnet, hp⟩ := hrec
  have hk' : 20 ≤ n := by rcases hk with rfl | rfl <;> omega
  rw [two_add] at hack
  have hbe : Established b0 := ⟨by simp [hj.bState], by simp [hj.bState]⟩
  have hbi : Inv readCtx b0 := ⟨by simp [hj.bEmpty.2.2.1], by simp [hj.bEmpty.2.2.2], by simp [hj.bEmpty.2.1], .inl trivial⟩
  have hsteps := reads_steps hbi hj.reads
  have hack0 : AckOk B 0 2 cs b0 := by
    have h1 : b0.s.ackNr.toNat = 1 := by rw [hj.bAck.1]; rfl
    exact ⟨by omega, fun i _ _ hv => by omega, by simp [hj.bEmpty.2.1], fun h => absurd hj.bEmpty.1 h⟩
  obtain ⟨dst', hs⟩ := hA k d' src hnet
  have hgot : Got B 0 2 cs b (2 + j) := by
    have hv : ∀ {p : Packet} {v : World}, d' = p.bytes → p.ackNr = v.s.ackNr → v.s.ackNr.toNat = 2 + j := by
      intro p v h1 h2
      rw [← h2, ← (decoded_header hk' h1 hp).2.2.2, hack, BitVec.toNat_ofNat]
      omega
    rcases reader_sent hsteps hbe (by simp [hj.bState]) hs with h | ⟨v, p, g1, g2, g3, g4, g5, g6⟩
    · obtain ⟨p, g1, g2, g3, g4⟩ := hj.bSent _ _ h
      have := hv (v := b0) g1 (by rw [g4, hj.bAck.1])
      rw [hj.bAck.1] at this
      have h1 : (1 : U16).toNat = 1 := rfl
      omega
    · have hav := AckOk.steps (s0 := b0.s) (by omega) (by omega) (by omega) (fun w pkt src ⟨k, d, n, _, hn, hk, hp⟩ =>
        .inl (hj.fromPeer hB hk (by rcases hn with rfl | rfl <;> omega) hp)) g1 hbe hack0
      have := hav.got
      rw [hv g3 g6] at this
      exact this.later g2.nNet
  obtain ⟨c', pkt', src', h1, h2, h3, h4, h5⟩ := hgot i (by omega) (by omega) (by omega)
  rw [hic] at h1
  cases h1
  exact ⟨pkt', src', h2, h3, h4, h5⟩

/-! The last packet that became outstanding, when calls of `send_to` may fail. -/

/-- The last packet that became outstanding has the number `n`; or `n` was acknowledged. -/
def Last (E : Env) (n : U16) (w : World) : Prop :=
  (∃ pre p, w.s.sendWindow = pre ++ [p] ∧ p.seqNr = n) ∨ ∃ pkt src, Received E w pkt src ∧ pkt.getType = some .state ∧ pkt.ackNr = n

theorem Last.step {E : Env} {V : Ctx} (hq : ¬ V.que) {n : U16} {a b : World} (hs : Step E V a b) (h : Last E n a) : Last E n b := by
  have hnet := step_nNet hs
  rcases h with ⟨pre, p, h1, h2⟩ | ⟨pkt, src, h1, h2⟩
  · rcases step_window_inner hs with hw | ⟨q, rest, t, g1, g2⟩ | ⟨_, hqq, _⟩ | ⟨pre', q, pkt, src, g1, g2, g3, g4, g5⟩
    · exact .inl ⟨pre, p, by rw [hw, h1], h2⟩
    · left
      rw [h1] at g1
      cases pre with
      | nil =>
        simp only [List.nil_append, List.cons.injEq] at g1
        exact ⟨[], q.setTimestamp t, by rw [g2, ← g1.2]; rfl, by rw [setTimestamp_seqNr, ← g1.1, h2]⟩
      | cons x pre =>
        simp only [List.cons_append, List.cons.injEq] at g1
        exact ⟨q.setTimestamp t :: pre, p, by rw [g2, ← g1.2]; rfl, h2⟩
    · exact absurd hqq hq
    · rcases List.eq_nil_or_concat b.s.sendWindow with hb | ⟨l, x, hb⟩
      · rw [hb, h1] at g1
        have := (List.append_inj' g1 rfl).2
        simp only [List.cons.injEq, and_true] at this
        subst this
        exact .inr ⟨pkt, src, g3.mono hnet, g4, g5.trans h2⟩
      · rw [List.concat_eq_append] at hb
        left
        rw [hb, h1] at g1
        have e : pre' ++ q :: (l ++ [x]) = (pre' ++ q :: l) ++ [x] := by simp
        rw [e] at g1
        have := (List.append_inj' g1 rfl).2
        simp only [List.cons.injEq, and_true] at this
        exact ⟨l, x, hb, this ▸ h2⟩
  · exact .inr ⟨pkt, src, h1.mono hnet, h2⟩

theorem Last.steps {E : Env} {V : Ctx} (hq : ¬ V.que) {n : U16} {a b : World} (hs : Steps E V a b) (h : Last E n a) : Last E n b := by
  induction hs with
  | refl => exact h
  | tail _ h2 ih => exact ih.step hq h2

/-- The queue consists of the last pieces of `N`. -/
structure Tail (base : U16) (N : Nat) (u : List Packet) : Prop where
  len : u.length ≤ N
  num : ∀ i p, u[i]? = some p → p.seqNr = base + BitVec.ofNat 16 (N - u.length + i)

theorem Tail.rest {base : U16} {N : Nat} {p : Packet} {u : List Packet} (h : Tail base N (p :: u)) :
    Tail base N u ∧ u.length < N ∧ p.seqNr = base + BitVec.ofNat 16 (N - (u.length + 1)) := by
  have hl := h.len
  rw [List.length_cons] at hl
  refine ⟨⟨by omega, fun i q hq => ?_⟩, by omega, h.num 0 p rfl⟩
  have := h.num (i + 1) q (by simpa using hq)
  rw [List.length_cons] at this
  rw [this]
  congr 2
  omega

/-- Of `N` pieces, one with a number `k` or more was the last to become outstanding, or was acknowledged. -/
def Sofar (E : Env) (base : U16) (k N : Nat) (w : World) : Prop := ∃ j, k ≤ j + 1 ∧ j < N ∧ Last E (base + BitVec.ofNat 16 j) w

theorem trace_last {E : Env} {base : U16} {N : Nat} {w w' : World} {r : Res Unit} (h : SendTrace E (Steps E .inner) w r w') (ht : Tail base N w.s.unsent) :
    Tail base N w'.s.unsent ∧ w'.s.unsent.length ≤ w.s.unsent.length ∧
      (∀ k, k + w.s.unsent.length ≤ N → Sofar E base k N w → Sofar E base k N w') ∧
      (r = .ok () → w'.s.unsent = [] ∧ (w.s.unsent ≠ [] → Sofar E base N N w')) := by
  have push : ∀ {w w1 w2 : World} {p q : Packet} {rest : List Packet}, w.s.unsent = p :: rest → Tail base N w.s.unsent →
      Steps E .inner (w.setS { w.s with unsent := rest }) w1 → q.seqNr = p.seqNr →
      w2.s = { w1.s with currWindow := w1.s.currWindow + BitVec.ofNat 32 q.bytes.length, sendWindow := w1.s.sendWindow ++ [q] } →
      w2.s.unsent = rest ∧ Tail base N rest ∧ ∀ k, k + w.s.unsent.length ≤ N + 1 → Sofar E base k N w2 := by
    intro w w1 w2 p q rest hu ht hs hpq h2
    rw [hu] at ht
    obtain ⟨t1, t2, t3⟩ := ht.rest
    have hun := hs.lift (R := fun a b => b.s.unsent = a.s.unsent) (fun _ => rfl) (fun _ _ _ h h' => h'.trans h) (fun _ _ => step_unsent (fun h => h) (fun h => h))
    refine ⟨by rw [h2]; exact hun, t1, fun k hk => ?_⟩
    rw [hu, List.length_cons] at hk
    exact ⟨N - (rest.length + 1), by omega, by omega, .inl ⟨w1.s.sendWindow, q, by rw [h2], by rw [hpq, t3]⟩⟩
  have fin : ∀ {w w1 : World} {p : Packet} {rest : List Packet}, w.s.unsent = p :: rest → Tail base N w.s.unsent →
      Steps E .inner (w.setS { w.s with unsent := rest }) w1 →
      Tail base N w1.s.unsent ∧ w1.s.unsent.length ≤ w.s.unsent.length ∧ ∀ k, Sofar E base k N w → Sofar E base k N w1 := by
    intro w w1 p rest hu ht hs
    rw [hu] at ht
    have hun := hs.lift (R := fun a b => b.s.unsent = a.s.unsent) (fun _ => rfl) (fun _ _ _ h h' => h'.trans h) (fun _ _ => step_unsent (fun h => h) (fun h => h))
    simp only [setS_s] at hun
    rw [hun, hu]
    refine ⟨ht.rest.1, by simp, fun k ⟨j, j1, j2, j3⟩ => ⟨j, j1, j2, ?_⟩⟩
    exact Last.steps (fun h => h) hs j3
  induction h with
  | done h => exact ⟨ht, Nat.le_refl _, fun _ _ h => h, fun _ => ⟨h, fun hn => absurd h hn⟩⟩
  | @sent w w1 w2 w' p q rest r h1 h2 h3 h4 h5 h6 h7 h8 h9 _ ih =>
    obtain ⟨t, d, rfl⟩ := h5
    obtain ⟨p1, p2, p3⟩ := push h1 ht h2 (by rw [setTimestampDifference_seqNr, setTimestamp_seqNr]) h7
    obtain ⟨i1, i2, i3, i4⟩ := ih (by rw [p1]; exact p2)
    rw [p1] at i2 i3 i4
    rw [h1, List.length_cons]
    rw [h1, List.length_cons] at p3
    refine ⟨i1, by omega, fun k hk _ => i3 k (by omega) (p3 k (by omega)), fun hr => ⟨(i4 hr).1, fun _ => ?_⟩⟩
    by_cases hr' : rest = []
    · subst hr'
      exact i3 N (by simp) (p3 N (by simp))
    · exact (i4 hr).2 hr'
  | @skipped w w1 w2 w' p rest r h1 h2 h3 h4 h5 h6 h7 _ ih =>
    obtain ⟨p1, p2, p3⟩ := push h1 ht h2 rfl h5
    obtain ⟨i1, i2, i3, i4⟩ := ih (by rw [p1]; exact p2)
    rw [p1] at i2 i3 i4
    rw [h1, List.length_cons]
    rw [h1, List.length_cons] at p3
    refine ⟨i1, by omega, fun k hk _ => i3 k (by omega) (p3 k (by omega)), fun hr => ⟨(i4 hr).1, fun _ => ?_⟩⟩
    by_cases hr' : rest = []
    · subst hr'
      exact i3 N (by simp) (p3 N (by simp))
    · exact (i4 hr).2 hr'
  | waiting h1 h2 h3 =>
    obtain ⟨f1, f2, f3⟩ := fin h1 ht h2
    exact ⟨f1, f2, fun k _ => f3 k, fun hr => absurd hr h3⟩
  | @refused w w1 w' p q rest r h1 h2 h3 h4 h5 h6 h7 h8 =>
    obtain ⟨f1, f2, f3⟩ := fin h1 ht h2
    rw [h6]
    refine ⟨f1, f2, fun k _ hk => ?_, fun hr => absurd hr h8⟩
    obtain ⟨j, j1, j2, j3⟩ := f3 k hk
    refine ⟨j, j1, j2, ?_⟩
    rcases j3 with ⟨pre, x, x1, x2⟩ | ⟨pkt, src, x1, x2⟩
    · exact .inl ⟨pre, x, by rw [h6]; exact x1, x2⟩
    · exact .inr ⟨pkt, src, x1.mono (Nat.le_of_eq h7.symm), x2⟩
  | fuel => exact ⟨ht, Nat.le_refl _, fun _ _ h => h, fun h => by simp at h⟩

/-- The account of an execution in which calls of `send_to` may fail: of `N` pieces the first `k` are not in the queue any more. -/
structure Front (E : Env) (base : U16) (k N : Nat) (w : World) : Prop where
  inv : Inv .any w
  est : Established w
  seq : w.s.seqNr = base + BitVec.ofNat 16 N
  tail : Tail base N w.s.unsent
  out : k + w.s.unsent.length ≤ N
  last : 0 < k → Sofar E base k N w

theorem Sofar.more {E : Env} {base : U16} {k N M : Nat} {w : World} (h : Sofar E base k N w) (hM : N ≤ M) : Sofar E base k M w := by
  obtain ⟨j, h1, h2, h3⟩ := h
  exact ⟨j, h1, by omega, h3⟩

theorem Front.op {E : Env} {base : U16} {k N : Nat} {w : World} (h : Front E base k N w) (fuel : Nat) (op : Op) {new : List Bytes}
    (hp : (runOp E fuel op w).1 ≠ .panic) (ha : Adds w op new) :
    Front E base k (N + new.length) (runOp E fuel op w).2 ∧
      ((∃ buf, op = .sendTo buf) → (∃ o, (runOp E fuel op w).1 = .ok o) → new ≠ [] → Front E base (N + new.length) (N + new.length) (runOp E fuel op w).2) := by
  have hinv : Inv .any (runOp E fuel op w).2 := h.inv.steps .any (run_steps .any ⟨trivial, trivial⟩ trivial trivial dataPacket_any (.op fuel op .refl hp) h.inv)
  have hother : (¬ (∃ buf, op = .sendTo buf) ∨ w.s.state = .closed ∧ new = [] ∧ ∃ e, (runOp E fuel op w) = (.err e, w)) →
      Front E base k (N + new.length) (runOp E fuel op w).2 ∧
      ((∃ buf, op = .sendTo buf) → (∃ o, (runOp E fuel op w).1 = .ok o) → new ≠ [] → Front E base (N + new.length) (N + new.length) (runOp E fuel op w).2) := by
    rintro (hop | ⟨hcl, rfl, e, hr⟩)
    · have hnew : new = [] := by
        cases op with
        | sendTo buf => exact absurd ⟨buf, rfl⟩ hop
        | _ => exact ha
      subst hnew
      have hat := (at_runOp (E := E) (V := ⟨Ctx.any.ok, False, False, True, True⟩) ⟨VOk.any.ts, VOk.any.td⟩ fuel op
        (fun buf e => absurd ⟨buf, e⟩ hop) (fun _ => trivial) (fun _ => trivial) ⟨h.inv.win, h.inv.uns, h.inv.inc, .inl trivial⟩ (fun buf e => absurd ⟨buf, e⟩ hop)).1 hp
      have hun := hat.lift (R := fun a b => b.s.unsent = a.s.unsent) (fun _ => rfl) (fun _ _ _ h h' => h'.trans h) (fun _ _ => step_unsent (fun h => h) (fun h => h))
      refine ⟨⟨hinv, h.est.steps hat, by rw [(steps_fixed (fun h => h) hat h.est).1]; exact h.seq, by rw [hun]; exact h.tail, by rw [hun]; exact h.out, fun hk => ?_⟩,
        fun h' => absurd h' hop⟩
      obtain ⟨j, j1, j2, j3⟩ := h.last hk
      exact ⟨j, j1, j2, j3.steps (fun h => h) hat⟩
    · rw [hr]
      exact ⟨h, fun _ _ h => absurd rfl h⟩
  by_cases hop : ∃ buf, op = .sendTo buf
  · obtain ⟨buf, rfl⟩ := hop
    simp only [Adds] at ha
    by_cases hcl : w.s.state = .closed
    · rw [if_pos hcl] at ha
      subst ha
      refine hother (.inr ⟨hcl, rfl, ?_⟩)
      exact ⟨.sock .connectionClosed, by simp [runOp, bind_def, M.andThen, sendTo_closed fuel buf hcl]⟩
    rw [if_neg hcl] at ha
    have hnew : chunks buf.length buf = new := Framing.unique _ _ _ (chunks_framing _ _ (Nat.le_refl _)) ha
    have hq : queued w buf = w.setS { w.s with unsent := w.s.unsent ++ framed w.s new, seqNr := w.s.seqNr + BitVec.ofNat 16 new.length } := by
      rw [queued, hnew, fold_enqueue]
    rcases hr : runOp E fuel (.sendTo buf) w with ⟨r, w'⟩
    rw [hr] at hp hinv
    obtain ⟨r', ht, hok, -⟩ := sendTo_trace h.inv hcl hr hp
    have htail : Tail base (N + new.length) (queued w buf).s.unsent := by
      rw [hq]
      have hl := h.tail.len
      refine ⟨by simp only [setS_s, List.length_append, framed_length]; omega, ?_⟩
      intro i p hip
      simp only [setS_s, List.length_append, framed_length] at hip ⊢
      by_cases hlt : i < w.s.unsent.length
      · rw [List.getElem?_append_left hlt] at hip
        rw [h.tail.num i p hip]
        congr 2
        omega
      · rw [List.getElem?_append_right (by omega), framed_getElem?] at hip
        simp only [Option.map_eq_some_iff] at hip
        obtain ⟨c, _, rfl⟩ := hip
        rw [(dataPacket_facts _ _).1]
        simp only [h.seq]
        rw [ofNat16_add]
        congr 2
        omega
    obtain ⟨t1, t2, t3, t4⟩ := trace_last ht htail
    have hul : (queued w buf).s.unsent.length = w.s.unsent.length + new.length := by rw [hq]; simp [framed_length]
    have hout := h.out
    have hs := op_queue (E := E) (V := ⟨Ctx.any.ok, False, True, True, True⟩) ⟨VOk.any.ts, VOk.any.td⟩ trivial trivial (w := w) (new := new)
      ⟨h.inv.win, h.inv.uns, h.inv.inc, .inl trivial⟩ fuel (.sendTo buf) (by rw [hr]; exact hp) (by simp only [Adds, if_neg hcl]; exact ha) (by
        intro p hpm
        obtain ⟨i, hil, hie⟩ := List.getElem_of_mem hpm
        have hg := framed_getElem? new w.s i
        rw [List.getElem?_eq_getElem hil, hie] at hg
        rw [framed_length] at hil
        rw [List.getElem?_eq_getElem hil] at hg
        simp only [Option.map_some, Option.some.injEq] at hg
        rw [hg]
        exact dataPacket_any _ _ (List.length_pos_iff.mpr (ha.nonempty _ (List.getElem_mem _))) (ha.bound _ (List.getElem_mem _))) (fun _ => trivial)
    rw [← hq, hr] at hs
    have heq : Established (queued w buf) := by rw [hq]; exact h.est
    have hseq : w'.s.seqNr = base + BitVec.ofNat 16 (N + new.length) := by
      rw [(steps_fixed (fun h => h) hs heq).1, hq]
      simp only [setS_s, h.seq, ofNat16_add]
    refine ⟨⟨hinv, heq.steps hs, hseq, t1, by simp only; omega, fun hk => t3 k (by omega) ?_⟩, fun _ ⟨o, ho⟩ hne => ?_⟩
    · obtain ⟨j, j1, j2, j3⟩ := h.last hk
      refine ⟨j, j1, by omega, ?_⟩
      rw [hq]
      exact j3
    · obtain ⟨u1, u2⟩ := t4 (hok o ho)
      refine ⟨hinv, heq.steps hs, hseq, t1, by simp only [u1]; simp, fun _ => u2 ?_⟩
      intro h0
      have := List.length_eq_zero_iff.mpr h0
      have := List.length_pos_iff.mpr hne
      omega
  · exact hother (.inl hop)

theorem Front.exec {E : Env} {P : Op → Res Out → Prop} {base : U16} {k N : Nat} {w w' : World} {cs : List Bytes} (h : Front E base k N w)
    (hx : Exec E P w cs w') : Front E base k (N + cs.length) w' := by
  induction hx with
  | refl => exact h
  | op fuel op new _ hp _ ha ih =>
    rw [List.length_append, ← Nat.add_assoc]
    exact (ih.op fuel op hp ha).1

theorem Fresh.front {E : Env} {w : World} (h : Fresh w) : Front E w.s.seqNr 0 0 w :=
  ⟨⟨by simp [h.win], by simp [h.uns], by simp [h.inc], .inl trivial⟩, h.est, by simp, ⟨by simp [h.uns], by simp [h.uns]⟩, by simp [h.uns], by simp⟩

/-- **C48.**  In the same setting, if a call of `send_to` with some bytes returned Ok, and later `flush` returns Ok, then all pieces given to
`send_to` up to then have arrived at the reading side.  Other calls of `send_to`, before or after, may have failed.

Partial: at most 65533 packets (the numbers do not wrap around).  The bytes of a failed `send_to` are not covered
(`C48_counterexample`), unless a later one succeeded. -/
theorem C48_partial {fuel0 fuel1 fuel : Nat} {resolved : Except ErrorKind (List Addr)} {wild : Except ErrorKind Addr} {a0 a1 a2 a3 a4 a b : World}
    {cs new cs' : List Bytes} {buf bs d : Bytes} {dst : Addr} {o o' : Out}
    (hc : connect A fuel0 resolved wild = .ok (.ok (), a0))
    (hx1 : Exec A (fun op _ => op = .flush ∨ ∃ buf, op = .sendTo buf) a0 cs a1)
    (hs : runOp A fuel1 (.sendTo buf) a1 = (.ok o, a2)) (hne : buf ≠ []) (hfr : Framing buf new)
    (hx2 : Exec A (fun op _ => op = .flush ∨ ∃ buf, op = .sendTo buf) a2 cs' a3)
    (hx3 : Exec A (fun op _ => op = .flush ∨ op = .close) a3 [] a4)
    (hf : runOp A fuel .flush a4 = (.ok o', a))
    (hr : Receiver B d b bs) (hd : Sent a dst d) (hA : Delivers A b) (hB : Delivers B a) (hn : (cs ++ new ++ cs').length ≤ 65533) :
    ∀ i c, (cs ++ new)[i]? = some c →
      ∃ pkt src, Received B b pkt src ∧ pkt.getType = some .data ∧ pkt.seqNr = BitVec.ofNat 16 (2 + i) ∧ pkt.payload = some c := by
  have hcl := (C14_result hs).2.1
  have hx : Exec A (fun op r => (op = .flush ∨ ∃ buf, op = .sendTo buf) ∧ AnyOutcome op r) a0 (cs ++ new ++ cs') a3 := by
    refine Exec.trans ?_ (hx2.mono fun _ _ h => ⟨h, trivial⟩)
    have := Exec.op fuel1 (.sendTo buf) new (hx1.mono fun op r h => (⟨h, trivial⟩ : (op = .flush ∨ ∃ buf, op = .sendTo buf) ∧ AnyOutcome op r))
      (by rw [hs]; simp) ⟨.inr ⟨buf, rfl⟩, trivial⟩ (by simp only [Adds, if_neg hcl]; exact hfr)
    rw [hs] at this
    exact this
  have hx4 : Exec A (fun op _ => op = .flush ∨ op = .close) a3 ([] ++ []) (runOp A fuel .flush a4).2 :=
    .op fuel .flush [] hx3 (by rw [hf]; simp) (.inl rfl) rfl
  rw [hf] at hx4
  obtain ⟨b0, hj⟩ := joined hc hx hx4 hr hd hA
  have hnew : new ≠ [] := by
    rintro rfl
    exact hne hfr.whole.symm
  have h1 := (hj.fresh.front (E := A)).exec hx1
  rw [Nat.zero_add] at h1
  have h2 := (h1.op fuel1 (.sendTo buf) (by rw [hs]; simp) (by simp only [Adds, if_neg hcl]; exact hfr)).2 ⟨buf, rfl⟩ ⟨o, by rw [hs]⟩ hnew
  rw [hs] at h2
  have h3 := (h2.exec hx2).exec hx4
  have hpos : 0 < cs.length + new.length := by have := List.length_pos_iff.mpr hnew; omega
  obtain ⟨j, j1, j2, j3⟩ := h3.last hpos
  have hw := flush_empties ((h2.exec hx2).exec hx3).inv hf
  rcases j3 with ⟨pre, p, g, _⟩ | ⟨pkt, src, g1, g2, g3⟩
  · rw [hw] at g; simp at g
  · intro i c hic
    have hi := (List.getElem?_eq_some_iff.mp hic).1
    rw [List.length_append] at hi
    rw [hj.first] at g3
    rw [List.append_nil, List.length_nil, Nat.add_zero] at j2
    refine hj.honest hA hB hn g1 (j := j) (by simp only [List.length_append]; omega) g3 i c (by omega) ?_
    rw [List.getElem?_append_left (by rw [List.length_append]; exact hi)]
    exact hic

/-- **C48**, the same if every call of `send_to` succeeded: all bytes have arrived. -/
theorem C48_all_partial {cs : List Bytes} {a a' b : World} {bs d : Bytes} {dst : Addr} {fuel : Nat} {o : Out} (hx : Sender A SendsOk cs a)
    (hf : runOp A fuel .flush a = (.ok o, a')) (hr : Receiver B d b bs) (hd : Sent a' dst d) (hA : Delivers A b) (hB : Delivers B a')
    (hn : cs.length ≤ 65533) :
    ∀ i c, cs[i]? = some c → ∃ pkt src, Received B b pkt src ∧ pkt.getType = some .data ∧ pkt.seqNr = BitVec.ofNat 16 (2 + i) ∧ pkt.payload = some c := by
  obtain ⟨f0, resolved, wild, a0, a1, hc, hx1, hx2⟩ := hx
  have hi : Inv .any a := by
    have hrun : Run A a0 a := (hx1.any.trans hx2.any).run
    exact reach_any ⟨a0, .connect f0 resolved wild hc (by simp), hrun⟩
  have hw := flush_empties hi hf
  have hx3 : Exec A (fun op _ => op = .flush ∨ op = .close) a1 ([] ++ []) (runOp A fuel .flush a).2 :=
    .op fuel .flush [] hx2 (by rw [hf]; simp) (.inl rfl) rfl
  rw [hf] at hx3
  obtain ⟨b0, hj⟩ := joined hc hx1 hx3 hr hd hA
  have hex : Exec A SendsOk a0 cs a' := hj.exec.mono (by
    rintro op r (⟨_, h⟩ | rfl | rfl)
    · exact h
    · rintro ⟨_, h⟩; simp at h
    · rintro ⟨_, h⟩; simp at h)
  intro i c hic
  have hi' := (List.getElem?_eq_some_iff.mp hic).1
  have hne : cs ≠ [] := by rintro rfl; simp at hi'
  obtain ⟨pkt, src, hrec, ht, hack⟩ := acked_last hj.fresh hex hw hne
  rw [hj.first] at hack
  exact hj.honest hA hB hn hrec (j := cs.length - 1) (by omega) hack i c (by omega) hic

/-! ### Samples -/

section
open Sample

/-- Every datagram in the list was sent. -/
def allSent (net : List NetEvent) (w : World) : Bool :=
  net.all fun e => match e with | .dgram d _ => (sent w).contains d | _ => true

theorem delivers_of {net : List NetEvent} {c : Bool} {s : List SendRes} {r : List U16} {t : Nat → U32} {w : World} (h : allSent net w = true) :
    Delivers (env net c s r t) w := by
  intro n d src hn
  have hm : NetEvent.dgram d src ∈ net := by
    simp only [env, List.getD_eq_getElem?_getD] at hn
    rcases hg : net[n]? with _ | e
    · rw [hg] at hn; simp at hn
    · rw [hg] at hn
      simp only [Option.getD_some] at hn
      subst hn
      exact List.mem_of_getElem? hg
  simp only [allSent, List.all_eq_true] at h
  have := h _ hm
  simp only [List.contains_eq_mem, decide_eq_true_eq, sent, List.mem_filterMap] at this
  obtain ⟨a, ha, he⟩ := this
  cases a with
  | send dst b ok =>
    simp only [Option.some.injEq] at he
    subst he
    exact ⟨dst, ok, ha⟩
  | _ => simp at he

/-- Calls of `send_to` in a row that succeed, with short buffers. -/
theorem exec_sends {E : Env} (fuel : Nat) {w0 : World} : ∀ (bufs : List Bytes) {w : World} {cs : List Bytes},
    Exec E (fun op r => (op = .flush ∨ ∃ buf, op = .sendTo buf) ∧ SendsOk op r) w0 cs w →
    (∀ b ∈ bufs, b ≠ [] ∧ b.length ≤ 1380) → results E fuel (bufs.map .sendTo) w = bufs.map (fun b => .ok (.count b.length)) →
    Exec E (fun op r => (op = .flush ∨ ∃ buf, op = .sendTo buf) ∧ SendsOk op r) w0 (cs ++ bufs) (runs E fuel (bufs.map .sendTo) w)
  | [], _, _, h, _, _ => by simpa [runs] using h
  | b :: bufs, w, cs, h, hb, hr => by
    simp only [List.map_cons, results, List.cons.injEq] at hr
    have hcl := (C14_result (show runOp E fuel (.sendTo b) w = (.ok (.count b.length), (runOp E fuel (.sendTo b) w).2) from by rw [← hr.1])).2.1
    have := exec_sends fuel bufs (.op fuel (.sendTo b) [b] h (by rw [hr.1]; simp) ⟨.inr ⟨b, rfl⟩, fun _ => ⟨_, hr.1⟩⟩ (by
      simp only [Adds, if_neg hcl]
      exact ⟨by simp, by simpa using (hb b (by simp)).1, by simpa using (hb b (by simp)).2, by simp⟩)) (fun b hb' => hb b (by simp [hb'])) hr.2
    simpa [runs] using this

/-- Calls of `recv_from` in a row. -/
theorem reads_of {E : Env} (fuel : Nat) {w0 : World} : ∀ (lens : List Nat) {w : World} {bs : Bytes}, Reads E w0 w bs → (∀ n ∈ lens, 0 < n) →
    .panic ∉ results E fuel (lens.map .recvFrom) w →
    Reads E w0 (runs E fuel (lens.map .recvFrom) w) (bs ++ ((results E fuel (lens.map .recvFrom) w).map Res.read).flatten)
  | [], _, _, h, _, _ => by simpa [results, runs] using h
  | n :: lens, w, bs, h, hn, hp => by
    simp only [List.map_cons, results, List.mem_cons, not_or] at hp
    have := reads_of fuel lens (.read fuel n h (hn n (by simp)) (Ne.symm hp.1)) (fun m hm => hn m (by simp [hm])) hp.2
    simpa [results, runs] using this

/-- Calls of `flush` and `close` in a row. -/
theorem exec_post {E : Env} (fuel : Nat) {w0 : World} : ∀ (ops : List Op) {w : World}, Exec E (fun op _ => op = .flush ∨ op = .close) w0 [] w →
    (∀ op ∈ ops, op = .flush ∨ op = .close) → .panic ∉ results E fuel ops w →
    Exec E (fun op _ => op = .flush ∨ op = .close) w0 [] (runs E fuel ops w)
  | [], _, h, _, _ => h
  | op :: ops, w, h, hb, hp => by
    simp only [results, List.mem_cons, not_or] at hp
    exact exec_post fuel ops (.op fuel op [] h (Ne.symm hp.1) (hb op (by simp)) (by rcases hb op (by simp) with rfl | rfl <;> rfl))
      (fun op hop => hb op (by simp [hop])) hp.2

/-- The clock stands still. -/
def still : Nat → U32 := fun _ => 0

/-- An environment whose clock stands still. -/
def senv (net : List NetEvent) (snd : List SendRes) : Env := env net false snd [7, 100] still

/-- The SYN of the sender. -/
def theSyn : Bytes := dg .syn 7 1 0 [] 0
/-- The sender after calls of `send_to` and then others. -/
def senderAfter (net : List NetEvent) (snd : List SendRes) (ops post : List Op) : World :=
  runs (senv net snd) 20 post (runs (senv net snd) 20 ops (client (senv net snd)))
/-- The reader is accepted. -/
def readerStart (net : List NetEvent) (snd : List SendRes) : World := acceptWorld (accept (senv net snd) 1 (arr theSyn) (.ok here))
/-- The reader after calls of `recv_from`. -/
def readerAfter (net : List NetEvent) (snd : List SendRes) (lens : List Nat) : World :=
  runs (senv net snd) 20 (lens.map .recvFrom) (readerStart net snd)

theorem receiver_of {netB : List NetEvent} {sndB : List SendRes} {lens : List Nat}
    (hacc : accept (senv netB sndB) 1 (arr theSyn) (.ok here) = .made (.ok ()) (readerStart netB sndB) peer)
    (hl : ∀ n ∈ lens, 0 < n) (hp : .panic ∉ results (senv netB sndB) 20 (lens.map .recvFrom) (readerStart netB sndB)) :
    Receiver (senv netB sndB) theSyn (readerAfter netB sndB lens)
      ((results (senv netB sndB) 20 (lens.map .recvFrom) (readerStart netB sndB)).map Res.read).flatten :=
  ⟨1, peer, .ok here, _, hacc, reads_of 20 lens (bs := []) .refl hl hp⟩

theorem sent_of {w : World} {d : Bytes} (h : (sent w).contains d = true) : ∃ dst, Sent w dst d := by
  simp only [List.contains_eq_mem, decide_eq_true_eq, sent, List.mem_filterMap] at h
  obtain ⟨a, ha, he⟩ := h
  cases a with
  | send dst b ok =>
    simp only [Option.some.injEq] at he
    subst he
    exact ⟨dst, ok, ha⟩
  | _ => simp at he

theorem session_of {netA netB : List NetEvent} {sndA sndB : List SendRes} {bufs : List Bytes} {post : List Op} {lens : List Nat}
    (hcon : (connectM (senv netA sndA) 20 peer (freshWorld (senv netA sndA) here ⟨false, 0⟩)).1 = .ok ())
    (hb : ∀ b ∈ bufs, b ≠ [] ∧ b.length ≤ 1380)
    (hsend : results (senv netA sndA) 20 (bufs.map .sendTo) (client (senv netA sndA)) = bufs.map (fun b => .ok (.count b.length)))
    (hpo : ∀ op ∈ post, op = .flush ∨ op = .close)
    (hpost : .panic ∉ results (senv netA sndA) 20 post (runs (senv netA sndA) 20 (bufs.map .sendTo) (client (senv netA sndA))))
    (hacc : accept (senv netB sndB) 1 (arr theSyn) (.ok here) = .made (.ok ()) (readerStart netB sndB) peer)
    (hl : ∀ n ∈ lens, 0 < n) (hp : .panic ∉ results (senv netB sndB) 20 (lens.map .recvFrom) (readerStart netB sndB))
    (hsyn : (sent (senderAfter netA sndA (bufs.map .sendTo) post)).contains theSyn = true)
    (hA : allSent netA (readerAfter netB sndB lens) = true) (hB : allSent netB (senderAfter netA sndA (bufs.map .sendTo) post) = true) :
    Session (senv netA sndA) (senv netB sndB) SendsOk bufs (senderAfter netA sndA (bufs.map .sendTo) post) (readerAfter netB sndB lens)
      ((results (senv netB sndB) 20 (lens.map .recvFrom) (readerStart netB sndB)).map Res.read).flatten := by
  obtain ⟨dst, hs⟩ := sent_of hsyn
  exact ⟨⟨20, .ok [peer], .ok here, _, _, connect_client [] hcon, exec_sends 20 bufs (cs := []) .refl hb hsend, exec_post 20 post .refl hpo hpost⟩,
    ⟨theSyn, dst, receiver_of hacc hl hp, hs⟩, delivers_of hA, delivers_of hB⟩

/-- The sender's packets and its FIN are acknowledged one after the other. -/
def goodA : List NetEvent := [arr (dg .state 7 100 1 [] 0), arr (dg .state 7 100 2), arr (dg .state 7 100 3), arr (dg .state 7 100 4)]

/-- The second packet arrives first; the SYN and a packet arrive twice. -/
def goodB : List NetEvent := [arr (dg .data 8 3 100 [3] 0), arr (dg .syn 7 1 0 [] 0), arr (dg .data 8 2 100 [1, 2] 0), arr (dg .data 8 3 100 [3] 0),
  arr (dg .fin 8 4 100 [] 0)]

-- two packets are sent, flushed and read byte by byte, and the sender closes the connection
example : ∃ a b, Session (senv goodA []) (senv goodB []) SendsOk [[1, 2], [3]] a b [1, 2, 3] ∧ a.s.state = .closed ∧ (∀ n, (senv goodB []).snd n = .ok) := by
  have h1 : (connectM (senv goodA []) 20 peer (freshWorld (senv goodA []) here ⟨false, 0⟩)).1 = .ok () := by decide +kernel
  have h2 : results (senv goodA []) 20 (([[1, 2], [3]] : List Bytes).map .sendTo) (client (senv goodA [])) = ([[1,2],[3]] : List Bytes).map (fun b => .ok (.count b.length)) := by
    decide +kernel
  have h3 : .panic ∉ results (senv goodA []) 20 [.flush, .close] (runs (senv goodA []) 20 (([[1, 2], [3]] : List Bytes).map .sendTo) (client (senv goodA []))) := by decide +kernel
  have h4 : accept (senv goodB []) 1 (arr theSyn) (.ok here) = .made (.ok ()) (readerStart goodB []) peer := by decide +kernel
  have h5 : .panic ∉ results (senv goodB []) 20 ([1, 9, 9, 9, 9].map .recvFrom) (readerStart goodB []) := by decide +kernel
  have h6 : (sent (senderAfter goodA [] (([[1, 2], [3]] : List Bytes).map .sendTo) [.flush, .close])).contains theSyn = true := by decide +kernel
  have h7 : allSent goodA (readerAfter goodB [] [1, 9, 9, 9, 9]) = true := by decide +kernel
  have h8 : allSent goodB (senderAfter goodA [] (([[1, 2], [3]] : List Bytes).map .sendTo) [.flush, .close]) = true := by decide +kernel
  have h9 : ((results (senv goodB []) 20 ([1, 9, 9, 9, 9].map .recvFrom) (readerStart goodB [])).map Res.read).flatten = [1, 2, 3] := by decide +kernel
  have h10 : (senderAfter goodA [] (([[1, 2], [3]] : List Bytes).map .sendTo) [.flush, .close]).s.state = .closed := by decide +kernel
  have h := session_of h1 (by decide) h2 (by simp) h3 h4 (by decide) h5 h6 h7 h8
  rw [h9] at h
  exact ⟨_, _, h, h10, fun n => by simp [senv, env]⟩

/-- The same without the FIN. -/
def midA : List NetEvent := goodA.take 3
/-- The same without the FIN. -/
def midB : List NetEvent := goodB.take 4

theorem flushed_of {netA netB : List NetEvent} {sndA sndB : List SendRes} {bufs : List Bytes} {buf : Bytes} {lens : List Nat} {n : Nat} {o : Out}
    (hcon : (connectM (senv netA sndA) 20 peer (freshWorld (senv netA sndA) here ⟨false, 0⟩)).1 = .ok ())
    (hb : ∀ b ∈ bufs, b ≠ [] ∧ b.length ≤ 1380) (hb' : buf ≠ [] ∧ buf.length ≤ 1380)
    (hsend : results (senv netA sndA) 20 (bufs.map .sendTo) (client (senv netA sndA)) = bufs.map (fun b => .ok (.count b.length)))
    (hlast : (runOp (senv netA sndA) 20 (.sendTo buf) (runs (senv netA sndA) 20 (bufs.map .sendTo) (client (senv netA sndA)))).1 = .ok (.count n))
    (hflush : (runOp (senv netA sndA) 20 .flush (senderAfter netA sndA (bufs.map .sendTo) [.sendTo buf])).1 = .ok o)
    (hacc : accept (senv netB sndB) 1 (arr theSyn) (.ok here) = .made (.ok ()) (readerStart netB sndB) peer)
    (hl : ∀ n ∈ lens, 0 < n) (hp : .panic ∉ results (senv netB sndB) 20 (lens.map .recvFrom) (readerStart netB sndB))
    (hsyn : (sent (runOp (senv netA sndA) 20 .flush (senderAfter netA sndA (bufs.map .sendTo) [.sendTo buf])).2).contains theSyn = true)
    (hA : allSent netA (readerAfter netB sndB lens) = true)
    (hB : allSent netB (runOp (senv netA sndA) 20 .flush (senderAfter netA sndA (bufs.map .sendTo) [.sendTo buf])).2 = true)
    (hn : bufs.length ≤ 65532) :
    ∀ i c, (bufs ++ [buf])[i]? = some c → ∃ pkt src, Received (senv netB sndB) (readerAfter netB sndB lens) pkt src ∧ pkt.getType = some .data ∧
      pkt.seqNr = BitVec.ofNat 16 (2 + i) ∧ pkt.payload = some c := by
  obtain ⟨dst, hs⟩ := sent_of hsyn
  have hA' : Delivers (senv netA sndA) _ := delivers_of hA
  have hB' : Delivers (senv netB sndB) _ := delivers_of hB
  have hr := receiver_of hacc hl hp
  have hc := connect_client [] hcon
  have hx := (exec_sends 20 bufs (cs := []) .refl hb hsend).mono (Q := fun op _ => op = .flush ∨ ∃ buf, op = .sendTo buf) fun _ _ h => h.1
  have e : senderAfter netA sndA (bufs.map .sendTo) [.sendTo buf] =
    (runOp (senv netA sndA) 20 (.sendTo buf) (runs (senv netA sndA) 20 (bufs.map .sendTo) (client (senv netA sndA)))).2 := by simp only [senderAfter, runs]
  rw [e] at hs hB' hflush
  clear e hsyn hA hB hp hacc hcon hsend
  generalize runs (senv netA sndA) 20 (bufs.map .sendTo) (client (senv netA sndA)) = w1 at *
  rcases h1 : runOp (senv netA sndA) 20 (.sendTo buf) w1 with ⟨r1, w2⟩
  rw [h1] at hs hB' hflush hlast
  rcases h2 : runOp (senv netA sndA) 20 .flush w2 with ⟨r2, w3⟩
  rw [h2] at hs hB' hflush
  simp only at hlast hflush hs hB'
  subst hlast hflush
  exact C48_partial (cs := bufs) (new := [buf]) (cs' := []) hc hx h1 hb'.1
    ⟨by simp, by simpa using hb'.1, by simpa using hb'.2, by simp⟩ .refl .refl h2 hr hs hA' hB' (by simp; omega)

-- C48 applied to the same packets before the connection is closed
example : ∃ pkt src, Received (senv midB []) (readerAfter midB [] [1, 9, 9, 9]) pkt src ∧ pkt.getType = some .data ∧ pkt.seqNr = 3 ∧ pkt.payload = some [3] := by
  have h1 : (connectM (senv midA []) 20 peer (freshWorld (senv midA []) here ⟨false, 0⟩)).1 = .ok () := by decide +kernel
  have h2 : results (senv midA []) 20 (([[1, 2]] : List Bytes).map .sendTo) (client (senv midA [])) = ([[1, 2]] : List Bytes).map (fun b => .ok (.count b.length)) := by
    decide +kernel
  have h3 : (runOp (senv midA []) 20 (.sendTo [3]) (runs (senv midA []) 20 (([[1, 2]] : List Bytes).map .sendTo) (client (senv midA [])))).1 = .ok (.count 1) := by decide +kernel
  have h4 : (runOp (senv midA []) 20 .flush (senderAfter midA [] (([[1, 2]] : List Bytes).map .sendTo) [.sendTo [3]])).1 = .ok .unit := by decide +kernel
  have h5 : accept (senv midB []) 1 (arr theSyn) (.ok here) = .made (.ok ()) (readerStart midB []) peer := by decide +kernel
  have h6 : .panic ∉ results (senv midB []) 20 ([1, 9, 9, 9].map .recvFrom) (readerStart midB []) := by decide +kernel
  have h7 : (sent (runOp (senv midA []) 20 .flush (senderAfter midA [] (([[1, 2]] : List Bytes).map .sendTo) [.sendTo [3]])).2).contains theSyn = true := by decide +kernel
  have h8 : allSent midA (readerAfter midB [] [1, 9, 9, 9]) = true := by decide +kernel
  have h9 : allSent midB (runOp (senv midA []) 20 .flush (senderAfter midA [] (([[1, 2]] : List Bytes).map .sendTo) [.sendTo [3]])).2 = true := by decide +kernel
  exact flushed_of h1 (by decide) (by decide) h2 h3 h4 h5 (by decide) h6 h7 h8 h9 (by decide) 1 [3] rfl

/-- One packet is sent and another one; nothing is acknowledged. -/
def failA : List NetEvent := [arr (dg .state 7 100 1 [] 0)]
/-- Both packets arrive in order. -/
def failB : List NetEvent := [arr (dg .data 8 2 100 [1, 2] 0), arr (dg .data 8 3 100 [3] 0)]

/-- C47 is false when the operating system of the reader does not take a reply: the reader then loses the packet, but later acknowledges it. -/
theorem C47_counterexample : ∃ A B cs a b bs, Session A B SendsOk cs a b bs ∧ cs.length = 2 ∧ ¬ bs <+: cs.flatten := by
  have h1 : (connectM (senv failA []) 20 peer (freshWorld (senv failA []) here ⟨false, 0⟩)).1 = .ok () := by decide +kernel
  have h2 : results (senv failA []) 20 (([[1, 2], [3]] : List Bytes).map .sendTo) (client (senv failA [])) = ([[1, 2], [3]] : List Bytes).map (fun b => .ok (.count b.length)) := by
    decide +kernel
  have h4 : accept (senv failB [.ok, .fail .other]) 1 (arr theSyn) (.ok here) = .made (.ok ()) (readerStart failB [.ok, .fail .other]) peer := by decide +kernel
  have h5 : .panic ∉ results (senv failB [.ok, .fail .other]) 20 ([9, 9].map .recvFrom) (readerStart failB [.ok, .fail .other]) := by decide +kernel
  have h6 : (sent (senderAfter failA [] (([[1, 2], [3]] : List Bytes).map .sendTo) [])).contains theSyn = true := by decide +kernel
  have h7 : allSent failA (readerAfter failB [.ok, .fail .other] [9, 9]) = true := by decide +kernel
  have h8 : allSent failB (senderAfter failA [] (([[1, 2], [3]] : List Bytes).map .sendTo) []) = true := by decide +kernel
  have h9 : ((results (senv failB [.ok, .fail .other]) 20 ([9, 9].map .recvFrom) (readerStart failB [.ok, .fail .other])).map Res.read).flatten = [3] := by decide +kernel
  have h := session_of h1 (by decide) h2 (by simp) (by simp [results]) h4 (by decide) h5 h6 h7 h8
  rw [h9] at h
  exact ⟨_, _, _, _, _, _, h, rfl, by decide⟩

/-- The bytes of a `send_to` that failed may be lost although a later `flush` returns Ok. -/
theorem C48_counterexample : ∃ A B a a' b bs fuel, Session A B AnyOutcome [[1, 2]] a b bs ∧ runOp A fuel .flush a = (.ok .unit, a') ∧
    ∀ n, n < b.nNet → ∀ d src, B.net n ≠ .dgram d src := by
  have h1 : (connectM (senv failA [.ok, .fail .other]) 20 peer (freshWorld (senv failA [.ok, .fail .other]) here ⟨false, 0⟩)).1 = .ok () := by decide +kernel
  have h2 : (runOp (senv failA [.ok, .fail .other]) 20 (.sendTo [1, 2]) (client (senv failA [.ok, .fail .other]))).1 ≠ .panic := by decide +kernel
  have h2' : (client (senv failA [.ok, .fail .other])).s.state ≠ .closed := by decide +kernel
  have h3 : (runOp (senv failA [.ok, .fail .other]) 20 .flush (senderAfter failA [.ok, .fail .other] [.sendTo [1, 2]] [])).1 = .ok .unit := by decide +kernel
  have h4 : accept (senv [] []) 1 (arr theSyn) (.ok here) = .made (.ok ()) (readerStart [] []) peer := by decide +kernel
  have h6 : (sent (senderAfter failA [.ok, .fail .other] [.sendTo [1, 2]] [])).contains theSyn = true := by decide +kernel
  have h7 : allSent failA (readerAfter [] [] []) = true := by decide +kernel
  obtain ⟨dst, hs⟩ := sent_of h6
  refine ⟨senv failA [.ok, .fail .other], senv [] [], senderAfter failA [.ok, .fail .other] [.sendTo [1, 2]] [], _, readerAfter [] [] [], _, 20,
    ⟨⟨20, .ok [peer], .ok here, _, _, connect_client [] h1, ?_, .refl⟩, ⟨theSyn, dst, receiver_of h4 (by simp) (by simp [results]), hs⟩, delivers_of h7, ?_⟩,
    Prod.ext h3 rfl, ?_⟩
  · exact .op (cs := []) 20 (.sendTo [1, 2]) [[1, 2]] .refl h2 ⟨.inr ⟨_, rfl⟩, trivial⟩ (by
      simp only [Adds, if_neg h2']
      exact ⟨rfl, by decide, by decide, by decide⟩)
  · intro n d src h
    simp [senv, env] at h
  · intro n _ d src h
    simp [senv, env] at h
end

end Utp
