import Verif.Props.EndToEnd
import Verif.Spec.Download
/-!
# The accepting side sends, the connecting side reads
-/

namespace Utp
open M

variable {A B : Env} {P : Op → Res Out → Prop}

theorem base_add (b : U16) (i : Nat) : b + BitVec.ofNat 16 i = BitVec.ofNat 16 (b.toNat + i) := by
  apply BitVec.eq_of_toNat_eq
  simp only [BitVec.toNat_add, BitVec.toNat_ofNat]
  omega

theorem Reads.run {E : Env} {w0 w : World} {bs : Bytes} (h : Reads E w0 w bs) : Run E w0 w := by
  induction h with
  | refl => exact .refl
  | read fuel len _ _ hp ih => exact .op fuel _ ih hp

/-- The first packet of the server: the answer to the SYN. -/
structure IsAnswer (a0 : Socket) (d : Bytes) : Prop where
  ok : ∃ p, Packet.tryFrom d = some (.ok p) ∧ p.getType = some .state ∧ p.connectionId = a0.senderId ∧ p.seqNr = a0.seqNr
  len : d.length = 20

/-- What both sides know. -/
structure Loading (A B : Env) (P : Op → Res Out → Prop) (cs : List Bytes) (a0 a b0 b : World) (bs : Bytes) : Prop where
  fresh : Fresh a0
  exec : Exec A (fun op r => ((op = .flush ∨ ∃ buf, op = .sendTo buf) ∧ P op r) ∨ op = .flush ∨ op = .close) a0 cs a
  sent : ∀ dst d, Sent a dst d → FromSender True (IsAnswer a0.s) a0.s.seqNr a0.s.senderId cs d
  bState : b0.s.state = .connected
  bAck : b0.s.ackNr = a0.s.seqNr ∧ b0.s.lastDropped = 0
  bEmpty : b0.s.pending = [] ∧ b0.s.incoming = [] ∧ b0.s.sendWindow = [] ∧ b0.s.unsent = []
  bIds : b0.s.receiverId = a0.s.senderId
  bSent : ∀ dst d, Sent b0 dst d → ∃ p, Packet.tryFrom d = some (.ok p) ∧ p.getType = some .syn ∧ d.length = 20

theorem Download.loading {cs : List Bytes} {a0 a b0 b : World} {bs : Bytes} (h : Download A B P cs a0 a b0 b bs) :
    Loading A B P cs a0 a b0 b bs := by
  obtain ⟨⟨fuelA, d, src, bound, dst, hacc, hd⟩, ⟨a1, hx1, hx2⟩, ⟨fuelB, resolved, wild, hc⟩, hreads, hA, hnosyn, hB⟩ := h
  obtain ⟨d', p, reply, e1, e2, e3, e4, e5, e6, e7, eD, e8, e9, e10, e11, e12, e13, e14, e15, e16, e17, e18, e19, e20, e21⟩ := C41_socket hacc
  cases e1
  have hmadeB : Made B b0 := .connect fuelB resolved wild hc (by simp)
  have hmadeA : Made A a0 := .accept fuelA _ bound hacc (by simp)
  have hrunA : Run A a0 a := (hx1.any.trans hx2.any).run
  -- the SYN
  have hsyn0 : Sent b0 dst d := syn_from_connect hmadeB hreads.run hd (by omega) e2 e3
  have hsynS : ∀ dst d, Sent b0 dst d → IsSyn 1 (sequentialIdentifiers (B.rand 0)).1 d := by
    obtain ⟨addr, rest, la, blocks, tail, rfl, rfl, -⟩ := C39_connect_partial hc
    rintro dst d ⟨ok, hm⟩
    exact ((C39_syns hc).1 _ _ _ hm).2
  obtain ⟨⟨q, hq, hqt, hqs, hqc⟩, hlen⟩ := hsynS _ _ hsyn0
  rw [List.take_of_length_le (by omega), hq] at e2
  cases e2
  -- the server sends no SYN
  have hans : ∀ dst d, Sent a0 dst d → IsAnswer a0.s d := by
    rintro dst d ⟨ok, hm⟩
    rw [e15] at hm
    simp only [List.mem_singleton, Act.send.injEq] at hm
    obtain ⟨-, rfl, -⟩ := hm
    exact ⟨⟨reply, e16, e18, by rw [e20, e8], e21⟩, e17⟩
  have hno : ∀ n b src pkt, B.net n = .dgram b src → Packet.tryFrom (b.take 1500) = some (.ok pkt) → pkt.getType ≠ some .syn := by
    intro n b src pkt hn hp ht
    obtain ⟨dst, hs⟩ := hB n b src hn
    obtain ⟨⟨r, h1, h2, _⟩, h3⟩ := hans _ _ (syn_from_connect hmadeA hrunA hs (by omega) hp ht)
    rw [List.take_of_length_le (by omega), h1] at hp
    cases hp
    rw [ht] at h2
    simp at h2
  obtain ⟨c1, c2, c3, c4, c5, c6, c7⟩ := connect_facts hc hno
  rw [← c5] at hqc
  -- what the client sends
  have hbi : Inv readCtx b0 := ⟨by simp [c1.win], by simp [c1.uns], by simp [c1.inc], .inl trivial⟩
  have hquiet : Quiet A a0.s.receiverId := by
    intro n d src pkt k hnet hk hp
    obtain ⟨dst, hs⟩ := hA n d src hnet
    have hk' : 20 ≤ k := by rcases hk with rfl | rfl <;> omega
    rcases reader_sent (reads_steps hbi hreads) c1.est (by simp [c2]) hs with h | ⟨v, r, _, _, h1, h2, h3, _⟩
    · obtain ⟨⟨q, g1, g2, _⟩, g3⟩ := c7 _ _ h
      exact absurd g2 (hnosyn n d src q hnet (by rw [List.take_of_length_le (by omega)]; exact g1))
    · obtain ⟨g1, g2, _⟩ := decoded_header hk' h1 hp
      rw [g1]
      exact ⟨h2, by rw [g2, h3, c6, e9, hqc]⟩
  -- what the server sends
  have hfresh : Fresh a0 := ⟨⟨by simp [e4], by simp [e4]⟩, e11, e12, e13⟩
  have hcw : a0.s.currWindow = 0 := by
    obtain ⟨_, _, _, _, _, _, _, _, _, h7⟩ := accept_inv hacc (by simp)
    rw [h7]; rfl
  obtain ⟨i1, i2, i3, i4⟩ := sender_first (hfresh.streamFirst (E := A) hcw) (by simp [e4]) rfl hquiet hans hx1
  obtain ⟨j1, j2, j3, j4⟩ := sender_second (fun _ _ h => h) i1.close i3 hquiet (fun dst d h => (i4 dst d h).close) hx2
  -- the answer
  have hsock : ∃ n b' src pkt, B.net n = .dgram b' src ∧ Packet.tryFrom (b'.take 1500) = some (.ok pkt) ∧ pkt.getType = some .state ∧
      b0.s.ackNr = pkt.seqNr ∧ b0.s.lastDropped = 0 ∧ b0.s.pending = [] := by
    obtain ⟨addr, rest, la, blocks, tail, rfl, rfl, -⟩ := C39_connect_partial hc
    simp only [connect, takeAddress, Except.ok.injEq] at hc
    obtain ⟨n, b', src', pkt, td, ts, -, g1, g2, g3, he⟩ := connected_socket (E := B) (fuel := fuelB) (la := la) (addr := addr) (a0 := { v6 := addr.v6, id := 0 })
      (by rw [hc]) (by rw [hc]; exact c2)
    rw [hc] at he
    simp only at he
    exact ⟨n, b', src', pkt, g1, g2, g3, by rw [he]; rfl, by rw [he]; rfl, by rw [he]; rfl⟩
  obtain ⟨n, d1, src1, pkt, g1, g2, g3, g4, g5, g6⟩ := hsock
  have hseq : pkt.seqNr = a0.s.seqNr := by
    obtain ⟨dst, hs⟩ := hB n d1 src1 g1
    cases j4 dst d1 hs with
    | first hf =>
      obtain ⟨⟨r, k1, _, _, k4⟩, k5⟩ := hf
      rw [List.take_of_length_le (by omega), k1] at g2
      cases g2
      exact k4
    | data r hd hpl _ =>
      have := (decoded_header (by omega) hd g2).1
      rw [g3, hpl.ty] at this
      simp at this
    | fin r _ hd hpl _ _ =>
      have := (decoded_header (by omega) hd g2).1
      rw [g3, hpl.ty] at this
      simp at this
  refine ⟨hfresh, ?_, j4, c2, ⟨by rw [g4, hseq], g5⟩, ⟨g6, c1.inc, c1.win, c1.uns⟩, by rw [e8, hqc], ?_⟩
  · have := (hx1.mono (fun op r h => (.inl h : ((op = .flush ∨ ∃ buf, op = .sendTo buf) ∧ P op r) ∨ op = .flush ∨ op = .close))).trans
      (hx2.mono fun op r h => .inr h)
    simpa using this
  · intro dst d hs
    obtain ⟨⟨q, k1, k2, _⟩, k3⟩ := c7 _ _ hs
    exact ⟨q, k1, k2, k3⟩

/-- The client only gets what the server sent. -/
theorem Loading.fromServer {cs : List Bytes} {a0 a b0 b : World} {bs : Bytes} (h : Loading A B P cs a0 a b0 b bs) (hB : Delivers B a)
    {n k : Nat} {d : Bytes} {src : Addr} {p : Packet} (hn : B.net n = .dgram d src) (hk : 1400 ≤ k) (hp : Packet.tryFrom (d.take k) = some (.ok p)) :
    FromPeer b0.s a0.s.seqNr.toNat cs p ∨ SynAnswer b0.s a0.s.seqNr.toNat p := by
  obtain ⟨dst, hs⟩ := hB n d src hn
  cases h.sent dst d hs with
  | first hans =>
    obtain ⟨⟨q, hq, h1, h2, h3⟩, hlen⟩ := hans
    rw [List.take_of_length_le (by omega), hq] at hp
    cases hp
    exact .inr ⟨h1, by rw [h3], .inr (by rw [h2, h.bIds])⟩
  | data q hd hpl hca =>
    obtain ⟨i, c, g1, g2, g3, g4, g5⟩ := hca
    have hb := (exec_pieces h.exec c (List.mem_of_getElem? g1)).2
    rw [hd, List.take_of_length_le (by omega), hpl.accepted] at hp
    cases hp
    exact .inl (.data g1 ⟨hpl.ty, by rw [g2, base_add], g3, .inr (by rw [g4, h.bIds])⟩)
  | fin q _ hd hpl hseq hid =>
    obtain ⟨g1, g2, g3, _⟩ := decoded_header (by omega) hd hp
    exact .inl (.fin (by rw [g1, hpl.ty]) (by rw [g3, hseq, base_add]) (.inr (by rw [g2, hid, h.bIds])))

/-- An acknowledgement of the piece number `j` means that all pieces up to it have arrived, except perhaps the first. -/
theorem Loading.honest {cs : List Bytes} {a0 a b0 b : World} {bs : Bytes} (h : Loading A B P cs a0 a b0 b bs) (hr : Reads B b0 b bs)
    (hA : Delivers A b) (hB : Delivers B a) (hnosyn : ∀ n d src p, A.net n = .dgram d src → Packet.tryFrom (d.take 1520) = some (.ok p) → p.getType ≠ some .syn)
    (h0 : a0.s.seqNr ≠ 0) (hN : a0.s.seqNr.toNat + cs.length ≤ 65535)
    {pkt : Packet} {src : Addr} (hrec : Received A a pkt src) {j : Nat} (hjl : j < cs.length) (hack : pkt.ackNr = a0.s.seqNr + BitVec.ofNat 16 j) :
    ∀ i c, 1 ≤ i → i ≤ j → cs[i]? = some c →
      ∃ pkt src, Received B b pkt src ∧ pkt.getType = some .data ∧ pkt.seqNr = a0.s.seqNr + BitVec.ofNat 16 i ∧ pkt.payload = some c := by
  intro i c hi1 hij hic
  have hpos : 1 ≤ a0.s.seqNr.toNat := by
    rcases Nat.eq_zero_or_pos a0.s.seqNr.toNat with h | h
    · exact absurd (BitVec.eq_of_toNat_eq h) h0
    · exact h
  obtain ⟨k, d', n, _, hk, hnet, hp⟩ := hrec
  have hk' : 20 ≤ n := by rcases hk with rfl | rfl <;> omega
  rw [base_add] at hack
  have hbe : Established b0 := ⟨by simp [h.bState], by simp [h.bState]⟩
  have hbi : Inv readCtx b0 := ⟨by simp [h.bEmpty.2.2.1], by simp [h.bEmpty.2.2.2], by simp [h.bEmpty.2.1], .inl trivial⟩
  have hack0 : AckOk B 1 a0.s.seqNr.toNat cs b0 := by
    refine ⟨by rw [h.bAck.1]; exact Nat.le_refl _, fun i h1 _ hv => ?_, by simp [h.bEmpty.2.1], fun hn => absurd h.bEmpty.1 hn⟩
    rw [h.bAck.1] at hv
    omega
  obtain ⟨dst', hs⟩ := hA k d' src hnet
  rcases reader_sent (reads_steps hbi hr) hbe (by simp [h.bState]) hs with hs0 | ⟨v, p, g1, g2, g3, g4, g5, g6⟩
  · obtain ⟨q, k1, k2, k3⟩ := h.bSent _ _ hs0
    exact absurd k2 (hnosyn k d' src q hnet (by rw [List.take_of_length_le (by omega)]; exact k1))
  · have hav := AckOk.steps (s0 := b0.s) hpos (by omega) hN (fun w pkt src ⟨k, d, n, _, hn, hk, hp⟩ =>
      (h.fromServer hB hk (by rcases hn with rfl | rfl <;> omega) hp).imp id fun h => ⟨by omega, h⟩) g1 hbe hack0
    have hv : v.s.ackNr.toNat = a0.s.seqNr.toNat + j := by
      rw [← g6, ← (decoded_header hk' g3 hp).2.2.2, hack, BitVec.toNat_ofNat]
      omega
    have hgot := hav.got
    rw [hv] at hgot
    obtain ⟨c', pkt', src', h1, h2, h3, h4, h5⟩ := (hgot.later g2.nNet) i hi1 (by omega) (by omega)
    rw [hic] at h1
    cases h1
    exact ⟨pkt', src', h2, h3, by rw [h4, base_add], h5⟩

end Utp
