import Verif.Spec.Size
import Verif.Props.Advert
import Verif.Lemmas.Buffer
/-!
# C100: the size of what a socket sends
-/

namespace Utp
open M Packet Sample

variable {E : Env} {V : Ctx}

theorem foldl_sackBit_exact (l : List Nat) : ∀ b : Bytes, b.length % 4 = 0 →
    l.foldl Socket.sackBit b = b ∨ (l.foldl Socket.sackBit b).length = b.length ∨ ∃ d ∈ l, (l.foldl Socket.sackBit b).length = 4 * (d / 32 + 1) := by
  induction l with
  | nil => intro b hb; exact .inl rfl
  | cons d r ih =>
    intro b hb
    obtain ⟨h1, h2⟩ := sackBit_len b d hb
    have h3 := sackGrow_le (d / 8 + 5) (d / 8) b
    have h4 : (Socket.sackBit b d).length = (Socket.sackGrow (d / 8 + 5) (d / 8) b).length := by simp [Socket.sackBit]
    obtain ⟨n, g1, -, -⟩ := sackGrow_eq (d / 8 + 5) (d / 8) b (by omega) (by omega)
    have h5 : b.length ≤ (Socket.sackBit b d).length := by rw [h4, g1]; simp
    have h6 : (Socket.sackBit b d).length = b.length ∨ (Socket.sackBit b d).length = 4 * (d / 32 + 1) := by omega
    rw [List.foldl_cons]
    have h7 : (r.foldl Socket.sackBit (Socket.sackBit b d)).length = (Socket.sackBit b d).length ∨
        ∃ e ∈ r, (r.foldl Socket.sackBit (Socket.sackBit b d)).length = 4 * (e / 32 + 1) := by
      rcases ih _ h1 with h | h | h
      · exact .inl (by rw [h])
      · exact .inl h
      · exact .inr h
    right
    rcases h7 with h | ⟨e, he, h⟩
    · rcases h6 with g | g
      · exact .inl (h.trans g)
      · exact .inr ⟨d, by simp, h.trans g⟩
    · exact .inr ⟨e, by simp [he], h⟩

/-- A selective acknowledgement is as long as one of the held packets needs it. -/
theorem buildSack_exact {s : Socket} {sack : Bytes} (h : s.buildSack E = some sack) (hne : sack ≠ []) :
    ∃ p ∈ s.incoming, (s.ackNr.toNat + 1 < p.seqNr.toNat ∨ s.ackNr.toNat = 65535) ∧ sack.length = 4 * sackWords s.ackNr.toNat p.seqNr.toNat := by
  unfold Socket.buildSack at h
  split at h
  · simp at h
  · simp only [Option.some.injEq] at h
    have hpos : 0 < sack.length := List.length_pos_iff.mpr hne
    rcases foldl_sackBit_exact ((s.incoming.filter fun p => s.ackNr + 1 < p.seqNr).map fun p => (p.seqNr - s.ackNr - 2).toNat) [] (by simp) with g | g | ⟨d, hd, g⟩
    · exact absurd (h.symm.trans g) hne
    · rw [h] at g; simp only [List.length_nil] at g; omega
    · rw [h] at g
      simp only [List.mem_map, List.mem_filter, decide_eq_true_eq] at hd
      obtain ⟨p, ⟨h1, h2⟩, rfl⟩ := hd
      refine ⟨p, h1, ?_, ?_⟩
      · rw [BitVec.lt_def, BitVec.toNat_add] at h2
        have := s.ackNr.isLt
        have e : (1 : U16).toNat = 1 := rfl
        rw [e] at h2
        omega
      rw [g]
      unfold sackWords
      have := s.ackNr.isLt
      have := p.seqNr.isLt
      have e : (2 : U16).toNat = 2 := rfl
      simp only [BitVec.toNat_sub, e]
      omega

/-- What is held was received. -/
def HeldReceived (E : Env) (w : World) : Prop := ∀ p ∈ w.s.incoming, p.getType = some .data ∧ ∃ src, Received E w p src

theorem HeldReceived.step {a b : World} (h : Step E V a b) (hi : HeldReceived E a) : HeldReceived E b := by
  have hn : a.nNet ≤ b.nNet := (Steps.single h).nNet
  suffices h' : ∀ p ∈ b.s.incoming, p.getType = some .data ∧ ∃ src, Received E a p src by
    intro p hp
    obtain ⟨h1, src, h2⟩ := h' p hp
    exact ⟨h1, src, h2.mono hn⟩
  cases h with
  | arrive pkt src hg =>
    have : (a.s.bumpAck pkt).incoming = a.s.incoming := by unfold Socket.bumpAck; split <;> simp
    simpa [World.setS, this, HeldReceived] using hi
  | measure pkt src i p t s' _ _ _ _ _ _ hm =>
    obtain ⟨_, _, _, _, _, _, _, rfl⟩ := onNewAck_shape hm
    exact hi
  | advance s' _ hm =>
    obtain ⟨n, c, rfl⟩ := advanceSendWindow_shape hm
    exact hi
  | insert pkt src hg ht hne =>
    intro p hp
    rcases mem_insertPkt hp with hp | rfl
    · exact hi p hp
    · exact ⟨ht, src, hg⟩
  | deliverPending len _ =>
    unfold Socket.takePending Socket.advanceIncoming
    simp only
    split
    · split
      · rename_i hn; simp [World.setS, hn]
      · rename_i hn
        exact fun q hq => hi q (by rw [hn]; exact List.mem_cons_of_mem _ hq)
    · exact hi
  | deliverHead p rest pl len _ hinc _ _ =>
    unfold Socket.takeHead Socket.advanceIncoming
    split
    · rw [hinc]
      exact fun q hq => hi q (by rw [hinc]; exact List.mem_cons_of_mem _ hq)
    · exact hi
  | _ => exact hi

theorem HeldReceived.start {w : World} (h : Start E w) : HeldReceived E w := by
  have := (start_inv (V := .any) h)
  cases h with
  | bound la src => simp [HeldReceived, freshWorld, Socket.fromRawParts]
  | connecting la a0 a st _ hs _ _ _ => simp [HeldReceived, hs, Socket.fromRawParts]
  | accepted la src pkt ok n _ _ _ => simp [HeldReceived, acceptSocket, Socket.fromRawParts]

theorem ackNr_field (p : Packet) : p.ackNr.toNat = ackField p.bytes := by
  have h := fun i => (byteAt p.bytes i).isLt
  have h1 := h 18; have h2 := h 19
  simp only [ackNr, be16, ackField, BitVec.toNat_ofNat, Nat.reduceAdd, byteAt] at *
  omega

theorem sized_bare {w : World} {p : Packet} {t : PacketType} (ht : p.getType = some t) (h : t ≠ .data) (hl : p.bytes.length = 20) : Sized E w p.bytes := by
  have hk := getType_kind ht
  refine ⟨fun h0 => ?_, fun _ => hl, fun _ => .inl hl, ?_⟩
  · rw [hk] at h0
    cases t <;> first | exact absurd rfl h | exact absurd h0 (by decide)
  · rw [hk]; cases t <;> decide

theorem Emitted.sized {w w' : World} {dst : Addr} {p : Packet} (h : Emitted E .any w dst p) (hi : HeldReceived E w) (hn : w.nNet ≤ w'.nNet) : Sized E w' p.bytes := by
  cases h with
  | data _ h =>
    have hk := getType_kind h.1.ty
    exact ⟨fun _ => h.2, fun g => by rw [hk] at g; simp [PacketType.toU8] at g, fun g => by rw [hk] at g; simp [PacketType.toU8] at g,
      by rw [hk]; decide⟩
  | fin t _ _ _ _ => exact sized_bare (finPacket_plain _ _).ty (by simp) (by simp [finPacket, Packet.new, Packet.defaultHeader])
  | request t _ _ _ => exact sized_bare (resendRequest_plain _ _).ty (by simp) (by simp [resendRequest, Packet.new, Packet.defaultHeader])
  | reply _ pkt r hrec h =>
    obtain ⟨t, ty, hty, h⟩ := h
    obtain ⟨f1, f2, f3, _, _⟩ := prepareReply_facts w.s t pkt ty
    have hpl := prepareReply_plain w.s t pkt ty
    have hb := prepareReply_bytes w.s t pkt ty
    rcases h with rfl | ⟨sack, hsack, hne, hnr, h⟩
    · refine sized_bare (t := ty) (by simpa using hpl.ty) ?_ (by simp [hb.1])
      rcases hty with rfl | rfl | ⟨rfl, _⟩ <;> simp
    · have h4 := buildSack_len hsack
      obtain ⟨g1, g2, g3, g4, g5⟩ := setSack_reply hb.1 hb.2 h4 hne h
      obtain ⟨q, hq, hq', hl⟩ := buildSack_exact hsack hne
      obtain ⟨q1, src', q2⟩ := hi q hq
      have hk : kind (r.setWndSize WINDOW_SIZE).bytes = ty.toU8.toNat := getType_kind (by simpa using g1.trans hpl.ty)
      refine ⟨fun g => ?_, fun g => ?_, fun _ => .inr ⟨q, src', q2.mono hn, getType_kind q1, ?_, ?_⟩, ?_⟩
      · rw [hk] at g; rcases hty with rfl | rfl | ⟨rfl, _⟩ <;> simp [PacketType.toU8] at g
      · rw [hk] at g; rcases hty with rfl | rfl | ⟨rfl, _⟩ <;> simp [PacketType.toU8] at g hnr
      · rw [← ackNr_field, setWndSize_ackNr, g3, f2]; exact hq'
      · rw [← ackNr_field, setWndSize_ackNr, g3, f2, ← hl]
        simp [g5]
      · rw [hk]; cases ty <;> decide

/-- **C100**, the part that holds: what every datagram a socket ever sends is long.  Data packets have at most 1400 bytes, Reset and SYN
packets 20; State and FIN packets are longer than a header only by a selective acknowledgement, as long as a data packet that was
received needs it.  Hence nothing is longer than 8214 bytes, and nothing longer than 1400 bytes unless a data packet was received that is
more than 11000 numbers ahead of what the datagram acknowledges, or it acknowledges 65535.

Partial: with such a packet it is longer, see the counterexample. -/
theorem C100_partial {w : World} (hw : Reach E w) {dst : Addr} {b : Bytes} (h : Sent w dst b) :
    Sized E w b ∧ b.length ≤ 8214 ∧
    (1400 < b.length → ∃ pkt src, Received E w pkt src ∧ kind pkt.bytes = 0 ∧
      (ackField b + 11000 < pkt.seqNr.toNat ∨ ackField b = 65535)) := by
  have key : Sized E w b := by
    obtain ⟨w0, h0, hs⟩ := reach_steps .any ⟨trivial, trivial⟩ trivial trivial dataPacket_any hw
    obtain ⟨l, hl, hl'⟩ := hs.log
    obtain ⟨ok, hm⟩ := h
    rw [hl, List.mem_append] at hm
    rcases hm with hm | hm
    · cases h0 with
      | bound => simp [freshWorld] at hm
      | connecting la a0 a st _ _ _ _ hlog =>
        rcases hlog _ hm with ⟨t, h⟩ | ⟨dst', t, ok', h⟩
        · simp at h
        · simp only [Act.send.injEq] at h
          rw [h.2.1]
          exact sized_bare (synPacket_plain _ _).ty (by simp) (by simp [synPacket, Packet.new, Packet.defaultHeader])
      | accepted la src pkt ok' n _ _ _ =>
        simp only [List.mem_singleton, Act.send.injEq] at hm
        rw [hm.2.1]
        exact sized_bare (prepareReply_plain _ _ _ _).ty (by simp) (prepareReply_bytes _ _ _ _).1
    · rcases hl' _ hm with ⟨t, h⟩ | ⟨w1, dst', p, ok', h1, h2, he, h⟩
      · simp at h
      · simp only [Act.send.injEq] at h
        rw [h.2.1]
        exact he.sized (h1.inv (fun _ _ => HeldReceived.step) (.start h0)) h2.nNet
  refine ⟨key, ?_, fun hlong => ?_⟩
  · have ht := key.type
    have : kind b = 0 ∨ (kind b = 3 ∨ kind b = 4) ∨ (kind b = 1 ∨ kind b = 2) := by omega
    rcases this with g | g | g
    · have := key.data g; omega
    · have := key.bare g; omega
    · rcases key.ack g with h | ⟨pkt, src, -, -, -, h⟩
      · omega
      · rw [h]; unfold sackWords; omega
  · have ht := key.type
    have : kind b = 0 ∨ (kind b = 3 ∨ kind b = 4) ∨ (kind b = 1 ∨ kind b = 2) := by omega
    rcases this with g | g | g
    · have := key.data g; omega
    · have := key.bare g; omega
    · rcases key.ack g with h | ⟨pkt, src, h1, h2, h3, h⟩
      · omega
      · refine ⟨pkt, src, h1, h2, ?_⟩
        unfold sackWords at h
        omega

section

/-- Somebody sends the same data packet of 21 bytes twice, with a number far ahead; the address need not be that of the peer. -/
def wayAhead : Env := env [.dgram (dg .data 6 65535 100 [1]) other, .dgram (dg .data 6 65535 100 [1]) other]

/-- **C100 is false**: each datagram received has 21 bytes, the answer to the second one has 8214. -/
theorem C100_counterexample :
    let w := runs wayAhead 10 [.recvFrom 10] (server wayAhead)
    Reach wayAhead w ∧ w.s.connectedTo = peer ∧ (dg .data 6 65535 100 [1]).length = 21 ∧
    (w.log.filterMap fun a => match a with | .send dst b _ => some (dst, b.length) | _ => none) = [(peer, 20), (other, 20), (other, 8214)] :=
  ⟨reach_server _ _ (by decide +kernel) (by decide +kernel), by decide +kernel, by decide +kernel, by decide +kernel⟩

/-- `C100_partial` applies: data of 1380 bytes is sent in a datagram of 1400 bytes, and a packet that is 3 numbers ahead is reported in one
word. -/
example : let E := env [arr (dg .data 6 5 100 [1]), arr (dg .data 6 5 100 [1])]
    let w := runs E 10 [.sendTo (List.replicate 1380 7), .recvFrom 10] (server E)
    Reach E w ∧ (sent w).map (fun b => (kind b, b.length)) = [(2, 20), (0, 1400), (2, 20), (2, 26)] ∧ 26 = 22 + 4 * sackWords 1 5 :=
  ⟨reach_server _ _ (by decide +kernel) (by decide +kernel), by decide +kernel, by decide⟩

end

end Utp
