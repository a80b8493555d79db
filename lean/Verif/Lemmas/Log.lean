import Verif.Lemmas.Build
/-!
# What is in the log
-/

namespace Utp
open Spec Packet

variable {E : Env} {V : Ctx}

/-- Every log entry made along a sequence of steps is a wait or was emitted in some world on the way. -/
theorem Steps.log {a b : World} (h : Steps E V a b) : ∃ l, b.log = a.log ++ l ∧
    ∀ act ∈ l, (∃ t, act = .wait t) ∨
      ∃ w dst p ok, Steps E V a w ∧ Steps E V w b ∧ Emitted E V w dst p ∧ act = .send dst p.bytes ok := by
  induction h with
  | refl => exact ⟨[], by simp, by simp⟩
  | @tail b c hab hs ih =>
    obtain ⟨l, hl, hl'⟩ := ih
    have old : ∀ act ∈ l, (∃ t, act = .wait t) ∨
      ∃ w dst p ok, Steps E V a w ∧ Steps E V w c ∧ Emitted E V w dst p ∧ act = .send dst p.bytes ok := by
      intro act hact
      rcases hl' act hact with h | ⟨w, dst, p, ok, h1, h2, h3⟩
      · exact .inl h
      · exact .inr ⟨w, dst, p, ok, h1, h2.tail hs, h3⟩
    cases hs with
    | wait =>
      refine ⟨l ++ [.wait (if b.s.state ≠ .new then some b.s.congTimeout else none)], by simp [hl], ?_⟩
      intro act hact
      simp only [List.mem_append, List.mem_singleton] at hact
      rcases hact with h | h
      · exact old act h
      · exact .inl ⟨_, h⟩
    | send dst p ok he =>
      refine ⟨l ++ [.send dst p.bytes ok], by simp [hl], ?_⟩
      intro act hact
      simp only [List.mem_append, List.mem_singleton] at hact
      rcases hact with h | h
      · exact old act h
      · exact .inr ⟨b, dst, p, ok, hab, .single (.send b dst p ok he), he, h⟩
    | _ => exact ⟨l, by simpa using hl, old⟩

theorem accepted_setWndSize {p : Packet} {b : Bytes} (h : Packet.tryFrom b = some (.ok p)) (v : U32) :
    Packet.tryFrom (p.setWndSize v).bytes = some (.ok (p.setWndSize v)) := by
  obtain ⟨d, hd, hb⟩ := (C01_accept_iff b).mp ⟨p, h⟩
  have hpb := C02_lossless h
  have hdg : IsDatagram (p.setWndSize v).bytes := by
    have e : (p.setWndSize v).bytes = put32 d.header 12 v ++ (chainBytes d.exts ++ d.payload) := by
      have h20 := hd.headerLen
      simp only [setWndSize, put32, hpb, hb, Datagram.bytes]
      rw [List.set_append_left _ _ (by omega), List.set_append_left _ _ (by simp; omega),
        List.set_append_left _ _ (by simp; omega), List.set_append_left _ _ (by simp; omega)]
    refine ⟨⟨put32 d.header 12 v, d.exts, d.payload⟩, ⟨?_, ?_, ?_, ?_, hd.extsOk⟩, e⟩
    · simp [put32, hd.headerLen]
    · simpa [List.getD, put32_other] using hd.version
    · simpa [List.getD, put32_other] using hd.typeCode
    · simpa [List.getD, put32_other] using hd.announced
  obtain ⟨q, hq⟩ := (C01_accept_iff _).mpr hdg
  have := C02_lossless hq
  have : q = p.setWndSize v := by cases q; generalize p.setWndSize v = r at *; cases r; simpa using this
  rw [this] at hq; exact hq

/-- A reply with a selective ack keeps the header fields. -/
theorem setSack_reply {p r : Packet} {sack : Bytes} (hl : p.bytes.length = 20) (h1 : p.bytes[1]? = some 0)
    (h4 : sack.length % 4 = 0) (hne : sack ≠ []) (h : p.setSack sack = some r) :
    r.getType = p.getType ∧ r.seqNr = p.seqNr ∧ r.ackNr = p.ackNr ∧ r.connectionId = p.connectionId ∧
    r.bytes.length = 22 + sack.length := by
  rw [setSack_plain hl h1 h4 hne] at h
  simp only [Option.some.injEq] at h
  have hb : ∀ i, i < 20 → i ≠ 1 → byteAt r.bytes i = byteAt p.bytes i := by
    intro i hi hi1
    rw [← h]
    simp only [byteAt, List.getD, List.append_assoc]
    rw [List.getElem?_append_left (by simp; omega), List.getElem?_set_ne (by omega)]
  refine ⟨?_, ?_, ?_, ?_, ?_⟩
  · simp only [getType, hb 0 (by omega) (by omega)]
  · simp only [seqNr, be16, Nat.reduceAdd, hb 16 (by omega) (by omega), hb 17 (by omega) (by omega)]
  · simp only [ackNr, be16, Nat.reduceAdd, hb 18 (by omega) (by omega), hb 19 (by omega) (by omega)]
  · simp only [connectionId, be16, Nat.reduceAdd, hb 2 (by omega) (by omega), hb 3 (by omega) (by omega)]
  · rw [← h]; simp [hl]; omega

theorem IsReply.facts {s : Socket} {pkt r : Packet} (h : IsReply E s pkt r) :
    (∃ t, r.getType = some t ∧ (t = .state ∨ t = .reset ∨ (t = .fin ∧ s.state = .finSent))) ∧
    r.seqNr = s.seqNr ∧ r.ackNr = s.ackNr ∧ r.connectionId = s.senderId ∧ 20 ≤ r.bytes.length ∧
    ((∃ b, Packet.tryFrom b = some (.ok r)) ∨ ∃ sack, s.buildSack E = some sack ∧ 252 < sack.length ∧ r.bytes.length = 22 + sack.length) := by
  obtain ⟨t, ty, hty, h⟩ := h
  obtain ⟨f1, f2, f3, _, _⟩ := prepareReply_facts s t pkt ty
  have hpl := prepareReply_plain s t pkt ty
  rcases h with rfl | ⟨sack, hsack, hne, _, h⟩
  · exact ⟨⟨ty, hpl.ty, hty⟩, f1, f2, f3, hpl.len, .inl ⟨_, hpl.accepted⟩⟩
  · have hb := prepareReply_bytes s t pkt ty
    have h4 := buildSack_len hsack
    obtain ⟨g1, g2, g3, g4, g5⟩ := setSack_reply hb.1 hb.2 h4 hne h
    refine ⟨⟨ty, g1.trans hpl.ty, hty⟩, g2.trans f1, g3.trans f2, g4.trans f3, by omega, ?_⟩
    by_cases hle : sack.length ≤ 252
    · left
      have hpos : 0 < sack.length := List.length_pos_iff.mpr hne
      obtain ⟨d1, d2, q, d3⟩ := C04_set_sack_partial hpl.datagram.1 (bv := sack) (by omega) h4 hle
      rw [← hpl.datagram.2] at d1
      have e : (⟨(s.prepareReply t pkt ty).bytes⟩ : Packet) = s.prepareReply t pkt ty := rfl
      rw [e, h] at d1
      simp only [Option.some.injEq] at d1
      have hq := C02_lossless d3
      have : q = r := by rw [d1]; cases q; simpa using hq
      rw [this] at d3
      exact ⟨_, d3⟩
    · exact .inr ⟨sack, hsack, by omega, g5⟩

end Utp
