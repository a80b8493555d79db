import Verif.Lemmas.Reach
import Verif.Lemmas.Fields
/-!
# The packets the socket builds
-/

namespace Utp
open Spec Packet

theorem setSeqNr_seqNr {p : Packet} (h : 20 ≤ p.bytes.length) (v : U16) : (p.setSeqNr v).seqNr = v :=
  be16_put16 v (by omega)
theorem setAckNr_ackNr {p : Packet} (h : 20 ≤ p.bytes.length) (v : U16) : (p.setAckNr v).ackNr = v :=
  be16_put16 v (by omega)
theorem setConnectionId_connectionId {p : Packet} (h : 20 ≤ p.bytes.length) (v : U16) :
    (p.setConnectionId v).connectionId = v := be16_put16 v (by omega)
theorem setTimestamp_timestamp {p : Packet} (h : 20 ≤ p.bytes.length) (v : U32) :
    (p.setTimestamp v).timestamp = v := be32_put32 v (by omega)
theorem setWndSize_wndSize {p : Packet} (h : 20 ≤ p.bytes.length) (v : U32) :
    (p.setWndSize v).wndSize = v := be32_put32 v (by omega)
theorem setType_getType {p : Packet} (h : 20 ≤ p.bytes.length) (t : PacketType) : (p.setType t).getType = some t :=
  (C02_write_type h t).1
theorem setType_getVersion {p : Packet} (h : 20 ≤ p.bytes.length) (t : PacketType) : (p.setType t).getVersion = p.getVersion :=
  (C02_write_type h t).2.1

theorem getType_byte {p : Packet} {t : PacketType} (h : p.getType = some t) : (byteAt p.bytes 0).toNat / 16 ≤ 4 := by
  have h2 := tryFrom_type (n := byteAt p.bytes 0 >>> 4)
  rw [typeNibble] at h2
  unfold getType at h
  split at h
  · rename_i t' ht
    exact h2.mp ⟨_, ht⟩
  · simp at h

/-- A packet without extensions: version 1, a type, no extension. -/
structure Plain (p : Packet) (t : PacketType) : Prop where
  len : 20 ≤ p.bytes.length
  ty : p.getType = some t
  ver : p.getVersion = 1
  ext : p.getExtensionType = .none

theorem ofU8_none {n : U8} (h : ExtensionType.ofU8 n = .none) : n = 0 := by
  unfold ExtensionType.ofU8 at h
  split at h
  · assumption
  · split at h <;> simp at h

theorem Plain.datagram {p : Packet} {t : PacketType} (h : Plain p t) :
    (Datagram.mk (p.bytes.take 20) [] (p.bytes.drop 20)).Ok ∧
      p.bytes = (Datagram.mk (p.bytes.take 20) [] (p.bytes.drop 20)).bytes := by
  have hl := h.len
  have hget : ∀ i, i < 20 → (p.bytes.take 20).getD i 0 = byteAt p.bytes i := by
    intro i hi
    simp [byteAt, List.getD, hi]
  refine ⟨⟨by simp; omega, ?_, ?_, ?_, by simp⟩, by simp [Datagram.bytes, chainBytes]⟩
  · simp only [hget 0 (by omega)]
    have := h.ver
    simp only [getVersion] at this
    have hv := verNibble (byteAt p.bytes 0)
    exact hv.mp this
  · simp only [hget 0 (by omega)]
    exact getType_byte h.ty
  · simp only [hget 1 (by omega), announce]
    exact ofU8_none h.ext

theorem Plain.accepted {p : Packet} {t : PacketType} (h : Plain p t) : Packet.tryFrom p.bytes = some (.ok p) := by
  obtain ⟨q, hq⟩ := (C01_accept_iff p.bytes).mpr ⟨_, h.datagram⟩
  have := C02_lossless hq
  have : q = p := by cases q; cases p; simpa using this
  rw [← this]; rw [← this] at hq; exact hq

theorem Plain.payload {p : Packet} {t : PacketType} (h : Plain p t) : p.payload = some (p.bytes.drop 20) := by
  have h' := h.datagram
  have := C03_payload h'.1
  rw [← h'.2] at this
  exact this

theorem new_plain : Plain Packet.new .data := ⟨by decide, by decide, by decide, by decide⟩

section
variable {p : Packet} {t : PacketType}
theorem Plain.setSeqNr (h : Plain p t) (v) : Plain (p.setSeqNr v) t := ⟨by simp [h.len], by simp [h.ty], by simp [h.ver], by simp [h.ext]⟩
theorem Plain.setAckNr (h : Plain p t) (v) : Plain (p.setAckNr v) t := ⟨by simp [h.len], by simp [h.ty], by simp [h.ver], by simp [h.ext]⟩
theorem Plain.setConnectionId (h : Plain p t) (v) : Plain (p.setConnectionId v) t := ⟨by simp [h.len], by simp [h.ty], by simp [h.ver], by simp [h.ext]⟩
theorem Plain.setTimestamp (h : Plain p t) (v) : Plain (p.setTimestamp v) t := ⟨by simp [h.len], by simp [h.ty], by simp [h.ver], by simp [h.ext]⟩
theorem Plain.setTimestampDifference (h : Plain p t) (v) : Plain (p.setTimestampDifference v) t := ⟨by simp [h.len], by simp [h.ty], by simp [h.ver], by simp [h.ext]⟩
theorem Plain.setWndSize (h : Plain p t) (v) : Plain (p.setWndSize v) t := ⟨by simp [h.len], by simp [h.ty], by simp [h.ver], by simp [h.ext]⟩
theorem Plain.setType (h : Plain p t) (t') : Plain (p.setType t') t' :=
  ⟨by simp [h.len], setType_getType h.len t', by rw [setType_getVersion h.len]; exact h.ver, by simp [h.ext]⟩
end

theorem withPayload_bytes (c : Bytes) : (withPayload c).bytes = (1#8 :: List.replicate 19 0#8) ++ c := by
  have : (setType ⟨defaultHeader⟩ .data).bytes = 1#8 :: List.replicate 19 0#8 := by decide
  rw [withPayload, this]

theorem withPayload_plain (c : Bytes) : Plain (withPayload c) .data := by
  have hb : ∀ i, i < 20 → byteAt (withPayload c).bytes i = byteAt (1#8 :: List.replicate 19 0#8) i := by
    intro i hi
    rw [withPayload_bytes]
    simp only [byteAt, List.getD]
    rw [List.getElem?_append_left (by simpa using hi)]
  refine ⟨by simp [withPayload_bytes], ?_, ?_, ?_⟩
  · rw [getType, hb 0 (by omega)]; rfl
  · rw [getVersion, hb 0 (by omega)]; rfl
  · rw [getExtensionType, hb 1 (by omega)]; rfl

theorem dataPacket_plain (s : Socket) (c : Bytes) : Plain (dataPacket s c) .data :=
  (((withPayload_plain c).setSeqNr _).setAckNr _).setConnectionId _

theorem dataPacket_facts (s : Socket) (c : Bytes) :
    (dataPacket s c).seqNr = s.seqNr ∧ (dataPacket s c).ackNr = s.ackNr ∧ (dataPacket s c).connectionId = s.senderId ∧
    (dataPacket s c).payload = some c ∧ (dataPacket s c).bytes.length = 20 + c.length := by
  have hl : (withPayload c).bytes.length = 20 + c.length := by simp [withPayload_bytes]; omega
  refine ⟨?_, ?_, ?_, ?_, ?_⟩
  · simp only [dataPacket, setConnectionId_seqNr, setAckNr_seqNr]
    exact setSeqNr_seqNr (by omega) _
  · simp only [dataPacket, setConnectionId_ackNr]
    exact setAckNr_ackNr (by simp; omega) _
  · exact setConnectionId_connectionId (by simp; omega) _
  · simp only [dataPacket, setConnectionId_payload, setAckNr_payload, setSeqNr_payload]
    rw [(withPayload_plain c).payload, withPayload_bytes]
    simp
  · simp [dataPacket, hl]

theorem prepareReply_plain (s : Socket) (t : U32) (o : Packet) (ty : PacketType) : Plain (s.prepareReply t o ty) ty :=
  (((((new_plain.setType ty).setTimestamp _).setTimestampDifference _).setConnectionId _).setSeqNr _).setAckNr _

theorem prepareReply_facts (s : Socket) (t : U32) (o : Packet) (ty : PacketType) :
    (s.prepareReply t o ty).seqNr = s.seqNr ∧ (s.prepareReply t o ty).ackNr = s.ackNr ∧
    (s.prepareReply t o ty).connectionId = s.senderId ∧ (s.prepareReply t o ty).timestamp = t ∧
    (s.prepareReply t o ty).wndSize = 0 := by
  have hl : Packet.new.bytes.length = 20 := by decide
  refine ⟨?_, ?_, ?_, ?_, ?_⟩
  · simp only [Socket.prepareReply, setAckNr_seqNr]
    exact setSeqNr_seqNr (by simp [hl]) _
  · exact setAckNr_ackNr (by simp [hl]) _
  · simp only [Socket.prepareReply, setAckNr_connectionId, setSeqNr_connectionId]
    exact setConnectionId_connectionId (by simp [hl]) _
  · simp only [Socket.prepareReply, setAckNr_timestamp, setSeqNr_timestamp, setConnectionId_timestamp,
      setTimestampDifference_timestamp]
    exact setTimestamp_timestamp (by simp [hl]) _
  · simp only [Socket.prepareReply, setAckNr_wndSize, setSeqNr_wndSize, setConnectionId_wndSize,
      setTimestampDifference_wndSize, setTimestamp_wndSize, setType_wndSize]
    decide

theorem finPacket_plain (s : Socket) (t : U32) : Plain (finPacket s t) .fin :=
  ((((new_plain.setConnectionId _).setSeqNr _).setAckNr _).setTimestamp _).setType _

theorem finPacket_facts (s : Socket) (t : U32) :
    (finPacket s t).seqNr = s.seqNr ∧ (finPacket s t).ackNr = s.ackNr ∧ (finPacket s t).connectionId = s.senderId := by
  have hl : Packet.new.bytes.length = 20 := by decide
  refine ⟨?_, ?_, ?_⟩
  · simp only [finPacket, setType_seqNr, setTimestamp_seqNr, setAckNr_seqNr]
    exact setSeqNr_seqNr (by simp [hl]) _
  · simp only [finPacket, setType_ackNr, setTimestamp_ackNr]
    exact setAckNr_ackNr (by simp [hl]) _
  · simp only [finPacket, setType_connectionId, setTimestamp_connectionId, setAckNr_connectionId, setSeqNr_connectionId]
    exact setConnectionId_connectionId (by simp [hl]) _

theorem resendRequest_plain (s : Socket) (t : U32) : Plain (resendRequest s t) .state :=
  (((((new_plain.setType _).setTimestamp _).setTimestampDifference _).setConnectionId _).setSeqNr _).setAckNr _

theorem resendRequest_facts (s : Socket) (t : U32) :
    (resendRequest s t).seqNr = s.seqNr ∧ (resendRequest s t).ackNr = s.ackNr ∧ (resendRequest s t).connectionId = s.senderId := by
  have hl : Packet.new.bytes.length = 20 := by decide
  refine ⟨?_, ?_, ?_⟩
  · simp only [resendRequest, setAckNr_seqNr]
    exact setSeqNr_seqNr (by simp [hl]) _
  · exact setAckNr_ackNr (by simp [hl]) _
  · simp only [resendRequest, setAckNr_connectionId, setSeqNr_connectionId]
    exact setConnectionId_connectionId (by simp [hl]) _

theorem synPacket_plain (s : Socket) (t : U32) : Plain (synPacket s t) .syn :=
  (((new_plain.setType _).setConnectionId _).setSeqNr _).setTimestamp _

theorem synPacket_facts (s : Socket) (t : U32) :
    (synPacket s t).seqNr = s.seqNr ∧ (synPacket s t).connectionId = s.receiverId := by
  have hl : Packet.new.bytes.length = 20 := by decide
  refine ⟨?_, ?_⟩
  · simp only [synPacket, setTimestamp_seqNr]
    exact setSeqNr_seqNr (by simp [hl]) _
  · simp only [synPacket, setTimestamp_connectionId, setSeqNr_connectionId]
    exact setConnectionId_connectionId (by simp [hl]) _

/-! ### Invariants of all reachable worlds -/

section
variable {E : Env}

/-- Data packets without extensions, of 21 to 1400 bytes; all steps allowed. -/
def Ctx.any : Ctx := ⟨fun p => Plain p .data ∧ 20 < p.bytes.length ∧ p.bytes.length ≤ 1400, True, True, True, True⟩

/-- A path of steps of the transition system, each of which also satisfies the rule `R`.  A rule mostly speaks of a
few fields; `Step` fixes what happens to all the others, so that the worlds on the path are those the code
passes through and not arbitrary ones chosen to make `R` true. -/
def Traced (E : Env) (R : World → World → Prop) (a b : World) : Prop :=
  Path (fun a b => Step E .any a b ∧ R a b) a b

theorem Emitted.mono {V V' : Ctx} (ho : ∀ p, V p → V' p) (hc : V.ctl → V'.ctl) (hr : V.req → V'.req) {w : World} {dst : Addr} {p : Packet}
    (h : Emitted E V w dst p) : Emitted E V' w dst p := by
  cases h with
  | data _ h => exact .data _ (ho _ h)
  | fin t h0 h1 h2 h3 => exact .fin t (h0.imp_left hc) h1 h2 h3
  | request t h0 h1 h2 => exact .request t (hr h0) h1 h2
  | reply _ _ _ h1 h2 h3 => exact .reply _ _ _ h1 h2 h3

theorem Step.mono {V V' : Ctx} (ho : ∀ p, V p → V' p) (he : V.enq → V'.enq) (hq : V.que → V'.que)
    (hc : V.ctl → V'.ctl) (hr : V.req → V'.req) {a b : World} (h : Step E V a b) : Step E V' a b := by
  cases h with
  | tick => exact .tick _
  | wait => exact .wait _
  | send dst p ok h => exact .send _ dst p ok (h.mono ho hc hr)
  | giveUp h => exact .giveUp _ h
  | timeout h => exact .timeout _ h
  | touch p rest t h h' h'' => exact .touch _ p rest t h h' h''
  | arrive pkt src h => exact .arrive _ pkt src h
  | remote pkt src t h => exact .remote _ pkt src t h
  | syn pkt src r h1 h2 h3 => exact .syn _ pkt src r h1 h2 h3
  | draw => exact .draw _
  | synAck pkt src t h1 h2 h3 => exact .synAck _ pkt src t h1 h2 h3
  | finClose pkt src h1 h2 h3 => exact .finClose _ pkt src h1 h2 h3
  | finAck pkt src h1 h2 h3 h4 => exact .finAck _ pkt src h1 h2 h3 h4
  | reset pkt src h1 h2 h3 => exact .reset _ pkt src h1 h2 h3
  | dupAck pkt src h1 h2 h3 h4 => exact .dupAck _ pkt src h1 h2 h3 h4
  | newAck pkt src t h1 h2 h3 h4 => exact .newAck _ pkt src t h1 h2 h3 h4
  | measure pkt src i p t s' h1 h2 h3 h4 h5 h6 h7 h8 => exact .measure _ pkt src i p t s' h1 h2 h3 h4 h5 h6 h7 h8
  | halve pkt src h1 h2 => exact .halve _ pkt src h1 h2
  | advance s' h1 h2 => exact .advance _ s' h1 h2
  | insert pkt src h1 h2 h3 => exact .insert _ pkt src h1 h2 h3
  | deliverPending len h => exact .deliverPending _ len h
  | deliverHead p rest pl len h1 h2 h3 h4 => exact .deliverHead _ p rest pl len h1 h2 h3 h4
  | setRetries n h => exact .setRetries _ n (hc h)
  | enqueue c h1 h2 h3 h4 h5 => exact .enqueue _ c (he h1) h2 h3 h4 (ho _ h5)
  | pop p rest h1 h2 => exact .pop _ p rest (hq h1) h2
  | push p h1 h2 h3 h4 h5 => exact .push _ p (hq h1) (ho _ h2) h3 h4 h5
  | finSent h1 h2 h3 h4 => exact .finSent _ (hc h1) h2 h3 h4

theorem VOk.any : VOk Ctx.any :=
  ⟨fun p t h => ⟨h.1.setTimestamp t, by simpa using h.2⟩, fun p t h => ⟨h.1.setTimestampDifference t, by simpa using h.2⟩⟩

theorem dataPacket_any (s : Socket) (c : Bytes) (h1 : 0 < c.length) (h2 : c.length ≤ CHUNK) : Ctx.any (dataPacket s c) := by
  refine ⟨dataPacket_plain s c, ?_⟩
  rw [(dataPacket_facts s c).2.2.2.2]
  simp only [CHUNK] at h2
  omega

/-- An invariant of all reachable worlds. -/
theorem reach_inv {I : World → Prop} (h0 : ∀ w, Start E w → I w)
    (hs : ∀ a b, Step E .any a b → Inv .any a → I a → I b) {w : World} (h : Reach E w) : I w := by
  obtain ⟨w0, hw0, hst⟩ := reach_steps (V := .any) .any ⟨trivial, trivial⟩ trivial trivial dataPacket_any h
  have : Inv .any w ∧ I w := by
    refine hst.inv (I := fun w => Inv .any w ∧ I w) (fun a b s hi => ⟨hi.1.step .any s, hs a b s hi.1 hi.2⟩) ⟨start_inv hw0, h0 _ hw0⟩
  exact this.2

end

end Utp
