import Verif.Lemmas.Header
/-!
# Setting one header field leaves the others alone (generated by listing setters and getters)
-/

namespace Utp
open Spec Packet

theorem byteAt_put16 (b : Bytes) (i : Nat) (v : U16) (j : Nat) (h : j < i ∨ i + 2 ≤ j) : byteAt (put16 b i v) j = byteAt b j := by
  simp only [byteAt, List.getD, put16_other b i v j h]

theorem byteAt_put32 (b : Bytes) (i : Nat) (v : U32) (j : Nat) (h : j < i ∨ i + 4 ≤ j) : byteAt (put32 b i v) j = byteAt b j := by
  simp only [byteAt, List.getD, put32_other b i v j h]

theorem byteAt_set0 (b : Bytes) (v : U8) (j : Nat) (h : 1 ≤ j) : byteAt (b.set 0 v) j = byteAt b j := by
  rw [byteAt_set, if_neg (by omega)]

/-- Two byte strings that agree on the second byte and behind the header have the same payload. -/
theorem payload_congr {p q : Packet} (hl : p.bytes.length = q.bytes.length) (h1 : p.bytes[1]? = q.bytes[1]?)
    (h : ∀ i, 20 ≤ i → p.bytes[i]? = q.bytes[i]?) : p.payload = q.payload := by
  have hd : ∀ i, 20 ≤ i → p.bytes.drop i = q.bytes.drop i := by
    intro i hi
    apply List.ext_getElem?
    intro j
    simp only [List.getElem?_drop]
    exact h _ (by omega)
  have hloop : ∀ fuel i e, 20 ≤ i → payloadLoop p.bytes fuel i e = payloadLoop q.bytes fuel i e := by
    intro fuel
    induction fuel with
    | zero => intro i e _; rfl
    | succ n ih =>
      intro i e hi
      unfold payloadLoop
      rw [hl, h i hi, h (i + 1) (by omega)]
      split
      · split
        · exact ih _ _ (by omega)
        · rfl
      · rfl
  have hge : ∀ fuel i e k, 20 ≤ i → payloadLoop q.bytes fuel i e = some k → 20 ≤ k := by
    intro fuel
    induction fuel with
    | zero => intro i e k _ hk; simp [payloadLoop] at hk
    | succ n ih =>
      intro i e k hi hk
      unfold payloadLoop at hk
      split at hk
      · split at hk
        · exact ih _ _ _ (by omega) hk
        · simp at hk
      · simp at hk; omega
  unfold payload
  rw [h1, hl]
  split
  · rfl
  · rw [hloop _ _ _ (by simp [HEADER_SIZE])]
    split
    · rfl
    · rename_i e k hk
      rw [hd k (hge _ _ _ _ (by simp [HEADER_SIZE]) hk)]

@[simp] theorem setConnectionId_length (p : Packet) (v : U16) : (p.setConnectionId v).bytes.length = p.bytes.length := by simp [setConnectionId]
@[simp] theorem setConnectionId_len (p : Packet) (v : U16) : (p.setConnectionId v).len = p.len := by simp [len]
@[simp] theorem setConnectionId_payload (p : Packet) (v : U16) : (p.setConnectionId v).payload = p.payload :=
  payload_congr (by simp) (put16_other _ _ _ _ (by omega)) fun _ _ => put16_other _ _ _ _ (by omega)
@[simp] theorem setConnectionId_getType (p : Packet) (v : U16) : (p.setConnectionId v).getType = p.getType := by
  simp only [getType, setConnectionId, Nat.reduceAdd, byteAt_put16 _ 2 _ 0 (by omega)]
@[simp] theorem setConnectionId_getExtensionType (p : Packet) (v : U16) : (p.setConnectionId v).getExtensionType = p.getExtensionType := by
  simp only [getExtensionType, setConnectionId, Nat.reduceAdd, byteAt_put16 _ 2 _ 1 (by omega)]
@[simp] theorem setConnectionId_getVersion (p : Packet) (v : U16) : (p.setConnectionId v).getVersion = p.getVersion := by
  simp only [getVersion, setConnectionId, Nat.reduceAdd, byteAt_put16 _ 2 _ 0 (by omega)]
@[simp] theorem setConnectionId_timestamp (p : Packet) (v : U16) : (p.setConnectionId v).timestamp = p.timestamp := by
  simp only [timestamp, be32, setConnectionId, Nat.reduceAdd, byteAt_put16 _ 2 _ 4 (by omega), byteAt_put16 _ 2 _ 5 (by omega), byteAt_put16 _ 2 _ 6 (by omega), byteAt_put16 _ 2 _ 7 (by omega)]
@[simp] theorem setConnectionId_timestampDifference (p : Packet) (v : U16) : (p.setConnectionId v).timestampDifference = p.timestampDifference := by
  simp only [timestampDifference, be32, setConnectionId, Nat.reduceAdd, byteAt_put16 _ 2 _ 8 (by omega), byteAt_put16 _ 2 _ 9 (by omega), byteAt_put16 _ 2 _ 10 (by omega), byteAt_put16 _ 2 _ 11 (by omega)]
@[simp] theorem setConnectionId_wndSize (p : Packet) (v : U16) : (p.setConnectionId v).wndSize = p.wndSize := by
  simp only [wndSize, be32, setConnectionId, Nat.reduceAdd, byteAt_put16 _ 2 _ 12 (by omega), byteAt_put16 _ 2 _ 13 (by omega), byteAt_put16 _ 2 _ 14 (by omega), byteAt_put16 _ 2 _ 15 (by omega)]
@[simp] theorem setConnectionId_seqNr (p : Packet) (v : U16) : (p.setConnectionId v).seqNr = p.seqNr := by
  simp only [seqNr, be16, setConnectionId, Nat.reduceAdd, byteAt_put16 _ 2 _ 16 (by omega), byteAt_put16 _ 2 _ 17 (by omega)]
@[simp] theorem setConnectionId_ackNr (p : Packet) (v : U16) : (p.setConnectionId v).ackNr = p.ackNr := by
  simp only [ackNr, be16, setConnectionId, Nat.reduceAdd, byteAt_put16 _ 2 _ 18 (by omega), byteAt_put16 _ 2 _ 19 (by omega)]
@[simp] theorem setTimestamp_length (p : Packet) (v : U32) : (p.setTimestamp v).bytes.length = p.bytes.length := by simp [setTimestamp]
@[simp] theorem setTimestamp_len (p : Packet) (v : U32) : (p.setTimestamp v).len = p.len := by simp [len]
@[simp] theorem setTimestamp_payload (p : Packet) (v : U32) : (p.setTimestamp v).payload = p.payload :=
  payload_congr (by simp) (put32_other _ _ _ _ (by omega)) fun _ _ => put32_other _ _ _ _ (by omega)
@[simp] theorem setTimestamp_getType (p : Packet) (v : U32) : (p.setTimestamp v).getType = p.getType := by
  simp only [getType, setTimestamp, Nat.reduceAdd, byteAt_put32 _ 4 _ 0 (by omega)]
@[simp] theorem setTimestamp_getExtensionType (p : Packet) (v : U32) : (p.setTimestamp v).getExtensionType = p.getExtensionType := by
  simp only [getExtensionType, setTimestamp, Nat.reduceAdd, byteAt_put32 _ 4 _ 1 (by omega)]
@[simp] theorem setTimestamp_getVersion (p : Packet) (v : U32) : (p.setTimestamp v).getVersion = p.getVersion := by
  simp only [getVersion, setTimestamp, Nat.reduceAdd, byteAt_put32 _ 4 _ 0 (by omega)]
@[simp] theorem setTimestamp_connectionId (p : Packet) (v : U32) : (p.setTimestamp v).connectionId = p.connectionId := by
  simp only [connectionId, be16, setTimestamp, Nat.reduceAdd, byteAt_put32 _ 4 _ 2 (by omega), byteAt_put32 _ 4 _ 3 (by omega)]
@[simp] theorem setTimestamp_timestampDifference (p : Packet) (v : U32) : (p.setTimestamp v).timestampDifference = p.timestampDifference := by
  simp only [timestampDifference, be32, setTimestamp, Nat.reduceAdd, byteAt_put32 _ 4 _ 8 (by omega), byteAt_put32 _ 4 _ 9 (by omega), byteAt_put32 _ 4 _ 10 (by omega), byteAt_put32 _ 4 _ 11 (by omega)]
@[simp] theorem setTimestamp_wndSize (p : Packet) (v : U32) : (p.setTimestamp v).wndSize = p.wndSize := by
  simp only [wndSize, be32, setTimestamp, Nat.reduceAdd, byteAt_put32 _ 4 _ 12 (by omega), byteAt_put32 _ 4 _ 13 (by omega), byteAt_put32 _ 4 _ 14 (by omega), byteAt_put32 _ 4 _ 15 (by omega)]
@[simp] theorem setTimestamp_seqNr (p : Packet) (v : U32) : (p.setTimestamp v).seqNr = p.seqNr := by
  simp only [seqNr, be16, setTimestamp, Nat.reduceAdd, byteAt_put32 _ 4 _ 16 (by omega), byteAt_put32 _ 4 _ 17 (by omega)]
@[simp] theorem setTimestamp_ackNr (p : Packet) (v : U32) : (p.setTimestamp v).ackNr = p.ackNr := by
  simp only [ackNr, be16, setTimestamp, Nat.reduceAdd, byteAt_put32 _ 4 _ 18 (by omega), byteAt_put32 _ 4 _ 19 (by omega)]
@[simp] theorem setTimestampDifference_length (p : Packet) (v : Int) : (p.setTimestampDifference v).bytes.length = p.bytes.length := by simp [setTimestampDifference]
@[simp] theorem setTimestampDifference_len (p : Packet) (v : Int) : (p.setTimestampDifference v).len = p.len := by simp [len]
@[simp] theorem setTimestampDifference_payload (p : Packet) (v : Int) : (p.setTimestampDifference v).payload = p.payload :=
  payload_congr (by simp) (put32_other _ _ _ _ (by omega)) fun _ _ => put32_other _ _ _ _ (by omega)
@[simp] theorem setTimestampDifference_getType (p : Packet) (v : Int) : (p.setTimestampDifference v).getType = p.getType := by
  simp only [getType, setTimestampDifference, Nat.reduceAdd, byteAt_put32 _ 8 _ 0 (by omega)]
@[simp] theorem setTimestampDifference_getExtensionType (p : Packet) (v : Int) : (p.setTimestampDifference v).getExtensionType = p.getExtensionType := by
  simp only [getExtensionType, setTimestampDifference, Nat.reduceAdd, byteAt_put32 _ 8 _ 1 (by omega)]
@[simp] theorem setTimestampDifference_getVersion (p : Packet) (v : Int) : (p.setTimestampDifference v).getVersion = p.getVersion := by
  simp only [getVersion, setTimestampDifference, Nat.reduceAdd, byteAt_put32 _ 8 _ 0 (by omega)]
@[simp] theorem setTimestampDifference_connectionId (p : Packet) (v : Int) : (p.setTimestampDifference v).connectionId = p.connectionId := by
  simp only [connectionId, be16, setTimestampDifference, Nat.reduceAdd, byteAt_put32 _ 8 _ 2 (by omega), byteAt_put32 _ 8 _ 3 (by omega)]
@[simp] theorem setTimestampDifference_timestamp (p : Packet) (v : Int) : (p.setTimestampDifference v).timestamp = p.timestamp := by
  simp only [timestamp, be32, setTimestampDifference, Nat.reduceAdd, byteAt_put32 _ 8 _ 4 (by omega), byteAt_put32 _ 8 _ 5 (by omega), byteAt_put32 _ 8 _ 6 (by omega), byteAt_put32 _ 8 _ 7 (by omega)]
@[simp] theorem setTimestampDifference_wndSize (p : Packet) (v : Int) : (p.setTimestampDifference v).wndSize = p.wndSize := by
  simp only [wndSize, be32, setTimestampDifference, Nat.reduceAdd, byteAt_put32 _ 8 _ 12 (by omega), byteAt_put32 _ 8 _ 13 (by omega), byteAt_put32 _ 8 _ 14 (by omega), byteAt_put32 _ 8 _ 15 (by omega)]
@[simp] theorem setTimestampDifference_seqNr (p : Packet) (v : Int) : (p.setTimestampDifference v).seqNr = p.seqNr := by
  simp only [seqNr, be16, setTimestampDifference, Nat.reduceAdd, byteAt_put32 _ 8 _ 16 (by omega), byteAt_put32 _ 8 _ 17 (by omega)]
@[simp] theorem setTimestampDifference_ackNr (p : Packet) (v : Int) : (p.setTimestampDifference v).ackNr = p.ackNr := by
  simp only [ackNr, be16, setTimestampDifference, Nat.reduceAdd, byteAt_put32 _ 8 _ 18 (by omega), byteAt_put32 _ 8 _ 19 (by omega)]
@[simp] theorem setWndSize_length (p : Packet) (v : U32) : (p.setWndSize v).bytes.length = p.bytes.length := by simp [setWndSize]
@[simp] theorem setWndSize_len (p : Packet) (v : U32) : (p.setWndSize v).len = p.len := by simp [len]
@[simp] theorem setWndSize_payload (p : Packet) (v : U32) : (p.setWndSize v).payload = p.payload :=
  payload_congr (by simp) (put32_other _ _ _ _ (by omega)) fun _ _ => put32_other _ _ _ _ (by omega)
@[simp] theorem setWndSize_getType (p : Packet) (v : U32) : (p.setWndSize v).getType = p.getType := by
  simp only [getType, setWndSize, Nat.reduceAdd, byteAt_put32 _ 12 _ 0 (by omega)]
@[simp] theorem setWndSize_getExtensionType (p : Packet) (v : U32) : (p.setWndSize v).getExtensionType = p.getExtensionType := by
  simp only [getExtensionType, setWndSize, Nat.reduceAdd, byteAt_put32 _ 12 _ 1 (by omega)]
@[simp] theorem setWndSize_getVersion (p : Packet) (v : U32) : (p.setWndSize v).getVersion = p.getVersion := by
  simp only [getVersion, setWndSize, Nat.reduceAdd, byteAt_put32 _ 12 _ 0 (by omega)]
@[simp] theorem setWndSize_connectionId (p : Packet) (v : U32) : (p.setWndSize v).connectionId = p.connectionId := by
  simp only [connectionId, be16, setWndSize, Nat.reduceAdd, byteAt_put32 _ 12 _ 2 (by omega), byteAt_put32 _ 12 _ 3 (by omega)]
@[simp] theorem setWndSize_timestamp (p : Packet) (v : U32) : (p.setWndSize v).timestamp = p.timestamp := by
  simp only [timestamp, be32, setWndSize, Nat.reduceAdd, byteAt_put32 _ 12 _ 4 (by omega), byteAt_put32 _ 12 _ 5 (by omega), byteAt_put32 _ 12 _ 6 (by omega), byteAt_put32 _ 12 _ 7 (by omega)]
@[simp] theorem setWndSize_timestampDifference (p : Packet) (v : U32) : (p.setWndSize v).timestampDifference = p.timestampDifference := by
  simp only [timestampDifference, be32, setWndSize, Nat.reduceAdd, byteAt_put32 _ 12 _ 8 (by omega), byteAt_put32 _ 12 _ 9 (by omega), byteAt_put32 _ 12 _ 10 (by omega), byteAt_put32 _ 12 _ 11 (by omega)]
@[simp] theorem setWndSize_seqNr (p : Packet) (v : U32) : (p.setWndSize v).seqNr = p.seqNr := by
  simp only [seqNr, be16, setWndSize, Nat.reduceAdd, byteAt_put32 _ 12 _ 16 (by omega), byteAt_put32 _ 12 _ 17 (by omega)]
@[simp] theorem setWndSize_ackNr (p : Packet) (v : U32) : (p.setWndSize v).ackNr = p.ackNr := by
  simp only [ackNr, be16, setWndSize, Nat.reduceAdd, byteAt_put32 _ 12 _ 18 (by omega), byteAt_put32 _ 12 _ 19 (by omega)]
@[simp] theorem setSeqNr_length (p : Packet) (v : U16) : (p.setSeqNr v).bytes.length = p.bytes.length := by simp [setSeqNr]
@[simp] theorem setSeqNr_len (p : Packet) (v : U16) : (p.setSeqNr v).len = p.len := by simp [len]
@[simp] theorem setSeqNr_payload (p : Packet) (v : U16) : (p.setSeqNr v).payload = p.payload :=
  payload_congr (by simp) (put16_other _ _ _ _ (by omega)) fun _ _ => put16_other _ _ _ _ (by omega)
@[simp] theorem setSeqNr_getType (p : Packet) (v : U16) : (p.setSeqNr v).getType = p.getType := by
  simp only [getType, setSeqNr, Nat.reduceAdd, byteAt_put16 _ 16 _ 0 (by omega)]
@[simp] theorem setSeqNr_getExtensionType (p : Packet) (v : U16) : (p.setSeqNr v).getExtensionType = p.getExtensionType := by
  simp only [getExtensionType, setSeqNr, Nat.reduceAdd, byteAt_put16 _ 16 _ 1 (by omega)]
@[simp] theorem setSeqNr_getVersion (p : Packet) (v : U16) : (p.setSeqNr v).getVersion = p.getVersion := by
  simp only [getVersion, setSeqNr, Nat.reduceAdd, byteAt_put16 _ 16 _ 0 (by omega)]
@[simp] theorem setSeqNr_connectionId (p : Packet) (v : U16) : (p.setSeqNr v).connectionId = p.connectionId := by
  simp only [connectionId, be16, setSeqNr, Nat.reduceAdd, byteAt_put16 _ 16 _ 2 (by omega), byteAt_put16 _ 16 _ 3 (by omega)]
@[simp] theorem setSeqNr_timestamp (p : Packet) (v : U16) : (p.setSeqNr v).timestamp = p.timestamp := by
  simp only [timestamp, be32, setSeqNr, Nat.reduceAdd, byteAt_put16 _ 16 _ 4 (by omega), byteAt_put16 _ 16 _ 5 (by omega), byteAt_put16 _ 16 _ 6 (by omega), byteAt_put16 _ 16 _ 7 (by omega)]
@[simp] theorem setSeqNr_timestampDifference (p : Packet) (v : U16) : (p.setSeqNr v).timestampDifference = p.timestampDifference := by
  simp only [timestampDifference, be32, setSeqNr, Nat.reduceAdd, byteAt_put16 _ 16 _ 8 (by omega), byteAt_put16 _ 16 _ 9 (by omega), byteAt_put16 _ 16 _ 10 (by omega), byteAt_put16 _ 16 _ 11 (by omega)]
@[simp] theorem setSeqNr_wndSize (p : Packet) (v : U16) : (p.setSeqNr v).wndSize = p.wndSize := by
  simp only [wndSize, be32, setSeqNr, Nat.reduceAdd, byteAt_put16 _ 16 _ 12 (by omega), byteAt_put16 _ 16 _ 13 (by omega), byteAt_put16 _ 16 _ 14 (by omega), byteAt_put16 _ 16 _ 15 (by omega)]
@[simp] theorem setSeqNr_ackNr (p : Packet) (v : U16) : (p.setSeqNr v).ackNr = p.ackNr := by
  simp only [ackNr, be16, setSeqNr, Nat.reduceAdd, byteAt_put16 _ 16 _ 18 (by omega), byteAt_put16 _ 16 _ 19 (by omega)]
@[simp] theorem setAckNr_length (p : Packet) (v : U16) : (p.setAckNr v).bytes.length = p.bytes.length := by simp [setAckNr]
@[simp] theorem setAckNr_len (p : Packet) (v : U16) : (p.setAckNr v).len = p.len := by simp [len]
@[simp] theorem setAckNr_payload (p : Packet) (v : U16) : (p.setAckNr v).payload = p.payload :=
  payload_congr (by simp) (put16_other _ _ _ _ (by omega)) fun _ _ => put16_other _ _ _ _ (by omega)
@[simp] theorem setAckNr_getType (p : Packet) (v : U16) : (p.setAckNr v).getType = p.getType := by
  simp only [getType, setAckNr, Nat.reduceAdd, byteAt_put16 _ 18 _ 0 (by omega)]
@[simp] theorem setAckNr_getExtensionType (p : Packet) (v : U16) : (p.setAckNr v).getExtensionType = p.getExtensionType := by
  simp only [getExtensionType, setAckNr, Nat.reduceAdd, byteAt_put16 _ 18 _ 1 (by omega)]
@[simp] theorem setAckNr_getVersion (p : Packet) (v : U16) : (p.setAckNr v).getVersion = p.getVersion := by
  simp only [getVersion, setAckNr, Nat.reduceAdd, byteAt_put16 _ 18 _ 0 (by omega)]
@[simp] theorem setAckNr_connectionId (p : Packet) (v : U16) : (p.setAckNr v).connectionId = p.connectionId := by
  simp only [connectionId, be16, setAckNr, Nat.reduceAdd, byteAt_put16 _ 18 _ 2 (by omega), byteAt_put16 _ 18 _ 3 (by omega)]
@[simp] theorem setAckNr_timestamp (p : Packet) (v : U16) : (p.setAckNr v).timestamp = p.timestamp := by
  simp only [timestamp, be32, setAckNr, Nat.reduceAdd, byteAt_put16 _ 18 _ 4 (by omega), byteAt_put16 _ 18 _ 5 (by omega), byteAt_put16 _ 18 _ 6 (by omega), byteAt_put16 _ 18 _ 7 (by omega)]
@[simp] theorem setAckNr_timestampDifference (p : Packet) (v : U16) : (p.setAckNr v).timestampDifference = p.timestampDifference := by
  simp only [timestampDifference, be32, setAckNr, Nat.reduceAdd, byteAt_put16 _ 18 _ 8 (by omega), byteAt_put16 _ 18 _ 9 (by omega), byteAt_put16 _ 18 _ 10 (by omega), byteAt_put16 _ 18 _ 11 (by omega)]
@[simp] theorem setAckNr_wndSize (p : Packet) (v : U16) : (p.setAckNr v).wndSize = p.wndSize := by
  simp only [wndSize, be32, setAckNr, Nat.reduceAdd, byteAt_put16 _ 18 _ 12 (by omega), byteAt_put16 _ 18 _ 13 (by omega), byteAt_put16 _ 18 _ 14 (by omega), byteAt_put16 _ 18 _ 15 (by omega)]
@[simp] theorem setAckNr_seqNr (p : Packet) (v : U16) : (p.setAckNr v).seqNr = p.seqNr := by
  simp only [seqNr, be16, setAckNr, Nat.reduceAdd, byteAt_put16 _ 18 _ 16 (by omega), byteAt_put16 _ 18 _ 17 (by omega)]
@[simp] theorem setType_length (p : Packet) (v : PacketType) : (p.setType v).bytes.length = p.bytes.length := by simp [setType]
@[simp] theorem setType_len (p : Packet) (v : PacketType) : (p.setType v).len = p.len := by simp [len]
@[simp] theorem setType_payload (p : Packet) (v : PacketType) : (p.setType v).payload = p.payload :=
  payload_congr (by simp) (by simp [setType]) fun i _ => by simp only [setType]; rw [List.getElem?_set_ne (by omega)]
@[simp] theorem setType_getExtensionType (p : Packet) (v : PacketType) : (p.setType v).getExtensionType = p.getExtensionType := by
  simp only [getExtensionType, setType, Nat.reduceAdd, byteAt_set0 _ _ 1 (by omega)]
@[simp] theorem setType_connectionId (p : Packet) (v : PacketType) : (p.setType v).connectionId = p.connectionId := by
  simp only [connectionId, be16, setType, Nat.reduceAdd, byteAt_set0 _ _ 2 (by omega), byteAt_set0 _ _ 3 (by omega)]
@[simp] theorem setType_timestamp (p : Packet) (v : PacketType) : (p.setType v).timestamp = p.timestamp := by
  simp only [timestamp, be32, setType, Nat.reduceAdd, byteAt_set0 _ _ 4 (by omega), byteAt_set0 _ _ 5 (by omega), byteAt_set0 _ _ 6 (by omega), byteAt_set0 _ _ 7 (by omega)]
@[simp] theorem setType_timestampDifference (p : Packet) (v : PacketType) : (p.setType v).timestampDifference = p.timestampDifference := by
  simp only [timestampDifference, be32, setType, Nat.reduceAdd, byteAt_set0 _ _ 8 (by omega), byteAt_set0 _ _ 9 (by omega), byteAt_set0 _ _ 10 (by omega), byteAt_set0 _ _ 11 (by omega)]
@[simp] theorem setType_wndSize (p : Packet) (v : PacketType) : (p.setType v).wndSize = p.wndSize := by
  simp only [wndSize, be32, setType, Nat.reduceAdd, byteAt_set0 _ _ 12 (by omega), byteAt_set0 _ _ 13 (by omega), byteAt_set0 _ _ 14 (by omega), byteAt_set0 _ _ 15 (by omega)]
@[simp] theorem setType_seqNr (p : Packet) (v : PacketType) : (p.setType v).seqNr = p.seqNr := by
  simp only [seqNr, be16, setType, Nat.reduceAdd, byteAt_set0 _ _ 16 (by omega), byteAt_set0 _ _ 17 (by omega)]
@[simp] theorem setType_ackNr (p : Packet) (v : PacketType) : (p.setType v).ackNr = p.ackNr := by
  simp only [ackNr, be16, setType, Nat.reduceAdd, byteAt_set0 _ _ 18 (by omega), byteAt_set0 _ _ 19 (by omega)]

end Utp
