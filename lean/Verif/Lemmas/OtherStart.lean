import Verif.Spec.OtherStart
import Verif.Lemmas.Oblivious
import Verif.Lemmas.OtherId
/-!
# Two runs that differ only in where our sequence numbers begin
-/

namespace Utp
open M Packet

variable {E : Env} {d : U16} {α β : Type} {i : Nat}

/-! ### Packets -/

theorem renum_eq (b : Bytes) : renum i d b = put16 b i (be16 b i + d) := rfl

@[simp] theorem renum_length (b : Bytes) : (renum i d b).length = b.length := by simp [renum]

theorem renum_get (b : Bytes) {j : Nat} (h : j < i ∨ i + 2 ≤ j) : (renum i d b)[j]? = b[j]? := put16_other _ _ _ _ h

theorem renum_byte (b : Bytes) {j : Nat} (h : j < i ∨ i + 2 ≤ j) : byteAt (renum i d b) j = byteAt b j := by
  simp only [byteAt, List.getD, renum_get b h]

theorem renum_be16 (b : Bytes) {j : Nat} (h : j + 2 ≤ i ∨ i + 2 ≤ j) : be16 (renum i d b) j = be16 b j := by
  simp only [be16, renum_byte b (show j < i ∨ i + 2 ≤ j by omega), renum_byte b (show j + 1 < i ∨ i + 2 ≤ j + 1 by omega)]

theorem renum_be32 (b : Bytes) {j : Nat} (h : j + 4 ≤ i ∨ i + 2 ≤ j) : be32 (renum i d b) j = be32 b j := by
  simp only [be32, renum_byte b (show j < i ∨ i + 2 ≤ j by omega), renum_byte b (show j + 1 < i ∨ i + 2 ≤ j + 1 by omega),
    renum_byte b (show j + 2 < i ∨ i + 2 ≤ j + 2 by omega), renum_byte b (show j + 3 < i ∨ i + 2 ≤ j + 3 by omega)]

theorem renum_drop (b : Bytes) {j : Nat} (h : i + 2 ≤ j) : (renum i d b).drop j = b.drop j := by
  apply List.ext_getElem?
  intro k
  rw [List.getElem?_drop, List.getElem?_drop, renum_get _ (by omega)]

theorem renum_set (b : Bytes) {j : Nat} (h : j < i ∨ i + 2 ≤ j) (x : U8) : renum i d (b.set j x) = (renum i d b).set j x := by
  have e : ∀ k, k = i ∨ k = i + 1 → (b.set j x).getD k 0 = b.getD k 0 := by
    intro k hk
    simp only [List.getD]
    rw [List.getElem?_set_ne (by omega)]
  unfold renum
  simp only
  rw [e i (by omega), e (i + 1) (by omega), List.set_comm _ _ (show j ≠ i by omega), List.set_comm _ _ (show j ≠ i + 1 by omega)]

theorem renum_put16 (b : Bytes) {j : Nat} (h : j + 2 ≤ i ∨ i + 2 ≤ j) (v : U16) : renum i d (put16 b j v) = put16 (renum i d b) j v := by
  simp only [put16, renum_set _ (show j < i ∨ i + 2 ≤ j by omega), renum_set _ (show j + 1 < i ∨ i + 2 ≤ j + 1 by omega)]

theorem renum_put32 (b : Bytes) {j : Nat} (h : j + 4 ≤ i ∨ i + 2 ≤ j) (v : U32) : renum i d (put32 b j v) = put32 (renum i d b) j v := by
  simp only [put32, renum_set _ (show j < i ∨ i + 2 ≤ j by omega), renum_set _ (show j + 1 < i ∨ i + 2 ≤ j + 1 by omega),
    renum_set _ (show j + 2 < i ∨ i + 2 ≤ j + 2 by omega), renum_set _ (show j + 3 < i ∨ i + 2 ≤ j + 3 by omega)]

theorem renum_take (b : Bytes) {n : Nat} (h : i + 2 ≤ n) : renum i d (b.take n) = (renum i d b).take n := by
  have e : ∀ k, k = i ∨ k = i + 1 → (b.take n).getD k 0 = b.getD k 0 := by
    intro k hk
    simp only [List.getD]
    rw [List.getElem?_take_of_lt (by omega)]
  unfold renum
  simp only
  rw [e i (by omega), e (i + 1) (by omega), List.take_set, List.take_set]

theorem renum_append (a t : Bytes) (h : i + 2 ≤ a.length) : renum i d (a ++ t) = renum i d a ++ t := by
  have e : ∀ k, k = i ∨ k = i + 1 → (a ++ t).getD k 0 = a.getD k 0 := by
    intro k hk
    simp only [List.getD]
    rw [List.getElem?_append_left (by omega)]
  unfold renum
  simp only
  rw [e i (by omega), e (i + 1) (by omega), List.set_append_left _ _ (by omega), List.set_append_left _ _ (by simp; omega)]

section
variable (p : Packet)

theorem laterSeq_seqNr (h : 20 ≤ p.bytes.length) : (p.laterSeq d).seqNr = p.seqNr + d := be16_put16 _ (by omega)
theorem laterAck_ackNr (h : 20 ≤ p.bytes.length) : (p.laterAck d).ackNr = p.ackNr + d := be16_put16 _ (by omega)
theorem laterAck_seqNr : (p.laterAck d).seqNr = p.seqNr := renum_be16 _ (by omega)
theorem laterAck_wndSize : (p.laterAck d).wndSize = p.wndSize := renum_be32 _ (by omega)
theorem laterAck_timestamp : (p.laterAck d).timestamp = p.timestamp := renum_be32 _ (by omega)
theorem laterSeq_timestamp : (p.laterSeq d).timestamp = p.timestamp := renum_be32 _ (by omega)
theorem laterAck_connectionId : (p.laterAck d).connectionId = p.connectionId := renum_be16 _ (by omega)
theorem laterAck_getType : (p.laterAck d).getType = p.getType := by
  simp only [Packet.getType, Packet.renum, renum_byte _ (show 0 < 18 ∨ 18 + 2 ≤ 0 by omega)]
theorem laterSeq_len : (p.laterSeq d).len = p.len := by simp [Packet.len, Packet.renum]

theorem laterAck_payloadLoop (b : Bytes) : ∀ fuel j ext, 20 ≤ j → payloadLoop (renum 18 d b) fuel j ext = payloadLoop b fuel j ext
  | 0, _, _, _ => rfl
  | fuel + 1, j, ext, h => by
    unfold payloadLoop
    rw [renum_length, renum_get _ (by omega), renum_get _ (by omega)]
    split
    · split
      · exact laterAck_payloadLoop b fuel _ _ (by omega)
      · rfl
    · rfl

theorem laterAck_payload : (p.laterAck d).payload = p.payload := by
  unfold Packet.payload Packet.laterAck Packet.renum
  simp only
  rw [renum_get _ (by omega), renum_length]
  cases p.bytes[1]? with
  | none => rfl
  | some e =>
    simp only
    rw [laterAck_payloadLoop _ _ _ _ (by simp [HEADER_SIZE])]
    cases h : payloadLoop p.bytes (p.bytes.length + 1) HEADER_SIZE (.ofU8 e) with
    | none => rfl
    | some k =>
      have := payloadLoop_ge _ _ _ _ _ h
      simp only [HEADER_SIZE] at this
      simp only
      rw [renum_drop _ (by omega)]

theorem laterAck_extensionsLoop (b : Bytes) : ∀ fuel j ext, 20 ≤ j → extensionsLoop (renum 18 d b) fuel j ext = extensionsLoop b fuel j ext
  | 0, _, _, _ => rfl
  | fuel + 1, j, ext, h => by
    unfold extensionsLoop
    rw [renum_length, renum_get _ (by omega), renum_get _ (by omega), renum_drop _ (by omega)]
    split
    · rfl
    · split
      · split
        · rw [laterAck_extensionsLoop b fuel _ _ (by omega)]
        · rfl
      · rfl

theorem laterAck_extensions : (p.laterAck d).extensions = p.extensions := by
  unfold Packet.extensions Packet.laterAck Packet.renum
  simp only
  rw [renum_get _ (by omega), renum_length]
  cases p.bytes[1]? with
  | none => rfl
  | some e => exact laterAck_extensionsLoop _ _ _ _ (by simp [HEADER_SIZE])

theorem laterAck_checkLoop (b : Bytes) : ∀ fuel j ext, 20 ≤ j → checkLoop (renum 18 d b) fuel j ext = checkLoop b fuel j ext
  | 0, _, _, _ => rfl
  | fuel + 1, j, ext, h => by
    unfold checkLoop
    rw [renum_length, renum_get _ (by omega), renum_get _ (by omega)]
    split
    · split
      · rfl
      · split
        · split
          · rfl
          · exact laterAck_checkLoop b fuel _ _ (by omega)
        · rfl
    · rfl

/-- The same result of decoding. -/
def laterParsed (d : U16) : Except ParseError Packet → Except ParseError Packet
  | .ok p => .ok (p.laterAck d)
  | .error e => .error e

theorem later_tryFrom (b : Bytes) : Packet.tryFrom (renum 18 d b) = (Packet.tryFrom b).map (laterParsed d) := by
  have h1 : checkExtensions (renum 18 d b) = checkExtensions b := by
    unfold checkExtensions
    rw [renum_length, renum_get _ (by omega)]
    split
    · rfl
    · cases b[1]? with
      | none => rfl
      | some e => simp only [laterAck_checkLoop b _ HEADER_SIZE _ (by simp [HEADER_SIZE])]
  have h2 : headerTryFrom (renum 18 d b) = headerTryFrom b := by
    unfold headerTryFrom
    rw [renum_length, renum_byte _ (by omega)]
  unfold Packet.tryFrom
  rw [h1, h2]
  rcases checkExtensions b with _ | c
  · rfl
  · simp only
    rcases headerTryFrom b with e | _
    · rfl
    · rcases c with e | _
      · rfl
      · rfl

theorem laterSeq_setAckNr (v : U16) : (p.setAckNr v).laterSeq d = (p.laterSeq d).setAckNr v := congrArg Packet.mk (renum_put16 _ (by omega) _)
theorem laterSeq_setTimestamp (v : U32) : (p.setTimestamp v).laterSeq d = (p.laterSeq d).setTimestamp v := congrArg Packet.mk (renum_put32 _ (by omega) _)
theorem laterSeq_setTimestampDifference (v : Int) : (p.setTimestampDifference v).laterSeq d = (p.laterSeq d).setTimestampDifference v := congrArg Packet.mk (renum_put32 _ (by omega) _)
theorem laterSeq_setWndSize (v : U32) : (p.setWndSize v).laterSeq d = (p.laterSeq d).setWndSize v := congrArg Packet.mk (renum_put32 _ (by omega) _)
theorem laterSeq_setConnectionId (v : U16) : (p.setConnectionId v).laterSeq d = (p.laterSeq d).setConnectionId v := congrArg Packet.mk (renum_put16 _ (by omega) _)
theorem laterSeq_setType (t : PacketType) : (p.setType t).laterSeq d = (p.laterSeq d).setType t := by
  simp only [Packet.laterSeq, Packet.renum, Packet.setType, renum_set _ (show 0 < 16 ∨ 16 + 2 ≤ 0 by omega), renum_byte _ (show 0 < 16 ∨ 16 + 2 ≤ 0 by omega)]

theorem laterSeq_setSeqNr (v : U16) (h : 20 ≤ p.bytes.length) : (p.setSeqNr v).laterSeq d = p.setSeqNr (v + d) := by
  simp only [Packet.laterSeq, Packet.renum, Packet.setSeqNr, renum_eq]
  rw [be16_put16 _ (by omega), put16_twice]

theorem laterSeq_setSack (h1 : p.bytes[1]? = some 0) (h20 : p.bytes.length = 20) (bv : Bytes) : (p.laterSeq d).setSack bv = (p.setSack bv).map (Packet.laterSeq d) := by
  unfold Packet.setSack
  have h1' : (p.laterSeq d).bytes[1]? = some 0 := by rw [Packet.laterSeq, Packet.renum, renum_get _ (by omega), h1]
  have h20' : (p.laterSeq d).bytes.length = 20 := by rw [Packet.laterSeq, Packet.renum, renum_length, h20]
  have hx : ExtensionType.ofU8 0 = .none := rfl
  split
  · rfl
  · split
    · rfl
    · rw [h1, h1']
      simp only [hx, if_true]
      rw [if_pos (by rw [List.length_set, h20']; exact Nat.le_refl _), if_pos (by rw [List.length_set, h20]; exact Nat.le_refl _)]
      have e : ∀ l : Bytes, l.length = 20 → l.take HEADER_SIZE = l ∧ l.drop HEADER_SIZE = [] := fun l hl =>
        ⟨List.take_of_length_le (by rw [hl]; exact Nat.le_refl _), List.drop_of_length_le (by rw [hl]; exact Nat.le_refl _)⟩
      obtain ⟨e1, e2⟩ := e (p.bytes.set 1 ExtensionType.selectiveAck.toU8) (by simp [h20])
      obtain ⟨e3, e4⟩ := e ((p.laterSeq d).bytes.set 1 ExtensionType.selectiveAck.toU8) (by simp [h20'])
      rw [e1, e2, e3, e4]
      simp only [List.append_nil, List.append_assoc, Option.map_some, Packet.laterSeq, Packet.renum]
      rw [renum_append _ _ (by simp [h20]), renum_set _ (by omega)]

end

/-! ### Packets made by the socket -/

theorem later_finPacket (s : Socket) (t : U32) : (finPacket s t).laterSeq d = finPacket (s.later d) t := by
  unfold finPacket
  rw [laterSeq_setType, laterSeq_setTimestamp, laterSeq_setAckNr, laterSeq_setSeqNr _ _ (by simp [Packet.setConnectionId, put16, Packet.new, defaultHeader])]
  rfl

theorem later_resendRequest (s : Socket) (t : U32) : (resendRequest s t).laterSeq d = resendRequest (s.later d) t := by
  unfold resendRequest
  rw [laterSeq_setAckNr, laterSeq_setSeqNr _ _ (by simp [Packet.setConnectionId, Packet.setTimestampDifference, Packet.setTimestamp, Packet.setType, put16, put32, Packet.new, defaultHeader])]
  rfl

theorem later_prepareReply (s : Socket) (t : U32) (pkt : Packet) (ty : PacketType) : (s.prepareReply t pkt ty).laterSeq d = (s.later d).prepareReply t (pkt.laterAck d) ty := by
  unfold Socket.prepareReply
  rw [laterSeq_setAckNr, laterSeq_setSeqNr _ _ (by simp [Packet.setConnectionId, Packet.setTimestampDifference, Packet.setTimestamp, Packet.setType, put16, put32, Packet.new, defaultHeader]), laterAck_timestamp]
  rfl

/-! ### Sockets -/

theorem later_advanceIncoming (s : Socket) : (s.later d).advanceIncoming = s.advanceIncoming.later d := by
  unfold Socket.advanceIncoming
  cases e : s.incoming with
  | nil => simp [Socket.later, e]
  | cons p l => simp [Socket.later, e, laterAck_seqNr]

theorem later_takePending (s : Socket) (len : Nat) : (s.later d).takePending len = ((s.takePending len).1, (s.takePending len).2.later d) := by
  unfold Socket.takePending
  simp only [show (s.later d).pending = s.pending from rfl]
  split
  · exact congrArg (Prod.mk _) (later_advanceIncoming { s with pending := [] })
  · rfl

theorem later_takeHead (s : Socket) (pl : Bytes) (len : Nat) : (s.later d).takeHead pl len = (s.takeHead pl len).later d := by
  unfold Socket.takeHead
  split
  · exact later_advanceIncoming s
  · rfl

theorem later_afterLast (l : List Packet) (p : Packet) : Socket.afterLast (l.map (Packet.laterAck d)) (p.laterAck d) = Socket.afterLast l p := by
  unfold Socket.afterLast
  rw [List.getLast?_map]
  cases l.getLast? with
  | none => rfl
  | some q => simp only [Option.map_some, laterAck_seqNr]

theorem later_filter (f : U16 → Bool) : ∀ l : List Packet, ((l.map (Packet.laterAck d)).filter fun q => f q.seqNr) = (l.filter fun q => f q.seqNr).map (Packet.laterAck d)
  | [] => rfl
  | p :: l => by
    simp only [List.map_cons, List.filter_cons, laterAck_seqNr, later_filter f l]
    split <;> rfl

theorem later_insertIdx (p : Packet) : ∀ (l : List Packet) (j : Nat), (l.map (Packet.laterAck d)).insertIdx j (p.laterAck d) = (l.insertIdx j p).map (Packet.laterAck d)
  | _, 0 => rfl
  | [], _ + 1 => rfl
  | q :: l, j + 1 => by simp only [List.map_cons, List.insertIdx_succ_cons, later_insertIdx p l j]

theorem later_insertPkt (l : List Packet) (p : Packet) : Socket.insertPkt (l.map (Packet.laterAck d)) (p.laterAck d) = (Socket.insertPkt l p).map (Packet.laterAck d) := by
  unfold Socket.insertPkt
  rw [later_afterLast]
  have e : ((l.map (Packet.laterAck d)).filter fun q => q.seqNr < (p.laterAck d).seqNr).length = (l.filter fun q => q.seqNr < p.seqNr).length := by
    rw [laterAck_seqNr, later_filter (fun x => decide (x < p.seqNr)) l, List.length_map]
  simp only [e]
  split
  · simp
  · rw [List.getElem?_map]
    cases l[(l.filter fun q => q.seqNr < p.seqNr).length]? with
    | none => exact later_insertIdx _ _ _
    | some q =>
      simp only [Option.map_some, laterAck_seqNr]
      split
      · exact later_insertIdx _ _ _
      · rfl

theorem later_buildSack (s : Socket) : (s.later d).buildSack (E.later d) = s.buildSack E := by
  unfold Socket.buildSack
  have e : (s.later d).incoming ≠ [] ↔ s.incoming ≠ [] := by simp [Socket.later]
  have e2 : (((s.later d).incoming.filter fun p => (s.later d).ackNr + 1 < p.seqNr).map fun p => (p.seqNr - (s.later d).ackNr - 2).toNat) =
      ((s.incoming.filter fun p => s.ackNr + 1 < p.seqNr).map fun p => (p.seqNr - s.ackNr - 2).toNat) := by
    rw [show (s.later d).incoming = s.incoming.map (Packet.laterAck d) from rfl, show (s.later d).ackNr = s.ackNr from rfl, later_filter (fun x => decide (s.ackNr + 1 < x)) s.incoming, List.map_map]
    apply List.map_congr_left
    intro q _
    simp only [Function.comp, laterAck_seqNr]
  rw [e2]
  simp only [e, show (s.later d).ackNr = s.ackNr from rfl, show (E.later d).checks = E.checks from rfl]

theorem later_subLens : ∀ (l : List Packet) (c : U32), Socket.subLens (E.later d) c (l.map (Packet.laterSeq d)) = Socket.subLens E c l
  | [], _ => rfl
  | p :: l, c => by
    simp only [List.map_cons, Socket.subLens, laterSeq_len, later_subLens l]
    rfl

theorem later_beq (p : Packet) (h : 20 ≤ p.bytes.length) (v : U16) : ((p.laterSeq d).seqNr == v + d) = (p.seqNr == v) := by
  rw [laterSeq_seqNr p h, Bool.eq_iff_iff, beq_iff_eq, beq_iff_eq]
  exact ⟨fun h => by simpa using h, fun h => by rw [h]⟩

theorem later_findIdx (v : U16) : ∀ l : List Packet, (∀ p ∈ l, 20 ≤ p.bytes.length) → ((l.map (Packet.laterSeq d)).findIdx? fun p => p.seqNr == v + d) = l.findIdx? fun p => p.seqNr == v
  | [], _ => rfl
  | p :: l, h => by simp only [List.map_cons, List.findIdx?_cons, later_beq p (h p (by simp)), later_findIdx v l fun q m => h q (by simp [m])]

theorem later_find (v : U16) : ∀ l : List Packet, (∀ p ∈ l, 20 ≤ p.bytes.length) →
    ((l.map (Packet.laterSeq d)).find? fun p => p.seqNr == v + d) = (l.find? fun p => p.seqNr == v).map (Packet.laterSeq d)
  | [], _ => rfl
  | p :: l, h => by
    simp only [List.map_cons, List.find?_cons, later_beq p (h p (by simp)), later_find v l fun q m => h q (by simp [m])]
    split <;> rfl

theorem later_advanceSendWindow (s : Socket) (hs : ∀ p ∈ s.sendWindow, 20 ≤ p.bytes.length) : (s.later d).advanceSendWindow (E.later d) = (s.advanceSendWindow E).map (Socket.later d) := by
  unfold Socket.advanceSendWindow
  simp only [show (s.later d).sendWindow = s.sendWindow.map (Packet.laterSeq d) from rfl, show (s.later d).lastAcked = s.lastAcked + d from rfl, show (s.later d).currWindow = s.currWindow from rfl]
  rw [later_findIdx _ _ hs]
  split
  · rfl
  · rw [← List.map_take, later_subLens]
    split
    · rfl
    · simp only [Option.map_some, ← List.map_drop]
      rfl

theorem later_updateBaseDelay (s : Socket) (x : Int) (t : U32) : (s.later d).updateBaseDelay x t = (s.updateBaseDelay x t).map (Socket.later d) := by
  unfold Socket.updateBaseDelay
  simp only [show (s.later d).baseDelays = s.baseDelays from rfl, show (s.later d).lastRollover = s.lastRollover from rfl]
  by_cases h : s.baseDelays.isEmpty ∨ tsSub t s.lastRollover > MAX_BASE_DELAY_AGE
  · rw [if_pos h, if_pos h]; rfl
  · rw [if_neg h, if_neg h]
    cases s.baseDelays.getLast? with
    | none => rfl
    | some l =>
      simp only
      by_cases h : x < l
      · rw [if_pos h, if_pos h]; rfl
      · rw [if_neg h, if_neg h]; rfl

theorem later_updateCongestionWindow (s : Socket) (n : U32) :
    (s.later d).updateCongestionWindow (E.later d) n = (s.updateCongestionWindow E n).map (Socket.later d) := by
  unfold Socket.updateCongestionWindow
  by_cases h : E.checks ∧ s.currWindow.toNat + 1400 ≥ 2 ^ 32
  · rw [if_pos h, if_pos (show (E.later d).checks ∧ (s.later d).currWindow.toNat + 1400 ≥ 2 ^ 32 from h)]; rfl
  · rw [if_neg h, if_neg (show ¬ ((E.later d).checks ∧ (s.later d).currWindow.toNat + 1400 ≥ 2 ^ 32) from h)]; rfl

theorem later_onNewAck (s : Socket) (idx : Nat) (p : Packet) (t : U32) :
    (s.later d).onNewAck (E.later d) idx (p.laterSeq d) t = (s.onNewAck E idx p t).map (Socket.later d) := by
  unfold Socket.onNewAck
  simp only
  rw [later_updateBaseDelay, laterSeq_timestamp]
  have e2 : (((s.later d).sendWindow.take (idx + 1)).map Packet.len).sum = ((s.sendWindow.take (idx + 1)).map Packet.len).sum := by
    rw [show (s.later d).sendWindow = s.sendWindow.map (Packet.laterSeq d) from rfl, ← List.map_take, List.map_map]
    congr 2
    funext q
    simp only [Function.comp, laterSeq_len]
  rw [e2]
  rcases s.updateBaseDelay (tsSub t p.timestamp) t with _ | s1
  · rfl
  · simp only [Option.map_some]
    have e3 : (s1.later d).updateCurrentDelay (tsSub t p.timestamp) t = (s1.updateCurrentDelay (tsSub t p.timestamp) t).later d := rfl
    rw [e3, later_updateCongestionWindow]
    rcases (s1.updateCurrentDelay (tsSub t p.timestamp) t).updateCongestionWindow E _ with _ | s2
    · rfl
    · rfl

theorem later_enqueue (s : Socket) (c : Bytes) : enqueue (s.later d) c = (enqueue s c).later d := by
  have e : ((((Packet.withPayload c).setSeqNr s.seqNr).setAckNr s.ackNr).setConnectionId s.senderId).laterSeq d =
      (((Packet.withPayload c).setSeqNr (s.seqNr + d)).setAckNr s.ackNr).setConnectionId s.senderId := by
    rw [laterSeq_setConnectionId, laterSeq_setAckNr, laterSeq_setSeqNr]
    simp [Packet.withPayload, Packet.setType, defaultHeader]
  simp only [enqueue, Socket.later, List.map_append, List.map_cons, List.map_nil, e]
  rw [BitVec.add_assoc, BitVec.add_comm d 1, ← BitVec.add_assoc]

theorem later_enqueues (cs : List Bytes) : ∀ s : Socket, cs.foldl enqueue (s.later d) = (cs.foldl enqueue s).later d := by
  induction cs with
  | nil => intro s; rfl
  | cons c cs ih => intro s; simp only [List.foldl_cons, later_enqueue, ih]

/-! ### Computations -/

/-- `m` and `m'` have related results and keep the worlds the same but for our sequence numbers, from worlds whose socket
satisfies `P`, which they keep. -/
def Shf (d : U16) (P : Socket → Prop) (R : α → α → Prop) (m m' : M α) : Prop :=
  ∀ w, P w.s → SameRes R (m w).1 (m' (w.later d)).1 ∧ (m' (w.later d)).2 = (m w).2.later d ∧ P (m w).2.s

namespace Shf

variable {P : Socket → Prop}

theorem ret {R : α → α → Prop} {a a' : α} (h : R a a') : Shf d P R (M.ret a) (M.ret a') := fun _ hw => ⟨.ok h, rfl, hw⟩
theorem pure {R : α → α → Prop} {a a' : α} (h : R a a') : Shf d P R (Pure.pure a) (Pure.pure a') := ret h
theorem throw {R : α → α → Prop} (e : IoErr) : Shf d P R (M.throw e) (M.throw e) := fun _ hw => ⟨.err e, rfl, hw⟩
theorem never {R : α → α → Prop} : Shf d P R M.never M.never := fun _ hw => ⟨.pending, rfl, hw⟩

theorem andThen {R : α → α → Prop} {Q : β → β → Prop} {m m' : M α} {f f' : α → M β} (h : Shf d P R m m')
    (hf : ∀ a a', R a a' → Shf d P Q (f a) (f' a')) : Shf d P Q (M.andThen m f) (M.andThen m' f') := by
  intro w hw
  obtain ⟨h1, h2, h3⟩ := h w hw
  unfold M.andThen
  rcases e : m w with ⟨r, v⟩
  rcases e' : m' (w.later d) with ⟨r', v'⟩
  rw [e, e'] at h1 h2
  rw [e] at h3
  cases h2
  cases h1 with
  | ok ha => exact hf _ _ ha v h3
  | err x => exact ⟨.err x, rfl, h3⟩
  | panic => exact ⟨.panic, rfl, h3⟩
  | pending => exact ⟨.pending, rfl, h3⟩

theorem seq {R : α → α → Prop} {Q : β → β → Prop} {m m' : M α} {f f' : α → M β} (h : Shf d P R m m')
    (hf : ∀ a a', R a a' → Shf d P Q (f a) (f' a')) : Shf d P Q (m >>= f) (m' >>= f') := andThen h hf

theorem seqE {Q : β → β → Prop} {m m' : M α} {f f' : α → M β} (h : Shf d P Eq m m') (hf : ∀ a, Shf d P Q (f a) (f' a)) : Shf d P Q (m >>= f) (m' >>= f') :=
  andThen h fun a _ e => e ▸ hf a

theorem get {Q : β → β → Prop} {f f' : Socket → M β} (hf : ∀ s, P s → Shf d P Q (f s) (f' (s.later d))) : Shf d P Q (getS >>= f) (getS >>= f') :=
  fun w hw => hf w.s hw w hw

theorem modS {f f' : Socket → Socket} (hf : ∀ s, P s → f' (s.later d) = (f s).later d ∧ P (f s)) : Shf d P Eq (M.modS f) (M.modS f') := by
  intro w hw
  obtain ⟨h1, h2⟩ := hf w.s hw
  refine ⟨.ok rfl, ?_, h2⟩
  show ({ (w.later d) with s := f' (w.s.later d) } : World) = _
  rw [h1]
  rfl

theorem orPanic (o : Option α) : Shf d P Eq (M.orPanic o) (M.orPanic o) := by
  cases o with
  | none => exact fun _ hw => ⟨.panic, rfl, hw⟩
  | some a => exact ret rfl

theorem orPanicR {R : α → α → Prop} (f : α → α) (o : Option α) (h : ∀ a, o = some a → R a (f a)) : Shf d P R (M.orPanic o) (M.orPanic (o.map f)) := by
  cases o with
  | none => exact fun _ hw => ⟨.panic, rfl, hw⟩
  | some a => exact ret (h a rfl)

theorem overflowIf (hc : E.checks = false) (b b' : Bool) : Shf d P Eq (M.overflowIf E b) (M.overflowIf (E.later d) b') := by
  unfold M.overflowIf
  rw [show (E.later d).checks = false from hc, hc]
  exact ret rfl

theorem now : Shf d P Eq (M.now E) (M.now (E.later d)) := fun _ h => ⟨.ok rfl, rfl, h⟩

theorem ignoreErr {R : α → α → Prop} {m m' : M α} (h : Shf d P R m m') : Shf d P Eq (M.ignoreErr m) (M.ignoreErr m') := by
  intro w hw
  obtain ⟨h1, h2, h3⟩ := h w hw
  unfold M.ignoreErr
  rcases e : m w with ⟨r, v⟩
  rcases e' : m' (w.later d) with ⟨r', v'⟩
  rw [e, e'] at h1 h2
  rw [e] at h3
  cases h2
  cases h1 with
  | ok ha => exact ⟨.ok rfl, rfl, h3⟩
  | err e => exact ⟨.ok rfl, rfl, h3⟩
  | panic => exact ⟨.panic, rfl, h3⟩
  | pending => exact ⟨.pending, rfl, h3⟩

theorem udpSend (a : Addr) {p p' : Packet} (hp : p' = p.laterSeq d) : Shf d P Eq (M.udpSend E a p.bytes) (M.udpSend (E.later d) a p'.bytes) := by
  intro w h
  subst hp
  unfold M.udpSend
  simp only
  rw [show (E.later d).snd (w.later d).nSnd = E.snd w.nSnd from rfl]
  have e : ∀ ok, ({ (w.later d) with nSnd := (w.later d).nSnd + 1, log := (w.later d).log ++ [.send a (p.laterSeq d).bytes ok] } : World) =
      World.later d { w with nSnd := w.nSnd + 1, log := w.log ++ [.send a p.bytes ok] } := by
    intro ok
    simp only [World.later, List.map_append, List.map_cons, List.map_nil, Act.later, Packet.laterSeq, Packet.renum]
  rcases E.snd w.nSnd with _ | k | _
  · exact ⟨.ok rfl, e _, h⟩
  · exact ⟨.err _, e _, h⟩
  · exact ⟨.pending, e _, h⟩

/-- The same received datagram with another acknowledgement number; it satisfies `Q`. -/
def Got (d : U16) (Q : Bytes → Prop) : Except ErrorKind (Bytes × Addr) → Except ErrorKind (Bytes × Addr) → Prop
  | .ok x, .ok x' => x' = (renum 18 d x.1, x.2) ∧ Q x.1
  | .error k, .error k' => k' = k
  | _, _ => False

theorem udpRecv (t : Option U64) {len : Nat} (hl : 20 ≤ len) {Q : Bytes → Prop} (hQ : ∀ k b a, E.net k = .dgram b a → Q (b.take len)) :
    Shf d P (Got d Q) (M.udpRecv E t len) (M.udpRecv (E.later d) t len) := by
  intro w h
  unfold M.udpRecv
  simp only
  rw [show (E.later d).net (w.later d).nNet = (E.net w.nNet).later d from rfl]
  have e : ({ (w.later d) with nNet := (w.later d).nNet + 1, log := (w.later d).log ++ [.wait t] } : World) =
      World.later d { w with nNet := w.nNet + 1, log := w.log ++ [.wait t] } := by
    simp only [World.later, List.map_append, List.map_cons, List.map_nil, Act.later]
  rcases hn : E.net w.nNet with ⟨b, a⟩ | k | _
  · refine ⟨.ok ⟨?_, hQ _ _ _ hn⟩, e, h⟩
    show ((renum 18 d b).take len, a) = _
    rw [← renum_take _ hl]
  · exact ⟨.ok rfl, e, h⟩
  · exact ⟨.pending, e, h⟩

theorem whileM {c c' : M Bool} {b b' : M Unit} (hc : Shf d P Eq c c') (hb : Shf d P Eq b b') : ∀ n, Shf d P Eq (M.whileM n c b) (M.whileM n c' b')
  | 0 => never
  | n + 1 => by
    refine andThen hc ?_
    rintro go _ rfl
    cases go with
    | true => exact andThen hb fun _ _ _ => whileM hc hb n
    | false => exact ret rfl

theorem ite {R : α → α → Prop} {c c' : Prop} [Decidable c] [Decidable c'] {m n m' n' : M α} (hcc : c' ↔ c) (h1 : c → Shf d P R m m') (h2 : ¬ c → Shf d P R n n') :
    Shf d P R (if c then m else n) (if c' then m' else n') := by
  by_cases hc : c
  · rw [if_pos hc, if_pos (hcc.2 hc)]; exact h1 hc
  · rw [if_neg hc, if_neg (mt hcc.1 hc)]; exact h2 hc

end Shf

open Shf

/-- The packet with another sequence number. -/
abbrev LaterPkt (d : U16) (p p' : Packet) : Prop := p' = p.laterSeq d

/-- The reply with another sequence number. -/
abbrev LaterReply (d : U16) (r r' : Option Packet) : Prop := r' = r.map (Packet.laterSeq d)

/-- The socket left its initial state, and what it holds for sending has whole headers. -/
def BegunLong (s : Socket) : Prop := s.state ≠ .new ∧ (∀ p ∈ s.sendWindow, 20 ≤ p.bytes.length) ∧ ∀ p ∈ s.unsent, 20 ≤ p.bytes.length

/-- No selective acknowledgement in the packet. -/
def Sackless (p : Packet) : Prop := ∀ exts, p.extensions = some exts → ∀ e ∈ exts, e.ty ≠ .selectiveAck

/-! ### The operations -/

section
variable (hc : E.checks = false)
include hc

omit hc in
theorem later_fastResendOne : Shf d BegunLong Eq (fastResendOne E) (fastResendOne (E.later d)) :=
  get fun s _ => seqE now fun t => ignoreErr (R := Eq) (udpSend s.connectedTo (later_resendRequest s t).symm)

theorem later_flushIncoming (len : Nat) : Shf d BegunLong Eq (flushIncoming E len) (flushIncoming (E.later d) len) := by
  unfold flushIncoming
  refine get fun s _ => ?_
  refine ite Iff.rfl (fun _ => seqE (modS fun s hs => ?_) fun _ => pure ?_) fun _ => ?_
  · rw [later_takePending]
    exact ⟨rfl, by simpa [BegunLong] using hs⟩
  · rw [later_takePending]
  · simp only [show (s.later d).incoming = s.incoming.map (Packet.laterAck d) from rfl]
    cases s.incoming with
    | nil => exact pure rfl
    | cons q rest =>
      simp only [List.map_cons, laterAck_seqNr, laterAck_payload]
      refine seqE (overflowIf hc _ _) fun _ => ite Iff.rfl (fun _ => seqE (orPanic _) fun pl => seqE (modS fun s hs => ?_) fun _ => pure rfl) fun _ => pure rfl
      exact ⟨later_takeHead s pl len, by simpa [BegunLong] using hs⟩

theorem later_timeout : Shf d BegunLong Eq (handleReceiveTimeout E) (handleReceiveTimeout (E.later d)) := by
  unfold handleReceiveTimeout
  refine get fun s hs => seqE (overflowIf hc _ _) fun _ => seqE (modS fun s hs => ⟨rfl, hs⟩) fun _ => ?_
  simp only [show (s.later d).sendWindow = s.sendWindow.map (Packet.laterSeq d) from rfl]
  have hl := hs.2.1
  revert hl
  cases s.sendWindow with
  | nil =>
    intro _
    simp only [List.map_nil]
    refine ite Iff.rfl (fun _ => seqE now fun t => udpSend s.connectedTo (later_finPacket s t).symm) fun _ => ite Iff.rfl (fun _ => ?_) fun _ => pure rfl
    exact seqE later_fastResendOne fun _ => seqE later_fastResendOne fun _ => later_fastResendOne
  | cons p rest =>
    intro hl
    simp only [List.map_cons]
    refine seqE now fun t => seqE (modS fun s hs => ⟨?_, hs.1, ?_, hs.2.2⟩) fun _ => udpSend s.connectedTo (laterSeq_setTimestamp p t).symm
    · simp only [Socket.later, List.map_cons, laterSeq_setTimestamp]
    · intro q hq
      rcases List.mem_cons.1 hq with rfl | hq
      · simpa [Packet.setTimestamp, put32] using hl p (by simp)
      · exact hl q (by simp [hq])

theorem later_recvWait (hn : E.NoSack) : ∀ fuel retries, Shf d BegunLong (fun x x' => x' = (renum 18 d x.1, x.2) ∧ ∀ p, Packet.tryFrom x.1 = some (.ok p) → Sackless p) (recvWait E fuel retries) (recvWait (E.later d) fuel retries)
  | 0, _ => never
  | fuel + 1, retries => by
    unfold recvWait
    refine get fun s _ => ite Iff.rfl (fun _ => seqE (modS fun s hs => ⟨rfl, by simp, hs.2⟩) fun _ => throw _) fun _ =>
      seq (udpRecv _ (by decide) (Q := fun b => ∀ p, Packet.tryFrom b = some (.ok p) → Sackless p) fun k b a h p hp exts he => hn k b a h p exts hp he) fun r r' hr => ?_
    rcases r with k | x <;> rcases r' with k' | x' <;> simp only [Got] at hr
    · subst hr
      exact ite Iff.rfl (fun _ => seqE (later_timeout hc) fun _ => later_recvWait hn fuel _) fun _ => throw _
    · exact pure hr

section
variable {rec rec' : M (Bytes × Addr)}

omit hc in
theorem later_sendPacket (hrec : Shf d BegunLong Eq rec rec') (fuel : Nat) (p : Packet) (hp : 20 ≤ p.bytes.length) :
    Shf d BegunLong (fun q q' => q' = q.laterSeq d ∧ 20 ≤ q.bytes.length) (sendPacket E fuel rec p) (sendPacket (E.later d) fuel rec' (p.laterSeq d)) := by
  unfold sendPacket
  refine get fun s _ => seqE now fun start => seqE (whileM ?_ (andThen hrec fun _ _ _ => ret rfl) _) fun _ => get fun s _ => ?_
  · exact get fun s _ => ite Iff.rfl (fun _ => seqE now fun t => pure rfl) fun _ => pure rfl
  · rw [laterSeq_seqNr p hp]
    refine ite ?_ (fun _ => pure ⟨rfl, hp⟩) fun _ => seqE now fun t => ?_
    · show s.lastAcked + d - (p.seqNr + d) < p.seqNr + d - (s.lastAcked + d) ↔ _
      rw [show s.lastAcked + d - (p.seqNr + d) = s.lastAcked - p.seqNr by bv_omega, show p.seqNr + d - (s.lastAcked + d) = p.seqNr - s.lastAcked by bv_omega]
    have e : ((p.laterSeq d).setTimestamp t).setTimestampDifference s.theirDelay = ((p.setTimestamp t).setTimestampDifference s.theirDelay).laterSeq d := by
      rw [laterSeq_setTimestampDifference, laterSeq_setTimestamp]
    exact seqE (udpSend s.connectedTo e) fun _ => pure ⟨e, by simpa [Packet.setTimestamp, Packet.setTimestampDifference, put32] using hp⟩

omit hc in
theorem later_resendLost (hrec : Shf d BegunLong Eq rec rec') (fuel : Nat) (nr : U16) : Shf d BegunLong Eq (resendLost E fuel rec nr) (resendLost (E.later d) fuel rec' (nr + d)) := by
  unfold resendLost
  refine get fun s hs => ?_
  simp only [show (s.later d).sendWindow = s.sendWindow.map (Packet.laterSeq d) from rfl, later_find nr _ hs.2.1]
  cases h : s.sendWindow.find? fun p => p.seqNr == nr with
  | none => exact pure rfl
  | some p => exact ignoreErr (later_sendPacket hrec _ p (hs.2.1 p (List.mem_of_find?_eq_some h)))

omit hc in
theorem later_processExtensions (fuel : Nat) (ack ack' : U16) :
    ∀ exts loss, (∀ e ∈ exts, e.ty ≠ .selectiveAck) → Shf d BegunLong Eq (processExtensions E fuel rec ack exts loss) (processExtensions (E.later d) fuel rec' ack' exts loss) := by
  intro exts
  induction exts with
  | nil => intro loss _; exact pure rfl
  | cons e rest ih =>
    intro loss he
    unfold processExtensions
    rw [if_neg (he e (by simp)), if_neg (he e (by simp))]
    exact ih _ fun x m => he x (by simp [m])

theorem later_handleState (hrec : Shf d BegunLong Eq rec rec') (fuel : Nat) (pkt : Packet) (hp : 20 ≤ pkt.bytes.length) (hx : Sackless pkt) :
    Shf d BegunLong Eq (handleState E fuel rec pkt) (handleState (E.later d) fuel rec' (pkt.laterAck d)) := by
  have hwin : ∀ s : Socket, (s.later d).sendWindow ≠ [] ↔ s.sendWindow ≠ [] := fun s => by simp [Socket.later]
  unfold handleState
  refine seqE ?_ fun _ => seqE ?_ fun _ => get fun s _ => ?_
  · unfold countAck
    rw [laterAck_ackNr _ hp]
    refine get fun s _ => ite ?_ (fun _ => seqE (overflowIf hc _ _) fun _ => modS fun s hs => ⟨rfl, hs⟩) fun _ => seqE now fun t => modS fun s hs => ⟨rfl, hs⟩
    exact ⟨fun h => by simpa [Socket.later] using h, fun h => by rw [h]; rfl⟩
  · unfold measureAck
    rw [laterAck_ackNr _ hp]
    refine get fun s hs => ?_
    have e : ∀ (l : List Packet) (v : U16), (l.findIdx? fun p => v == p.seqNr) = l.findIdx? fun p => p.seqNr == v := fun l v => by
      congr 1
      funext p
      exact Bool.eq_iff_iff.2 (by rw [beq_iff_eq, beq_iff_eq]; exact eq_comm)
    simp only [show (s.later d).sendWindow = s.sendWindow.map (Packet.laterSeq d) from rfl, e, later_findIdx _ _ hs.2.1, List.getElem?_map]
    cases s.sendWindow.findIdx? fun p => p.seqNr == pkt.ackNr with
    | none => exact pure rfl
    | some index =>
      refine seqE now fun t => seq (orPanicR (R := LaterPkt d) _ _ fun _ _ => rfl) fun p p' hp => ?_
      cases hp
      rw [later_onNewAck]
      refine seq (orPanicR (R := fun a a' => a' = a.later d ∧ a.state = s.state ∧ a.sendWindow = s.sendWindow ∧ a.unsent = s.unsent) _ _ fun a ha => ⟨rfl, onNewAck_state ha, onNewAck_sendWindow ha, onNewAck_unsent ha⟩) fun a a' ha => modS fun _ _ => ⟨ha.1, ?_⟩
      obtain ⟨-, h1, h2, h3⟩ := ha
      rw [BegunLong, h1, h2, h3]; exact hs
  · rw [laterAck_extensions, laterAck_ackNr _ hp]
    simp only [hwin]
    have hex : ∀ exts, pkt.extensions = some exts → ∀ e ∈ exts, e.ty ≠ .selectiveAck := hx
    refine seq (R := fun a a' => a' = a ∧ ∀ e ∈ a, e.ty ≠ .selectiveAck) ?_ fun exts exts' he => ?_
    · cases h : pkt.extensions with
      | none => exact fun _ hw => ⟨.panic, rfl, hw⟩
      | some exts => exact ret ⟨rfl, hex exts h⟩
    obtain ⟨rfl, he⟩ := he
    refine seqE (later_processExtensions _ _ _ _ _ he) fun loss => seqE ?_ fun _ => seqE (modS fun s hs => ?_) fun _ => get fun s hs => ?_
    · unfold fastRetransmit
      refine get fun s _ => ?_
      simp only [hwin]
      rw [laterAck_ackNr _ hp]
      refine ite Iff.rfl (fun _ => seqE (overflowIf hc _ _) fun _ => ?_) fun _ => pure rfl
      rw [show pkt.ackNr + d + 1 = pkt.ackNr + 1 + d by rw [BitVec.add_assoc, BitVec.add_comm d 1, ← BitVec.add_assoc]]
      exact later_resendLost hrec _ _
    · cases loss
      · exact ⟨rfl, hs⟩
      · exact ⟨rfl, hs⟩
    · rw [later_advanceSendWindow _ hs.2.1]
      refine seq (orPanicR (R := fun a a' => a' = a.later d ∧ a.state = s.state ∧ (∀ p ∈ a.sendWindow, p ∈ s.sendWindow) ∧ a.unsent = s.unsent) _ _ fun a ha =>
        ⟨rfl, advanceSendWindow_state ha, ?_, advanceSendWindow_unsent ha⟩) fun a a' ha => modS fun _ _ => ⟨ha.1, ?_⟩
      · intro p m
        unfold Socket.advanceSendWindow at ha
        split at ha
        · cases ha; exact m
        · split at ha
          · cases ha
          · cases ha
            exact List.mem_of_mem_drop m
      · obtain ⟨-, h1, h2, h3⟩ := ha
        rw [BegunLong, h1, h3]
        exact ⟨hs.1, fun p m => hs.2.1 p (h2 p m), hs.2.2⟩

omit hc in
theorem later_withSack (s : Socket) (pkt : Packet) (t : U32) (ty : PacketType) :
    Shf d BegunLong (LaterPkt d) (withSack E s pkt (s.prepareReply t pkt ty)) (withSack (E.later d) (s.later d) (pkt.laterAck d) ((s.later d).prepareReply t (pkt.laterAck d) ty)) := by
  obtain ⟨h1, h2⟩ := prepareReply_bytes s t pkt ty
  rw [← later_prepareReply]
  generalize s.prepareReply t pkt ty = r at h1 h2
  unfold withSack
  rw [laterAck_seqNr, later_buildSack]
  refine ite Iff.rfl (fun _ => seqE (orPanic (s.buildSack E)) fun sack => ite Iff.rfl (fun _ => ?_) fun _ => pure rfl) fun _ => pure rfl
  rw [laterSeq_setSack r h2 h1]
  exact orPanicR _ _ fun _ _ => rfl

omit hc in
theorem later_replyWith (pkt : Packet) (ty : PacketType) : Shf d BegunLong (LaterReply d) (replyWith E pkt ty) (replyWith (E.later d) (pkt.laterAck d) ty) :=
  get fun s _ => seqE now fun t => pure (congrArg some (later_prepareReply s t pkt ty).symm)

omit hc in
theorem later_handleData (pkt : Packet) : Shf d BegunLong (LaterPkt d) (handleData E pkt) (handleData (E.later d) (pkt.laterAck d)) :=
  get fun s _ => seqE now fun t => later_withSack s pkt t _

omit hc in
theorem later_onFin (pkt : Packet) : Shf d BegunLong (LaterReply d) (onFin E pkt) (onFin (E.later d) (pkt.laterAck d)) :=
  get fun s _ => seqE now fun t => seq (later_withSack s pkt t _) fun r r' hr => seqE (modS fun s hs => ⟨rfl, by simp, hs.2⟩) fun _ => pure (by rw [hr]; rfl)

theorem later_dispatch (hrec : Shf d BegunLong Eq rec rec') (fuel : Nat) (pkt : Packet) (hp : 20 ≤ pkt.bytes.length) (hx : Sackless pkt) (src : Addr) (st : SocketState) (hst : st ≠ .new) (ty : PacketType) :
    Shf d BegunLong (LaterReply d) (dispatch E fuel rec pkt src st ty) (dispatch (E.later d) fuel rec' (pkt.laterAck d) src st ty) := by
  unfold dispatch
  split
  · exact absurd rfl hst
  · exact later_replyWith _ _
  · unfold onSynAck
    rw [laterAck_seqNr, laterAck_ackNr _ hp]
    refine get fun s _ => seqE (overflowIf hc _ _) fun _ => seqE now fun t => seqE (modS fun s hs => ⟨?_, by simp, hs.2⟩) fun _ => pure rfl
    simp only [Socket.later]
    rw [BitVec.add_assoc, BitVec.add_comm d 1, ← BitVec.add_assoc]
  · exact throw _
  · exact seq (later_handleData pkt) fun _ _ hr => pure (by rw [hr]; rfl)
  · exact seq (later_handleData pkt) fun _ _ hr => pure (by rw [hr]; rfl)
  · exact seqE (later_handleState hc hrec _ _ hp hx) fun _ => pure rfl
  · exact later_onFin pkt
  · exact later_onFin pkt
  · exact later_replyWith _ _
  · unfold onFinAck
    rw [laterAck_ackNr _ hp]
    refine seqE (modS fun s hs => ?_) fun _ => pure rfl
    by_cases h : pkt.ackNr = s.seqNr
    · rw [if_pos h, if_pos (show pkt.ackNr + d = (s.later d).seqNr by rw [h]; rfl)]; exact ⟨rfl, by simp, hs.2⟩
    · rw [if_neg h, if_neg (show ¬ pkt.ackNr + d = (s.later d).seqNr from fun e => h (by simpa [Socket.later] using e))]; exact ⟨rfl, hs⟩
  · unfold onReset
    exact seqE (modS fun s hs => ⟨rfl, by simp, hs.2⟩) fun _ => throw _
  · exact throw _

omit hc in
theorem bumpAck_later (s : Socket) (pkt : Packet) : (s.later d).bumpAck (pkt.laterAck d) = (s.bumpAck pkt).later d := by
  unfold Socket.bumpAck
  rw [laterAck_seqNr, show (s.later d).ackNr = s.ackNr from rfl]
  split <;> rfl

theorem later_handlePacket (hrec : Shf d BegunLong Eq rec rec') (fuel : Nat) (pkt : Packet) (hp : 20 ≤ pkt.bytes.length) (hx : Sackless pkt) (src : Addr) :
    Shf d BegunLong (LaterReply d) (handlePacket E fuel rec pkt src) (handlePacket (E.later d) fuel rec' (pkt.laterAck d) src) := by
  unfold handlePacket
  refine seqE (modS fun s hs => ⟨bumpAck_later s pkt, ?_⟩) fun _ => get fun s hs => ?_
  · unfold Socket.bumpAck
    split <;> exact hs
  · rw [laterAck_getType, laterAck_connectionId]
    refine seqE (orPanic _) fun ty => ite Iff.rfl (fun _ => later_replyWith _ _) fun _ => seqE now fun t => seqE (modS fun s hs => ?_) fun _ => later_dispatch hc hrec _ _ hp hx _ _ hs.1 _
    rw [laterAck_wndSize, laterAck_timestamp]
    exact ⟨rfl, hs⟩

end

omit hc in
theorem tryFrom_header {b : Bytes} {p : Packet} (h : Packet.tryFrom b = some (.ok p)) : 20 ≤ p.bytes.length := by
  unfold Packet.tryFrom at h
  split at h
  · cases h
  · rename_i c _
    split at h
    · cases h
    · rename_i hh
      have : 20 ≤ b.length := by
        by_contra hs
        unfold headerTryFrom at hh
        rw [if_pos (show b.length < HEADER_SIZE by simp only [HEADER_SIZE]; omega)] at hh
        cases hh
      split at h <;> cases h
      exact this

theorem later_recv (hn : E.NoSack) : ∀ fuel len, Shf d BegunLong Eq (recv E fuel len) (recv (E.later d) fuel len)
  | 0, _ => never
  | fuel + 1, len => by
    have ih : Shf d BegunLong Eq (recv E fuel BUF_SIZE) (recv (E.later d) fuel BUF_SIZE) := later_recv hn fuel BUF_SIZE
    unfold recv recvBody
    refine seq (later_recvWait hc hn _ _) fun x x' hx => ?_
    obtain ⟨b, src⟩ := x
    obtain ⟨rfl, hx⟩ := hx
    show Shf d BegunLong Eq (M.orPanic (Packet.tryFrom b) >>= _) (M.orPanic (Packet.tryFrom (renum 18 d b)) >>= _)
    rw [later_tryFrom]
    refine seq (orPanicR (R := fun r r' => r' = laterParsed d r ∧ ∀ p, r = .ok p → 20 ≤ p.bytes.length ∧ Sackless p) _ _ fun r hr => ⟨rfl, fun p hp => ?_⟩) fun r r' hr => ?_
    · subst hp
      exact ⟨tryFrom_header hr, hx p hr⟩
    obtain ⟨rfl, hl⟩ := hr
    rcases r with e | p
    · exact get fun s _ => pure rfl
    · show Shf d BegunLong Eq (recvPacket E fuel (recv E fuel BUF_SIZE) len p src) (recvPacket (E.later d) fuel (recv (E.later d) fuel BUF_SIZE) len (p.laterAck d) src)
      unfold recvPacket
      refine seq (later_handlePacket hc ih _ _ (hl p rfl).1 (hl p rfl).2 _) fun r r' hr => seqE ?_ fun _ => ?_
      · cases hr
        cases r with
        | none => exact pure rfl
        | some r => exact udpSend _ (laterSeq_setWndSize r _).symm
      · rw [laterAck_getType, laterAck_seqNr]
        refine seqE (orPanic _) fun ty => seqE (modS fun s hs => ?_) fun _ => seqE (later_flushIncoming hc _) fun out => pure rfl
        by_cases h : ty = .data ∧ 0 < (p.seqNr - s.lastDropped).toNat
        · rw [if_pos h, if_pos (show ty = .data ∧ 0 < (p.seqNr - (s.later d).lastDropped).toNat from h)]
          refine ⟨?_, hs⟩
          simp only [Socket.insertIntoBuffer, Socket.later, later_insertPkt]
        · rw [if_neg h, if_neg (show ¬ (ty = .data ∧ 0 < (p.seqNr - (s.later d).lastDropped).toNat) from h)]
          exact ⟨rfl, hs⟩

theorem later_recvFromLoop (hn : E.NoSack) (fuel len : Nat) : ∀ n, Shf d BegunLong Eq (recvFromLoop E fuel len n) (recvFromLoop (E.later d) fuel len n)
  | 0 => never
  | n + 1 => by
    unfold recvFromLoop
    exact get fun s _ => ite Iff.rfl (fun _ => pure rfl) fun _ => seqE (later_recv hc hn _ _) fun x => ite Iff.rfl (fun _ => later_recvFromLoop hn fuel len n) fun _ => pure rfl

theorem later_recvFrom (hn : E.NoSack) (fuel len : Nat) : Shf d BegunLong Eq (recvFrom E fuel len) (recvFrom (E.later d) fuel len) := by
  unfold recvFrom
  exact seqE (later_flushIncoming hc _) fun out => get fun s _ => ite Iff.rfl (fun _ => pure rfl) fun _ => ite Iff.rfl (fun _ => throw _) fun _ => later_recvFromLoop hc hn _ _ _

theorem later_sendQueue (hn : E.NoSack) (fuel : Nat) : ∀ n, Shf d BegunLong Eq (sendQueue E fuel n) (sendQueue (E.later d) fuel n)
  | 0 => never
  | n + 1 => by
    unfold sendQueue
    refine get fun s hs => ?_
    simp only [show (s.later d).unsent = s.unsent.map (Packet.laterSeq d) from rfl]
    have hl := hs.2.2
    revert hl
    cases s.unsent with
    | nil => exact fun _ => pure rfl
    | cons p rest =>
      intro hl
      simp only [List.map_cons]
      refine seqE (modS fun s hs => ⟨rfl, hs.1, hs.2.1, fun q m => hl q (by simp [m])⟩) fun _ => seq (later_sendPacket (later_recv hc hn _ _) _ _ (hl p (by simp))) fun p p' hp => ?_
      obtain ⟨rfl, hp⟩ := hp
      rw [laterSeq_len]
      refine get fun s _ => seqE (overflowIf hc _ _) fun _ => seqE (modS fun s hs => ⟨?_, hs.1, ?_, hs.2.2⟩) fun _ => later_sendQueue hn fuel n
      · simp only [Socket.later, List.map_append, List.map_cons, List.map_nil]
      · intro q hq
        rcases List.mem_append.1 hq with hq | hq
        · exact hs.2.1 q hq
        · rw [List.mem_singleton.1 hq]; exact hp

omit hc in
theorem begunLong_enqueues (l : List Bytes) : ∀ s : Socket, BegunLong s → BegunLong (l.foldl enqueue s) := by
  induction l with
  | nil => exact fun s h => h
  | cons c l ih =>
    intro s h
    refine ih _ ⟨h.1, h.2.1, fun p m => ?_⟩
    rcases List.mem_append.1 m with m | m
    · exact h.2.2 p m
    · rw [List.mem_singleton.1 m]
      simp [Packet.setConnectionId, Packet.setSeqNr, Packet.setAckNr, put16, Packet.withPayload, Packet.setType, defaultHeader]

theorem later_sendTo (hn : E.NoSack) (fuel : Nat) (buf : Bytes) : Shf d BegunLong Eq (sendTo E fuel buf) (sendTo (E.later d) fuel buf) := by
  unfold sendTo
  exact get fun s _ => ite Iff.rfl (fun _ => throw _) fun _ => seqE (modS fun s hs => ⟨later_enqueues _ s, begunLong_enqueues _ s hs⟩) fun _ => seqE (later_sendQueue hc hn _ _) fun _ => pure rfl

theorem later_scratch (hn : E.NoSack) (fuel : Nat) : Shf d BegunLong Eq (scratchRecv E fuel) (scratchRecv (E.later d) fuel) := seqE (later_recv hc hn _ _) fun _ => pure rfl

theorem later_flush (hn : E.NoSack) (fuel : Nat) : Shf d BegunLong Eq (flush E fuel) (flush (E.later d) fuel) :=
  Shf.whileM (Shf.get fun s _ => Shf.pure (a := decide (s.sendWindow ≠ [])) (a' := decide ((s.later d).sendWindow ≠ [])) (by simp [Socket.later])) (later_scratch hc hn _) _

theorem later_close (hn : E.NoSack) (fuel : Nat) : Shf d BegunLong Eq (close E fuel) (close (E.later d) fuel) := by
  unfold close
  refine get fun s _ => ite Iff.rfl (fun _ => pure rfl) fun _ => seqE (later_flush hc hn _) fun _ => get fun s _ => ?_
  refine seqE now fun t => seqE (udpSend s.connectedTo (later_finPacket s t).symm) fun _ => seqE (modS fun s hs => ⟨rfl, by simp, hs.2⟩) fun _ => ?_
  exact Shf.whileM (Shf.get fun s _ => Shf.pure (a := decide (s.state ≠ .closed)) (a' := decide ((s.later d).state ≠ .closed)) rfl) (later_scratch hc hn _) _

theorem later_op (hn : E.NoSack) (fuel : Nat) (op : Op) : Shf d BegunLong Eq (runOp E fuel op) (runOp (E.later d) fuel op) := by
  cases op with
  | recvFrom len => exact seqE (later_recvFrom hc hn _ _) fun _ => pure rfl
  | sendTo b => exact seqE (later_sendTo hc hn _ _) fun _ => pure rfl
  | flush => exact seqE (later_flush hc hn _) fun _ => pure rfl
  | close => exact seqE (later_close hc hn _) fun _ => pure rfl
  | setMaxRetries n => exact seqE (modS fun s hs => ⟨rfl, hs⟩) fun _ => pure rfl

end

end Utp
