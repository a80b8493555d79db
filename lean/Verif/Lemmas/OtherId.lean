import Verif.Spec.OtherId
import Verif.Lemmas.Oblivious
/-!
# Two runs that differ only in the connection identifiers
-/

namespace Utp
open M Packet

variable {E : Env} {ρ : U16 → U16} {rand' : Nat → U16} {α β : Type}

/-! ### Packets -/

theorem reid_eq (b : Bytes) : reid ρ b = put16 b 2 (ρ (be16 b 2)) := rfl

@[simp] theorem reid_length (b : Bytes) : (reid ρ b).length = b.length := by simp [reid]

theorem reid_get (b : Bytes) {i : Nat} (h : i < 2 ∨ 4 ≤ i) : (reid ρ b)[i]? = b[i]? := put16_other _ _ _ _ (by omega)

theorem reid_byte (b : Bytes) {i : Nat} (h : i < 2 ∨ 4 ≤ i) : byteAt (reid ρ b) i = byteAt b i := by
  simp only [byteAt, List.getD, reid_get b h]

theorem reid_drop (b : Bytes) {i : Nat} (h : 4 ≤ i) : (reid ρ b).drop i = b.drop i := by
  apply List.ext_getElem?
  intro j
  rw [List.getElem?_drop, List.getElem?_drop, reid_get _ (by omega)]

theorem reid_set (b : Bytes) {i : Nat} (h : i < 2 ∨ 4 ≤ i) (x : U8) : reid ρ (b.set i x) = (reid ρ b).set i x := by
  have e : ∀ j, j = 2 ∨ j = 3 → (b.set i x).getD j 0 = b.getD j 0 := by
    intro j hj
    simp only [List.getD]
    rw [List.getElem?_set_ne (by omega)]
  unfold reid
  simp only
  rw [e 2 (by omega), e 3 (by omega), List.set_comm _ _ (show i ≠ 2 by omega), List.set_comm _ _ (show i ≠ 3 by omega)]

theorem reid_take (b : Bytes) {n : Nat} (h : 4 ≤ n) : reid ρ (b.take n) = (reid ρ b).take n := by
  have e : ∀ j, j = 2 ∨ j = 3 → (b.take n).getD j 0 = b.getD j 0 := by
    intro j hj
    simp only [List.getD]
    rw [List.getElem?_take_of_lt (by omega)]
  unfold reid
  simp only
  rw [e 2 (by omega), e 3 (by omega), List.take_set, List.take_set]

theorem reid_append (a t : Bytes) (h : 4 ≤ a.length) : reid ρ (a ++ t) = reid ρ a ++ t := by
  have e : ∀ j, j = 2 ∨ j = 3 → (a ++ t).getD j 0 = a.getD j 0 := by
    intro j hj
    simp only [List.getD]
    rw [List.getElem?_append_left (by omega)]
  unfold reid
  simp only
  rw [e 2 (by omega), e 3 (by omega), List.set_append_left _ _ (by omega), List.set_append_left _ _ (by simp; omega)]

section
variable (p : Packet)

theorem reid_seqNr : (p.reid ρ).seqNr = p.seqNr := by
  simp only [Packet.seqNr, Packet.reid, be16, Nat.reduceAdd, reid_byte _ (show 16 < 2 ∨ 4 ≤ 16 by omega), reid_byte _ (show 17 < 2 ∨ 4 ≤ 17 by omega)]
theorem reid_ackNr : (p.reid ρ).ackNr = p.ackNr := by
  simp only [Packet.ackNr, Packet.reid, be16, Nat.reduceAdd, reid_byte _ (show 18 < 2 ∨ 4 ≤ 18 by omega), reid_byte _ (show 19 < 2 ∨ 4 ≤ 19 by omega)]
theorem reid_wndSize : (p.reid ρ).wndSize = p.wndSize := by
  simp only [Packet.wndSize, Packet.reid, be32, Nat.reduceAdd, reid_byte _ (show 12 < 2 ∨ 4 ≤ 12 by omega), reid_byte _ (show 13 < 2 ∨ 4 ≤ 13 by omega),
    reid_byte _ (show 14 < 2 ∨ 4 ≤ 14 by omega), reid_byte _ (show 15 < 2 ∨ 4 ≤ 15 by omega)]
theorem reid_timestamp : (p.reid ρ).timestamp = p.timestamp := by
  simp only [Packet.timestamp, Packet.reid, be32, Nat.reduceAdd, reid_byte _ (show 4 < 2 ∨ 4 ≤ 4 by omega), reid_byte _ (show 5 < 2 ∨ 4 ≤ 5 by omega),
    reid_byte _ (show 6 < 2 ∨ 4 ≤ 6 by omega), reid_byte _ (show 7 < 2 ∨ 4 ≤ 7 by omega)]
theorem reid_getType : (p.reid ρ).getType = p.getType := by
  simp only [Packet.getType, Packet.reid, reid_byte _ (show 0 < 2 ∨ 4 ≤ 0 by omega)]
theorem reid_len : (p.reid ρ).len = p.len := by simp [Packet.len, Packet.reid]

theorem reid_connectionId (h : 4 ≤ p.bytes.length) : (p.reid ρ).connectionId = ρ p.connectionId := by
  simp only [Packet.connectionId, Packet.reid, reid_eq]
  exact be16_put16 _ (by omega)

theorem reid_payloadLoop (b : Bytes) : ∀ fuel i ext, 4 ≤ i → payloadLoop (reid ρ b) fuel i ext = payloadLoop b fuel i ext
  | 0, _, _, _ => rfl
  | fuel + 1, i, ext, h => by
    unfold payloadLoop
    rw [reid_length, reid_get _ (by omega), reid_get _ (by omega)]
    split
    · split
      · exact reid_payloadLoop b fuel _ _ (by omega)
      · rfl
    · rfl

theorem payloadLoop_ge (b : Bytes) : ∀ fuel i ext k, payloadLoop b fuel i ext = some k → i ≤ k
  | 0, _, _, _, h => by simp [payloadLoop] at h
  | fuel + 1, i, ext, k, h => by
    unfold payloadLoop at h
    split at h
    · split at h
      · have := payloadLoop_ge b fuel _ _ k h
        omega
      · cases h
    · simp only [Option.some.injEq] at h
      omega

theorem reid_payload : (p.reid ρ).payload = p.payload := by
  unfold Packet.payload Packet.reid
  simp only
  rw [reid_get _ (by omega), reid_length]
  cases p.bytes[1]? with
  | none => rfl
  | some e =>
    simp only
    rw [reid_payloadLoop _ _ _ _ (by simp [HEADER_SIZE])]
    cases h : payloadLoop p.bytes (p.bytes.length + 1) HEADER_SIZE (.ofU8 e) with
    | none => rfl
    | some i =>
      have := payloadLoop_ge _ _ _ _ _ h
      simp only [HEADER_SIZE] at this
      simp only
      rw [reid_drop _ (by omega)]

theorem reid_extensionsLoop (b : Bytes) : ∀ fuel i ext, 4 ≤ i → extensionsLoop (reid ρ b) fuel i ext = extensionsLoop b fuel i ext
  | 0, _, _, _ => rfl
  | fuel + 1, i, ext, h => by
    unfold extensionsLoop
    rw [reid_length, reid_get _ (by omega), reid_get _ (by omega), reid_drop _ (by omega)]
    split
    · rfl
    · split
      · split
        · rw [reid_extensionsLoop b fuel _ _ (by omega)]
        · rfl
      · rfl

theorem reid_extensions : (p.reid ρ).extensions = p.extensions := by
  unfold Packet.extensions Packet.reid
  simp only
  rw [reid_get _ (by omega), reid_length]
  cases p.bytes[1]? with
  | none => rfl
  | some e => exact reid_extensionsLoop _ _ _ _ (by simp [HEADER_SIZE])

theorem reid_checkLoop (b : Bytes) : ∀ fuel i ext, 4 ≤ i → checkLoop (reid ρ b) fuel i ext = checkLoop b fuel i ext
  | 0, _, _, _ => rfl
  | fuel + 1, i, ext, h => by
    unfold checkLoop
    rw [reid_length, reid_get _ (by omega), reid_get _ (by omega)]
    split
    · split
      · rfl
      · split
        · split
          · rfl
          · exact reid_checkLoop b fuel _ _ (by omega)
        · rfl
    · rfl

/-- The same result of decoding. -/
def reidParsed (ρ : U16 → U16) : Except ParseError Packet → Except ParseError Packet
  | .ok p => .ok (p.reid ρ)
  | .error e => .error e

theorem reid_tryFrom (b : Bytes) : Packet.tryFrom (reid ρ b) = (Packet.tryFrom b).map (reidParsed ρ) := by
  have h1 : checkExtensions (reid ρ b) = checkExtensions b := by
    unfold checkExtensions
    rw [reid_length, reid_get _ (by omega)]
    split
    · rfl
    · cases b[1]? with
      | none => rfl
      | some e => simp only [reid_checkLoop b _ HEADER_SIZE _ (by simp [HEADER_SIZE])]
  have h2 : headerTryFrom (reid ρ b) = headerTryFrom b := by
    unfold headerTryFrom
    rw [reid_length, reid_byte _ (by omega)]
  unfold Packet.tryFrom
  rw [h1, h2]
  rcases checkExtensions b with _ | c
  · rfl
  · simp only
    rcases headerTryFrom b with e | _
    · rfl
    · rcases c with e | _
      · rfl
      · rfl

theorem reid_setSeqNr (v : U16) : (p.setSeqNr v).reid ρ = (p.reid ρ).setSeqNr v := by
  simp only [Packet.reid, Packet.setSeqNr, put16, reid_set _ (show 16 < 2 ∨ 4 ≤ 16 by omega), reid_set _ (show 16 + 1 < 2 ∨ 4 ≤ 16 + 1 by omega)]
theorem reid_setAckNr (v : U16) : (p.setAckNr v).reid ρ = (p.reid ρ).setAckNr v := by
  simp only [Packet.reid, Packet.setAckNr, put16, reid_set _ (show 18 < 2 ∨ 4 ≤ 18 by omega), reid_set _ (show 18 + 1 < 2 ∨ 4 ≤ 18 + 1 by omega)]
theorem reid_setTimestamp (v : U32) : (p.setTimestamp v).reid ρ = (p.reid ρ).setTimestamp v := by
  simp only [Packet.reid, Packet.setTimestamp, put32, reid_set _ (show 4 < 2 ∨ 4 ≤ 4 by omega), reid_set _ (show 4 + 1 < 2 ∨ 4 ≤ 4 + 1 by omega),
    reid_set _ (show 4 + 2 < 2 ∨ 4 ≤ 4 + 2 by omega), reid_set _ (show 4 + 3 < 2 ∨ 4 ≤ 4 + 3 by omega)]
theorem reid_setTimestampDifference (v : Int) : (p.setTimestampDifference v).reid ρ = (p.reid ρ).setTimestampDifference v := by
  simp only [Packet.reid, Packet.setTimestampDifference, put32, reid_set _ (show 8 < 2 ∨ 4 ≤ 8 by omega), reid_set _ (show 8 + 1 < 2 ∨ 4 ≤ 8 + 1 by omega),
    reid_set _ (show 8 + 2 < 2 ∨ 4 ≤ 8 + 2 by omega), reid_set _ (show 8 + 3 < 2 ∨ 4 ≤ 8 + 3 by omega)]
theorem reid_setWndSize (v : U32) : (p.setWndSize v).reid ρ = (p.reid ρ).setWndSize v := by
  simp only [Packet.reid, Packet.setWndSize, put32, reid_set _ (show 12 < 2 ∨ 4 ≤ 12 by omega), reid_set _ (show 12 + 1 < 2 ∨ 4 ≤ 12 + 1 by omega),
    reid_set _ (show 12 + 2 < 2 ∨ 4 ≤ 12 + 2 by omega), reid_set _ (show 12 + 3 < 2 ∨ 4 ≤ 12 + 3 by omega)]
theorem reid_setType (t : PacketType) : (p.setType t).reid ρ = (p.reid ρ).setType t := by
  simp only [Packet.reid, Packet.setType, reid_set _ (show 0 < 2 ∨ 4 ≤ 0 by omega), reid_byte _ (show 0 < 2 ∨ 4 ≤ 0 by omega)]

theorem put16_twice (b : Bytes) (i : Nat) (v v' : U16) : put16 (put16 b i v) i v' = put16 b i v' := by
  unfold put16
  rw [List.set_comm _ _ (by omega), List.set_set, List.set_comm _ _ (by omega), List.set_set]

theorem reid_setConnectionId (v : U16) (h : 4 ≤ p.bytes.length) : (p.setConnectionId v).reid ρ = p.setConnectionId (ρ v) := by
  simp only [Packet.reid, Packet.setConnectionId, reid_eq]
  rw [be16_put16 _ (by omega), put16_twice]

theorem reid_setSack (h1 : p.bytes[1]? = some 0) (h20 : p.bytes.length = 20) (bv : Bytes) : (p.reid ρ).setSack bv = (p.setSack bv).map (Packet.reid ρ) := by
  unfold Packet.setSack
  have h1' : (p.reid ρ).bytes[1]? = some 0 := by rw [Packet.reid, reid_get _ (by omega), h1]
  have h20' : (p.reid ρ).bytes.length = 20 := by rw [Packet.reid, reid_length, h20]
  have hx : ExtensionType.ofU8 0 = .none := rfl
  split
  · rfl
  · split
    · rfl
    · rw [h1, h1']
      simp only [hx, if_true]
      rw [if_pos (by rw [List.length_set, h20']; exact Nat.le_refl _), if_pos (by rw [List.length_set, h20]; exact Nat.le_refl _)]
      have e : ∀ l : Bytes, l.length = 20 → l.take HEADER_SIZE = l ∧ l.drop HEADER_SIZE = [] := fun l hl =>
        ⟨List.take_of_length_le (by rw [hl]; exact Nat.le_refl _), List.drop_of_length_le (by rw [hl]; exact Nat.le_refl _)⟩
      obtain ⟨e1, e2⟩ := e (p.bytes.set 1 ExtensionType.selectiveAck.toU8) (by simp [h20])
      obtain ⟨e3, e4⟩ := e ((p.reid ρ).bytes.set 1 ExtensionType.selectiveAck.toU8) (by simp [h20'])
      rw [e1, e2, e3, e4]
      simp only [List.append_nil, List.append_assoc, Option.map_some, Packet.reid]
      rw [reid_append _ _ (by simp [h20]), reid_set _ (by omega)]

end

/-! ### Packets made by the socket -/

theorem reid_finPacket (s : Socket) (t : U32) : (finPacket s t).reid ρ = finPacket (s.reid ρ) t := by
  unfold finPacket
  rw [reid_setType, reid_setTimestamp, reid_setAckNr, reid_setSeqNr, reid_setConnectionId _ _ (by decide)]
  rfl

theorem reid_resendRequest (s : Socket) (t : U32) : (resendRequest s t).reid ρ = resendRequest (s.reid ρ) t := by
  unfold resendRequest
  rw [reid_setAckNr, reid_setSeqNr, reid_setConnectionId _ _ (by simp [Packet.setTimestampDifference, Packet.setTimestamp, Packet.setType, put32, Packet.new, defaultHeader])]
  rfl

theorem reid_synPacket (s : Socket) (t : U32) : (synPacket s t).reid ρ = synPacket (s.reid ρ) t := by
  unfold synPacket
  rw [reid_setTimestamp, reid_setSeqNr, reid_setConnectionId _ _ (by decide)]
  rfl

theorem reid_prepareReply (s : Socket) (t : U32) (pkt : Packet) (ty : PacketType) : (s.prepareReply t pkt ty).reid ρ = (s.reid ρ).prepareReply t (pkt.reid ρ) ty := by
  unfold Socket.prepareReply
  rw [reid_setAckNr, reid_setSeqNr, reid_setConnectionId _ _ (by simp [Packet.setTimestampDifference, Packet.setTimestamp, Packet.setType, put32, Packet.new, defaultHeader]), reid_timestamp]
  rfl

/-! ### Sockets -/

theorem reid_advanceIncoming (s : Socket) : (s.reid ρ).advanceIncoming = s.advanceIncoming.reid ρ := by
  unfold Socket.advanceIncoming
  cases e : s.incoming with
  | nil => simp [Socket.reid, e]
  | cons p l => simp [Socket.reid, e, reid_seqNr]

theorem reid_takePending (s : Socket) (len : Nat) : (s.reid ρ).takePending len = ((s.takePending len).1, (s.takePending len).2.reid ρ) := by
  unfold Socket.takePending
  simp only [show (s.reid ρ).pending = s.pending from rfl]
  split
  · exact congrArg (Prod.mk _) (reid_advanceIncoming { s with pending := [] })
  · rfl

theorem reid_takeHead (s : Socket) (pl : Bytes) (len : Nat) : (s.reid ρ).takeHead pl len = (s.takeHead pl len).reid ρ := by
  unfold Socket.takeHead
  split
  · exact reid_advanceIncoming s
  · rfl

theorem reid_afterLast (l : List Packet) (p : Packet) : Socket.afterLast (l.map (Packet.reid ρ)) (p.reid ρ) = Socket.afterLast l p := by
  unfold Socket.afterLast
  rw [List.getLast?_map]
  cases l.getLast? with
  | none => rfl
  | some q => simp only [Option.map_some, reid_seqNr]

theorem reid_filter (f : U16 → Bool) : ∀ l : List Packet, ((l.map (Packet.reid ρ)).filter fun q => f q.seqNr) = (l.filter fun q => f q.seqNr).map (Packet.reid ρ)
  | [] => rfl
  | p :: l => by
    simp only [List.map_cons, List.filter_cons, reid_seqNr, reid_filter f l]
    split <;> rfl

theorem reid_insertIdx (p : Packet) : ∀ (l : List Packet) (i : Nat), (l.map (Packet.reid ρ)).insertIdx i (p.reid ρ) = (l.insertIdx i p).map (Packet.reid ρ)
  | _, 0 => rfl
  | [], _ + 1 => rfl
  | q :: l, i + 1 => by simp only [List.map_cons, List.insertIdx_succ_cons, reid_insertIdx p l i]

theorem reid_insertPkt (l : List Packet) (p : Packet) : Socket.insertPkt (l.map (Packet.reid ρ)) (p.reid ρ) = (Socket.insertPkt l p).map (Packet.reid ρ) := by
  unfold Socket.insertPkt
  rw [reid_afterLast]
  have e : ((l.map (Packet.reid ρ)).filter fun q => q.seqNr < (p.reid ρ).seqNr).length = (l.filter fun q => q.seqNr < p.seqNr).length := by
    rw [reid_seqNr, reid_filter (fun x => decide (x < p.seqNr)) l, List.length_map]
  simp only [e]
  split
  · simp
  · rw [List.getElem?_map]
    cases l[(l.filter fun q => q.seqNr < p.seqNr).length]? with
    | none => exact reid_insertIdx _ _ _
    | some q =>
      simp only [Option.map_some, reid_seqNr]
      split
      · exact reid_insertIdx _ _ _
      · rfl

theorem reid_buildSack (s : Socket) : (s.reid ρ).buildSack (E.reid ρ rand') = s.buildSack E := by
  unfold Socket.buildSack
  have e : (s.reid ρ).incoming ≠ [] ↔ s.incoming ≠ [] := by simp [Socket.reid]
  have e2 : (((s.reid ρ).incoming.filter fun p => (s.reid ρ).ackNr + 1 < p.seqNr).map fun p => (p.seqNr - (s.reid ρ).ackNr - 2).toNat) =
      ((s.incoming.filter fun p => s.ackNr + 1 < p.seqNr).map fun p => (p.seqNr - s.ackNr - 2).toNat) := by
    rw [show (s.reid ρ).incoming = s.incoming.map (Packet.reid ρ) from rfl, show (s.reid ρ).ackNr = s.ackNr from rfl, reid_filter (fun x => decide (s.ackNr + 1 < x)) s.incoming, List.map_map]
    apply List.map_congr_left
    intro q _
    simp only [Function.comp, reid_seqNr]
  rw [e2]
  simp only [e, show (s.reid ρ).ackNr = s.ackNr from rfl, show (E.reid ρ rand').checks = E.checks from rfl]

theorem reid_subLens : ∀ (l : List Packet) (c : U32), Socket.subLens (E.reid ρ rand') c (l.map (Packet.reid ρ)) = Socket.subLens E c l
  | [], _ => rfl
  | p :: l, c => by
    simp only [List.map_cons, Socket.subLens, reid_len, reid_subLens l]
    rfl

theorem reid_findIdx (f : U16 → Bool) : ∀ l : List Packet, ((l.map (Packet.reid ρ)).findIdx? fun p => f p.seqNr) = l.findIdx? fun p => f p.seqNr
  | [] => rfl
  | p :: l => by simp only [List.map_cons, List.findIdx?_cons, reid_seqNr, reid_findIdx f l]

theorem reid_advanceSendWindow (s : Socket) : (s.reid ρ).advanceSendWindow (E.reid ρ rand') = (s.advanceSendWindow E).map (Socket.reid ρ) := by
  unfold Socket.advanceSendWindow
  simp only [show (s.reid ρ).sendWindow = s.sendWindow.map (Packet.reid ρ) from rfl, show (s.reid ρ).lastAcked = s.lastAcked from rfl, show (s.reid ρ).currWindow = s.currWindow from rfl]
  rw [reid_findIdx (fun x => x == s.lastAcked) s.sendWindow]
  split
  · rfl
  · rw [← List.map_take, reid_subLens]
    split
    · rfl
    · simp only [Option.map_some, ← List.map_drop]
      rfl

theorem reid_updateBaseDelay (s : Socket) (d : Int) (t : U32) : (s.reid ρ).updateBaseDelay d t = (s.updateBaseDelay d t).map (Socket.reid ρ) := by
  unfold Socket.updateBaseDelay
  simp only [show (s.reid ρ).baseDelays = s.baseDelays from rfl, show (s.reid ρ).lastRollover = s.lastRollover from rfl]
  by_cases h : s.baseDelays.isEmpty ∨ tsSub t s.lastRollover > MAX_BASE_DELAY_AGE
  · rw [if_pos h, if_pos h]; rfl
  · rw [if_neg h, if_neg h]
    cases s.baseDelays.getLast? with
    | none => rfl
    | some l =>
      simp only
      by_cases h : d < l
      · rw [if_pos h, if_pos h]; rfl
      · rw [if_neg h, if_neg h]; rfl

theorem reid_updateCongestionWindow (s : Socket) (n : U32) :
    (s.reid ρ).updateCongestionWindow (E.reid ρ rand') n = (s.updateCongestionWindow E n).map (Socket.reid ρ) := by
  unfold Socket.updateCongestionWindow
  by_cases h : E.checks ∧ s.currWindow.toNat + 1400 ≥ 2 ^ 32
  · rw [if_pos h, if_pos (show (E.reid ρ rand').checks ∧ (s.reid ρ).currWindow.toNat + 1400 ≥ 2 ^ 32 from h)]; rfl
  · rw [if_neg h, if_neg (show ¬ ((E.reid ρ rand').checks ∧ (s.reid ρ).currWindow.toNat + 1400 ≥ 2 ^ 32) from h)]; rfl

theorem reid_onNewAck (s : Socket) (idx : Nat) (p : Packet) (t : U32) :
    (s.reid ρ).onNewAck (E.reid ρ rand') idx (p.reid ρ) t = (s.onNewAck E idx p t).map (Socket.reid ρ) := by
  unfold Socket.onNewAck
  simp only
  rw [reid_updateBaseDelay, reid_timestamp]
  have e2 : (((s.reid ρ).sendWindow.take (idx + 1)).map Packet.len).sum = ((s.sendWindow.take (idx + 1)).map Packet.len).sum := by
    rw [show (s.reid ρ).sendWindow = s.sendWindow.map (Packet.reid ρ) from rfl, ← List.map_take, List.map_map]
    congr 2
    funext q
    simp only [Function.comp, reid_len]
  rw [e2]
  rcases s.updateBaseDelay (tsSub t p.timestamp) t with _ | s1
  · rfl
  · simp only [Option.map_some]
    have e3 : (s1.reid ρ).updateCurrentDelay (tsSub t p.timestamp) t = (s1.updateCurrentDelay (tsSub t p.timestamp) t).reid ρ := rfl
    rw [e3, reid_updateCongestionWindow]
    rcases (s1.updateCurrentDelay (tsSub t p.timestamp) t).updateCongestionWindow E _ with _ | s2
    · rfl
    · rfl

theorem reid_enqueue (s : Socket) (c : Bytes) : enqueue (s.reid ρ) c = (enqueue s c).reid ρ := by
  have e : ((((Packet.withPayload c).setSeqNr s.seqNr).setAckNr s.ackNr).setConnectionId s.senderId).reid ρ =
      (((Packet.withPayload c).setSeqNr s.seqNr).setAckNr s.ackNr).setConnectionId (ρ s.senderId) := by
    rw [reid_setConnectionId]
    simp [Packet.setSeqNr, Packet.setAckNr, put16, Packet.withPayload, Packet.setType, defaultHeader]
  simp only [enqueue, Socket.reid, List.map_append, List.map_cons, List.map_nil, e]

theorem reid_enqueues (cs : List Bytes) : ∀ s : Socket, cs.foldl enqueue (s.reid ρ) = (cs.foldl enqueue s).reid ρ := by
  induction cs with
  | nil => intro s; rfl
  | cons c cs ih => intro s; simp only [List.foldl_cons, reid_enqueue, ih]

/-! ### Computations -/

/-- `m` and `m'` have related results and keep the worlds the same but for the connection identifiers, from worlds whose socket
satisfies `P`, which they keep. -/
def Ids (ρ : U16 → U16) (P : Socket → Prop) (R : α → α → Prop) (m m' : M α) : Prop :=
  ∀ w, P w.s → SameRes R (m w).1 (m' (w.reid ρ)).1 ∧ (m' (w.reid ρ)).2 = (m w).2.reid ρ ∧ P (m w).2.s

namespace Ids

variable {P : Socket → Prop}

theorem ret {R : α → α → Prop} {a a' : α} (h : R a a') : Ids ρ P R (M.ret a) (M.ret a') := fun _ hw => ⟨.ok h, rfl, hw⟩
theorem pure {R : α → α → Prop} {a a' : α} (h : R a a') : Ids ρ P R (Pure.pure a) (Pure.pure a') := ret h
theorem throw {R : α → α → Prop} (e : IoErr) : Ids ρ P R (M.throw e) (M.throw e) := fun _ hw => ⟨.err e, rfl, hw⟩
theorem never {R : α → α → Prop} : Ids ρ P R M.never M.never := fun _ hw => ⟨.pending, rfl, hw⟩

theorem andThen {R : α → α → Prop} {Q : β → β → Prop} {m m' : M α} {f f' : α → M β} (h : Ids ρ P R m m')
    (hf : ∀ a a', R a a' → Ids ρ P Q (f a) (f' a')) : Ids ρ P Q (M.andThen m f) (M.andThen m' f') := by
  intro w hw
  obtain ⟨h1, h2, h3⟩ := h w hw
  unfold M.andThen
  rcases e : m w with ⟨r, v⟩
  rcases e' : m' (w.reid ρ) with ⟨r', v'⟩
  rw [e, e'] at h1 h2
  rw [e] at h3
  cases h2
  cases h1 with
  | ok ha => exact hf _ _ ha v h3
  | err x => exact ⟨.err x, rfl, h3⟩
  | panic => exact ⟨.panic, rfl, h3⟩
  | pending => exact ⟨.pending, rfl, h3⟩

theorem seq {R : α → α → Prop} {Q : β → β → Prop} {m m' : M α} {f f' : α → M β} (h : Ids ρ P R m m')
    (hf : ∀ a a', R a a' → Ids ρ P Q (f a) (f' a')) : Ids ρ P Q (m >>= f) (m' >>= f') := andThen h hf

theorem seqE {Q : β → β → Prop} {m m' : M α} {f f' : α → M β} (h : Ids ρ P Eq m m') (hf : ∀ a, Ids ρ P Q (f a) (f' a)) : Ids ρ P Q (m >>= f) (m' >>= f') :=
  andThen h fun a _ e => e ▸ hf a

theorem get {Q : β → β → Prop} {f f' : Socket → M β} (hf : ∀ s, P s → Ids ρ P Q (f s) (f' (s.reid ρ))) : Ids ρ P Q (getS >>= f) (getS >>= f') :=
  fun w hw => hf w.s hw w hw

theorem modS {f f' : Socket → Socket} (hf : ∀ s, P s → f' (s.reid ρ) = (f s).reid ρ ∧ P (f s)) : Ids ρ P Eq (M.modS f) (M.modS f') := by
  intro w hw
  obtain ⟨h1, h2⟩ := hf w.s hw
  refine ⟨.ok rfl, ?_, h2⟩
  show ({ (w.reid ρ) with s := f' (w.s.reid ρ) } : World) = _
  rw [h1]
  rfl

theorem orPanic (o : Option α) : Ids ρ P Eq (M.orPanic o) (M.orPanic o) := by
  cases o with
  | none => exact fun _ hw => ⟨.panic, rfl, hw⟩
  | some a => exact ret rfl

theorem orPanicR {R : α → α → Prop} (f : α → α) (o : Option α) (h : ∀ a, o = some a → R a (f a)) : Ids ρ P R (M.orPanic o) (M.orPanic (o.map f)) := by
  cases o with
  | none => exact fun _ hw => ⟨.panic, rfl, hw⟩
  | some a => exact ret (h a rfl)

theorem overflowIf (b : Bool) : Ids ρ P Eq (M.overflowIf E b) (M.overflowIf (E.reid ρ rand') b) := by
  show Ids ρ P Eq (M.overflowIf E b) (M.overflowIf E b)
  unfold M.overflowIf
  split
  · exact fun _ hw => ⟨.panic, rfl, hw⟩
  · exact ret rfl

theorem now : Ids ρ P Eq (M.now E) (M.now (E.reid ρ rand')) := fun _ h => ⟨.ok rfl, rfl, h⟩

theorem ignoreErr {R : α → α → Prop} {m m' : M α} (h : Ids ρ P R m m') : Ids ρ P Eq (M.ignoreErr m) (M.ignoreErr m') := by
  intro w hw
  obtain ⟨h1, h2, h3⟩ := h w hw
  unfold M.ignoreErr
  rcases e : m w with ⟨r, v⟩
  rcases e' : m' (w.reid ρ) with ⟨r', v'⟩
  rw [e, e'] at h1 h2
  rw [e] at h3
  cases h2
  cases h1 with
  | ok ha => exact ⟨.ok rfl, rfl, h3⟩
  | err e => exact ⟨.ok rfl, rfl, h3⟩
  | panic => exact ⟨.panic, rfl, h3⟩
  | pending => exact ⟨.pending, rfl, h3⟩

theorem udpSend (a : Addr) {p p' : Packet} (hp : p' = p.reid ρ) : Ids ρ P Eq (M.udpSend E a p.bytes) (M.udpSend (E.reid ρ rand') a p'.bytes) := by
  intro w h
  subst hp
  unfold M.udpSend
  simp only
  rw [show (E.reid ρ rand').snd (w.reid ρ).nSnd = E.snd w.nSnd from rfl]
  have e : ∀ ok, ({ (w.reid ρ) with nSnd := (w.reid ρ).nSnd + 1, log := (w.reid ρ).log ++ [.send a (p.reid ρ).bytes ok] } : World) =
      World.reid ρ { w with nSnd := w.nSnd + 1, log := w.log ++ [.send a p.bytes ok] } := by
    intro ok
    simp only [World.reid, List.map_append, List.map_cons, List.map_nil, Act.reid, Packet.reid]
  rcases E.snd w.nSnd with _ | k | _
  · exact ⟨.ok rfl, e _, h⟩
  · exact ⟨.err _, e _, h⟩
  · exact ⟨.pending, e _, h⟩

/-- The same received datagram with another connection identifier. -/
def Got (ρ : U16 → U16) : Except ErrorKind (Bytes × Addr) → Except ErrorKind (Bytes × Addr) → Prop
  | .ok x, .ok x' => x' = (reid ρ x.1, x.2)
  | .error k, .error k' => k' = k
  | _, _ => False

theorem udpRecv (t : Option U64) {len : Nat} (hl : 4 ≤ len) : Ids ρ P (Got ρ) (M.udpRecv E t len) (M.udpRecv (E.reid ρ rand') t len) := by
  intro w h
  unfold M.udpRecv
  simp only
  rw [show (E.reid ρ rand').net (w.reid ρ).nNet = (E.net w.nNet).reid ρ from rfl]
  have e : ({ (w.reid ρ) with nNet := (w.reid ρ).nNet + 1, log := (w.reid ρ).log ++ [.wait t] } : World) =
      World.reid ρ { w with nNet := w.nNet + 1, log := w.log ++ [.wait t] } := by
    simp only [World.reid, List.map_append, List.map_cons, List.map_nil, Act.reid]
  rcases E.net w.nNet with ⟨b, a⟩ | k | _
  · refine ⟨.ok ?_, e, h⟩
    show ((reid ρ b).take len, a) = _
    rw [← reid_take _ hl]
  · exact ⟨.ok rfl, e, h⟩
  · exact ⟨.pending, e, h⟩

theorem whileM {c c' : M Bool} {b b' : M Unit} (hc : Ids ρ P Eq c c') (hb : Ids ρ P Eq b b') : ∀ n, Ids ρ P Eq (M.whileM n c b) (M.whileM n c' b')
  | 0 => never
  | n + 1 => by
    refine andThen hc ?_
    rintro go _ rfl
    cases go with
    | true => exact andThen hb fun _ _ _ => whileM hc hb n
    | false => exact ret rfl

theorem ite {R : α → α → Prop} {c c' : Prop} [Decidable c] [Decidable c'] {m n m' n' : M α} (hcc : c' ↔ c) (h1 : c → Ids ρ P R m m') (h2 : ¬ c → Ids ρ P R n n') :
    Ids ρ P R (if c then m else n) (if c' then m' else n') := by
  by_cases hc : c
  · rw [if_pos hc, if_pos (hcc.2 hc)]; exact h1 hc
  · rw [if_neg hc, if_neg (mt hcc.1 hc)]; exact h2 hc

end Ids

open Ids

/-- The packet with another connection identifier. -/
abbrev IdPkt (ρ : U16 → U16) (p p' : Packet) : Prop := p' = p.reid ρ

/-- The reply with another connection identifier. -/
abbrev IdReply (ρ : U16 → U16) (r r' : Option Packet) : Prop := r' = r.map (Packet.reid ρ)

/-- The socket left its initial state. -/
abbrev Begun (s : Socket) : Prop := s.state ≠ .new

/-! ### The operations -/

section
variable {P : Socket → Prop}

theorem ids_fastResendOne : Ids ρ P Eq (fastResendOne E) (fastResendOne (E.reid ρ rand')) :=
  get fun s _ => seqE now fun t => ignoreErr (R := Eq) (udpSend s.connectedTo (reid_resendRequest s t).symm)

end

theorem ids_flushIncoming (len : Nat) : Ids ρ Begun Eq (flushIncoming E len) (flushIncoming (E.reid ρ rand') len) := by
  unfold flushIncoming
  refine get fun s _ => ?_
  refine ite Iff.rfl (fun _ => seqE (modS fun s hs => ?_) fun _ => pure ?_) fun _ => ?_
  · rw [reid_takePending]
    exact ⟨rfl, by simpa [Begun] using hs⟩
  · rw [reid_takePending]
  · simp only [show (s.reid ρ).incoming = s.incoming.map (Packet.reid ρ) from rfl]
    cases s.incoming with
    | nil => exact pure rfl
    | cons q rest =>
      simp only [List.map_cons, reid_seqNr, reid_payload]
      refine seqE (overflowIf _) fun _ => ite Iff.rfl (fun _ => seqE (orPanic _) fun pl => seqE (modS fun s hs => ?_) fun _ => pure rfl) fun _ => pure rfl
      exact ⟨reid_takeHead s pl len, by simpa [Begun] using hs⟩

theorem ids_timeout : Ids ρ Begun Eq (handleReceiveTimeout E) (handleReceiveTimeout (E.reid ρ rand')) := by
  unfold handleReceiveTimeout
  refine get fun s hs => seqE (overflowIf _) fun _ => seqE (modS fun s hs => ⟨rfl, hs⟩) fun _ => ?_
  simp only [show (s.reid ρ).sendWindow = s.sendWindow.map (Packet.reid ρ) from rfl]
  cases s.sendWindow with
  | nil =>
    simp only [List.map_nil]
    refine ite Iff.rfl (fun _ => seqE now fun t => udpSend s.connectedTo (reid_finPacket s t).symm) fun _ => ite Iff.rfl (fun _ => ?_) fun _ => pure rfl
    exact seqE ids_fastResendOne fun _ => seqE ids_fastResendOne fun _ => ids_fastResendOne
  | cons p rest =>
    simp only [List.map_cons]
    refine seqE now fun t => seqE (modS fun s hs => ⟨?_, hs⟩) fun _ => udpSend s.connectedTo (reid_setTimestamp p t).symm
    simp only [Socket.reid, List.map_cons, reid_setTimestamp]

theorem ids_recvWait : ∀ fuel retries, Ids ρ Begun (fun x x' => x' = (reid ρ x.1, x.2)) (recvWait E fuel retries) (recvWait (E.reid ρ rand') fuel retries)
  | 0, _ => never
  | fuel + 1, retries => by
    unfold recvWait
    refine get fun s _ => ite Iff.rfl (fun _ => seqE (modS fun s _ => ⟨rfl, by simp⟩) fun _ => throw _) fun _ => seq (udpRecv _ (by decide)) fun r r' hr => ?_
    rcases r with k | x <;> rcases r' with k' | x' <;> simp only [Got] at hr
    · subst hr
      exact ite Iff.rfl (fun _ => seqE ids_timeout fun _ => ids_recvWait fuel _) fun _ => throw _
    · exact pure hr

section
variable {rec rec' : M (Bytes × Addr)}

theorem ids_sendPacket (hrec : Ids ρ Begun Eq rec rec') (fuel : Nat) (p : Packet) : Ids ρ Begun (IdPkt ρ) (sendPacket E fuel rec p) (sendPacket (E.reid ρ rand') fuel rec' (p.reid ρ)) := by
  unfold sendPacket
  refine get fun s _ => seqE now fun start => seqE (whileM ?_ (andThen hrec fun _ _ _ => ret rfl) _) fun _ => get fun s _ => ?_
  · exact get fun s _ => ite Iff.rfl (fun _ => seqE now fun t => pure rfl) fun _ => pure rfl
  · rw [reid_seqNr]
    refine ite Iff.rfl (fun _ => pure rfl) fun _ => seqE now fun t => ?_
    have e : ((p.reid ρ).setTimestamp t).setTimestampDifference s.theirDelay = ((p.setTimestamp t).setTimestampDifference s.theirDelay).reid ρ := by
      rw [reid_setTimestampDifference, reid_setTimestamp]
    exact seqE (udpSend s.connectedTo e) fun _ => pure e

theorem reid_find (nr : U16) : ∀ l : List Packet, ((l.map (Packet.reid ρ)).find? fun p => p.seqNr == nr) = (l.find? fun p => p.seqNr == nr).map (Packet.reid ρ)
  | [] => rfl
  | p :: l => by
    simp only [List.map_cons, List.find?_cons, reid_seqNr, reid_find nr l]
    split <;> rfl

theorem ids_resendLost (hrec : Ids ρ Begun Eq rec rec') (fuel : Nat) (nr : U16) : Ids ρ Begun Eq (resendLost E fuel rec nr) (resendLost (E.reid ρ rand') fuel rec' nr) := by
  unfold resendLost
  refine get fun s _ => ?_
  simp only [show (s.reid ρ).sendWindow = s.sendWindow.map (Packet.reid ρ) from rfl, reid_find]
  cases s.sendWindow.find? fun p => p.seqNr == nr with
  | none => exact pure rfl
  | some p => exact ignoreErr (ids_sendPacket hrec _ p)

theorem ids_resendMissing (hrec : Ids ρ Begun Eq rec rec') (fuel : Nat) (ack last : U16) :
    ∀ bits loss, Ids ρ Begun Eq (resendMissing E fuel rec ack last bits loss) (resendMissing (E.reid ρ rand') fuel rec' ack last bits loss) := by
  intro bits
  induction bits with
  | nil => intro loss; exact pure rfl
  | cons x rest ih =>
    intro loss
    obtain ⟨idx, received⟩ := x
    unfold resendMissing
    refine ite Iff.rfl (fun _ => ih _) fun _ => seqE (overflowIf _) fun _ => ite Iff.rfl (fun _ => seqE (ids_resendLost hrec _ _) fun _ => ih _) fun _ => pure rfl

theorem ids_processExtensions (hrec : Ids ρ Begun Eq rec rec') (fuel : Nat) (ack : U16) :
    ∀ exts loss, Ids ρ Begun Eq (processExtensions E fuel rec ack exts loss) (processExtensions (E.reid ρ rand') fuel rec' ack exts loss) := by
  intro exts
  induction exts with
  | nil => intro loss; exact pure rfl
  | cons e rest ih =>
    intro loss
    unfold processExtensions
    refine ite Iff.rfl (fun _ => seqE ?_ fun loss1 => get fun s _ => ?_) fun _ => ih _
    · unfold resendFirst
      exact ite Iff.rfl (fun _ => seqE (overflowIf _) fun _ => seqE (ids_resendLost hrec _ _) fun _ => pure rfl) fun _ => pure rfl
    · simp only [show (s.reid ρ).sendWindow = s.sendWindow.map (Packet.reid ρ) from rfl, List.getLast?_map]
      cases s.sendWindow.getLast? with
      | none => exact ih _
      | some l =>
        simp only [Option.map_some, reid_seqNr]
        exact seqE (orPanic _) fun bits => seqE (ids_resendMissing hrec _ _ _ _ _) fun loss => ih _

theorem ids_handleState (hrec : Ids ρ Begun Eq rec rec') (fuel : Nat) (pkt : Packet) :
    Ids ρ Begun Eq (handleState E fuel rec pkt) (handleState (E.reid ρ rand') fuel rec' (pkt.reid ρ)) := by
  have hwin : ∀ s : Socket, (s.reid ρ).sendWindow ≠ [] ↔ s.sendWindow ≠ [] := fun s => by simp [Socket.reid]
  unfold handleState
  refine seqE ?_ fun _ => seqE ?_ fun _ => get fun s _ => ?_
  · unfold countAck
    rw [reid_ackNr]
    exact get fun s _ => ite Iff.rfl (fun _ => seqE (overflowIf _) fun _ => modS fun s hs => ⟨rfl, hs⟩) fun _ => seqE now fun t => modS fun s hs => ⟨rfl, hs⟩
  · unfold measureAck
    rw [reid_ackNr]
    refine get fun s hs => ?_
    simp only [show (s.reid ρ).sendWindow = s.sendWindow.map (Packet.reid ρ) from rfl, reid_findIdx (fun x => pkt.ackNr == x), List.getElem?_map]
    cases s.sendWindow.findIdx? fun p => pkt.ackNr == p.seqNr with
    | none => exact pure rfl
    | some index =>
      refine seqE now fun t => seq (orPanicR (R := IdPkt ρ) _ _ fun _ _ => rfl) fun p p' hp => ?_
      cases hp
      rw [reid_onNewAck]
      refine seq (orPanicR (R := fun a a' => a' = a.reid ρ ∧ a.state = s.state) _ _ fun a ha => ⟨rfl, onNewAck_state ha⟩) fun a a' ha => modS fun _ _ => ⟨ha.1, ?_⟩
      rw [Begun, ha.2]; exact hs
  · rw [reid_extensions, reid_ackNr]
    simp only [hwin]
    refine seqE (orPanic _) fun exts => seqE (ids_processExtensions hrec _ _ _ _) fun loss => seqE ?_ fun _ => seqE (modS fun s hs => ?_) fun _ => get fun s hs => ?_
    · unfold fastRetransmit
      refine get fun s _ => ?_
      simp only [hwin]
      rw [reid_ackNr]
      exact ite Iff.rfl (fun _ => seqE (overflowIf _) fun _ => ids_resendLost hrec _ _) fun _ => pure rfl
    · cases loss
      · exact ⟨rfl, hs⟩
      · exact ⟨rfl, hs⟩
    · rw [reid_advanceSendWindow]
      refine seq (orPanicR (R := fun a a' => a' = a.reid ρ ∧ a.state = s.state) _ _ fun a ha => ⟨rfl, advanceSendWindow_state ha⟩) fun a a' ha => modS fun _ _ => ⟨ha.1, ?_⟩
      rw [Begun, ha.2]; exact hs

theorem ids_withSack (s : Socket) (pkt : Packet) (t : U32) (ty : PacketType) :
    Ids ρ Begun (IdPkt ρ) (withSack E s pkt (s.prepareReply t pkt ty)) (withSack (E.reid ρ rand') (s.reid ρ) (pkt.reid ρ) ((s.reid ρ).prepareReply t (pkt.reid ρ) ty)) := by
  obtain ⟨h1, h2⟩ := prepareReply_bytes s t pkt ty
  rw [← reid_prepareReply]
  generalize s.prepareReply t pkt ty = r at h1 h2
  unfold withSack
  rw [reid_seqNr, reid_buildSack]
  refine ite Iff.rfl (fun _ => seqE (orPanic (s.buildSack E)) fun sack => ite Iff.rfl (fun _ => ?_) fun _ => pure rfl) fun _ => pure rfl
  rw [reid_setSack r h2 h1]
  exact orPanicR _ _ fun _ _ => rfl

theorem ids_replyWith (pkt : Packet) (ty : PacketType) : Ids ρ Begun (IdReply ρ) (replyWith E pkt ty) (replyWith (E.reid ρ rand') (pkt.reid ρ) ty) :=
  get fun s _ => seqE now fun t => pure (congrArg some (reid_prepareReply s t pkt ty).symm)

theorem ids_handleData (pkt : Packet) : Ids ρ Begun (IdPkt ρ) (handleData E pkt) (handleData (E.reid ρ rand') (pkt.reid ρ)) :=
  get fun s _ => seqE now fun t => ids_withSack s pkt t _

theorem ids_onFin (pkt : Packet) : Ids ρ Begun (IdReply ρ) (onFin E pkt) (onFin (E.reid ρ rand') (pkt.reid ρ)) :=
  get fun s _ => seqE now fun t => seq (ids_withSack s pkt t _) fun r r' hr => seqE (modS fun s _ => ⟨rfl, by simp⟩) fun _ => pure (by rw [hr]; rfl)

theorem ids_dispatch (hrec : Ids ρ Begun Eq rec rec') (fuel : Nat) (pkt : Packet) (src : Addr) (st : SocketState) (hst : st ≠ .new) (ty : PacketType) :
    Ids ρ Begun (IdReply ρ) (dispatch E fuel rec pkt src st ty) (dispatch (E.reid ρ rand') fuel rec' (pkt.reid ρ) src st ty) := by
  unfold dispatch
  split
  · exact absurd rfl hst
  · exact ids_replyWith _ _
  · unfold onSynAck
    rw [reid_seqNr, reid_ackNr]
    exact get fun s _ => seqE (overflowIf _) fun _ => seqE now fun t => seqE (modS fun s _ => ⟨rfl, by simp⟩) fun _ => pure rfl
  · exact throw _
  · exact seq (ids_handleData pkt) fun _ _ hr => pure (by rw [hr]; rfl)
  · exact seq (ids_handleData pkt) fun _ _ hr => pure (by rw [hr]; rfl)
  · exact seqE (ids_handleState hrec _ _) fun _ => pure rfl
  · exact ids_onFin pkt
  · exact ids_onFin pkt
  · exact ids_replyWith _ _
  · unfold onFinAck
    rw [reid_ackNr]
    refine seqE (modS fun s hs => ?_) fun _ => pure rfl
    by_cases h : pkt.ackNr = s.seqNr
    · rw [if_pos h, if_pos (show pkt.ackNr = (s.reid ρ).seqNr from h)]; exact ⟨rfl, by simp⟩
    · rw [if_neg h, if_neg (show ¬ pkt.ackNr = (s.reid ρ).seqNr from h)]; exact ⟨rfl, hs⟩
  · unfold onReset
    exact seqE (modS fun s _ => ⟨rfl, by simp⟩) fun _ => throw _
  · exact throw _

theorem bumpAck_reid (s : Socket) (pkt : Packet) : (s.reid ρ).bumpAck (pkt.reid ρ) = (s.bumpAck pkt).reid ρ := by
  unfold Socket.bumpAck
  rw [reid_seqNr, show (s.reid ρ).ackNr = s.ackNr from rfl]
  split <;> rfl

theorem ids_handlePacket (hρ : Function.Injective ρ) (hrec : Ids ρ Begun Eq rec rec') (fuel : Nat) (pkt : Packet) (hp : 4 ≤ pkt.bytes.length) (src : Addr) :
    Ids ρ Begun (IdReply ρ) (handlePacket E fuel rec pkt src) (handlePacket (E.reid ρ rand') fuel rec' (pkt.reid ρ) src) := by
  unfold handlePacket
  refine seqE (modS fun s hs => ⟨bumpAck_reid s pkt, ?_⟩) fun _ => get fun s hs => ?_
  · unfold Socket.bumpAck
    split <;> exact hs
  · rw [reid_getType, reid_connectionId _ hp]
    refine seqE (orPanic _) fun ty => ite ?_ (fun _ => ids_replyWith _ _) fun _ => seqE now fun t => seqE (modS fun s hs => ?_) fun _ => ids_dispatch hrec _ _ _ _ hs _
    · show (ty ≠ .syn ∧ s.state ≠ .synSent ∧ ¬ (ρ pkt.connectionId = ρ s.senderId ∨ ρ pkt.connectionId = ρ s.receiverId)) ↔ _
      rw [hρ.eq_iff, hρ.eq_iff]
    · rw [reid_wndSize, reid_timestamp]
      exact ⟨rfl, hs⟩

end

theorem tryFrom_long {b : Bytes} {p : Packet} (h : Packet.tryFrom b = some (.ok p)) : p = ⟨b⟩ ∧ 4 ≤ b.length := by
  unfold Packet.tryFrom at h
  split at h
  · cases h
  · rename_i c _
    split at h
    · cases h
    · rename_i hh
      have : 20 ≤ b.length := by
        by_contra hs
        unfold headerTryFrom at hh
        rw [if_pos (show b.length < HEADER_SIZE by simp only [HEADER_SIZE]; omega)] at hh
        cases hh
      split at h <;> cases h
      exact ⟨rfl, by omega⟩

theorem ids_recv (hρ : Function.Injective ρ) : ∀ fuel len, Ids ρ Begun Eq (recv E fuel len) (recv (E.reid ρ rand') fuel len)
  | 0, _ => never
  | fuel + 1, len => by
    have ih : Ids ρ Begun Eq (recv E fuel BUF_SIZE) (recv (E.reid ρ rand') fuel BUF_SIZE) := ids_recv hρ fuel BUF_SIZE
    unfold recv recvBody
    refine seq (ids_recvWait _ _) fun x x' hx => ?_
    obtain ⟨b, src⟩ := x
    cases hx
    show Ids ρ Begun Eq (M.orPanic (Packet.tryFrom b) >>= _) (M.orPanic (Packet.tryFrom (reid ρ b)) >>= _)
    rw [reid_tryFrom]
    refine seq (orPanicR (R := fun r r' => r' = reidParsed ρ r ∧ ∀ p, r = .ok p → 4 ≤ p.bytes.length) _ _ fun r hr => ⟨rfl, fun p hp => ?_⟩) fun r r' hr => ?_
    · subst hp
      obtain ⟨h1, h2⟩ := tryFrom_long hr
      rw [h1]; exact h2
    obtain ⟨rfl, hl⟩ := hr
    rcases r with e | p
    · exact get fun s _ => pure rfl
    · show Ids ρ Begun Eq (recvPacket E fuel (recv E fuel BUF_SIZE) len p src) (recvPacket (E.reid ρ rand') fuel (recv (E.reid ρ rand') fuel BUF_SIZE) len (p.reid ρ) src)
      unfold recvPacket
      refine seq (ids_handlePacket hρ ih _ _ (hl p rfl) _) fun r r' hr => seqE ?_ fun _ => ?_
      · cases hr
        cases r with
        | none => exact pure rfl
        | some r => exact udpSend _ (reid_setWndSize r _).symm
      · rw [reid_getType, reid_seqNr]
        refine seqE (orPanic _) fun ty => seqE (modS fun s hs => ?_) fun _ => seqE (ids_flushIncoming _) fun out => pure rfl
        by_cases h : ty = .data ∧ 0 < (p.seqNr - s.lastDropped).toNat
        · rw [if_pos h, if_pos (show ty = .data ∧ 0 < (p.seqNr - (s.reid ρ).lastDropped).toNat from h)]
          refine ⟨?_, hs⟩
          simp only [Socket.insertIntoBuffer, Socket.reid, reid_insertPkt]
        · rw [if_neg h, if_neg (show ¬ (ty = .data ∧ 0 < (p.seqNr - (s.reid ρ).lastDropped).toNat) from h)]
          exact ⟨rfl, hs⟩

theorem ids_recvFromLoop (hρ : Function.Injective ρ) (fuel len : Nat) : ∀ n, Ids ρ Begun Eq (recvFromLoop E fuel len n) (recvFromLoop (E.reid ρ rand') fuel len n)
  | 0 => never
  | n + 1 => by
    unfold recvFromLoop
    exact get fun s _ => ite Iff.rfl (fun _ => pure rfl) fun _ => seqE (ids_recv hρ _ _) fun x => ite Iff.rfl (fun _ => ids_recvFromLoop hρ fuel len n) fun _ => pure rfl

theorem ids_recvFrom (hρ : Function.Injective ρ) (fuel len : Nat) : Ids ρ Begun Eq (recvFrom E fuel len) (recvFrom (E.reid ρ rand') fuel len) := by
  unfold recvFrom
  exact seqE (ids_flushIncoming _) fun out => get fun s _ => ite Iff.rfl (fun _ => pure rfl) fun _ => ite Iff.rfl (fun _ => throw _) fun _ => ids_recvFromLoop hρ _ _ _

theorem ids_sendQueue (hρ : Function.Injective ρ) (fuel : Nat) : ∀ n, Ids ρ Begun Eq (sendQueue E fuel n) (sendQueue (E.reid ρ rand') fuel n)
  | 0 => never
  | n + 1 => by
    unfold sendQueue
    refine get fun s _ => ?_
    simp only [show (s.reid ρ).unsent = s.unsent.map (Packet.reid ρ) from rfl]
    cases s.unsent with
    | nil => exact pure rfl
    | cons p rest =>
      simp only [List.map_cons]
      refine seqE (modS fun s hs => ⟨rfl, hs⟩) fun _ => seq (ids_sendPacket (ids_recv hρ _ _) _ _) fun p p' hp => ?_
      cases hp
      rw [reid_len]
      refine get fun s _ => seqE (overflowIf _) fun _ => seqE (modS fun s hs => ⟨?_, hs⟩) fun _ => ids_sendQueue hρ fuel n
      simp only [Socket.reid, List.map_append, List.map_cons, List.map_nil]

theorem enqueues_state (l : List Bytes) : ∀ s : Socket, (l.foldl enqueue s).state = s.state := by
  induction l with
  | nil => intro s; rfl
  | cons c l ih => intro s; rw [List.foldl_cons, ih]; rfl

theorem ids_sendTo (hρ : Function.Injective ρ) (fuel : Nat) (buf : Bytes) : Ids ρ Begun Eq (sendTo E fuel buf) (sendTo (E.reid ρ rand') fuel buf) := by
  unfold sendTo
  refine get fun s _ => ite Iff.rfl (fun _ => throw _) fun _ => seqE (modS fun s hs => ⟨reid_enqueues _ s, ?_⟩) fun _ => seqE (ids_sendQueue hρ _ _) fun _ => pure rfl
  rw [Begun, enqueues_state]; exact hs

theorem ids_scratch (hρ : Function.Injective ρ) (fuel : Nat) : Ids ρ Begun Eq (scratchRecv E fuel) (scratchRecv (E.reid ρ rand') fuel) := seqE (ids_recv hρ _ _) fun _ => pure rfl

theorem ids_flush (hρ : Function.Injective ρ) (fuel : Nat) : Ids ρ Begun Eq (flush E fuel) (flush (E.reid ρ rand') fuel) :=
  Ids.whileM (Ids.get fun s _ => Ids.pure (a := decide (s.sendWindow ≠ [])) (a' := decide ((s.reid ρ).sendWindow ≠ [])) (by simp [Socket.reid])) (ids_scratch hρ _) _

theorem ids_close (hρ : Function.Injective ρ) (fuel : Nat) : Ids ρ Begun Eq (close E fuel) (close (E.reid ρ rand') fuel) := by
  unfold close
  refine get fun s _ => ite Iff.rfl (fun _ => pure rfl) fun _ => seqE (ids_flush hρ _) fun _ => get fun s _ => ?_
  refine seqE now fun t => seqE (udpSend s.connectedTo (reid_finPacket s t).symm) fun _ => seqE (modS fun s _ => ⟨rfl, by simp⟩) fun _ => ?_
  exact Ids.whileM (Ids.get fun s _ => Ids.pure (a := decide (s.state ≠ .closed)) (a' := decide ((s.reid ρ).state ≠ .closed)) rfl) (ids_scratch hρ _) _

theorem ids_op (hρ : Function.Injective ρ) (fuel : Nat) (op : Op) : Ids ρ Begun Eq (runOp E fuel op) (runOp (E.reid ρ rand') fuel op) := by
  cases op with
  | recvFrom len => exact seqE (ids_recvFrom hρ _ _) fun _ => pure rfl
  | sendTo b => exact seqE (ids_sendTo hρ _ _) fun _ => pure rfl
  | flush => exact seqE (ids_flush hρ _) fun _ => pure rfl
  | close => exact seqE (ids_close hρ _) fun _ => pure rfl
  | setMaxRetries n => exact seqE (modS fun s hs => ⟨rfl, hs⟩) fun _ => pure rfl

/-! ### The handshake -/

theorem ids_synLoop : ∀ n t, Ids ρ (fun _ => True) (fun b b' => b' = reid ρ b) (synLoop E n t) (synLoop (E.reid ρ rand') n t)
  | 0, _ => pure rfl
  | n + 1, t => by
    unfold synLoop
    refine get fun s _ => seqE now fun u => seqE (udpSend s.connectedTo (reid_synPacket s u).symm) fun _ => seqE (modS fun s _ => ⟨rfl, trivial⟩) fun _ => ?_
    refine seq (udpRecv _ (by decide)) fun r r' hr => ?_
    rcases r with k | ⟨b, src⟩ <;> rcases r' with k' | x' <;> simp only [Got] at hr
    · subst hr
      exact ite Iff.rfl (fun _ => ids_synLoop n _) fun _ => throw _
    · subst hr
      exact seqE (modS fun s _ => ⟨rfl, trivial⟩) fun _ => pure rfl

theorem sameRes_eq {r r' : Res α} (h : SameRes Eq r r') : r' = r := by
  cases h with
  | ok h => rw [h]
  | err | panic | pending => rfl

theorem synLoop_synSent : ∀ (n : Nat) (t : U64) (v : World), v.s.state = .synSent ∨ n ≠ 0 → ∀ b, (synLoop E n t v).1 = .ok b → (synLoop E n t v).2.s.state = .synSent
  | 0, _, v, hv, _, _ => hv.resolve_right (by simp)
  | n + 1, t, v, _, b, hb => by
    simp only [synLoop, bind_def, M.andThen, getS, M.now, M.udpSend] at hb ⊢
    generalize E.snd v.nSnd = x at hb ⊢
    cases x with
    | fail k => cases hb
    | never => cases hb
    | ok =>
      simp only [M.modS, M.udpRecv] at hb ⊢
      generalize E.net v.nNet = y at hb ⊢
      cases y with
      | never => cases hb
      | dgram x a => rfl
      | fail k =>
        simp only at hb ⊢
        by_cases hk : isTimeout k
        · simp only [hk, if_true] at hb ⊢
          exact synLoop_synSent n _ _ (.inl rfl) b hb
        · simp only [hk] at hb
          cases hb

/-- The part of `connect` after something was received (src/socket.rs:298-305). -/
def afterSyn (E : Env) (fuel : Nat) (b : Bytes) : M Unit :=
  getS >>= fun s => M.orPanic (Packet.tryFrom b) >>= fun r =>
    match r with
    | .error e => M.throw (.parse e)
    | .ok pkt => handlePacket E fuel (recv E fuel BUF_SIZE) pkt s.connectedTo >>= fun _ => Pure.pure PUnit.unit

theorem connectM_eq (fuel : Nat) (addr : Addr) (v : World) :
    connectM E fuel addr v = M.andThen (synLoop E MAX_SYN_RETRIES v.s.congTimeout) (afterSyn E fuel) { v with s := { v.s with connectedTo := addr } } := rfl

theorem ids_afterSyn (hρ : Function.Injective ρ) (fuel : Nat) (b : Bytes) : Ids ρ Begun Eq (afterSyn E fuel b) (afterSyn (E.reid ρ rand') fuel (reid ρ b)) := by
  unfold afterSyn
  rw [reid_tryFrom]
  refine get fun s _ => seq (orPanicR (R := fun r r' => r' = reidParsed ρ r ∧ ∀ p, r = .ok p → 4 ≤ p.bytes.length) _ _ fun r hr => ⟨rfl, fun p hp => ?_⟩) fun r r' hr => ?_
  · subst hp
    obtain ⟨h1, h2⟩ := tryFrom_long hr
    rw [h1]; exact h2
  · obtain ⟨rfl, hl⟩ := hr
    rcases r with e | p
    · exact throw _
    · exact seq (ids_handlePacket hρ (ids_recv hρ _ _) _ _ (hl p rfl) _) fun _ _ _ => pure rfl

/-- `connect` from a world with other identifiers. -/
theorem connectM_reid (hρ : Function.Injective ρ) (fuel : Nat) (addr : Addr) (w : World) :
    connectM (E.reid ρ rand') fuel addr (w.reid ρ) = ((connectM E fuel addr w).1, (connectM E fuel addr w).2.reid ρ) ∧
      ((connectM E fuel addr w).1 = .ok () → Begun (connectM E fuel addr w).2.s) := by
  rw [connectM_eq, connectM_eq]
  rw [show ({ (w.reid ρ) with s := { (w.reid ρ).s with connectedTo := addr } } : World) = World.reid ρ { w with s := { w.s with connectedTo := addr } } from rfl,
    show (w.reid ρ).s.congTimeout = w.s.congTimeout from rfl]
  generalize ({ w with s := { w.s with connectedTo := addr } } : World) = v
  obtain ⟨h1, h2, -⟩ := ids_synLoop (E := E) (ρ := ρ) (rand' := rand') MAX_SYN_RETRIES w.s.congTimeout v trivial
  have hst := synLoop_synSent (E := E) MAX_SYN_RETRIES w.s.congTimeout v (.inr (by decide))
  unfold M.andThen
  rcases e : synLoop E MAX_SYN_RETRIES w.s.congTimeout v with ⟨r, u⟩
  rcases e' : synLoop (E.reid ρ rand') MAX_SYN_RETRIES w.s.congTimeout (v.reid ρ) with ⟨r', u'⟩
  rw [e, e'] at h1 h2
  rw [e] at hst
  cases h2
  cases h1 with
  | err | panic | pending => exact ⟨rfl, by simp⟩
  | @ok b b' hb =>
    cases hb
    obtain ⟨h3, h4, h5⟩ := ids_afterSyn (E := E) (rand' := rand') hρ fuel b u (by rw [Begun, hst b rfl]; simp)
    exact ⟨Prod.ext (sameRes_eq h3) h4, fun _ => h5⟩

end Utp
