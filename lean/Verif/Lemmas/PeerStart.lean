import Verif.Spec.PeerStart
import Verif.Lemmas.OtherStart
/-!
# Two runs that differ only in where the sequence numbers of the peer begin
-/

namespace Utp
open M Packet

variable {E : Env} {d : U16} {α β : Type} {i : Nat}

/-! ### Packets -/

section
variable (p : Packet)

theorem laterSeq_ackNr : (p.laterSeq d).ackNr = p.ackNr := renum_be16 _ (by omega)
theorem laterSeq_wndSize : (p.laterSeq d).wndSize = p.wndSize := renum_be32 _ (by omega)
theorem laterSeq_connectionId : (p.laterSeq d).connectionId = p.connectionId := renum_be16 _ (by omega)
theorem laterSeq_getType : (p.laterSeq d).getType = p.getType := by
  simp only [Packet.getType, Packet.renum, renum_byte _ (show 0 < 16 ∨ 16 + 2 ≤ 0 by omega)]
theorem laterAck_len : (p.laterAck d).len = p.len := by simp [Packet.len, Packet.renum]

theorem laterSeq_payloadLoop (b : Bytes) : ∀ fuel j ext, 20 ≤ j → payloadLoop (renum 16 d b) fuel j ext = payloadLoop b fuel j ext
  | 0, _, _, _ => rfl
  | fuel + 1, j, ext, h => by
    unfold payloadLoop
    rw [renum_length, renum_get _ (by omega), renum_get _ (by omega)]
    split
    · split
      · exact laterSeq_payloadLoop b fuel _ _ (by omega)
      · rfl
    · rfl

theorem laterSeq_payload : (p.laterSeq d).payload = p.payload := by
  unfold Packet.payload Packet.laterSeq Packet.renum
  simp only
  rw [renum_get _ (by omega), renum_length]
  cases p.bytes[1]? with
  | none => rfl
  | some e =>
    simp only
    rw [laterSeq_payloadLoop _ _ _ _ (by simp [HEADER_SIZE])]
    cases h : payloadLoop p.bytes (p.bytes.length + 1) HEADER_SIZE (.ofU8 e) with
    | none => rfl
    | some k =>
      have := payloadLoop_ge _ _ _ _ _ h
      simp only [HEADER_SIZE] at this
      simp only
      rw [renum_drop _ (by omega)]

theorem laterSeq_extensionsLoop (b : Bytes) : ∀ fuel j ext, 20 ≤ j → extensionsLoop (renum 16 d b) fuel j ext = extensionsLoop b fuel j ext
  | 0, _, _, _ => rfl
  | fuel + 1, j, ext, h => by
    unfold extensionsLoop
    rw [renum_length, renum_get _ (by omega), renum_get _ (by omega), renum_drop _ (by omega)]
    split
    · rfl
    · split
      · split
        · rw [laterSeq_extensionsLoop b fuel _ _ (by omega)]
        · rfl
      · rfl

theorem laterSeq_extensions : (p.laterSeq d).extensions = p.extensions := by
  unfold Packet.extensions Packet.laterSeq Packet.renum
  simp only
  rw [renum_get _ (by omega), renum_length]
  cases p.bytes[1]? with
  | none => rfl
  | some e => exact laterSeq_extensionsLoop _ _ _ _ (by simp [HEADER_SIZE])

theorem laterSeq_checkLoop (b : Bytes) : ∀ fuel j ext, 20 ≤ j → checkLoop (renum 16 d b) fuel j ext = checkLoop b fuel j ext
  | 0, _, _, _ => rfl
  | fuel + 1, j, ext, h => by
    unfold checkLoop
    rw [renum_length, renum_get _ (by omega), renum_get _ (by omega)]
    split
    · split
      · rfl
      · split
        · split
          · rfl
          · exact laterSeq_checkLoop b fuel _ _ (by omega)
        · rfl
    · rfl

/-- The same result of decoding. -/
def platerParsed (d : U16) : Except ParseError Packet → Except ParseError Packet
  | .ok p => .ok (p.laterSeq d)
  | .error e => .error e

theorem plater_tryFrom (b : Bytes) : Packet.tryFrom (renum 16 d b) = (Packet.tryFrom b).map (platerParsed d) := by
  have h1 : checkExtensions (renum 16 d b) = checkExtensions b := by
    unfold checkExtensions
    rw [renum_length, renum_get _ (by omega)]
    split
    · rfl
    · cases b[1]? with
      | none => rfl
      | some e => simp only [laterSeq_checkLoop b _ HEADER_SIZE _ (by simp [HEADER_SIZE])]
  have h2 : headerTryFrom (renum 16 d b) = headerTryFrom b := by
    unfold headerTryFrom
    rw [renum_length, renum_byte _ (by omega)]
  unfold Packet.tryFrom
  rw [h1, h2]
  rcases checkExtensions b with _ | c
  · rfl
  · simp only
    rcases headerTryFrom b with e | _
    · rfl
    · rcases c with e | _
      · rfl
      · rfl

theorem laterAck_setTimestamp (v : U32) : (p.setTimestamp v).laterAck d = (p.laterAck d).setTimestamp v := congrArg Packet.mk (renum_put32 _ (by omega) _)
theorem laterAck_setTimestampDifference (v : Int) : (p.setTimestampDifference v).laterAck d = (p.laterAck d).setTimestampDifference v := congrArg Packet.mk (renum_put32 _ (by omega) _)
theorem laterAck_setWndSize (v : U32) : (p.setWndSize v).laterAck d = (p.laterAck d).setWndSize v := congrArg Packet.mk (renum_put32 _ (by omega) _)
theorem laterAck_setConnectionId (v : U16) : (p.setConnectionId v).laterAck d = (p.laterAck d).setConnectionId v := congrArg Packet.mk (renum_put16 _ (by omega) _)
theorem laterAck_setType (t : PacketType) : (p.setType t).laterAck d = (p.laterAck d).setType t := by
  simp only [Packet.laterAck, Packet.renum, Packet.setType, renum_set _ (show 0 < 18 ∨ 18 + 2 ≤ 0 by omega), renum_byte _ (show 0 < 18 ∨ 18 + 2 ≤ 0 by omega)]

theorem laterAck_setAckNr (v : U16) (h : 20 ≤ p.bytes.length) : (p.setAckNr v).laterAck d = p.setAckNr (v + d) := by
  simp only [Packet.laterAck, Packet.renum, Packet.setAckNr, renum_eq]
  rw [be16_put16 _ (by omega), put16_twice]

theorem laterAck_setSack (h1 : p.bytes[1]? = some 0) (h20 : p.bytes.length = 20) (bv : Bytes) : (p.laterAck d).setSack bv = (p.setSack bv).map (Packet.laterAck d) := by
  unfold Packet.setSack
  have h1' : (p.laterAck d).bytes[1]? = some 0 := by rw [Packet.laterAck, Packet.renum, renum_get _ (by omega), h1]
  have h20' : (p.laterAck d).bytes.length = 20 := by rw [Packet.laterAck, Packet.renum, renum_length, h20]
  have hx : ExtensionType.ofU8 0 = .none := rfl
  split
  · rfl
  · split
    · rfl
    · rw [h1, h1']
      simp only [hx, if_true]
      rw [if_pos (by rw [List.length_set, h20']; exact Nat.le_refl _), if_pos (by rw [List.length_set, h20]; exact Nat.le_refl _)]
      have e : ∀ l : Bytes, l.length = 20 → l.take HEADER_SIZE = l ∧ l.drop HEADER_SIZE = [] := fun l hl =>
        ⟨List.take_of_length_le (by rw [hl]; exact Nat.le_refl _), List.drop_of_length_le (by rw [hl]; exact Nat.le_refl _)⟩
      obtain ⟨e1, e2⟩ := e (p.bytes.set 1 ExtensionType.selectiveAck.toU8) (by simp [h20])
      obtain ⟨e3, e4⟩ := e ((p.laterAck d).bytes.set 1 ExtensionType.selectiveAck.toU8) (by simp [h20'])
      rw [e1, e2, e3, e4]
      simp only [List.append_nil, List.append_assoc, Option.map_some, Packet.laterAck, Packet.renum]
      rw [renum_append _ _ (by simp [h20]), renum_set _ (by omega)]

end

/-! ### Numbers -/

theorem low_lt {a b : U16} (ha : Low d a) (hb : Low d b) : a + d < b + d ↔ a < b := by
  unfold Low at ha hb
  rw [BitVec.lt_def, BitVec.lt_def, BitVec.toNat_add, BitVec.toNat_add, Nat.mod_eq_of_lt (by omega), Nat.mod_eq_of_lt (by omega)]
  omega

theorem low_lt_next {a b : U16} (ha : Low d a) (hb : Low d b) : a + d + 1 < b + d ↔ a + 1 < b := by
  unfold Low at ha hb
  have h1 : (1 : U16).toNat = 1 := rfl
  rw [BitVec.lt_def, BitVec.lt_def, BitVec.toNat_add, BitVec.toNat_add, BitVec.toNat_add, BitVec.toNat_add, h1, Nat.mod_eq_of_lt (show a.toNat + d.toNat < 2 ^ 16 by omega),
    Nat.mod_eq_of_lt (show b.toNat + d.toNat < 2 ^ 16 by omega), Nat.mod_eq_of_lt (by omega), Nat.mod_eq_of_lt (by omega)]
  omega

theorem low_ne {a : U16} (ha : Low d a) : a ≠ 65535 ∧ a + d ≠ 65535 := by
  unfold Low at ha
  have h1 : (65535 : U16).toNat = 65535 := rfl
  constructor
  · intro h
    rw [h, h1] at ha
    omega
  · intro h
    have := congrArg BitVec.toNat h
    rw [BitVec.toNat_add, h1, Nat.mod_eq_of_lt (by omega)] at this
    omega

theorem add_sub_add (a b : U16) : a + d - (b + d) = a - b := by bv_omega

/-! ### Packets made by the socket -/

theorem plater_finPacket (s : Socket) (t : U32) : (finPacket s t).laterAck d = finPacket (s.peerLater d) t := by
  unfold finPacket
  rw [laterAck_setType, laterAck_setTimestamp, laterAck_setAckNr _ _ (by simp [Packet.setConnectionId, Packet.setSeqNr, put16, Packet.new, defaultHeader])]
  rfl

theorem plater_resendRequest (s : Socket) (t : U32) : (resendRequest s t).laterAck d = resendRequest (s.peerLater d) t := by
  unfold resendRequest
  rw [laterAck_setAckNr _ _ (by simp [Packet.setConnectionId, Packet.setSeqNr, Packet.setTimestampDifference, Packet.setTimestamp, Packet.setType, put16, put32, Packet.new, defaultHeader])]
  rfl

theorem plater_prepareReply (s : Socket) (t : U32) (pkt : Packet) (ty : PacketType) : (s.prepareReply t pkt ty).laterAck d = (s.peerLater d).prepareReply t (pkt.laterSeq d) ty := by
  unfold Socket.prepareReply
  rw [laterAck_setAckNr _ _ (by simp [Packet.setConnectionId, Packet.setSeqNr, Packet.setTimestampDifference, Packet.setTimestamp, Packet.setType, put16, put32, Packet.new, defaultHeader]), laterSeq_timestamp]
  rfl

/-! ### Sockets -/

/-- The packet has a whole header, and its number is low. -/
def LowPkt (d : U16) (p : Packet) : Prop := 20 ≤ p.bytes.length ∧ Low d p.seqNr

theorem plater_advanceIncoming (s : Socket) (h : ∀ p ∈ s.incoming, LowPkt d p) : (s.peerLater d).advanceIncoming = s.advanceIncoming.peerLater d := by
  unfold Socket.advanceIncoming
  cases e : s.incoming with
  | nil => simp [Socket.peerLater, e]
  | cons p l => simp [Socket.peerLater, e, laterSeq_seqNr p (h p (by simp [e])).1]

theorem plater_takePending (s : Socket) (h : ∀ p ∈ s.incoming, LowPkt d p) (len : Nat) : (s.peerLater d).takePending len = ((s.takePending len).1, (s.takePending len).2.peerLater d) := by
  unfold Socket.takePending
  simp only [show (s.peerLater d).pending = s.pending from rfl]
  split
  · exact congrArg (Prod.mk _) (plater_advanceIncoming { s with pending := [] } h)
  · rfl

theorem plater_takeHead (s : Socket) (h : ∀ p ∈ s.incoming, LowPkt d p) (pl : Bytes) (len : Nat) : (s.peerLater d).takeHead pl len = (s.takeHead pl len).peerLater d := by
  unfold Socket.takeHead
  split
  · exact plater_advanceIncoming s h
  · rfl

theorem plater_afterLast (l : List Packet) (p : Packet) (h : ∀ p ∈ l, LowPkt d p) (hp : LowPkt d p) : Socket.afterLast (l.map (Packet.laterSeq d)) (p.laterSeq d) = Socket.afterLast l p := by
  unfold Socket.afterLast
  rw [List.getLast?_map]
  cases e : l.getLast? with
  | none => rfl
  | some q =>
    have hq := h q (List.mem_of_getLast? e)
    simp only [Option.map_some, laterSeq_seqNr q hq.1, laterSeq_seqNr p hp.1, low_lt hq.2 hp.2]

theorem plater_filter (g g' : Packet → Bool) : ∀ l : List Packet, (∀ p ∈ l, g' (p.laterSeq d) = g p) → (l.map (Packet.laterSeq d)).filter g' = (l.filter g).map (Packet.laterSeq d)
  | [], _ => rfl
  | p :: l, h => by
    simp only [List.map_cons, List.filter_cons, h p (by simp), plater_filter g g' l fun q m => h q (by simp [m])]
    split <;> rfl

theorem plater_insertIdx (p : Packet) : ∀ (l : List Packet) (j : Nat), (l.map (Packet.laterSeq d)).insertIdx j (p.laterSeq d) = (l.insertIdx j p).map (Packet.laterSeq d)
  | _, 0 => rfl
  | [], _ + 1 => rfl
  | q :: l, j + 1 => by simp only [List.map_cons, List.insertIdx_succ_cons, plater_insertIdx p l j]

theorem plater_insertPkt (l : List Packet) (p : Packet) (h : ∀ p ∈ l, LowPkt d p) (hp : LowPkt d p) : Socket.insertPkt (l.map (Packet.laterSeq d)) (p.laterSeq d) = (Socket.insertPkt l p).map (Packet.laterSeq d) := by
  unfold Socket.insertPkt
  rw [plater_afterLast l p h hp]
  have e : ((l.map (Packet.laterSeq d)).filter fun q => q.seqNr < (p.laterSeq d).seqNr).length = (l.filter fun q => q.seqNr < p.seqNr).length := by
    rw [laterSeq_seqNr p hp.1, plater_filter (fun q => decide (q.seqNr < p.seqNr)) (fun q => decide (q.seqNr < p.seqNr + d)) l (fun q m => by
      simp only [laterSeq_seqNr q (h q m).1, low_lt (h q m).2 hp.2]), List.length_map]
  simp only [e]
  split
  · simp
  · rw [List.getElem?_map]
    cases e2 : l[(l.filter fun q => q.seqNr < p.seqNr).length]? with
    | none => exact plater_insertIdx _ _ _
    | some q =>
      have hq := h q (List.mem_of_getElem? e2)
      simp only [Option.map_some, laterSeq_seqNr q hq.1, laterSeq_seqNr p hp.1]
      by_cases hne : q.seqNr = p.seqNr
      · rw [if_neg (by rw [hne]; simp), if_neg (by rw [hne]; simp)]
      · rw [if_pos (by intro hh; exact hne (by simpa using hh)), if_pos hne]
        exact plater_insertIdx _ _ _

theorem plater_buildSack (s : Socket) (ha : Low d s.ackNr) (h : ∀ p ∈ s.incoming, LowPkt d p) : (s.peerLater d).buildSack (E.peerLater d) = s.buildSack E := by
  unfold Socket.buildSack
  have e2 : (((s.peerLater d).incoming.filter fun p => (s.peerLater d).ackNr + 1 < p.seqNr).map fun p => (p.seqNr - (s.peerLater d).ackNr - 2).toNat) =
      ((s.incoming.filter fun p => s.ackNr + 1 < p.seqNr).map fun p => (p.seqNr - s.ackNr - 2).toNat) := by
    rw [show (s.peerLater d).incoming = s.incoming.map (Packet.laterSeq d) from rfl, show (s.peerLater d).ackNr = s.ackNr + d from rfl,
      plater_filter (fun q => decide (s.ackNr + 1 < q.seqNr)) (fun q => decide (s.ackNr + d + 1 < q.seqNr)) s.incoming (fun q m => by
        simp only [laterSeq_seqNr q (h q m).1, low_lt_next ha (h q m).2]), List.map_map]
    apply List.map_congr_left
    intro q m
    simp only [Function.comp, laterSeq_seqNr q (h q (List.mem_of_mem_filter m)).1, add_sub_add]
  rw [e2, if_neg (fun hh => (low_ne ha).2 hh.2.2), if_neg (fun hh => (low_ne ha).1 hh.2.2)]

theorem plater_subLens : ∀ (l : List Packet) (c : U32), Socket.subLens (E.peerLater d) c (l.map (Packet.laterAck d)) = Socket.subLens E c l
  | [], _ => rfl
  | p :: l, c => by
    simp only [List.map_cons, Socket.subLens, laterAck_len, plater_subLens l]
    rfl

theorem plater_findIdx (f : U16 → Bool) : ∀ l : List Packet, ((l.map (Packet.laterAck d)).findIdx? fun p => f p.seqNr) = l.findIdx? fun p => f p.seqNr
  | [] => rfl
  | p :: l => by simp only [List.map_cons, List.findIdx?_cons, laterAck_seqNr, plater_findIdx f l]

theorem plater_find (f : U16 → Bool) : ∀ l : List Packet, ((l.map (Packet.laterAck d)).find? fun p => f p.seqNr) = (l.find? fun p => f p.seqNr).map (Packet.laterAck d)
  | [] => rfl
  | p :: l => by
    simp only [List.map_cons, List.find?_cons, laterAck_seqNr, plater_find f l]
    split <;> rfl

theorem plater_advanceSendWindow (s : Socket) : (s.peerLater d).advanceSendWindow (E.peerLater d) = (s.advanceSendWindow E).map (Socket.peerLater d) := by
  unfold Socket.advanceSendWindow
  simp only [show (s.peerLater d).sendWindow = s.sendWindow.map (Packet.laterAck d) from rfl, show (s.peerLater d).lastAcked = s.lastAcked from rfl, show (s.peerLater d).currWindow = s.currWindow from rfl]
  rw [plater_findIdx (fun x => x == s.lastAcked)]
  split
  · rfl
  · rw [← List.map_take, plater_subLens]
    split
    · rfl
    · simp only [Option.map_some, ← List.map_drop]
      rfl

theorem plater_updateBaseDelay (s : Socket) (x : Int) (t : U32) : (s.peerLater d).updateBaseDelay x t = (s.updateBaseDelay x t).map (Socket.peerLater d) := by
  unfold Socket.updateBaseDelay
  simp only [show (s.peerLater d).baseDelays = s.baseDelays from rfl, show (s.peerLater d).lastRollover = s.lastRollover from rfl]
  by_cases h : s.baseDelays.isEmpty ∨ tsSub t s.lastRollover > MAX_BASE_DELAY_AGE
  · rw [if_pos h, if_pos h]; rfl
  · rw [if_neg h, if_neg h]
    cases s.baseDelays.getLast? with
    | none => rfl
    | some l =>
      simp only
      by_cases h : x < l
      · rw [if_pos h, if_pos h]; rfl
      · rw [if_neg h, if_neg h]; rfl

theorem plater_updateCongestionWindow (s : Socket) (n : U32) :
    (s.peerLater d).updateCongestionWindow (E.peerLater d) n = (s.updateCongestionWindow E n).map (Socket.peerLater d) := by
  unfold Socket.updateCongestionWindow
  by_cases h : E.checks ∧ s.currWindow.toNat + 1400 ≥ 2 ^ 32
  · rw [if_pos h, if_pos (show (E.peerLater d).checks ∧ (s.peerLater d).currWindow.toNat + 1400 ≥ 2 ^ 32 from h)]; rfl
  · rw [if_neg h, if_neg (show ¬ ((E.peerLater d).checks ∧ (s.peerLater d).currWindow.toNat + 1400 ≥ 2 ^ 32) from h)]; rfl

theorem plater_onNewAck (s : Socket) (idx : Nat) (p : Packet) (t : U32) :
    (s.peerLater d).onNewAck (E.peerLater d) idx (p.laterAck d) t = (s.onNewAck E idx p t).map (Socket.peerLater d) := by
  unfold Socket.onNewAck
  simp only
  rw [plater_updateBaseDelay, laterAck_timestamp]
  have e2 : (((s.peerLater d).sendWindow.take (idx + 1)).map Packet.len).sum = ((s.sendWindow.take (idx + 1)).map Packet.len).sum := by
    rw [show (s.peerLater d).sendWindow = s.sendWindow.map (Packet.laterAck d) from rfl, ← List.map_take, List.map_map]
    congr 2
    funext q
    simp only [Function.comp, laterAck_len]
  rw [e2]
  rcases s.updateBaseDelay (tsSub t p.timestamp) t with _ | s1
  · rfl
  · simp only [Option.map_some]
    have e3 : (s1.peerLater d).updateCurrentDelay (tsSub t p.timestamp) t = (s1.updateCurrentDelay (tsSub t p.timestamp) t).peerLater d := rfl
    rw [e3, plater_updateCongestionWindow]
    rcases (s1.updateCurrentDelay (tsSub t p.timestamp) t).updateCongestionWindow E _ with _ | s2
    · rfl
    · rfl

theorem plater_enqueue (s : Socket) (c : Bytes) : enqueue (s.peerLater d) c = (enqueue s c).peerLater d := by
  have e : ((((Packet.withPayload c).setSeqNr s.seqNr).setAckNr s.ackNr).setConnectionId s.senderId).laterAck d =
      (((Packet.withPayload c).setSeqNr s.seqNr).setAckNr (s.ackNr + d)).setConnectionId s.senderId := by
    rw [laterAck_setConnectionId, laterAck_setAckNr]
    simp [Packet.setSeqNr, put16, Packet.withPayload, Packet.setType, defaultHeader]
  simp only [enqueue, Socket.peerLater, List.map_append, List.map_cons, List.map_nil, e]

theorem plater_enqueues (cs : List Bytes) : ∀ s : Socket, cs.foldl enqueue (s.peerLater d) = (cs.foldl enqueue s).peerLater d := by
  induction cs with
  | nil => intro s; rfl
  | cons c cs ih => intro s; simp only [List.foldl_cons, plater_enqueue, ih]

/-! ### Computations -/

/-- `m` and `m'` have related results and keep the worlds the same but for the sequence numbers of the peer, from worlds whose socket
satisfies `P`, which they keep. -/
def Psh (d : U16) (P : Socket → Prop) (R : α → α → Prop) (m m' : M α) : Prop :=
  ∀ w, P w.s → SameRes R (m w).1 (m' (w.peerLater d)).1 ∧ (m' (w.peerLater d)).2 = (m w).2.peerLater d ∧ P (m w).2.s

namespace Psh

variable {P : Socket → Prop}

theorem ret {R : α → α → Prop} {a a' : α} (h : R a a') : Psh d P R (M.ret a) (M.ret a') := fun _ hw => ⟨.ok h, rfl, hw⟩
theorem pure {R : α → α → Prop} {a a' : α} (h : R a a') : Psh d P R (Pure.pure a) (Pure.pure a') := ret h
theorem throw {R : α → α → Prop} (e : IoErr) : Psh d P R (M.throw e) (M.throw e) := fun _ hw => ⟨.err e, rfl, hw⟩
theorem never {R : α → α → Prop} : Psh d P R M.never M.never := fun _ hw => ⟨.pending, rfl, hw⟩

theorem andThen {R : α → α → Prop} {Q : β → β → Prop} {m m' : M α} {f f' : α → M β} (h : Psh d P R m m')
    (hf : ∀ a a', R a a' → Psh d P Q (f a) (f' a')) : Psh d P Q (M.andThen m f) (M.andThen m' f') := by
  intro w hw
  obtain ⟨h1, h2, h3⟩ := h w hw
  unfold M.andThen
  rcases e : m w with ⟨r, v⟩
  rcases e' : m' (w.peerLater d) with ⟨r', v'⟩
  rw [e, e'] at h1 h2
  rw [e] at h3
  cases h2
  cases h1 with
  | ok ha => exact hf _ _ ha v h3
  | err x => exact ⟨.err x, rfl, h3⟩
  | panic => exact ⟨.panic, rfl, h3⟩
  | pending => exact ⟨.pending, rfl, h3⟩

theorem seq {R : α → α → Prop} {Q : β → β → Prop} {m m' : M α} {f f' : α → M β} (h : Psh d P R m m')
    (hf : ∀ a a', R a a' → Psh d P Q (f a) (f' a')) : Psh d P Q (m >>= f) (m' >>= f') := andThen h hf

theorem seqE {Q : β → β → Prop} {m m' : M α} {f f' : α → M β} (h : Psh d P Eq m m') (hf : ∀ a, Psh d P Q (f a) (f' a)) : Psh d P Q (m >>= f) (m' >>= f') :=
  andThen h fun a _ e => e ▸ hf a

theorem get {Q : β → β → Prop} {f f' : Socket → M β} (hf : ∀ s, P s → Psh d P Q (f s) (f' (s.peerLater d))) : Psh d P Q (getS >>= f) (getS >>= f') :=
  fun w hw => hf w.s hw w hw

theorem modS {f f' : Socket → Socket} (hf : ∀ s, P s → f' (s.peerLater d) = (f s).peerLater d ∧ P (f s)) : Psh d P Eq (M.modS f) (M.modS f') := by
  intro w hw
  obtain ⟨h1, h2⟩ := hf w.s hw
  refine ⟨.ok rfl, ?_, h2⟩
  show ({ (w.peerLater d) with s := f' (w.s.peerLater d) } : World) = _
  rw [h1]
  rfl

theorem orPanic (o : Option α) : Psh d P Eq (M.orPanic o) (M.orPanic o) := by
  cases o with
  | none => exact fun _ hw => ⟨.panic, rfl, hw⟩
  | some a => exact ret rfl

theorem orPanicR {R : α → α → Prop} (f : α → α) (o : Option α) (h : ∀ a, o = some a → R a (f a)) : Psh d P R (M.orPanic o) (M.orPanic (o.map f)) := by
  cases o with
  | none => exact fun _ hw => ⟨.panic, rfl, hw⟩
  | some a => exact ret (h a rfl)

theorem overflowIf (b : Bool) : Psh d P Eq (M.overflowIf E b) (M.overflowIf (E.peerLater d) b) := by
  unfold M.overflowIf
  rw [show (E.peerLater d).checks = E.checks from rfl]
  split
  · exact fun _ hw => ⟨.panic, rfl, hw⟩
  · exact ret rfl

theorem now : Psh d P Eq (M.now E) (M.now (E.peerLater d)) := fun _ h => ⟨.ok rfl, rfl, h⟩

theorem ignoreErr {R : α → α → Prop} {m m' : M α} (h : Psh d P R m m') : Psh d P Eq (M.ignoreErr m) (M.ignoreErr m') := by
  intro w hw
  obtain ⟨h1, h2, h3⟩ := h w hw
  unfold M.ignoreErr
  rcases e : m w with ⟨r, v⟩
  rcases e' : m' (w.peerLater d) with ⟨r', v'⟩
  rw [e, e'] at h1 h2
  rw [e] at h3
  cases h2
  cases h1 with
  | ok ha => exact ⟨.ok rfl, rfl, h3⟩
  | err e => exact ⟨.ok rfl, rfl, h3⟩
  | panic => exact ⟨.panic, rfl, h3⟩
  | pending => exact ⟨.pending, rfl, h3⟩

theorem udpSend (a : Addr) {p p' : Packet} (hp : p' = p.laterAck d) : Psh d P Eq (M.udpSend E a p.bytes) (M.udpSend (E.peerLater d) a p'.bytes) := by
  intro w h
  subst hp
  unfold M.udpSend
  simp only
  rw [show (E.peerLater d).snd (w.peerLater d).nSnd = E.snd w.nSnd from rfl]
  have e : ∀ ok, ({ (w.peerLater d) with nSnd := (w.peerLater d).nSnd + 1, log := (w.peerLater d).log ++ [.send a (p.laterAck d).bytes ok] } : World) =
      World.peerLater d { w with nSnd := w.nSnd + 1, log := w.log ++ [.send a p.bytes ok] } := by
    intro ok
    simp only [World.peerLater, List.map_append, List.map_cons, List.map_nil, Act.peerLater, Packet.laterAck, Packet.renum]
  rcases E.snd w.nSnd with _ | k | _
  · exact ⟨.ok rfl, e _, h⟩
  · exact ⟨.err _, e _, h⟩
  · exact ⟨.pending, e _, h⟩

/-- The same received datagram with another sequence number; it satisfies `Q`. -/
def Got (d : U16) (Q : Bytes → Prop) : Except ErrorKind (Bytes × Addr) → Except ErrorKind (Bytes × Addr) → Prop
  | .ok x, .ok x' => x' = (renum 16 d x.1, x.2) ∧ Q x.1
  | .error k, .error k' => k' = k
  | _, _ => False

theorem udpRecv (t : Option U64) {len : Nat} (hl : 20 ≤ len) {Q : Bytes → Prop} (hQ : ∀ k b a, E.net k = .dgram b a → Q (b.take len)) :
    Psh d P (Got d Q) (M.udpRecv E t len) (M.udpRecv (E.peerLater d) t len) := by
  intro w h
  unfold M.udpRecv
  simp only
  rw [show (E.peerLater d).net (w.peerLater d).nNet = (E.net w.nNet).peerLater d from rfl]
  have e : ({ (w.peerLater d) with nNet := (w.peerLater d).nNet + 1, log := (w.peerLater d).log ++ [.wait t] } : World) =
      World.peerLater d { w with nNet := w.nNet + 1, log := w.log ++ [.wait t] } := by
    simp only [World.peerLater, List.map_append, List.map_cons, List.map_nil, Act.peerLater]
  rcases hn : E.net w.nNet with ⟨b, a⟩ | k | _
  · refine ⟨.ok ⟨?_, hQ _ _ _ hn⟩, e, h⟩
    show ((renum 16 d b).take len, a) = _
    rw [← renum_take _ (show 16 + 2 ≤ len by omega)]
  · exact ⟨.ok rfl, e, h⟩
  · exact ⟨.pending, e, h⟩

theorem whileM {c c' : M Bool} {b b' : M Unit} (hc : Psh d P Eq c c') (hb : Psh d P Eq b b') : ∀ n, Psh d P Eq (M.whileM n c b) (M.whileM n c' b')
  | 0 => never
  | n + 1 => by
    refine andThen hc ?_
    rintro go _ rfl
    cases go with
    | true => exact andThen hb fun _ _ _ => whileM hc hb n
    | false => exact ret rfl

theorem ite {R : α → α → Prop} {c c' : Prop} [Decidable c] [Decidable c'] {m n m' n' : M α} (hcc : c' ↔ c) (h1 : c → Psh d P R m m') (h2 : ¬ c → Psh d P R n n') :
    Psh d P R (if c then m else n) (if c' then m' else n') := by
  by_cases hc : c
  · rw [if_pos hc, if_pos (hcc.2 hc)]; exact h1 hc
  · rw [if_neg hc, if_neg (mt hcc.1 hc)]; exact h2 hc

end Psh

open Psh


/-- The packet with another acknowledgement number. -/
abbrev PLaterPkt (d : U16) (p p' : Packet) : Prop := p' = p.laterAck d

/-- The reply with another acknowledgement number. -/
abbrev PLaterReply (d : U16) (r r' : Option Packet) : Prop := r' = r.map (Packet.laterAck d)

/-- The socket left its initial state, and the numbers of the peer it holds are low. -/
def BegunLow (d : U16) (s : Socket) : Prop := s.state ≠ .new ∧ Low d s.ackNr ∧ Low d s.lastDropped ∧ ∀ p ∈ s.incoming, LowPkt d p

theorem begunLow_advance {s : Socket} (h : BegunLow d s) : BegunLow d s.advanceIncoming := by
  unfold Socket.advanceIncoming
  cases e : s.incoming with
  | nil => exact h
  | cons p l =>
    have := h.2.2.2
    rw [e] at this
    exact ⟨h.1, (this p (by simp)).2, (this p (by simp)).2, fun q m => this q (by simp [m])⟩

/-! ### The operations -/

theorem plater_fastResendOne : Psh d (BegunLow d) Eq (fastResendOne E) (fastResendOne (E.peerLater d)) :=
  get fun s _ => seqE now fun t => ignoreErr (R := Eq) (udpSend s.connectedTo (plater_resendRequest s t).symm)

theorem plater_flushIncoming (len : Nat) : Psh d (BegunLow d) Eq (flushIncoming E len) (flushIncoming (E.peerLater d) len) := by
  unfold flushIncoming
  refine get fun s hs => ?_
  refine ite Iff.rfl (fun _ => seqE (modS fun s hs => ?_) fun _ => pure ?_) fun _ => ?_
  · rw [plater_takePending _ hs.2.2.2]
    refine ⟨rfl, ?_⟩
    unfold Socket.takePending
    by_cases h : (s.pending.take len).length = s.pending.length
    · simp only [h, if_true]
      exact begunLow_advance (s := { s with pending := [] }) hs
    · simp only [h, if_false]
      exact hs
  · rw [plater_takePending _ hs.2.2.2]
  · simp only [show (s.peerLater d).incoming = s.incoming.map (Packet.laterSeq d) from rfl]
    have hl := hs.2.2.2
    revert hl
    cases s.incoming with
    | nil => exact fun _ => pure rfl
    | cons q rest =>
      intro hl
      have hq := hl q (by simp)
      simp only [List.map_cons, laterSeq_seqNr q hq.1, laterSeq_payload, show (s.peerLater d).ackNr = s.ackNr + d from rfl]
      rw [show decide (s.ackNr + d ≠ q.seqNr + d ∧ s.ackNr + d = 65535) = decide (s.ackNr ≠ q.seqNr ∧ s.ackNr = 65535) from
        decide_eq_decide.2 ⟨fun h => absurd h.2 (low_ne hs.2.1).2, fun h => absurd h.2 (low_ne hs.2.1).1⟩]
      refine seqE (overflowIf _) fun _ => ite ?_ (fun _ => seqE (orPanic _) fun pl => seqE (modS fun s hs => ?_) fun _ => pure rfl) fun _ => pure rfl
      · rw [show s.ackNr + d + 1 = s.ackNr + 1 + d by rw [BitVec.add_assoc, BitVec.add_comm d 1, ← BitVec.add_assoc]]
        simp
      · refine ⟨plater_takeHead s hs.2.2.2 pl len, ?_⟩
        unfold Socket.takeHead
        split
        · exact begunLow_advance hs
        · exact hs

theorem plater_timeout : Psh d (BegunLow d) Eq (handleReceiveTimeout E) (handleReceiveTimeout (E.peerLater d)) := by
  unfold handleReceiveTimeout
  refine get fun s hs => seqE (overflowIf _) fun _ => seqE (modS fun s hs => ⟨rfl, hs⟩) fun _ => ?_
  simp only [show (s.peerLater d).sendWindow = s.sendWindow.map (Packet.laterAck d) from rfl]
  cases s.sendWindow with
  | nil =>
    simp only [List.map_nil]
    refine ite Iff.rfl (fun _ => seqE now fun t => udpSend s.connectedTo (plater_finPacket s t).symm) fun _ => ite Iff.rfl (fun _ => ?_) fun _ => pure rfl
    exact seqE plater_fastResendOne fun _ => seqE plater_fastResendOne fun _ => plater_fastResendOne
  | cons p rest =>
    simp only [List.map_cons]
    refine seqE now fun t => seqE (modS fun s hs => ⟨?_, hs⟩) fun _ => udpSend s.connectedTo (laterAck_setTimestamp p t).symm
    simp only [Socket.peerLater, List.map_cons, laterAck_setTimestamp]

theorem plater_recvWait (hn : E.Low d) : ∀ fuel retries, Psh d (BegunLow d) (fun x x' => x' = (renum 16 d x.1, x.2) ∧ ∀ p, Packet.tryFrom x.1 = some (.ok p) → Low d p.seqNr) (recvWait E fuel retries) (recvWait (E.peerLater d) fuel retries)
  | 0, _ => never
  | fuel + 1, retries => by
    unfold recvWait
    refine get fun s _ => ite Iff.rfl (fun _ => seqE (modS fun s hs => ⟨rfl, by simp, hs.2⟩) fun _ => throw _) fun _ =>
      seq (udpRecv _ (by decide) (Q := fun b => ∀ p, Packet.tryFrom b = some (.ok p) → Low d p.seqNr) fun k b a h p hp => hn k b a h p hp) fun r r' hr => ?_
    rcases r with k | x <;> rcases r' with k' | x' <;> simp only [Got] at hr
    · subst hr
      exact ite Iff.rfl (fun _ => seqE plater_timeout fun _ => plater_recvWait hn fuel _) fun _ => throw _
    · exact pure hr

section
variable {rec rec' : M (Bytes × Addr)}

theorem plater_sendPacket (hrec : Psh d (BegunLow d) Eq rec rec') (fuel : Nat) (p : Packet) : Psh d (BegunLow d) (PLaterPkt d) (sendPacket E fuel rec p) (sendPacket (E.peerLater d) fuel rec' (p.laterAck d)) := by
  unfold sendPacket
  refine get fun s _ => seqE now fun start => seqE (whileM ?_ (andThen hrec fun _ _ _ => ret rfl) _) fun _ => get fun s _ => ?_
  · exact get fun s _ => ite Iff.rfl (fun _ => seqE now fun t => pure rfl) fun _ => pure rfl
  · rw [laterAck_seqNr p]
    refine ite Iff.rfl (fun _ => pure rfl) fun _ => seqE now fun t => ?_
    have e : ((p.laterAck d).setTimestamp t).setTimestampDifference s.theirDelay = ((p.setTimestamp t).setTimestampDifference s.theirDelay).laterAck d := by
      rw [laterAck_setTimestampDifference, laterAck_setTimestamp]
    exact seqE (udpSend s.connectedTo e) fun _ => pure e

theorem plater_resendLost (hrec : Psh d (BegunLow d) Eq rec rec') (fuel : Nat) (nr : U16) : Psh d (BegunLow d) Eq (resendLost E fuel rec nr) (resendLost (E.peerLater d) fuel rec' nr) := by
  unfold resendLost
  refine get fun s _ => ?_
  simp only [show (s.peerLater d).sendWindow = s.sendWindow.map (Packet.laterAck d) from rfl, plater_find fun x => x == nr]
  cases s.sendWindow.find? fun p => p.seqNr == nr with
  | none => exact pure rfl
  | some p => exact ignoreErr (plater_sendPacket hrec _ p)

theorem plater_resendMissing (hrec : Psh d (BegunLow d) Eq rec rec') (fuel : Nat) (ack last : U16) :
    ∀ bits loss, Psh d (BegunLow d) Eq (resendMissing E fuel rec ack last bits loss) (resendMissing (E.peerLater d) fuel rec' ack last bits loss) := by
  intro bits
  induction bits with
  | nil => intro loss; exact pure rfl
  | cons b rest ih =>
    obtain ⟨idx, received⟩ := b
    intro loss
    unfold resendMissing
    exact ite Iff.rfl (fun _ => ih _) fun _ => seqE (overflowIf _) fun _ => ite Iff.rfl (fun _ => seqE (plater_resendLost hrec _ _) fun _ => ih _) fun _ => pure rfl

theorem plater_processExtensions (hrec : Psh d (BegunLow d) Eq rec rec') (fuel : Nat) (ack : U16) :
    ∀ exts loss, Psh d (BegunLow d) Eq (processExtensions E fuel rec ack exts loss) (processExtensions (E.peerLater d) fuel rec' ack exts loss) := by
  intro exts
  induction exts with
  | nil => intro loss; exact pure rfl
  | cons e rest ih =>
    intro loss
    unfold processExtensions
    refine ite Iff.rfl (fun _ => seqE ?_ fun loss1 => get fun s _ => ?_) fun _ => ih _
    · unfold resendFirst
      exact ite Iff.rfl (fun _ => seqE (overflowIf _) fun _ => seqE (plater_resendLost hrec _ _) fun _ => pure rfl) fun _ => pure rfl
    · simp only [show (s.peerLater d).sendWindow = s.sendWindow.map (Packet.laterAck d) from rfl, List.getLast?_map]
      cases s.sendWindow.getLast? with
      | none => exact ih _
      | some l =>
        simp only [Option.map_some, laterAck_seqNr]
        exact seqE (orPanic _) fun bits => seqE (plater_resendMissing hrec _ _ _ _ _) fun loss => ih _

theorem plater_handleState (hrec : Psh d (BegunLow d) Eq rec rec') (fuel : Nat) (pkt : Packet) :
    Psh d (BegunLow d) Eq (handleState E fuel rec pkt) (handleState (E.peerLater d) fuel rec' (pkt.laterSeq d)) := by
  have hwin : ∀ s : Socket, (s.peerLater d).sendWindow ≠ [] ↔ s.sendWindow ≠ [] := fun s => by simp [Socket.peerLater]
  unfold handleState
  refine seqE ?_ fun _ => seqE ?_ fun _ => get fun s _ => ?_
  · unfold countAck
    rw [laterSeq_ackNr]
    exact get fun s _ => ite Iff.rfl (fun _ => seqE (overflowIf _) fun _ => modS fun s hs => ⟨rfl, hs⟩) fun _ => seqE now fun t => modS fun s hs => ⟨rfl, hs⟩
  · unfold measureAck
    rw [laterSeq_ackNr]
    refine get fun s hs => ?_
    simp only [show (s.peerLater d).sendWindow = s.sendWindow.map (Packet.laterAck d) from rfl, plater_findIdx fun x => pkt.ackNr == x, List.getElem?_map]
    cases s.sendWindow.findIdx? fun p => pkt.ackNr == p.seqNr with
    | none => exact pure rfl
    | some index =>
      refine seqE now fun t => seq (orPanicR (R := PLaterPkt d) _ _ fun _ _ => rfl) fun p p' hp => ?_
      cases hp
      rw [plater_onNewAck]
      refine seq (orPanicR (R := fun a a' => a' = a.peerLater d ∧ BegunLow d a) _ _ fun a ha => ⟨rfl, ?_⟩) fun a a' ha => modS fun _ _ => ha
      rw [BegunLow, onNewAck_state ha, onNewAck_ackNr ha, onNewAck_lastDropped ha, onNewAck_incoming ha]
      exact hs
  · rw [laterSeq_extensions, laterSeq_ackNr]
    simp only [hwin]
    refine seqE (orPanic _) fun exts => seqE (plater_processExtensions hrec _ _ _ _) fun loss => seqE ?_ fun _ => seqE (modS fun s hs => ?_) fun _ => get fun s hs => ?_
    · unfold fastRetransmit
      refine get fun s _ => ?_
      simp only [hwin]
      rw [laterSeq_ackNr]
      exact ite Iff.rfl (fun _ => seqE (overflowIf _) fun _ => plater_resendLost hrec _ _) fun _ => pure rfl
    · cases loss
      · exact ⟨rfl, hs⟩
      · exact ⟨rfl, hs⟩
    · rw [plater_advanceSendWindow]
      refine seq (orPanicR (R := fun a a' => a' = a.peerLater d ∧ BegunLow d a) _ _ fun a ha => ⟨rfl, ?_⟩) fun a a' ha => modS fun _ _ => ha
      rw [BegunLow, advanceSendWindow_state ha, advanceSendWindow_ackNr ha, advanceSendWindow_lastDropped ha, advanceSendWindow_incoming ha]
      exact hs

theorem plater_withSack (s : Socket) (hs : BegunLow d s) (pkt : Packet) (hp : LowPkt d pkt) (t : U32) (ty : PacketType) :
    Psh d (BegunLow d) (PLaterPkt d) (withSack E s pkt (s.prepareReply t pkt ty)) (withSack (E.peerLater d) (s.peerLater d) (pkt.laterSeq d) ((s.peerLater d).prepareReply t (pkt.laterSeq d) ty)) := by
  obtain ⟨h1, h2⟩ := prepareReply_bytes s t pkt ty
  rw [← plater_prepareReply]
  generalize s.prepareReply t pkt ty = r at h1 h2
  unfold withSack
  rw [laterSeq_seqNr _ hp.1, plater_buildSack _ hs.2.1 hs.2.2.2, show (s.peerLater d).ackNr = s.ackNr + d from rfl, add_sub_add]
  refine ite Iff.rfl (fun _ => seqE (orPanic (s.buildSack E)) fun sack => ite Iff.rfl (fun _ => ?_) fun _ => pure rfl) fun _ => pure rfl
  rw [laterAck_setSack r h2 h1]
  exact orPanicR _ _ fun _ _ => rfl

theorem plater_replyWith (pkt : Packet) (ty : PacketType) : Psh d (BegunLow d) (PLaterReply d) (replyWith E pkt ty) (replyWith (E.peerLater d) (pkt.laterSeq d) ty) :=
  get fun s _ => seqE now fun t => pure (congrArg some (plater_prepareReply s t pkt ty).symm)

theorem plater_handleData (pkt : Packet) (hp : LowPkt d pkt) : Psh d (BegunLow d) (PLaterPkt d) (handleData E pkt) (handleData (E.peerLater d) (pkt.laterSeq d)) :=
  get fun s hs => seqE now fun t => plater_withSack s hs pkt hp t _

theorem plater_onFin (pkt : Packet) (hp : LowPkt d pkt) : Psh d (BegunLow d) (PLaterReply d) (onFin E pkt) (onFin (E.peerLater d) (pkt.laterSeq d)) :=
  get fun s hs => seqE now fun t => seq (plater_withSack s hs pkt hp t _) fun r r' hr => seqE (modS fun s hs => ⟨rfl, by simp, hs.2⟩) fun _ => pure (by rw [hr]; rfl)

theorem plater_dispatch (hrec : Psh d (BegunLow d) Eq rec rec') (fuel : Nat) (pkt : Packet) (hp : LowPkt d pkt) (src : Addr) (st : SocketState) (hst : st ≠ .new) (ty : PacketType) :
    Psh d (BegunLow d) (PLaterReply d) (dispatch E fuel rec pkt src st ty) (dispatch (E.peerLater d) fuel rec' (pkt.laterSeq d) src st ty) := by
  unfold dispatch
  split
  · exact absurd rfl hst
  · exact plater_replyWith _ _
  · unfold onSynAck
    rw [laterSeq_seqNr _ hp.1, laterSeq_ackNr]
    exact get fun s _ => seqE (overflowIf _) fun _ => seqE now fun t => seqE (modS fun s hs => ⟨rfl, by simp, hp.2, hs.2.2⟩) fun _ => pure rfl
  · exact throw _
  · exact seq (plater_handleData pkt hp) fun _ _ hr => pure (by rw [hr]; rfl)
  · exact seq (plater_handleData pkt hp) fun _ _ hr => pure (by rw [hr]; rfl)
  · exact seqE (plater_handleState hrec _ _) fun _ => pure rfl
  · exact plater_onFin pkt hp
  · exact plater_onFin pkt hp
  · exact plater_replyWith _ _
  · unfold onFinAck
    rw [laterSeq_ackNr]
    refine seqE (modS fun s hs => ?_) fun _ => pure rfl
    by_cases h : pkt.ackNr = s.seqNr
    · rw [if_pos h, if_pos (show pkt.ackNr = (s.peerLater d).seqNr from h)]; exact ⟨rfl, by simp, hs.2⟩
    · rw [if_neg h, if_neg (show ¬ pkt.ackNr = (s.peerLater d).seqNr from h)]; exact ⟨rfl, hs⟩
  · unfold onReset
    exact seqE (modS fun s hs => ⟨rfl, by simp, hs.2⟩) fun _ => throw _
  · exact throw _

theorem bumpAck_peerLater (s : Socket) (pkt : Packet) (hp : LowPkt d pkt) : (s.peerLater d).bumpAck (pkt.laterSeq d) = (s.bumpAck pkt).peerLater d := by
  unfold Socket.bumpAck
  rw [laterSeq_seqNr _ hp.1, show (s.peerLater d).ackNr = s.ackNr + d from rfl, add_sub_add]
  split <;> rfl

theorem plater_handlePacket (hrec : Psh d (BegunLow d) Eq rec rec') (fuel : Nat) (pkt : Packet) (hp : LowPkt d pkt) (src : Addr) :
    Psh d (BegunLow d) (PLaterReply d) (handlePacket E fuel rec pkt src) (handlePacket (E.peerLater d) fuel rec' (pkt.laterSeq d) src) := by
  unfold handlePacket
  refine seqE (modS fun s hs => ⟨bumpAck_peerLater s pkt hp, ?_⟩) fun _ => get fun s hs => ?_
  · unfold Socket.bumpAck
    split
    · exact ⟨hs.1, hp.2, hs.2.2⟩
    · exact hs
  · rw [laterSeq_getType, laterSeq_connectionId]
    refine seqE (orPanic _) fun ty => ite Iff.rfl (fun _ => plater_replyWith _ _) fun _ => seqE now fun t => seqE (modS fun s hs => ?_) fun _ => plater_dispatch hrec _ _ hp _ _ hs.1 _
    rw [laterSeq_wndSize, laterSeq_timestamp]
    exact ⟨rfl, hs⟩

end

theorem plater_recv (hn : E.Low d) : ∀ fuel len, Psh d (BegunLow d) Eq (recv E fuel len) (recv (E.peerLater d) fuel len)
  | 0, _ => never
  | fuel + 1, len => by
    have ih : Psh d (BegunLow d) Eq (recv E fuel BUF_SIZE) (recv (E.peerLater d) fuel BUF_SIZE) := plater_recv hn fuel BUF_SIZE
    unfold recv recvBody
    refine seq (plater_recvWait hn _ _) fun x x' hx => ?_
    obtain ⟨b, src⟩ := x
    obtain ⟨rfl, hx⟩ := hx
    show Psh d (BegunLow d) Eq (M.orPanic (Packet.tryFrom b) >>= _) (M.orPanic (Packet.tryFrom (renum 16 d b)) >>= _)
    rw [plater_tryFrom]
    refine seq (orPanicR (R := fun r r' => r' = platerParsed d r ∧ ∀ p, r = .ok p → LowPkt d p) _ _ fun r hr => ⟨rfl, fun p hp => ?_⟩) fun r r' hr => ?_
    · subst hp
      exact ⟨tryFrom_header hr, hx p hr⟩
    obtain ⟨rfl, hl⟩ := hr
    rcases r with e | p
    · exact get fun s _ => pure rfl
    · show Psh d (BegunLow d) Eq (recvPacket E fuel (recv E fuel BUF_SIZE) len p src) (recvPacket (E.peerLater d) fuel (recv (E.peerLater d) fuel BUF_SIZE) len (p.laterSeq d) src)
      unfold recvPacket
      refine seq (plater_handlePacket ih _ _ (hl p rfl) _) fun r r' hr => seqE ?_ fun _ => ?_
      · cases hr
        cases r with
        | none => exact pure rfl
        | some r => exact udpSend _ (laterAck_setWndSize r _).symm
      · rw [laterSeq_getType, laterSeq_seqNr _ (hl p rfl).1]
        refine seqE (orPanic _) fun ty => seqE (modS fun s hs => ?_) fun _ => seqE (plater_flushIncoming _) fun out => pure rfl
        rw [show (s.peerLater d).lastDropped = s.lastDropped + d from rfl, add_sub_add]
        by_cases h : ty = .data ∧ 0 < (p.seqNr - s.lastDropped).toNat
        · rw [if_pos h, if_pos h]
          refine ⟨?_, hs.1, hs.2.1, hs.2.2.1, fun q m => ?_⟩
          · simp only [Socket.insertIntoBuffer, Socket.peerLater]
            rw [← plater_insertPkt _ _ hs.2.2.2 (hl p rfl)]
          · rcases mem_insertPkt m with m | rfl
            · exact hs.2.2.2 q m
            · exact hl q rfl
        · rw [if_neg h, if_neg h]
          exact ⟨rfl, hs⟩

theorem plater_recvFromLoop (hn : E.Low d) (fuel len : Nat) : ∀ n, Psh d (BegunLow d) Eq (recvFromLoop E fuel len n) (recvFromLoop (E.peerLater d) fuel len n)
  | 0 => never
  | n + 1 => by
    unfold recvFromLoop
    exact get fun s _ => ite Iff.rfl (fun _ => pure rfl) fun _ => seqE (plater_recv hn _ _) fun x => ite Iff.rfl (fun _ => plater_recvFromLoop hn fuel len n) fun _ => pure rfl

theorem plater_recvFrom (hn : E.Low d) (fuel len : Nat) : Psh d (BegunLow d) Eq (recvFrom E fuel len) (recvFrom (E.peerLater d) fuel len) := by
  unfold recvFrom
  exact seqE (plater_flushIncoming _) fun out => get fun s _ => ite Iff.rfl (fun _ => pure rfl) fun _ => ite Iff.rfl (fun _ => throw _) fun _ => plater_recvFromLoop hn _ _ _

theorem plater_sendQueue (hn : E.Low d) (fuel : Nat) : ∀ n, Psh d (BegunLow d) Eq (sendQueue E fuel n) (sendQueue (E.peerLater d) fuel n)
  | 0 => never
  | n + 1 => by
    unfold sendQueue
    refine get fun s hs => ?_
    simp only [show (s.peerLater d).unsent = s.unsent.map (Packet.laterAck d) from rfl]
    cases s.unsent with
    | nil => exact pure rfl
    | cons p rest =>
      simp only [List.map_cons]
      refine seqE (modS fun s hs => ⟨rfl, hs⟩) fun _ => seq (plater_sendPacket (plater_recv hn _ _) _ _) fun p p' hp => ?_
      cases hp
      rw [laterAck_len]
      refine get fun s _ => seqE (overflowIf _) fun _ => seqE (modS fun s hs => ⟨?_, hs⟩) fun _ => plater_sendQueue hn fuel n
      simp only [Socket.peerLater, List.map_append, List.map_cons, List.map_nil]

theorem begunLow_enqueues (l : List Bytes) : ∀ s : Socket, BegunLow d s → BegunLow d (l.foldl enqueue s) := by
  induction l with
  | nil => exact fun s h => h
  | cons c l ih => exact fun s h => ih _ h

theorem plater_sendTo (hn : E.Low d) (fuel : Nat) (buf : Bytes) : Psh d (BegunLow d) Eq (sendTo E fuel buf) (sendTo (E.peerLater d) fuel buf) := by
  unfold sendTo
  exact get fun s _ => ite Iff.rfl (fun _ => throw _) fun _ => seqE (modS fun s hs => ⟨plater_enqueues _ s, begunLow_enqueues _ s hs⟩) fun _ => seqE (plater_sendQueue hn _ _) fun _ => pure rfl

theorem plater_scratch (hn : E.Low d) (fuel : Nat) : Psh d (BegunLow d) Eq (scratchRecv E fuel) (scratchRecv (E.peerLater d) fuel) := seqE (plater_recv hn _ _) fun _ => pure rfl

theorem plater_flush (hn : E.Low d) (fuel : Nat) : Psh d (BegunLow d) Eq (flush E fuel) (flush (E.peerLater d) fuel) :=
  Psh.whileM (Psh.get fun s _ => Psh.pure (a := decide (s.sendWindow ≠ [])) (a' := decide ((s.peerLater d).sendWindow ≠ [])) (by simp [Socket.peerLater])) (plater_scratch hn _) _

theorem plater_close (hn : E.Low d) (fuel : Nat) : Psh d (BegunLow d) Eq (close E fuel) (close (E.peerLater d) fuel) := by
  unfold close
  refine get fun s _ => ite Iff.rfl (fun _ => pure rfl) fun _ => seqE (plater_flush hn _) fun _ => get fun s _ => ?_
  refine seqE now fun t => seqE (udpSend s.connectedTo (plater_finPacket s t).symm) fun _ => seqE (modS fun s hs => ⟨rfl, by simp, hs.2⟩) fun _ => ?_
  exact Psh.whileM (Psh.get fun s _ => Psh.pure (a := decide (s.state ≠ .closed)) (a' := decide ((s.peerLater d).state ≠ .closed)) rfl) (plater_scratch hn _) _

theorem plater_op (hn : E.Low d) (fuel : Nat) (op : Op) : Psh d (BegunLow d) Eq (runOp E fuel op) (runOp (E.peerLater d) fuel op) := by
  cases op with
  | recvFrom len => exact seqE (plater_recvFrom hn _ _) fun _ => pure rfl
  | sendTo b => exact seqE (plater_sendTo hn _ _) fun _ => pure rfl
  | flush => exact seqE (plater_flush hn _) fun _ => pure rfl
  | close => exact seqE (plater_close hn _) fun _ => pure rfl
  | setMaxRetries n => exact seqE (modS fun s hs => ⟨rfl, hs⟩) fun _ => pure rfl

end Utp
