import Verif.Lemmas.Header
/-!
# Properties of the packet codec: C01 - C04, C06
-/

namespace Utp
open Spec Packet

/-! ## C01  Datagram acceptance is exactly the uTP grammar -/

/-- A datagram used as the non-trivial case in this file: type State, version 1, one selective ack
extension of four bytes, and a payload. -/
def sampleDatagram : Datagram :=
  { header := [0x21, 1, 0, 7, 0,0,0,1, 0,0,0,2, 0,0,1,0, 0,5, 0,9]
    exts := [⟨1, [1, 2, 3, 4]⟩]
    payload := [0xAA, 0xBB] }

theorem sampleDatagram_ok : sampleDatagram.Ok := by
  refine ⟨by decide, by decide, by decide, by decide, ?_⟩
  intro e he
  simp only [sampleDatagram, List.mem_singleton] at he
  subst he
  refine ⟨by decide, by decide, by decide, by decide⟩

/-- Deciding whether a byte string is a packet never panics (and always terminates, being a total
function): it yields a packet or an error. -/
theorem C01_decides (b : Bytes) :
    (∃ p, Packet.tryFrom b = some (.ok p)) ∨ (∃ e, Packet.tryFrom b = some (.error e)) := by
  have hchk : ∃ r, checkExtensions b = some r := by
    unfold checkExtensions
    split
    · exact ⟨_, rfl⟩
    · rename_i hl
      simp only [HEADER_SIZE] at hl
      rw [List.getElem?_eq_getElem (by omega)]
      simp only
      split
      · exact ⟨_, rfl⟩
      · have := checkLoop_some b (b.length + 1) HEADER_SIZE (.ofU8 b[1]) (by omega)
        obtain ⟨r, hr⟩ := Option.isSome_iff_exists.mp this
        rw [hr]
        rcases r with e | l
        · exact ⟨_, rfl⟩
        · simp only; split <;> exact ⟨_, rfl⟩
  obtain ⟨r, hr⟩ := hchk
  simp only [Packet.tryFrom, hr]
  rcases headerTryFrom b with e | ⟨⟩
  · exact .inr ⟨_, rfl⟩
  · rcases r with e | ⟨⟩
    · exact .inr ⟨_, rfl⟩
    · exact .inl ⟨_, rfl⟩

theorem headerTryFrom_ok_iff {b : Bytes} (h : 20 ≤ b.length) :
    headerTryFrom b = .ok () ↔ (b.getD 0 0).toNat % 16 = 1 ∧ (b.getD 0 0).toNat / 16 ≤ 4 := by
  have h1 := verNibble (byteAt b 0)
  have h2 := tryFrom_type (n := byteAt b 0 >>> 4)
  rw [typeNibble] at h2
  unfold headerTryFrom
  rw [if_neg (by simp [HEADER_SIZE]; omega)]
  change _ ↔ (byteAt b 0).toNat % 16 = 1 ∧ (byteAt b 0).toNat / 16 ≤ 4
  rw [← h1, ← h2]
  by_cases hv : byteAt b 0 &&& 0x0F#8 = 1#8
  · rw [if_neg (by simp [hv])]
    cases PacketType.tryFrom (byteAt b 0 >>> 4) <;> simp [hv]
  · rw [if_pos hv]; simp [hv]

theorem checkExtensions_ok_iff {b : Bytes} (h : 20 ≤ b.length) :
    checkExtensions b = some (.ok ()) ↔
      ∃ exts payload, (∀ x ∈ exts, WireExt.Ok x) ∧ b.drop 20 = chainBytes exts ++ payload ∧
        announce exts = b.getD 1 0 := by
  have hsplit : b = b.take 20 ++ b.drop 20 := (List.take_append_drop ..).symm
  have htl : (b.take 20).length = 20 := by simp; omega
  have h1 : b[1]? = some (b.getD 1 0) := by
    rw [List.getElem?_eq_getElem (by omega)]
    simp [List.getD, show 1 < b.length by omega]
  constructor
  · intro hc
    unfold checkExtensions at hc
    rw [if_neg (by simp [HEADER_SIZE]; omega), h1] at hc
    simp only at hc
    split at hc
    · simp at hc
    · split at hc
      · simp at hc
      · simp at hc
      · rename_i last hloop
        split at hc
        · simp at hc
        · rename_i hl
          have hl : last = .none := by simpa using hl
          subst hl
          have := checkLoop_bwd (b.length + 1) (b.take 20) (b.drop 20) (b.getD 1 0)
            (by rw [← hsplit, htl]; exact hloop)
          exact this
  · rintro ⟨exts, payload, hok, hd, ha⟩
    unfold checkExtensions
    rw [if_neg (by simp [HEADER_SIZE]; omega), h1]
    simp only
    have hlen : exts.length < b.length + 1 := by
      have := chain_len_le exts
      have hd' := congrArg List.length hd
      simp at hd'; omega
    have hloop := checkLoop_fwd exts (b.take 20) payload (b.length + 1) hok hlen
    rw [← hd, ← hsplit, htl, ha] at hloop
    rw [if_neg, show HEADER_SIZE = 20 from rfl, hloop]
    · simp
    · rintro ⟨hl, hn⟩
      apply hn
      rw [ofU8_eq_none, ← ha]
      have hl : b.length = 20 := hl
      have hd' := congrArg List.length hd
      have := chain_len_le exts
      simp [hl] at hd'
      have : exts = [] := List.length_eq_zero_iff.mp (by omega)
      simp [this, announce]

/-- A byte string is accepted exactly when it is a datagram of the grammar. -/
theorem C01_accept_iff (b : Bytes) :
    (∃ p, Packet.tryFrom b = some (.ok p)) ↔ IsDatagram b := by
  have key : (∃ p, Packet.tryFrom b = some (.ok p)) ↔
      (headerTryFrom b = .ok () ∧ checkExtensions b = some (.ok ())) := by
    unfold Packet.tryFrom
    rcases checkExtensions b with _ | r
    · simp
    · rcases headerTryFrom b with e | ⟨⟩
      · simp
      · rcases r with e | ⟨⟩ <;> simp
  rw [key]
  by_cases hl : 20 ≤ b.length
  · rw [headerTryFrom_ok_iff hl, checkExtensions_ok_iff hl]
    constructor
    · rintro ⟨⟨hv, ht⟩, exts, payload, hok, hd, ha⟩
      refine ⟨⟨b.take 20, exts, payload⟩, ⟨by simp; omega, ?_, ?_, ?_, hok⟩, ?_⟩
      · simpa [List.getD, List.getElem?_take] using hv
      · simpa [List.getD, List.getElem?_take] using ht
      · simpa [List.getD, List.getElem?_take] using ha.symm
      · simp [Datagram.bytes, ← hd]
    · rintro ⟨d, hd, rfl⟩
      obtain ⟨h20, hv, ht, ha, hok⟩ := hd
      have g0 : d.bytes.getD 0 0 = d.header.getD 0 0 := by
        simp only [Datagram.bytes, List.getD]; rw [List.getElem?_append_left (by omega)]
      have g1 : d.bytes.getD 1 0 = d.header.getD 1 0 := by
        simp only [Datagram.bytes, List.getD]; rw [List.getElem?_append_left (by omega)]
      rw [g0, g1]
      refine ⟨⟨hv, ht⟩, d.exts, d.payload, hok, ?_, ha.symm⟩
      rw [Datagram.bytes, List.drop_append, List.drop_eq_nil_of_le (by omega), h20]; simp
  · constructor
    · rintro ⟨h, _⟩
      simp [headerTryFrom, HEADER_SIZE, show b.length < 20 by omega] at h
    · rintro ⟨d, hd, rfl⟩
      have := hd.headerLen
      simp [Datagram.bytes] at hl; omega

/-- Every byte string outside the grammar is rejected with an error. -/
theorem C01_reject (b : Bytes) (h : ¬ IsDatagram b) : ∃ e, Packet.tryFrom b = some (.error e) := by
  rcases C01_decides b with h' | h'
  · exact absurd ((C01_accept_iff b).mp h') h
  · exact h'

example : IsDatagram sampleDatagram.bytes := ⟨_, sampleDatagram_ok, rfl⟩
example : ∃ p, Packet.tryFrom sampleDatagram.bytes = some (.ok p) :=
  (C01_accept_iff _).mpr ⟨_, sampleDatagram_ok, rfl⟩
-- a datagram whose extension has length 3 is outside the grammar
example : Packet.tryFrom (sampleDatagram.header ++ [0, 3, 1, 2, 3]) = some (.error .invalidExtensionLength) := rfl

/-! ## C02  Decoding is lossless, header fields are big-endian and independent -/

/-- An accepted datagram is kept byte for byte. -/
theorem C02_lossless {b : Bytes} {p : Packet} (h : Packet.tryFrom b = some (.ok p)) : p.bytes = b := by
  unfold Packet.tryFrom at h
  split at h
  · simp at h
  · split at h
    · simp at h
    · split at h
      · simp at h
      · simp at h; rw [← h]

theorem accepted_len {b : Bytes} {p : Packet} (h : Packet.tryFrom b = some (.ok p)) : 20 ≤ p.bytes.length := by
  obtain ⟨d, hd, hb⟩ := (C01_accept_iff b).mp ⟨p, h⟩
  rw [C02_lossless h, hb]
  have := hd.headerLen
  simp [Datagram.bytes]; omega

/-- Every header field of a packet of at least 20 bytes reads as the big-endian number at its offset. -/
theorem C02_fields {p : Packet} (h : 20 ≤ p.bytes.length) :
    p.connectionId.toNat = field p.bytes 2 2 ∧ p.timestamp.toNat = field p.bytes 4 4 ∧
    p.timestampDifference = field p.bytes 8 4 ∧ p.wndSize.toNat = field p.bytes 12 4 ∧
    p.seqNr.toNat = field p.bytes 16 2 ∧ p.ackNr.toNat = field p.bytes 18 2 := by
  refine ⟨be16_field (by omega), be32_field (by omega), ?_, be32_field (by omega), be16_field (by omega),
    be16_field (by omega)⟩
  simp only [timestampDifference, delayOfU32]
  rw [be32_field (by omega)]

/-- Type, version and extension code of an accepted datagram: type is the high half of the first
byte, version (always 1) the low half, the extension code the second byte. -/
theorem C02_first_bytes {b : Bytes} {p : Packet} (h : Packet.tryFrom b = some (.ok p)) :
    (∃ t, p.getType = some t ∧ t.toU8.toNat = (b.getD 0 0).toNat / 16) ∧
    p.getVersion = 1 ∧ (p.getExtensionType).toU8 = b.getD 1 0 := by
  obtain ⟨d, hd, hb⟩ := (C01_accept_iff b).mp ⟨p, h⟩
  have hp := C02_lossless h
  have g0 : b.getD 0 0 = d.header.getD 0 0 := by
    have := hd.headerLen
    simp only [hb, Datagram.bytes, List.getD]; rw [List.getElem?_append_left (by omega)]
  have hv := hd.version
  have ht := hd.typeCode
  rw [← g0] at hv ht
  change (byteAt b 0).toNat % 16 = 1 at hv
  change (byteAt b 0).toNat / 16 ≤ 4 at ht
  refine ⟨?_, ?_, ?_⟩
  · change ∃ t, p.getType = some t ∧ t.toU8.toNat = (byteAt b 0).toNat / 16
    rw [← typeNibble] at ht ⊢
    unfold getType
    rw [hp]
    generalize byteAt b 0 >>> 4 = n at ht ⊢
    have key : ∀ n : U8, n.toNat ≤ 4 → (PacketType.tryFrom n).toOption.map (·.toU8) = some n := by decide
    have hk := key n ht
    cases hh : PacketType.tryFrom n with
    | error e => simp [hh, Except.toOption] at hk
    | ok t => simp [hh, Except.toOption] at hk; exact ⟨t, rfl, by rw [hk]⟩
  · rw [getVersion, hp]; exact (verNibble _).mpr hv
  · rw [getExtensionType, hp]
    change (ExtensionType.ofU8 (byteAt b 1)).toU8 = byteAt b 1
    generalize byteAt b 1 = n
    revert n; decide

/-- `b'` is `b` except for the `n` bytes at offset `i`. -/
def SameExcept (b b' : Bytes) (i n : Nat) : Prop :=
  b'.length = b.length ∧ ∀ j, (j < i ∨ i + n ≤ j) → b'[j]? = b[j]?

/-- Writing a field reads back exactly the value written and changes no byte outside that field.
(For the timestamp difference: every value that fits 32 bits.) -/
theorem C02_write {p : Packet} (h : 20 ≤ p.bytes.length) :
    (∀ v, (p.setConnectionId v).connectionId = v ∧ SameExcept p.bytes (p.setConnectionId v).bytes 2 2) ∧
    (∀ v, (p.setTimestamp v).timestamp = v ∧ SameExcept p.bytes (p.setTimestamp v).bytes 4 4) ∧
    (∀ v : Int, 0 ≤ v → v < 2 ^ 32 → (p.setTimestampDifference v).timestampDifference = v) ∧
    (∀ v : Int, SameExcept p.bytes (p.setTimestampDifference v).bytes 8 4) ∧
    (∀ v, (p.setWndSize v).wndSize = v ∧ SameExcept p.bytes (p.setWndSize v).bytes 12 4) ∧
    (∀ v, (p.setSeqNr v).seqNr = v ∧ SameExcept p.bytes (p.setSeqNr v).bytes 16 2) ∧
    (∀ v, (p.setAckNr v).ackNr = v ∧ SameExcept p.bytes (p.setAckNr v).bytes 18 2) := by
  refine ⟨?_, ?_, ?_, ?_, ?_, ?_, ?_⟩
  · exact fun v => ⟨be16_put16 v (by omega), put16_length .., put16_other _ _ _⟩
  · exact fun v => ⟨be32_put32 v (by omega), put32_length .., put32_other _ _ _⟩
  · intro v h0 h1
    simp only [setTimestampDifference, timestampDifference, delayOfU32]
    rw [be32_put32 _ (by omega), delayToU32_toNat]
    omega
  · exact fun v => ⟨put32_length .., put32_other _ _ _⟩
  · exact fun v => ⟨be32_put32 v (by omega), put32_length .., put32_other _ _ _⟩
  · exact fun v => ⟨be16_put16 v (by omega), put16_length .., put16_other _ _ _⟩
  · exact fun v => ⟨be16_put16 v (by omega), put16_length .., put16_other _ _ _⟩

/-- Writing the type: it reads back, the version stays, no other byte changes. -/
theorem C02_write_type {p : Packet} (h : 20 ≤ p.bytes.length) (t : PacketType) :
    (p.setType t).getType = some t ∧ (p.setType t).getVersion = p.getVersion ∧
    SameExcept p.bytes (p.setType t).bytes 0 1 := by
  have key : ∀ b : U8, PacketType.tryFrom ((t.toU8 <<< 4 ||| (0x0F#8 &&& b)) >>> 4) = .ok t ∧
      (t.toU8 <<< 4 ||| (0x0F#8 &&& b)) &&& 0x0F#8 = b &&& 0x0F#8 := by
    intro b
    have h1 : (t.toU8 <<< 4 ||| (0x0F#8 &&& b)) >>> 4 = t.toU8 ∧
      (t.toU8 <<< 4 ||| (0x0F#8 &&& b)) &&& 0x0F#8 = b &&& 0x0F#8 := by
      cases t <;> (revert b; decide)
    refine ⟨?_, h1.2⟩
    rw [h1.1]; cases t <;> rfl
  have h0 : byteAt (p.setType t).bytes 0 = (t.toU8 <<< 4 ||| (0x0F#8 &&& byteAt p.bytes 0)) := by
    simp only [setType, byteAt_set, true_and]; rw [if_pos (by omega)]
  refine ⟨?_, ?_, ?_, ?_⟩
  · simp only [getType, h0, (key _).1]
  · simp only [getVersion, h0, (key _).2]
  · simp [setType]
  · intro j hj
    simp only [setType, List.getElem?_set]
    rw [if_neg (by omega)]

/-- Fields that lie outside the bytes written keep their value. -/
theorem C02_independent {b b' : Bytes} {i n j m : Nat} (h : SameExcept b b' i n) (hd : j + m ≤ i ∨ i + n ≤ j) :
    field b' j m = field b j m := by
  have : (b'.drop j).take m = (b.drop j).take m := by
    apply List.ext_getElem?
    intro k
    simp only [List.getElem?_take, List.getElem?_drop]
    split
    · exact h.2 _ (by omega)
    · rfl
  rw [field, field, this]

example : 20 ≤ (Packet.mk sampleDatagram.bytes).bytes.length := by decide
example : (Packet.mk sampleDatagram.bytes).seqNr = 5 ∧ (Packet.mk sampleDatagram.bytes).ackNr = 9
    ∧ (Packet.mk sampleDatagram.bytes).getType = some .state := by decide
example : ((Packet.mk sampleDatagram.bytes).setSeqNr 0xBEEF).seqNr = 0xBEEF := by decide

/-! ## C03  Payload and extensions -/

theorem datagram_byte1 {d : Datagram} (hd : d.Ok) : d.bytes[1]? = some (announce d.exts) := by
  have h20 := hd.headerLen
  have ha := hd.announced
  rw [Datagram.bytes, List.getElem?_append_left (by omega), ← ha]
  simp [List.getD, show 1 < d.header.length by omega]

theorem datagram_fuel {d : Datagram} : d.exts.length < d.bytes.length + 1 := by
  have := chain_len_le d.exts
  simp [Datagram.bytes]; omega

/-- The extensions enumerated are exactly those of the grammar, in order; no panic. -/
theorem C03_extensions {d : Datagram} (hd : d.Ok) :
    ∃ l, (Packet.mk d.bytes).extensions = some l ∧
      l.map (fun e => (e.ty.toU8, e.data)) = d.exts.map (fun e => (e.code, e.data)) := by
  refine ⟨d.exts.map toExt, ?_, ?_⟩
  · simp only [extensions, datagram_byte1 hd]
    have := extensionsLoop_fwd d.exts d.header d.payload (d.bytes.length + 1) hd.extsOk datagram_fuel
    rw [hd.headerLen] at this
    exact this
  · rw [List.map_map]
    apply List.map_congr_left
    intro e _
    have : ∀ n : U8, (ExtensionType.ofU8 n).toU8 = n := by decide
    simp [toExt, this]

/-- The payload is exactly what follows the extension chain; no panic. -/
theorem C03_payload {d : Datagram} (hd : d.Ok) : (Packet.mk d.bytes).payload = some d.payload := by
  have := payloadLoop_fwd d.exts d.header d.payload (d.bytes.length + 1) hd.extsOk datagram_fuel
  rw [hd.headerLen] at this
  simp only [payload, datagram_byte1 hd]
  change (match payloadLoop d.bytes _ 20 _ with | none => none | some index => _) = _
  rw [show d.bytes = d.header ++ (chainBytes d.exts ++ d.payload) from rfl] at this ⊢
  rw [this]
  simp only
  have h20 := hd.headerLen
  rw [if_pos (by simp; omega)]
  congr 1
  rw [← List.append_assoc, List.drop_append, List.drop_eq_nil_of_le (by simp; omega)]
  simp [h20]

/-- For every accepted datagram. -/
theorem C03_accepted {b : Bytes} {p : Packet} (h : Packet.tryFrom b = some (.ok p)) :
    ∃ d : Datagram, d.Ok ∧ b = d.bytes ∧ p.payload = some d.payload ∧
      ∃ l, p.extensions = some l ∧ l.map (fun e => (e.ty.toU8, e.data)) = d.exts.map (fun e => (e.code, e.data)) := by
  obtain ⟨d, hd, hb⟩ := (C01_accept_iff b).mp ⟨p, h⟩
  have hp : p = ⟨d.bytes⟩ := by
    have := C02_lossless h; cases p; simp_all
  subst hp
  exact ⟨d, hd, hb, C03_payload hd, C03_extensions hd⟩

example : (Packet.mk sampleDatagram.bytes).payload = some [0xAA, 0xBB] := C03_payload sampleDatagram_ok

/-! ## C06  Codes -/

/-- Packet types correspond one-to-one to the codes 0..4; every other code is rejected. -/
theorem C06_packet_type :
    (∀ t, PacketType.tryFrom t.toU8 = .ok t) ∧
    (∀ n t, PacketType.tryFrom n = .ok t → t.toU8 = n) ∧
    (∀ n : U8, (∃ t, PacketType.tryFrom n = .ok t) ↔ n.toNat ≤ 4) ∧
    PacketType.tryFrom 0 = .ok .data ∧ PacketType.tryFrom 1 = .ok .fin ∧ PacketType.tryFrom 2 = .ok .state ∧
    PacketType.tryFrom 3 = .ok .reset ∧ PacketType.tryFrom 4 = .ok .syn := by
  refine ⟨fun t => by cases t <;> rfl, ?_, fun n => tryFrom_type, rfl, rfl, rfl, rfl, rfl⟩
  have h : ∀ n : U8, ((PacketType.tryFrom n).toOption.map (·.toU8)).getD n = n := by decide
  intro n t ht
  have := h n
  simpa [ht, Except.toOption] using this

/-- Extension codes correspond one-to-one to bytes. -/
theorem C06_extension_type :
    (∀ n, (ExtensionType.ofU8 n).toU8 = n) ∧
    (∀ n m, ExtensionType.ofU8 n = ExtensionType.ofU8 m → n = m) ∧
    ExtensionType.ofU8 0 = .none ∧ ExtensionType.ofU8 1 = .selectiveAck := by
  have h : ∀ n, (ExtensionType.ofU8 n).toU8 = n := by decide
  refine ⟨h, fun n m e => ?_, rfl, rfl⟩
  rw [← h n, ← h m, e]

end Utp
