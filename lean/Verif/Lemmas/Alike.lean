import Verif.Spec.Oblivious
import Verif.Lemmas.Source
import Verif.Lemmas.Log
import Verif.Props.Advert
/-!
# Packets that differ only in their payloads
-/

namespace Utp
open Spec Packet

variable {ρ : U8 → U8 → Prop}

/-- Two packets with the same header and extensions and related payloads. -/
abbrev AlikePkt (ρ : U8 → U8 → Prop) (p p' : Packet) : Prop := Alike ρ p.bytes p'.bytes

theorem Alike.ok' {d d' : Datagram} (h : d.Ok) (e1 : d'.header = d.header) (e2 : d'.exts = d.exts) : d'.Ok :=
  ⟨by rw [e1]; exact h.headerLen, by rw [e1]; exact h.version, by rw [e1]; exact h.typeCode, by rw [e1, e2]; exact h.announced, by rw [e2]; exact h.extsOk⟩

theorem Alike.len {b b' : Bytes} (h : Alike ρ b b') : b.length = b'.length := by
  obtain ⟨d, d', _, e1, e2, hp, rfl, rfl⟩ := h
  simp [Datagram.bytes, e1, e2, hp.length_eq]

theorem Alike.byte {b b' : Bytes} (h : Alike ρ b b') {i : Nat} (hi : i < 20) : byteAt b i = byteAt b' i := by
  obtain ⟨d, d', hd, e1, e2, hp, rfl, rfl⟩ := h
  have := hd.headerLen
  simp only [byteAt, List.getD, Datagram.bytes, e1]
  rw [List.getElem?_append_left (by omega), List.getElem?_append_left (by omega)]

theorem Alike.tryFrom {b b' : Bytes} (h : Alike ρ b b') : Packet.tryFrom b = some (.ok ⟨b⟩) ∧ Packet.tryFrom b' = some (.ok ⟨b'⟩) := by
  have key : ∀ b, IsDatagram b → Packet.tryFrom b = some (.ok ⟨b⟩) := by
    intro b hb
    obtain ⟨p, hp⟩ := (C01_accept_iff b).mpr hb
    have := C02_lossless hp
    rw [hp, ← this]
  obtain ⟨d, d', hd, e1, e2, hp, rfl, rfl⟩ := h
  exact ⟨key _ ⟨d, hd, rfl⟩, key _ ⟨d', Alike.ok' hd e1 e2, rfl⟩⟩

section
variable {p p' : Packet} (h : AlikePkt ρ p p')
include h

theorem AlikePkt.seqNr : p.seqNr = p'.seqNr := by simp only [Packet.seqNr, be16, Nat.reduceAdd, h.byte (show 16 < 20 by omega), h.byte (show 17 < 20 by omega)]
theorem AlikePkt.ackNr : p.ackNr = p'.ackNr := by simp only [Packet.ackNr, be16, Nat.reduceAdd, h.byte (show 18 < 20 by omega), h.byte (show 19 < 20 by omega)]
theorem AlikePkt.connectionId : p.connectionId = p'.connectionId := by
  simp only [Packet.connectionId, be16, Nat.reduceAdd, h.byte (show 2 < 20 by omega), h.byte (show 3 < 20 by omega)]
theorem AlikePkt.wndSize : p.wndSize = p'.wndSize := by
  simp only [Packet.wndSize, be32, Nat.reduceAdd, h.byte (show 12 < 20 by omega), h.byte (show 13 < 20 by omega), h.byte (show 14 < 20 by omega), h.byte (show 15 < 20 by omega)]
theorem AlikePkt.timestamp : p.timestamp = p'.timestamp := by
  simp only [Packet.timestamp, be32, Nat.reduceAdd, h.byte (show 4 < 20 by omega), h.byte (show 5 < 20 by omega), h.byte (show 6 < 20 by omega), h.byte (show 7 < 20 by omega)]
theorem AlikePkt.getType : p.getType = p'.getType := by simp only [Packet.getType, h.byte (show 0 < 20 by omega)]
theorem AlikePkt.len : p.len = p'.len := Alike.len h

theorem AlikePkt.extensions : p.extensions = p'.extensions := by
  obtain ⟨d, d', hd, e1, e2, hp, e3, e4⟩ := h
  have key : ∀ (q : Packet) (d : Datagram), d.Ok → q.bytes = d.bytes → q.extensions = some (d.exts.map toExt) := by
    intro q d hd e
    have := extensionsLoop_fwd d.exts d.header d.payload (d.bytes.length + 1) hd.extsOk datagram_fuel
    rw [hd.headerLen] at this
    simp only [Packet.extensions, e, datagram_byte1 hd]
    exact this
  rw [key p d hd e3, key p' d' (Alike.ok' hd e1 e2) e4, e2]

theorem AlikePkt.payload : ∃ x x', p.payload = some x ∧ p'.payload = some x' ∧ List.Forall₂ ρ x x' := by
  obtain ⟨d, d', hd, e1, e2, hp, e3, e4⟩ := h
  cases p; cases p'
  simp only at e3 e4
  subst e3 e4
  exact ⟨_, _, C03_payload hd, C03_payload (Alike.ok' hd e1 e2), hp⟩

theorem AlikePkt.put {f : Bytes → Bytes} (hl : ∀ b, (f b).length = b.length) (ha : ∀ a t : Bytes, a.length = 20 → f (a ++ t) = f a ++ t)
    (hf : ∀ b j, j < 2 → (f b)[j]? = b[j]?) : Alike ρ (f p.bytes) (f p'.bytes) := by
  obtain ⟨d, d', hd, e1, e2, hp, e3, e4⟩ := h
  refine ⟨⟨f d.header, d.exts, d.payload⟩, ⟨f d.header, d.exts, d'.payload⟩, ⟨?_, ?_, ?_, ?_, hd.extsOk⟩, rfl, rfl, hp, ?_, ?_⟩
  · simp [hl, hd.headerLen]
  · simpa [List.getD, hf] using hd.version
  · simpa [List.getD, hf] using hd.typeCode
  · simpa [List.getD, hf] using hd.announced
  · rw [e3, Datagram.bytes, ha _ _ hd.headerLen]; rfl
  · rw [e4, Datagram.bytes, e1, e2, ha _ _ hd.headerLen]; rfl

theorem AlikePkt.put16 {i : Nat} (hi : 2 ≤ i) (hi' : i + 2 ≤ 20) (v : U16) : Alike ρ (put16 p.bytes i v) (put16 p'.bytes i v) := by
  refine AlikePkt.put h (f := fun b => Packet.put16 b i v) (fun b => by simp [Packet.put16]) (fun a t ha => ?_) fun b j hj => put16_other _ _ _ _ (by omega)
  simp only [Packet.put16]
  rw [List.set_append_left _ _ (by omega), List.set_append_left _ _ (by simp; omega)]

theorem AlikePkt.put32 {i : Nat} (hi : 2 ≤ i) (hi' : i + 4 ≤ 20) (v : U32) : Alike ρ (put32 p.bytes i v) (put32 p'.bytes i v) := by
  refine AlikePkt.put h (f := fun b => Packet.put32 b i v) (fun b => by simp [Packet.put32]) (fun a t ha => ?_) fun b j hj => put32_other _ _ _ _ (by omega)
  simp only [Packet.put32]
  rw [List.set_append_left _ _ (by omega), List.set_append_left _ _ (by simp; omega), List.set_append_left _ _ (by simp; omega),
    List.set_append_left _ _ (by simp; omega)]

theorem AlikePkt.setSeqNr (v : U16) : AlikePkt ρ (p.setSeqNr v) (p'.setSeqNr v) := AlikePkt.put16 h (by omega) (by omega) v
theorem AlikePkt.setAckNr (v : U16) : AlikePkt ρ (p.setAckNr v) (p'.setAckNr v) := AlikePkt.put16 h (by omega) (by omega) v
theorem AlikePkt.setConnectionId (v : U16) : AlikePkt ρ (p.setConnectionId v) (p'.setConnectionId v) := AlikePkt.put16 h (by omega) (by omega) v
theorem AlikePkt.setTimestamp (v : U32) : AlikePkt ρ (p.setTimestamp v) (p'.setTimestamp v) := AlikePkt.put32 h (by omega) (by omega) v
theorem AlikePkt.setTimestampDifference (v : Int) : AlikePkt ρ (p.setTimestampDifference v) (p'.setTimestampDifference v) :=
  AlikePkt.put32 h (by omega) (by omega) _

end

theorem alike_withPayload {x x' : Bytes} (h : List.Forall₂ ρ x x') : AlikePkt ρ (withPayload x) (withPayload x') := by
  refine ⟨⟨1#8 :: List.replicate 19 0#8, [], x⟩, ⟨1#8 :: List.replicate 19 0#8, [], x'⟩, ⟨?_, ?_, ?_, ?_, ?_⟩, rfl, rfl, h, withPayload_bytes x, withPayload_bytes x'⟩
  · simp
  · rfl
  · show (1#8).toNat / 16 ≤ 4
    decide
  · rfl
  · simp

/-- What is cut off beyond the receive buffer does not turn a datagram into another one. -/
theorem datagram_of_take {b : Bytes} {n : Nat} {d2 : Datagram} (hd : d2.Ok) (h : b.take n = d2.bytes) :
    ({ d2 with payload := d2.payload ++ b.drop n } : Datagram).Ok ∧ b = ({ d2 with payload := d2.payload ++ b.drop n } : Datagram).bytes := by
  refine ⟨⟨hd.headerLen, hd.version, hd.typeCode, hd.announced, hd.extsOk⟩, ?_⟩
  conv_lhs => rw [← List.take_append_drop n b, h]
  simp [Datagram.bytes]

/-- Alike datagrams stay alike when they are cut to the receive buffer, or become equal and invalid. -/
theorem Alike.take {b b' : Bytes} (h : Alike ρ b b') (n : Nat) : Alike ρ (b.take n) (b'.take n) ∨ (b.take n = b'.take n ∧ ¬ IsDatagram (b.take n)) := by
  obtain ⟨d, d', hd, e1, e2, hp, rfl, rfl⟩ := h
  by_cases hn : (d.header ++ chainBytes d.exts).length ≤ n
  · left
    have key : ∀ d : Datagram, (d.header ++ chainBytes d.exts).length ≤ n →
        d.bytes.take n = ({ d with payload := d.payload.take (n - (d.header ++ chainBytes d.exts).length) } : Datagram).bytes := by
      intro d hn
      simp only [Datagram.bytes]
      rw [← List.append_assoc, List.take_append, List.take_of_length_le hn, List.append_assoc]
    rw [key d hn, key d' (by rw [e1, e2]; exact hn)]
    refine ⟨_, _, ?_, ?_, ?_, ?_, rfl, rfl⟩
    · exact ⟨hd.headerLen, hd.version, hd.typeCode, hd.announced, hd.extsOk⟩
    · exact e1
    · exact e2
    · show List.Forall₂ ρ (d.payload.take _) (d'.payload.take _)
      rw [e1, e2]
      exact List.forall₂_take _ hp
  · right
    refine ⟨?_, ?_⟩
    · simp only [Datagram.bytes, e1, e2]
      rw [← List.append_assoc, ← List.append_assoc, List.take_append (l₂ := d.payload), List.take_append (l₂ := d'.payload)]
      rw [show n - (d.header ++ chainBytes d.exts).length = 0 by omega]
      simp
    · rintro ⟨d2, hd2, e⟩
      obtain ⟨h1, h2⟩ := datagram_of_take hd2 e
      have e3 := C03_payload hd
      have e4 := C03_payload h1
      rw [← h2, e3] at e4
      simp only [Option.some.injEq] at e4
      have e5 := congrArg List.length e4
      have e6 := congrArg List.length e
      simp only [Datagram.bytes, List.length_append, List.length_take, List.length_drop] at e5 e6 hn
      omega

theorem not_datagram_take {b : Bytes} (h : ¬ IsDatagram b) (n : Nat) : ¬ IsDatagram (b.take n) := by
  rintro ⟨d2, hd2, e⟩
  obtain ⟨h1, h2⟩ := datagram_of_take hd2 e
  exact h ⟨_, h1, h2⟩

end Utp
