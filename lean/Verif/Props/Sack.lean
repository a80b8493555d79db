import Verif.Props.Packet
import Verif.Lemmas.Sack
/-!
# C04  Adding a selective acknowledgement

Full property: for every valid packet and every bitmap whose length is a positive multiple of 4.
The code casts the length to `u8`, so it holds for bitmaps of at most 252 bytes
(`C04_set_sack_partial`) and fails from 256 bytes on (`C04_counterexample`, `C04_too_long`).
-/

namespace Utp
open Spec Packet

/-- The description of `d` with a selective ack added as last extension: the header announces the
new chain in its second byte and is otherwise unchanged. -/
def Spec.Datagram.addSack (d : Datagram) (bv : Bytes) : Datagram :=
  { header := d.header.set 1 (announce (d.exts ++ [⟨1, bv⟩]))
    exts := d.exts ++ [⟨1, bv⟩]
    payload := d.payload }

/-- Attaching a bitmap of at most 252 bytes (a positive multiple of 4) to a valid packet does not
panic, and the result is the valid packet with exactly that extension added last; payload, earlier
extensions and all other header bytes are the same.  Missing from the full property: bitmaps of 256
bytes and more. -/
theorem C04_set_sack_partial {d : Datagram} (hd : d.Ok) {bv : Bytes} (h4 : 4 ≤ bv.length)
    (hm : bv.length % 4 = 0) (hle : bv.length ≤ 252) :
    Packet.setSack ⟨d.bytes⟩ bv = some ⟨(d.addSack bv).bytes⟩ ∧ (d.addSack bv).Ok ∧
    (∃ p, Packet.tryFrom (d.addSack bv).bytes = some (.ok p)) := by
  have h20 := hd.headerLen
  have hok : (d.addSack bv).Ok := by
    refine ⟨by simp [Datagram.addSack, h20], ?_, ?_, ?_, ?_⟩
    · simpa [Datagram.addSack, List.getD, List.getElem?_set] using hd.version
    · simpa [Datagram.addSack, List.getD, List.getElem?_set] using hd.typeCode
    · simp [Datagram.addSack, List.getD, h20]
    · intro e he
      simp only [Datagram.addSack, List.mem_append, List.mem_singleton] at he
      rcases he with he | rfl
      · exact hd.extsOk e he
      · exact ⟨by simp, by simp; omega, hm, by simp; omega⟩
  refine ⟨?_, hok, (C01_accept_iff _).mpr ⟨_, hok, rfl⟩⟩
  unfold setSack
  rw [if_neg (by omega), if_neg (by omega)]
  simp only [datagram_byte1 hd, ofU8_eq_none]
  rcases hx : d.exts with _ | ⟨e, rest⟩
  · simp only [announce, if_pos]
    rw [if_pos (by simp [HEADER_SIZE, Datagram.bytes]; omega)]
    congr 2
    simp only [Datagram.bytes, Datagram.addSack, hx, chainBytes, HEADER_SIZE, announce, List.nil_append]
    rw [List.set_append_left _ _ (by omega), List.take_append, List.drop_append,
      List.take_of_length_le (by simp; omega), List.drop_eq_nil_of_le (by simp; omega)]
    simp [h20, ExtensionType.toU8]
  · have hc := (hd.extsOk e (by simp [hx])).1
    have hloop := sackLoop_fwd d.exts d.header d.payload (d.bytes.length + 1) hd.extsOk datagram_fuel
    rw [h20, hx] at hloop
    rw [if_neg (by simpa [announce] using hc)]
    change (match sackLoop _ (d.header ++ (chainBytes d.exts ++ d.payload)) 20 _ with
      | none => none | some (b, index) => _) = _
    rw [hx, hloop]
    simp only
    have hlen := chainTo_length (e :: rest) 1
    rw [if_pos (by simp only [List.length_append]; omega)]
    congr 2
    have hhdr : d.header.set 1 (announce (e :: rest ++ [⟨1, bv⟩])) = d.header := by
      have ha := hd.announced
      rw [hx] at ha
      apply List.ext_getElem?
      intro i
      rw [List.getElem?_set]
      split
      · rename_i hi; subst hi
        rw [if_pos (by omega)]
        have : d.header[1]? = some (d.header.getD 1 0) := by
          simp [List.getD, show 1 < d.header.length by omega]
        rw [this, ha]; simp [announce]
      · rfl
    simp only [Datagram.bytes, Datagram.addSack, hx, hhdr, chainTo_append, ← hlen]
    rw [← List.append_assoc d.header, List.take_append, List.drop_append,
      List.take_of_length_le (by simp; omega), List.drop_eq_nil_of_le (by simp; omega)]
    simp [h20, ExtensionType.toU8]

example : ∃ (d : Datagram) (bv : Bytes), d.Ok ∧ d.exts ≠ [] ∧ 4 ≤ bv.length ∧ bv.length % 4 = 0 ∧ bv.length ≤ 252 :=
  ⟨sampleDatagram, List.replicate 100 0xFF, sampleDatagram_ok, by decide, by decide, by decide, by decide⟩
example : (Packet.setSack ⟨sampleDatagram.bytes⟩ [9,9,9,9]).map (·.bytes.length) = some 34 := by decide

/-- The header fields other than the extension code are untouched by `addSack`. -/
theorem C04_header_kept (d : Datagram) (bv : Bytes) : SameExcept d.header (d.addSack bv).header 1 1 := by
  refine ⟨by simp [Datagram.addSack], fun j hj => ?_⟩
  simp only [Datagram.addSack, List.getElem?_set]
  rw [if_neg (by omega)]

/-- `set_sack` panics exactly on the bitmaps its documentation excludes. -/
theorem C04_panics_iff {d : Datagram} (hd : d.Ok) {bv : Bytes} (hle : bv.length ≤ 252) :
    Packet.setSack ⟨d.bytes⟩ bv = none ↔ ¬ (4 ≤ bv.length ∧ bv.length % 4 = 0) := by
  constructor
  · intro h ⟨h4, hm⟩
    rw [(C04_set_sack_partial hd h4 hm hle).1] at h
    simp at h
  · intro h
    unfold setSack
    by_cases h4 : bv.length < 4
    · simp [h4]
    · rw [if_neg h4, if_pos (by omega)]

/-- Counterexample: a bitmap of 256 zero bytes turns an empty State packet into a byte string that
the decoder rejects. -/
theorem C04_counterexample :
    ∃ p, Packet.setSack (Packet.new.setType .state) (List.replicate 256 0) = some p ∧ ¬ IsDatagram p.bytes := by
  refine ⟨⟨(Packet.new.setType .state).bytes.set 1 1 ++ 0 :: 0 :: List.replicate 256 0⟩, by decide +kernel, ?_⟩
  rw [← C01_accept_iff]
  rintro ⟨p, hp⟩
  have hk : ∀ r : Option (Except ParseError Packet),
      (match r with | some (.ok _) => true | _ => false) = false → r = some (.ok p) → False := by
    rintro r h rfl; simp at h
  exact hk _ (by decide +kernel) hp

/-- No datagram can carry a bitmap longer than 255 bytes: for longer bitmaps the result of
`set_sack`, whatever it is, does not carry the bitmap. -/
theorem C04_too_long {bv : Bytes} (h : 256 ≤ bv.length) (d : Datagram) (hd : d.Ok) : ⟨1, bv⟩ ∉ d.exts := by
  intro hm
  have := (hd.extsOk _ hm).2.2.2
  simp at this; omega

end Utp
