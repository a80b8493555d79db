import Verif.Text
import Verif.Spec.Text
import Verif.Props.Size
/-!
# C106: what the log shows
-/

namespace Utp
open M Packet Sample Spec

variable {E : Env}

theorem field_one {b : Bytes} {i : Nat} (h : i < b.length) : field b i 1 = (byteAt b i).toNat := by
  rw [byteAt_eq h, field, List.drop_eq_getElem_cons h, List.take_succ_cons, List.take_zero]
  simp [bigEndian]

theorem type_text {n : U8} (h : n.toNat / 16 ≤ 4) : ∃ t, PacketType.tryFrom (n >>> 4) = .ok t ∧ t.text = typeNames.getD (n.toNat / 16) "" := by
  have e := typeNibble n
  have hk : n.toNat / 16 = 0 ∨ n.toNat / 16 = 1 ∨ n.toNat / 16 = 2 ∨ n.toNat / 16 = 3 ∨ n.toNat / 16 = 4 := by omega
  rcases hk with hk | hk | hk | hk | hk <;> rw [hk] at e ⊢
  · exact ⟨.data, by rw [show n >>> 4 = 0#8 from BitVec.eq_of_toNat_eq e]; rfl, rfl⟩
  · exact ⟨.fin, by rw [show n >>> 4 = 1#8 from BitVec.eq_of_toNat_eq e]; rfl, rfl⟩
  · exact ⟨.state, by rw [show n >>> 4 = 2#8 from BitVec.eq_of_toNat_eq e]; rfl, rfl⟩
  · exact ⟨.reset, by rw [show n >>> 4 = 3#8 from BitVec.eq_of_toNat_eq e]; rfl, rfl⟩
  · exact ⟨.syn, by rw [show n >>> 4 = 4#8 from BitVec.eq_of_toNat_eq e]; rfl, rfl⟩

theorem extension_text (n : U8) : (ExtensionType.ofU8 n).text = extensionName n.toNat := by
  unfold extensionName
  by_cases h0 : n = 0#8
  · subst h0; rfl
  by_cases h1 : n = 1#8
  · subst h1; rfl
  have g0 : n.toNat ≠ 0 := fun h => h0 (BitVec.eq_of_toNat_eq h)
  have g1 : n.toNat ≠ 1 := fun h => h1 (BitVec.eq_of_toNat_eq h)
  rw [if_neg g0, if_neg g1]
  have : ExtensionType.ofU8 n = .unknown n := by
    unfold ExtensionType.ofU8
    split <;> simp_all
  rw [this]; rfl

theorem version_text (n : U8) : (n &&& 0x0F#8).toNat = n.toNat % 16 := by
  rw [BitVec.toNat_and]
  exact Nat.and_two_pow_sub_one_eq_mod n.toNat 4

/-- **C106.** A packet of a known type is shown with what its bytes say. -/
theorem C106_shown {p : Packet} (hl : 20 ≤ p.bytes.length) (ht : field p.bytes 0 1 / 16 ≤ 4) : p.shown = some (describe p.bytes) := by
  have h0 := field_one (b := p.bytes) (i := 0) (by omega)
  have h1 := field_one (b := p.bytes) (i := 1) (by omega)
  rw [h0] at ht
  obtain ⟨t, e1, e2⟩ := type_text ht
  have hg : p.getType = some t := by simp only [getType, e1]
  obtain ⟨f1, f2, f3, f4, f5, f6⟩ := C02_fields hl
  have ei : ∀ n : Nat, toString (n : Int) = n.repr := fun _ => rfl
  have ev : p.getVersion.toNat = field p.bytes 0 1 % 16 := by rw [h0]; exact version_text _
  have ee : p.getExtensionType.text = extensionName (field p.bytes 1 1) := by rw [h1]; exact extension_text _
  rw [← h0] at e2
  unfold Packet.shown describe
  rw [hg]
  simp only
  rw [f1, f2, f3, f4, f5, f6, e2, ev, ee, ei]

theorem decodes_known {b : Bytes} {p : Packet} (h : Packet.tryFrom b = some (.ok p)) : p.bytes = b ∧ 20 ≤ p.bytes.length ∧ field p.bytes 0 1 / 16 ≤ 4 := by
  obtain ⟨d, hd, hb⟩ := (C01_accept_iff b).mp ⟨p, h⟩
  have hp := C02_lossless h
  have hl : 20 ≤ p.bytes.length := by rw [hp, hb]; simp [Datagram.bytes, hd.headerLen]
  obtain ⟨⟨t, ht, e⟩, -, -⟩ := C02_first_bytes h
  refine ⟨hp, hl, ?_⟩
  rw [field_one (by omega), hp]
  show (b.getD 0 0).toNat / 16 ≤ 4
  rw [← e]
  cases t <;> decide

/-- **C106.** A datagram that is accepted is shown with what its bytes say. -/
theorem C106_accepted {b : Bytes} {p : Packet} (h : Packet.tryFrom b = some (.ok p)) : p.shown = some (describe b) := by
  obtain ⟨h1, h2, h3⟩ := decodes_known h
  rw [← h1]
  exact C106_shown h2 h3

/-- **C106.** Every packet a socket holds can be shown: those it sent, those it is about to send and those it received. -/
theorem C106_held {w : World} (hw : Reach E w) {p : Packet} (hp : p ∈ w.s.sendWindow ∨ p ∈ w.s.unsent ∨ p ∈ w.s.incoming) :
    p.shown = some (describe p.bytes) := by
  obtain ⟨h1, b, h2⟩ := C46_stored hw p hp
  obtain ⟨h3, h4, h5⟩ := decodes_known h2
  exact C106_shown h4 h5

/-- **C106.** Every packet a socket has sent can be shown. -/
theorem C106_sent {w : World} (hw : Reach E w) {dst : Addr} {b : Bytes} (h : Sent w dst b) : (Packet.mk b).shown = some (describe b) := by
  have hs := (C100_partial hw h).1
  have hk := hs.type
  have hl : 20 ≤ b.length := by
    have h5 : kind b = 0 ∨ (kind b = 1 ∨ kind b = 2) ∨ (kind b = 3 ∨ kind b = 4) := by omega
    rcases h5 with h5 | h5 | h5
    · have := hs.data h5; omega
    · rcases hs.ack h5 with h | ⟨_, _, _, _, _, h⟩ <;> omega
    · have := hs.bare h5; omega
  refine C106_shown (p := ⟨b⟩) hl ?_
  show field b 0 1 / 16 ≤ 4
  rw [field_one (by omega)]
  unfold kind at hk
  show (b.getD 0 0).toNat / 16 ≤ 4
  omega

/-- **C106.** The time shown next to the window is the difference of two 32-bit clock readings: it cannot overflow `i64`, and within one
period of the clock it is what went by. -/
theorem C106_elapsed (t0 t1 : U32) : -2 ^ 63 < tsSub t1 t0 ∧ tsSub t1 t0 < 2 ^ 63 ∧ (t0.toNat ≤ t1.toNat → tsSub t1 t0 = (t1.toNat - t0.toNat : Nat)) := by
  have := t0.isLt
  have := t1.isLt
  unfold tsSub
  omega

/-- The number in a text. -/
def digitsOf (s : String) : Nat := (s.toList.filter Char.isDigit).foldl (fun a c => 10 * a + (c.toNat - 48)) 0

theorem digitsOf_type : ∀ n : U8, digitsOf (ParseError.invalidPacketType n).text = n.toNat := by decide +kernel

theorem type_text_ne : ∀ n : U8, (ParseError.invalidPacketType n).text ∉ ["InvalidExtensionLength", "InvalidPacketLength", "UnsupportedVersion",
    "ConnectionClosed", "ConnectionReset", "ConnectionTimedOut", "InvalidAddress", "InvalidReply", "NotConnected", "Other"] := by decide +kernel

/-- **C106.** The messages of different errors differ. -/
theorem C106_errors : (∀ a b : SocketError, a.text = b.text → a = b) ∧ (∀ a b : ParseError, a.text = b.text → a = b) ∧
    ∀ (a : SocketError) (b : ParseError), a.text ≠ b.text := by
  refine ⟨?_, ?_, ?_⟩
  · intro a b h
    cases a <;> cases b <;> first | rfl | exact absurd h (by decide +kernel)
  · intro a b h
    cases a with
    | invalidPacketType m =>
      cases b with
      | invalidPacketType n =>
        have := congrArg digitsOf h
        rw [digitsOf_type, digitsOf_type] at this
        rw [BitVec.eq_of_toNat_eq this]
      | _ => exact absurd (by rw [h]; decide +kernel) (type_text_ne m)
    | _ =>
      cases b with
      | invalidPacketType n => exact absurd (by rw [← h]; decide +kernel) (type_text_ne n)
      | _ => first | rfl | exact absurd h (by decide +kernel)
  · intro a b h
    cases b with
    | invalidPacketType n => cases a <;> exact absurd (by rw [← h]; decide +kernel) (type_text_ne n)
    | _ => cases a <;> exact absurd h (by decide +kernel)

section Samples

/-- What the log shows of a data packet with a selective acknowledgement and of one with an unknown extension. -/
example : (Packet.mk (sackDg 6 2 100 [0x0F, 0, 0, 0])).shown = some [("type", "State"), ("version", "1"), ("extension", "SelectiveAck"),
    ("connection_id", "6"), ("timestamp", "Timestamp(0)"), ("timestamp_difference", "Delay(0)"), ("wnd_size", "1048576"), ("seq_nr", "2"),
    ("ack_nr", "100")] := by decide +kernel
/-- The hypotheses hold of it: it is accepted. -/
example : (Packet.mk (sackDg 6 2 100 [0x0F, 0, 0, 0])).shown = some (describe (sackDg 6 2 100 [0x0F, 0, 0, 0])) :=
  C106_accepted (b := sackDg 6 2 100 [0x0F, 0, 0, 0]) rfl
/-- A packet of an unknown type could not be shown, and is not accepted. -/
example : (Packet.mk (0x51#8 :: List.replicate 19 0)).shown = none ∧
    Packet.tryFrom (0x51#8 :: List.replicate 19 0) = some (.error (.invalidPacketType 5)) := ⟨rfl, rfl⟩
/-- After a message of two packets, both wait for their acknowledgement and can be shown. -/
example : let E := env []
    let w := runs E 10 [.sendTo (List.replicate 1400 7)] (server E)
    Reach E w ∧ w.s.sendWindow.length = 2 ∧ (w.s.sendWindow.map fun p => (p.shown.getD []).getD 7 ("", "")) =
      [("seq_nr", "100"), ("seq_nr", "101")] :=
  ⟨reach_server _ _ (by decide +kernel) (by decide +kernel), by decide +kernel, by decide +kernel⟩
example : (ParseError.invalidPacketType 5).text = "InvalidPacketType(5)" := by decide +kernel

end Samples

end Utp
