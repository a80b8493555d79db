import Verif.Spec.Stamp
import Verif.Props.Advert
/-!
# The time fields of what is sent
-/

namespace Utp
open M Packet

variable {E : Env} {α β : Type}

theorem timestamp_stampOf (p : Packet) : p.timestamp.toNat = stampOf p.bytes := by
  have h := fun i => (byteAt p.bytes i).isLt
  have h1 := h 4; have h2 := h 5; have h3 := h 6; have h4 := h 7
  simp only [timestamp, be32, stampOf, BitVec.toNat_ofNat, Nat.reduceAdd, byteAt] at *
  omega

theorem difference_delayOf (p : Packet) : p.timestampDifference = (delayOf p.bytes : Int) := by
  have h := fun i => (byteAt p.bytes i).isLt
  have h1 := h 8; have h2 := h 9; have h3 := h 10; have h4 := h 11
  simp only [timestampDifference, delayOfU32, be32, delayOf, BitVec.toNat_ofNat, Nat.reduceAdd, byteAt] at *
  omega

theorem setDifference_value {p : Packet} (h : 20 ≤ p.bytes.length) (d : Int) :
    (p.setTimestampDifference d).timestampDifference = ((delayToU32 d).toNat : Int) := by
  show delayOfU32 (be32 (put32 p.bytes 8 (delayToU32 d)) 8) = _
  rw [be32_put32 _ (by omega)]
  rfl

theorem absDiff_apart (a b : U32) : absDiff a b = (apart a.toNat b.toNat : Int) := by
  unfold absDiff tsSub apart
  split <;> rename_i h <;> rw [BitVec.lt_def] at h <;> omega

theorem apart_lt (a b : U32) : apart a.toNat b.toNat < 2 ^ 32 := by
  have := a.isLt; have := b.isLt
  unfold apart; omega

theorem delayToU32_cast {n : Nat} (h : n < 2 ^ 32) : (delayToU32 (n : Int)).toNat = n := by
  unfold delayToU32
  rw [BitVec.ofInt_natCast, BitVec.toNat_ofNat, Nat.mod_eq_of_lt h]

theorem setSack_times {p r : Packet} {sack : Bytes} (hl : p.bytes.length = 20) (h1 : p.bytes[1]? = some 0)
    (h4 : sack.length % 4 = 0) (hne : sack ≠ []) (h : p.setSack sack = some r) :
    r.timestamp = p.timestamp ∧ r.timestampDifference = p.timestampDifference ∧ 20 ≤ r.bytes.length := by
  rw [setSack_plain hl h1 h4 hne] at h
  simp only [Option.some.injEq] at h
  have hb : ∀ i, i < 20 → i ≠ 1 → byteAt r.bytes i = byteAt p.bytes i := by
    intro i hi hi1
    rw [← h]
    simp only [byteAt, List.getD, List.append_assoc]
    rw [List.getElem?_append_left (by simp; omega), List.getElem?_set_ne (by omega)]
  refine ⟨?_, ?_, by rw [← h]; simp; omega⟩
  · simp only [timestamp, be32, Nat.reduceAdd, hb 4 (by omega) (by omega), hb 5 (by omega) (by omega), hb 6 (by omega) (by omega), hb 7 (by omega) (by omega)]
  · simp only [timestampDifference, be32, Nat.reduceAdd, hb 8 (by omega) (by omega), hb 9 (by omega) (by omega), hb 10 (by omega) (by omega), hb 11 (by omega) (by omega)]

end Utp
