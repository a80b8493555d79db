import Verif.Lemmas.Wire
/-! Helper lemmas: header fields as big-endian numbers, set/get laws. -/

namespace Utp
open Spec Packet

theorem byteAt_eq {b : Bytes} {i : Nat} (h : i < b.length) : byteAt b i = b[i] := by
  simp [byteAt, List.getD, h]

theorem take2 {b : Bytes} {i : Nat} (h : i + 2 ≤ b.length) :
    (b.drop i).take 2 = [byteAt b i, byteAt b (i+1)] := by
  rw [List.drop_eq_getElem_cons (by omega), List.drop_eq_getElem_cons (by omega)]
  simp only [List.take_succ_cons, List.take_zero, byteAt_eq (show i < b.length by omega), byteAt_eq (show i+1 < b.length by omega)]

theorem take4 {b : Bytes} {i : Nat} (h : i + 4 ≤ b.length) :
    (b.drop i).take 4 = [byteAt b i, byteAt b (i+1), byteAt b (i+2), byteAt b (i+3)] := by
  rw [List.drop_eq_getElem_cons (by omega), List.drop_eq_getElem_cons (by omega),
    List.drop_eq_getElem_cons (by omega), List.drop_eq_getElem_cons (by omega)]
  simp only [List.take_succ_cons, List.take_zero, byteAt_eq (show i < b.length by omega), byteAt_eq (show i+1 < b.length by omega),
    byteAt_eq (show i+2 < b.length by omega), byteAt_eq (show i+3 < b.length by omega)]

theorem be16_field {b : Bytes} {i : Nat} (h : i + 2 ≤ b.length) : (be16 b i).toNat = field b i 2 := by
  rw [field, take2 h]
  have := (byteAt b i).isLt; have := (byteAt b (i+1)).isLt
  simp [be16, bigEndian]; omega

theorem be32_field {b : Bytes} {i : Nat} (h : i + 4 ≤ b.length) : (be32 b i).toNat = field b i 4 := by
  rw [field, take4 h]
  have := (byteAt b i).isLt; have := (byteAt b (i+1)).isLt
  have := (byteAt b (i+2)).isLt; have := (byteAt b (i+3)).isLt
  simp only [be32, bigEndian, BitVec.toNat_ofNat, List.length_cons, List.length_nil]; omega

theorem byteAt_set (b : Bytes) (i j : Nat) (v : U8) :
    byteAt (b.set i v) j = if i = j ∧ j < b.length then v else byteAt b j := by
  simp only [byteAt, List.getD, List.getElem?_set]
  by_cases h : i = j
  · subst h; by_cases h2 : i < b.length
    · simp [h2]
    · simp [h2]
  · simp [h]

@[simp] theorem put16_length (b : Bytes) (i : Nat) (v : U16) : (put16 b i v).length = b.length := by
  simp [put16]
@[simp] theorem put32_length (b : Bytes) (i : Nat) (v : U32) : (put32 b i v).length = b.length := by
  simp [put32]

theorem be16_put16 {b : Bytes} {i : Nat} (v : U16) (h : i + 2 ≤ b.length) : be16 (put16 b i v) i = v := by
  apply BitVec.eq_of_toNat_eq
  have hv := v.isLt
  have h1 : byteAt (put16 b i v) i = BitVec.ofNat 8 (v.toNat / 256) := by
    simp only [put16, byteAt_set, List.length_set, true_and]
    rw [if_neg (by omega), if_pos (by omega)]
  have h2 : byteAt (put16 b i v) (i+1) = BitVec.ofNat 8 v.toNat := by
    simp only [put16, byteAt_set, List.length_set, true_and]
    rw [if_pos (by omega)]
  simp only [be16, h1, h2, BitVec.toNat_ofNat]
  omega

theorem be32_put32 {b : Bytes} {i : Nat} (v : U32) (h : i + 4 ≤ b.length) : be32 (put32 b i v) i = v := by
  apply BitVec.eq_of_toNat_eq
  have hv := v.isLt
  have h1 : byteAt (put32 b i v) i = BitVec.ofNat 8 (v.toNat / 16777216) := by
    simp only [put32, byteAt_set, List.length_set, true_and]
    rw [if_neg (by omega), if_neg (by omega), if_neg (by omega), if_pos (by omega)]
  have h2 : byteAt (put32 b i v) (i+1) = BitVec.ofNat 8 (v.toNat / 65536) := by
    simp only [put32, byteAt_set, List.length_set, true_and]
    rw [if_neg (by omega), if_neg (by omega), if_pos (by omega)]
  have h3 : byteAt (put32 b i v) (i+2) = BitVec.ofNat 8 (v.toNat / 256) := by
    simp only [put32, byteAt_set, List.length_set, true_and]
    rw [if_neg (by omega), if_pos (by omega)]
  have h4 : byteAt (put32 b i v) (i+3) = BitVec.ofNat 8 v.toNat := by
    simp only [put32, byteAt_set, List.length_set, true_and]
    rw [if_pos (by omega)]
  simp only [be32, h1, h2, h3, h4, BitVec.toNat_ofNat]
  omega

theorem put16_other (b : Bytes) (i : Nat) (v : U16) (j : Nat) (h : j < i ∨ i + 2 ≤ j) :
    (put16 b i v)[j]? = b[j]? := by
  simp only [put16, List.getElem?_set]
  rw [if_neg (by omega), if_neg (by omega)]

theorem put32_other (b : Bytes) (i : Nat) (v : U32) (j : Nat) (h : j < i ∨ i + 4 ≤ j) :
    (put32 b i v)[j]? = b[j]? := by
  simp only [put32, List.getElem?_set]
  rw [if_neg (by omega), if_neg (by omega), if_neg (by omega), if_neg (by omega)]

theorem delayToU32_toNat (d : Int) : ((delayToU32 d).toNat : Int) = d % 2 ^ 32 := by
  simp only [delayToU32, BitVec.toNat_ofInt]; omega

end Utp
