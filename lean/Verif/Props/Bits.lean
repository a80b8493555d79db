import Verif.Bits
import Verif.Spec.Wire
/-!
# C05  The bit iterator
-/

namespace Utp
open Spec

theorem bitAt_byte (byte : U8) (k : Nat) (hk : k < 8) :
    (((byte >>> k) &&& 1#8) == 1#8) = decide ((byte.toNat / 2 ^ k) % 2 = 1) := by
  have h : ∀ k : Fin 8, ∀ byte : U8, (((byte >>> k.val) &&& 1#8) == 1#8) = decide ((byte.toNat / 2 ^ k.val) % 2 = 1) := by
    decide +kernel
  exact h ⟨k, hk⟩ byte

/-- At position `k` of a bitmap, `next` yields bit `k mod 8` of byte `k / 8` and moves on by one. -/
theorem C05_next {bm : Bytes} {k : Nat} (h : k < 8 * bm.length) :
    BitIter.next ⟨bm, k, bm.length * 8⟩ = some (some (bitAt bm k), ⟨bm, k + 1, bm.length * 8⟩) := by
  have hk : k / 8 < bm.length := by omega
  unfold BitIter.next
  simp only
  rw [if_pos (by omega), List.getElem?_eq_getElem hk]
  simp only [bitAt_byte _ _ (Nat.mod_lt k (by omega)), bitAt]
  simp [List.getD, hk]

/-- At the end `next` yields nothing, and stays there for ever. -/
theorem C05_fused (bm : Bytes) :
    BitIter.next ⟨bm, bm.length * 8, bm.length * 8⟩ = some (none, ⟨bm, bm.length * 8, bm.length * 8⟩) := by
  simp [BitIter.next]

theorem collect_from (bm : Bytes) : ∀ (n k : Nat), k + n = bm.length * 8 →
    BitIter.collect (n + 1) ⟨bm, k, bm.length * 8⟩ = some ((List.range' k n).map (bitAt bm)) := by
  intro n
  induction n with
  | zero =>
    intro k hk
    obtain rfl : k = bm.length * 8 := by omega
    rw [BitIter.collect, C05_fused]; rfl
  | succ n ih =>
    intro k hk
    rw [BitIter.collect, C05_next (by omega)]
    simp only [ih (k + 1) (by omega)]
    simp [List.range'_succ]

/-- Iterating over a bitmap yields exactly eight booleans per byte, the i-th being bit `i mod 8` of
byte `i / 8`; it never panics. -/
theorem C05_items (bm : Bytes) : bitsOf bm = some ((List.range (8 * bm.length)).map (bitAt bm)) := by
  rw [bitsOf, BitIter.fromBytes, collect_from bm (bm.length * 8) 0 (by omega), List.range_eq_range', Nat.mul_comm]

theorem popcount8_eq (b : U8) : popcount8 b = ((List.range 8).filter fun k => b.toNat / 2 ^ k % 2 = 1).length := by
  revert b; decide +kernel

theorem foldl_pop (bm : Bytes) (a : Nat) :
    bm.foldl (fun acc bv => acc + popcount8 bv) a = a + (bm.map popcount8).sum := by
  induction bm generalizing a with
  | nil => simp
  | cons b r ih => simp [ih]; omega

theorem ones_cons (b : U8) (r : Bytes) :
    ((List.range (8 * (b :: r).length)).filter (bitAt (b :: r))).length
      = popcount8 b + ((List.range (8 * r.length)).filter (bitAt r)).length := by
  have h1 : 8 * (b :: r).length = 8 + 8 * r.length := by simp; omega
  rw [h1, List.range_add, List.filter_append, List.length_append, popcount8_eq, List.filter_map, List.length_map]
  refine congr (congrArg HAdd.hAdd ?_) ?_
  · apply congrArg List.length
    apply List.filter_congr
    intro k hk
    have hk : k < 8 := by simpa using hk
    simp [bitAt, Nat.div_eq_of_lt hk, Nat.mod_eq_of_lt hk]
  · apply congrArg List.length
    apply List.filter_congr
    intro k _
    simp only [Function.comp_apply, bitAt]
    rw [show (8 + k) / 8 = k / 8 + 1 by omega, show (8 + k) % 8 = k % 8 by omega]
    simp

/-- The reported number of ones is the number of positions whose bit is set. -/
theorem C05_count_ones (bm : Bytes) :
    (BitIter.fromBytes bm).countOnes = ((List.range (8 * bm.length)).filter (bitAt bm)).length := by
  simp only [BitIter.countOnes, BitIter.fromBytes, foldl_pop]
  induction bm with
  | nil => simp
  | cons b r ih => rw [ones_cons, ← ih]; simp

/-- The length reported before the first item is the number of items.  Missing from the full
property: after the first item (see `C05_len_counterexample`). -/
theorem C05_len_partial (bm : Bytes) :
    ∃ items, bitsOf bm = some items ∧ (BitIter.fromBytes bm).sizeHint = items.length :=
  ⟨_, C05_items bm, by simp [BitIter.sizeHint, BitIter.fromBytes]; omega⟩

/-- Counterexample, for every non-empty bitmap: after one item the reported length is still the
total, one more than what remains. -/
theorem C05_len_counterexample (bm : Bytes) (h : bm ≠ []) :
    ∃ b it, (BitIter.fromBytes bm).next = some (some b, it) ∧
      ∃ rest, BitIter.collect (bm.length * 8) it = some rest ∧ it.sizeHint = rest.length + 1 := by
  have hl : 0 < bm.length := List.length_pos_iff.mpr h
  have hc := collect_from bm (bm.length * 8 - 1) 1 (by omega)
  rw [Nat.sub_add_cancel (by omega)] at hc
  refine ⟨_, _, C05_next (by omega), _, hc, ?_⟩
  simp [BitIter.sizeHint]; omega

example : bitsOf [0xCA, 0xFE] = some [false, true, false, true, false, false, true, true,
    false, true, true, true, true, true, true, true] := by decide
example : (BitIter.fromBytes [0xCA, 0xFE]).countOnes = 11 := by decide

end Utp
