import Verif.Props.Packet
/-!
# C07 timestamps, C08 (the random draw), C54 error kinds
-/

namespace Utp
open Spec Packet

theorem now_gen (secs k : U64) (micros : U32) (n : Nat) (hn : k.toNat = n) :
    ((secs * k).truncate 32 + micros).toNat = (secs.toNat * n + micros.toNat) % 2 ^ 32 := by
  rw [BitVec.toNat_add, BitVec.truncate_eq_setWidth, BitVec.toNat_setWidth, BitVec.toNat_mul, hn,
    Nat.mod_mod_of_dvd _ (Nat.pow_dvd_pow 2 (by decide)), Nat.mod_add_mod]

/-- The timestamp is the number of microseconds since the epoch modulo 2^32, for every clock
reading. -/
theorem C07_now (secs : U64) (micros : U32) :
    (nowMicroseconds secs micros).toNat = (secs.toNat * 1000000 + micros.toNat) % 2 ^ 32 :=
  now_gen secs 1000000#64 micros 1000000 (by decide)

/-- The difference of two timestamps is the exact signed difference, and it is well inside `i64`. -/
theorem C07_sub (a b : U32) : tsSub a b = (a.toNat : Int) - b.toNat ∧ -2^32 < tsSub a b ∧ tsSub a b < 2^32 := by
  have := a.isLt; have := b.isLt
  refine ⟨rfl, ?_, ?_⟩ <;> (simp only [tsSub]; omega)

/-- The absolute difference is the distance, symmetric, and fits 32 bits. -/
theorem C07_abs (a b : U32) :
    absDiff a b = ((a.toNat : Int) - b.toNat).natAbs ∧ absDiff a b = absDiff b a ∧
    0 ≤ absDiff a b ∧ absDiff a b < 2 ^ 32 := by
  have := a.isLt; have := b.isLt
  have h1 : absDiff a b = ((a.toNat : Int) - b.toNat).natAbs := by
    unfold absDiff tsSub; split <;> (simp only [BitVec.lt_def] at *; omega)
  have h2 : absDiff b a = ((b.toNat : Int) - a.toNat).natAbs := by
    unfold absDiff tsSub; split <;> (simp only [BitVec.lt_def] at *; omega)
  refine ⟨h1, ?_, ?_, ?_⟩ <;> omega

/-- An absolute difference placed in the header field reads back exactly. -/
theorem C07_readback {p : Packet} (h : 20 ≤ p.bytes.length) (a b : U32) :
    (p.setTimestampDifference (absDiff a b)).timestampDifference = absDiff a b :=
  (C02_write h).2.2.1 _ (C07_abs a b).2.2.1 (C07_abs a b).2.2.2

example : nowMicroseconds 1700000000 999999 = BitVec.ofNat 32 1700000000999999 := by decide
example : absDiff 3 10 = 7 ∧ absDiff 10 3 = 7 := by decide

/-- Whatever number is drawn, the two identifiers are consecutive, sender id one above receiver id,
without wrapping. -/
theorem C08_draw (id : U16) :
    (sequentialIdentifiers id).2.toNat = (sequentialIdentifiers id).1.toNat + 1 := by
  have := id.isLt
  unfold sequentialIdentifiers
  split
  · simp only [BitVec.toNat_add]; simp; omega
  · simp only [BitVec.toNat_sub]; simp; omega

/-- The first identifier is the number drawn, except that 65534 stands for 65535: every pair of consecutive numbers can be drawn. -/
theorem C08_drawn (id : U16) : (sequentialIdentifiers id).1 = if id = 65535 then 65534 else id := by
  have := id.isLt
  unfold sequentialIdentifiers
  by_cases h : id = 65535
  · subst h; rfl
  · have h' : id.toNat ≠ 65535 := fun e => h (BitVec.eq_of_toNat_eq e)
    rw [if_pos (by omega), if_neg h]

example : sequentialIdentifiers 65535 = (65534, 65535) := by decide

/-- Each failure is reported with its documented kind. -/
theorem C54_kinds :
    (IoErr.sock .connectionClosed).kind = .notConnected ∧ (IoErr.sock .notConnected).kind = .notConnected ∧
    (IoErr.sock .connectionReset).kind = .connectionReset ∧ (IoErr.sock .connectionTimedOut).kind = .timedOut ∧
    (IoErr.sock .invalidAddress).kind = .invalidInput ∧ (IoErr.sock .invalidReply).kind = .connectionRefused ∧
    (IoErr.sock .other).kind = .other ∧ (∀ e, (IoErr.parse e).kind = .other) ∧ (∀ k, (IoErr.os k).kind = k) := by
  refine ⟨rfl, rfl, rfl, rfl, rfl, rfl, rfl, fun e => rfl, fun k => rfl⟩

end Utp
