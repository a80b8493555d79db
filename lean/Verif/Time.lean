import Verif.Basic
/-!
# `src/time.rs` and `src/util.rs`

`Timestamp(u32)` is `U32`; `Delay(i64)` is `Int` (the values are differences of 32-bit numbers, far
from the limits of `i64`; floating point results that are cast to `i64` are oracles, see `Env`).
-/

namespace Utp

/-- `now_microseconds` (src/time.rs:7-14) as a function of what the system clock returned:
`(t.as_secs().wrapping_mul(1_000_000) as u32).wrapping_add(t.subsec_micros())`. -/
def nowMicroseconds (secs : U64) (subsecMicros : U32) : U32 :=
  (secs * 1000000#64).truncate 32 + subsecMicros

/-- `impl Sub for Timestamp` (src/time.rs:19-25): `Delay(self.0 as i64 - other.0 as i64)`. -/
def tsSub (a b : U32) : Int := (a.toNat : Int) - (b.toNat : Int)

/-- `impl From<Delay> for u32` (src/time.rs:60-64): `value.0 as u32` (truncation). -/
def delayToU32 (d : Int) : U32 := BitVec.ofInt 32 d

/-- `impl From<u32> for Delay` (src/time.rs:54-58). -/
def delayOfU32 (v : U32) : Int := (v.toNat : Int)

/-- `abs_diff` at type `Timestamp` (src/util.rs:19-25): `if a > b { a - b } else { b - a }`. -/
def absDiff (a b : U32) : Int := if b < a then tsSub a b else tsSub b a

/-- `generate_sequential_identifiers` (src/util.rs:32-40) as a function of the random draw:
`if id.checked_add(1).is_some() { (id, id + 1) } else { (id - 1, id) }`.
The result is (receiver id, sender id). -/
def sequentialIdentifiers (id : U16) : U16 × U16 :=
  if id.toNat + 1 < 65536 then (id, id + 1) else (id - 1, id)

/-- `ewma` (src/util.rs:7-16) over exact rationals instead of `f64` (simplification: no rounding):
the first sample, or 0, folded with `alpha * sample + (1 - alpha) * avg`. -/
def ewmaRat (samples : List Rat) (alpha : Rat) : Rat :=
  match samples with
  | [] => 0
  | first :: rest => rest.foldl (fun avg sample => alpha * sample + (1 - alpha) * avg) first

end Utp
