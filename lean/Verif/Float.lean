import Verif.Time
/-!
# Floating point: `f64`

`f64` values are exact rationals; every operation is the exact one followed by rounding to the nearest number with a
53-bit significand, ties to even (IEEE 754 binary64, which Rust prescribes).  Simplification: exponents are
unbounded.  No value exceeds 2^80, so infinities cannot occur.  An average of very many samples that are all 0 can become subnormal in the code, where
it is rounded more coarsely than here; this does not change any result, since it is either truncated to the integer 0 or added to a number of at least 1/4,
whose sum is rounded to that number.  The signed zero is not distinguished from zero.
-/

namespace Utp

/-- `2 ^ e`. -/
def pow2 (e : Int) : Rat := if 0 ≤ e then ((2 ^ e.toNat : Nat) : Rat) else 1 / ((2 ^ (-e).toNat : Nat) : Rat)

/-- The exponent of `x`: `2 ^ e ≤ |x| < 2 ^ (e + 1)`. -/
def expo (x : Rat) : Int :=
  let k : Int := (x.num.natAbs.log2 : Int) - (x.den.log2 : Int)
  if (if x < 0 then -x else x) < pow2 k then k - 1 else k

/-- The integer nearest to `q`, the even one of two. -/
def roundEven (q : Rat) : Int :=
  let f := q.floor
  let d := q - f
  if d < 1 / 2 then f else if 1 / 2 < d then f + 1 else if f % 2 = 0 then f else f + 1

/-- Round to `f64`. -/
def rne (x : Rat) : Rat :=
  if x = 0 then 0 else (roundEven (x / pow2 (expo x - 52)) : Rat) * pow2 (expo x - 52)

/-- Truncation towards zero. -/
def truncate (x : Rat) : Int := if x < 0 then -((-x).floor) else x.floor

/-- `x as i64`: truncate, saturate. -/
def asI64 (x : Rat) : Int :=
  let t := truncate x
  if t < -(2 ^ 63) then -(2 ^ 63) else if 2 ^ 63 - 1 < t then 2 ^ 63 - 1 else t

/-- `x as u32`: truncate, saturate. -/
def asU32 (x : Rat) : U32 :=
  let t := truncate x
  if t < 0 then 0 else if 2 ^ 32 - 1 < t then BitVec.ofNat 32 (2 ^ 32 - 1) else BitVec.ofNat 32 t.toNat

/-- `ewma` (src/util.rs:7-16); the samples are converted with `to_f64` (`i as f64` for a `Delay`, src/time.rs:90-98). -/
def ewmaF64 (samples : List Int) (alpha : Rat) : Rat :=
  match samples with
  | [] => 0
  | first :: rest =>
    rest.foldl (fun (avg : Rat) (sample : Int) => rne (rne (alpha * rne sample) + rne (rne (1 - alpha) * avg))) (rne first)

/-- `ewma(input, 0.333) as i64` (src/socket.rs:754-757). -/
def filteredDelay (samples : List Int) : Int := asI64 (ewmaF64 samples (rne (333 / 1000)))

/-- `off_target` (src/socket.rs:1065): `(TARGET - queuing_delay as f64) / TARGET`. -/
def offTarget (queuingDelay : U32) : Rat := rne (rne (100000 - rne queuingDelay.toNat) / 100000)

/-- The floating point part of `update_congestion_window` (src/socket.rs:1020-1024):
`GAIN * off_target * bytes_newly_acked as f64 * MSS as f64 / self.cwnd as f64`, added to `self.cwnd as f64`, `as u32`. -/
def cwndF64 (cwnd queuingDelay bytesNewlyAcked : U32) : U32 :=
  let increase := rne (rne (rne (1 * offTarget queuingDelay) * rne bytesNewlyAcked.toNat) * 1400)
  let increase := rne (increase / rne cwnd.toNat)
  asU32 (rne (rne cwnd.toNat + increase))

end Utp
