import Verif.Basic
/-!
# `src/bit_iterator.rs`
-/

namespace Utp

/-- `BitIterator` (src/bit_iterator.rs:6-10). -/
structure BitIter where
  object : Bytes
  nextIndex : Nat
  endIndex : Nat
  deriving DecidableEq, Repr

/-- `BitIterator::from_bytes` (src/bit_iterator.rs:15-21). -/
def BitIter.fromBytes (obj : Bytes) : BitIter :=
  { object := obj, nextIndex := 0, endIndex := obj.length * 8 }

/-- `u8::count_ones`: the number of one bits of a byte. -/
def popcount8 (b : U8) : Nat :=
  (List.range 8).foldl (fun acc i => acc + (if b.getLsbD i then 1 else 0)) 0

/-- `BitIterator::count_ones` (src/bit_iterator.rs:24-26).  The `u32` sum cannot overflow: it is at
most 8 times the length of a datagram; it is a `Nat` here. -/
def BitIter.countOnes (it : BitIter) : Nat :=
  it.object.foldl (fun acc bv => acc + popcount8 bv) 0

/-- `Iterator::next` (src/bit_iterator.rs:32-41).  The outer `Option` is a panic (index out of
bounds); the inner one is Rust's `Option<bool>`.  `self.object[byte_index] >> bit_index & 0x1`. -/
def BitIter.next (it : BitIter) : Option (Option Bool × BitIter) :=
  if it.nextIndex ≠ it.endIndex then
    match it.object[it.nextIndex / 8]? with
    | none => none
    | some byte =>
      let bit := (byte >>> (it.nextIndex % 8)) &&& 1#8
      some (some (bit == 1#8), { it with nextIndex := it.nextIndex + 1 })
  else some (none, it)

/-- `size_hint` (src/bit_iterator.rs:43-45), which `ExactSizeIterator::len` returns
(src/bit_iterator.rs:48). -/
def BitIter.sizeHint (it : BitIter) : Nat := it.endIndex

/-- Drive the iterator to its end, as a `for` loop or `collect` does: `next` until it returns
`None`.  `none` is a panic.  The fuel is only there to make the definition structural;
`Verif/Props/Bits.lean` shows that `8 * length + 1` calls are enough. -/
def BitIter.collect : Nat → BitIter → Option (List Bool)
  | 0, _ => none
  | fuel + 1, it =>
    match it.next with
    | none => none
    | some (none, _) => some []
    | some (some b, it') => (BitIter.collect fuel it').map (b :: ·)

/-- `extension.iter()` consumed completely (src/packet.rs:119-121, src/socket.rs:1089-1092). -/
def bitsOf (data : Bytes) : Option (List Bool) :=
  BitIter.collect (data.length * 8 + 1) (BitIter.fromBytes data)

end Utp
