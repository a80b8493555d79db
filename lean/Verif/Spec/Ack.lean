import Verif.Spec.Trace
/-!
# Specification vocabulary: the effect of an acknowledgement
-/

namespace Utp

/-- `x` is the smallest element of the list. -/
def IsLeast (x : Int) (l : List Int) : Prop := x ∈ l ∧ ∀ y ∈ l, x ≤ y

/-- A delay `d` measured at the time `t` (both in microseconds) enters the history of base delays: in a new minute as a new entry, and the oldest of ten
goes; otherwise as a minimum. -/
inductive Enters (t : U32) (d : Int) : U32 × List Int → U32 × List Int → Prop
  | first {r : U32} : Enters t d (r, []) (t, [d])
  | minute {r : U32} {l : List Int} : 60000000 < (t.toNat : Int) - r.toNat → l ≠ [] → l.length ≠ 10 → Enters t d (r, l) (t, l ++ [d])
  | full {r : U32} {old : Int} {l : List Int} : 60000000 < (t.toNat : Int) - r.toNat → l.length = 9 → Enters t d (r, old :: l) (t, l ++ [d])
  | same {r : U32} {l : List Int} {last : Int} : (t.toNat : Int) - r.toNat ≤ 60000000 → Enters t d (r, l ++ [last]) (r, l ++ [min d last])

/-- The effect on a socket of the first acknowledgement, at the time `t`, of the outstanding packet `p`, by which the packets `acked` before it are acknowledged
too, but the packets `rest` after it are not.  `average` and `window` are the two floating point computations. -/
structure Acknowledged (average : List Int → Int) (window : U32 → U32 → U32 → U32) (t : U32) (acked : List Packet) (p : Packet) (rest : List Packet)
    (s s' : Socket) : Prop where
  outstanding : s'.sendWindow = rest
  flight : s'.currWindow = s.currWindow - BitVec.ofNat 32 (totalSize (acked ++ [p]))
  last : s'.lastAcked = p.seqNr ∧ s'.dupAcks = 1
  /-- The delay measured. -/
  base : Enters t ((t.toNat : Int) - p.timestamp.toNat) (s.lastRollover, s.baseDelays) (s'.lastRollover, s'.baseDelays)
  current : ∃ old kept, s.currDelays = old ++ kept ∧ s'.currDelays = kept ++ [(t, (t.toNat : Int) - p.timestamp.toNat)] ∧
    (∀ d ∈ old, (t.toNat : Int) - d.1.toNat > 100 * s.rtt) ∧ (∀ d, kept.head? = some d → (t.toNat : Int) - d.1.toNat ≤ 100 * s.rtt)
  /-- The estimates follow the queuing delay `q`. -/
  estimates : ∃ base q sample : Int, IsLeast base s'.baseDelays ∧ q = average (s'.currDelays.map (·.2)) - base ∧
    s'.cwnd.toNat = max 2800 (min (s.currWindow + 1400).toNat
      (window s.cwnd (BitVec.ofInt 32 q) (BitVec.ofNat 32 (totalSize (acked ++ [p])))).toNat) ∧
    sample = (((t.toNat : Int) - p.timestamp.toNat - q) % 2 ^ 32) / 1000 ∧
    s'.rtt = s.rtt + (sample - s.rtt).tdiv 8 ∧
    s'.rttVar = s.rttVar + (((s.rtt - sample).natAbs : Int) - s.rttVar).tdiv 4 ∧
    s'.congTimeout.toNat = max 500 (min 60000 (s'.rtt + 4 * s'.rttVar).toNat)

end Utp
