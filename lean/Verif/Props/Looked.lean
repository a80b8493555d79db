import Verif.Props.Unread
/-!
# C118, the other way round: each of the parts that are looked at matters
-/

namespace Utp
open M

/-- The network delivers the same but for bytes `lo` to `hi - 1` of accepted datagrams of the type with this code. -/
def SameOutside (code lo hi : Nat) (e e' : NetEvent) : Prop :=
  e' = e ∨ ∃ b b' a, e = .dgram b a ∧ e' = .dgram b' a ∧ b'.length = b.length ∧ (∀ i, i < lo ∨ hi ≤ i → b'[i]? = b[i]?) ∧
    (b.getD 0 0).toNat / 16 = code ∧ Packet.tryFrom b = some (.ok ⟨b⟩) ∧ Packet.tryFrom b' = some (.ok ⟨b'⟩)

/-- Bytes `lo` to `hi - 1` of datagrams of the type with this code matter: there is a socket on which operations have other results or
other effects when nothing but these bytes differs. -/
def Matters (code lo hi : Nat) : Prop := ∃ (E : Env) (net : Nat → NetEvent) (fuel : Nat) (ops : List Op) (w : World), Reach E w ∧
  (∀ k, SameOutside code lo hi (E.net k) (net k)) ∧
  (results (E.withNet net) fuel ops w ≠ results E fuel ops w ∨ (runs (E.withNet net) fuel ops w).log ≠ (runs E fuel ops w).log)

namespace Sample

/-- This arrives, and then acknowledgements.  The congestion window grows as fast as is allowed. -/
def leadEnv (b : Bytes) : Env := { env (arr b :: List.replicate 3 (arr (dg .state 6 3 100))) with cwndStep := fun _ _ _ => 100000 }

/-- Bytes from `i` on are replaced. -/
def overwrite (i : Nat) (l b : Bytes) : Bytes := b.take i ++ l ++ b.drop (i + l.length)

theorem matters_first {code lo hi : Nat} (b b' : Bytes) (ops : List Op) (hl : b'.length = b.length)
    (hb : ∀ i < b.length, i < lo ∨ hi ≤ i → b'[i]? = b[i]?) (hc : (b.getD 0 0).toNat / 16 = code)
    (hp : Packet.tryFrom b = some (.ok ⟨b⟩) ∧ Packet.tryFrom b' = some (.ok ⟨b'⟩))
    (ha : accept (leadEnv b) 1 (arr (dg .syn 5 1 0)) (.ok here) = .made (.ok ()) (server (leadEnv b)) peer)
    (hd : results ((leadEnv b).withNet (leadEnv b').net) 20 ops (server (leadEnv b)) ≠ results (leadEnv b) 20 ops (server (leadEnv b)) ∨
      (runs ((leadEnv b).withNet (leadEnv b').net) 20 ops (server (leadEnv b))).log ≠ (runs (leadEnv b) 20 ops (server (leadEnv b))).log) :
    Matters code lo hi := by
  refine ⟨leadEnv b, (leadEnv b').net, 20, ops, server (leadEnv b), reach_server 0 [] ha (by simp [results]), fun k => ?_, hd⟩
  cases k with
  | zero =>
    refine .inr ⟨b, b', peer, rfl, rfl, hl, fun i hi' => ?_, hc, hp⟩
    by_cases h : i < b.length
    · exact hb i h hi'
    · rw [List.getElem?_eq_none (by omega), List.getElem?_eq_none (by omega)]
  | succ k => exact .inl rfl

/-- Data. -/
def someData : Bytes := dg .data 6 2 99 [1]
/-- An acknowledgement of one packet. -/
def ackOne : Bytes := dg .state 6 3 100
/-- An acknowledgement of two packets. -/
def ackTwo : Bytes := dg .state 6 3 101
/-- An acknowledgement of nothing with a selective acknowledgement of nothing. -/
def ackNone : Bytes := sackDg 6 3 99 [0, 0, 0, 0]

end Sample

section
open Sample

/-- C118 cannot be improved: the type, the connection identifier, the timestamp, the sequence number and the payload of data matter, and so
do the window, the acknowledgement number and the selective acknowledgement of State packets. -/
theorem C118_sharp : Matters 0 0 1 ∧ Matters 0 2 4 ∧ Matters 0 4 8 ∧ Matters 0 16 18 ∧ Matters 0 20 21 ∧
    Matters 2 12 16 ∧ Matters 2 18 20 ∧ Matters 2 22 26 := by
  refine ⟨?_, ?_, ?_, ?_, ?_, ?_, ?_, ?_⟩
  · exact matters_first someData (overwrite 0 [0x11] someData) [.recvFrom 10] (by decide +kernel) (by decide +kernel) (by decide +kernel)
      (by decide +kernel) (by decide +kernel) (.inl (by decide +kernel))
  · exact matters_first someData (overwrite 2 [0, 9] someData) [.recvFrom 10] (by decide +kernel) (by decide +kernel) (by decide +kernel)
      (by decide +kernel) (by decide +kernel) (.inr (by decide +kernel))
  · exact matters_first someData (overwrite 4 [0, 0, 0, 9] someData) [.recvFrom 10] (by decide +kernel) (by decide +kernel) (by decide +kernel)
      (by decide +kernel) (by decide +kernel) (.inr (by decide +kernel))
  · exact matters_first someData (overwrite 16 [0, 3] someData) [.recvFrom 10] (by decide +kernel) (by decide +kernel) (by decide +kernel)
      (by decide +kernel) (by decide +kernel) (.inl (by decide +kernel))
  · exact matters_first someData (overwrite 20 [3] someData) [.recvFrom 10] (by decide +kernel) (by decide +kernel) (by decide +kernel)
      (by decide +kernel) (by decide +kernel) (.inl (by decide +kernel))
  · exact matters_first ackTwo (overwrite 12 [0, 0, 10, 240] ackTwo) [.sendTo (List.replicate 2760 1), .flush, .sendTo (List.replicate 4140 7)]
      (by decide +kernel) (by decide +kernel) (by decide +kernel) (by decide +kernel) (by decide +kernel) (.inr (by decide +kernel))
  · exact matters_first ackOne (overwrite 18 [0, 99] ackOne) [.sendTo [1], .flush] (by decide +kernel) (by decide +kernel) (by decide +kernel)
      (by decide +kernel) (by decide +kernel) (.inr (by decide +kernel))
  · exact matters_first ackNone (overwrite 22 [7, 0, 0, 0] ackNone) [.sendTo (List.replicate 2000 1), .flush] (by decide +kernel) (by decide +kernel)
      (by decide +kernel) (by decide +kernel) (by decide +kernel) (.inr (by decide +kernel))

end

end Utp
