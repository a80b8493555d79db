import Verif.Lemmas.AckOrder
import Verif.Samples
/-!
# C93: the acknowledgement numbers of a socket never go backwards
-/

namespace Utp
open Spec

variable {E : Env}

theorem made_acks {w : World} (hm : Made E w) (hs : w.s.state ≠ .new ∧ w.s.state ≠ .synSent) : AckRun E w.nNet 0 w.log w.s.ackNr.toNat True 0 w := by
  obtain ⟨_, h1, h2, h3⟩ := made_blank hm
  have h4 := (made_empty hm).1
  refine ⟨Nat.le_refl _, hs, fun _ => h2, fun h => absurd h2 h, fun p hp => ?_, fun p hp => ?_, ⟨0, ?_, ?_, [], by simp, by simp [waits], [], .nil, ⟨fun _ h => (List.not_mem_nil h).elim, rfl⟩⟩, Nat.zero_le _, fun _ _ => ?_⟩
  · rw [h3] at hp; cases hp
  · rw [h1, h4] at hp; simp at hp
  · have := w.s.ackNr.isLt; omega
  · rw [h3]; simp
  · refine ⟨by simp [highest], fun p hp => ?_, fun l hl => ?_⟩
    · rw [h3] at hp; cases hp
    · rw [List.self_eq_append_right.mp hl]
      intro x dst b ok y e
      simp at e

/-- C93 (partial).  A connection from its beginning on.  If the application finishes reading a packet before it writes, flushes or closes, the acknowledgement numbers of the State
datagrams sent since then never go backwards, over any 32767 receives. -/
theorem C93_partial {w0 w : World} (hm : Made E w0) (hs : w0.s.state ≠ .new ∧ w0.s.state ≠ .synSent) (h : RunWith TidyReads E w0 w) (hn : w.nNet < w0.nNet + 32768) :
    ∃ l, w.log = w0.log ++ l ∧ NeverBack w0.s.ackNr.toNat (ackNumbers l) :=
  (acks_run h (made_acks hm hs).any).out w0.s.ackNr.isLt hn

/-- C93 (partial).  The same if every read has room for a whole packet. -/
theorem C93_big_partial {w0 w : World} (hm : Made E w0) (hs : w0.s.state ≠ .new ∧ w0.s.state ≠ .synSent) (h : RunWith BigReads E w0 w) (hn : w.nNet < w0.nNet + 32768) :
    ∃ l, w.log = w0.log ++ l ∧ NeverBack w0.s.ackNr.toNat (ackNumbers l) :=
  (acks_run_big h (made_acks hm hs)).any.out w0.s.ackNr.isLt hn

open Sample

/-- A packet with three bytes arrives, then, while the application flushes, two more. -/
def backEnv : Env := env [arr (dg .data 6 2 0 [1, 2, 3]), arr (dg .data 6 3 0 [4]), arr (dg .data 6 4 0 [5])]

/-- Executions given by a list of operations, the condition being checked by evaluation. -/
theorem runWith_runs {P : World → Op → Prop} (fuel : Nat) : ∀ (ops : List Op) {w0 w : World}, RunWith P E w0 w → .panic ∉ results E fuel ops w →
    (∀ k, ∀ h : k < ops.length, P (runs E fuel (ops.take k) w) ops[k]) → RunWith P E w0 (runs E fuel ops w)
  | [], _, _, h, _, _ => h
  | op :: ops, w0, w, h, hp, hP => by
    simp only [results, List.mem_cons, not_or] at hp
    exact runWith_runs fuel ops (.op fuel op h (hP 0 (by simp)) (Ne.symm hp.1)) hp.2 fun k hk => hP (k + 1) (by simpa using hk)

/-- C93 fails in general: the application reads one byte of a packet with three bytes, writes and flushes.  Packet 3 is acknowledged, then the rest of packet 2 is dropped by the scratch read
of `flush` and the acknowledgement number is set back to 2, which is what the answer to packet 4 says. -/
theorem C93_counterexample : Made backEnv (server backEnv) ∧ (server backEnv).s.state = .connected ∧ Run backEnv (server backEnv) (runs backEnv 6 [.recvFrom 1, .sendTo [9], .flush] (server backEnv)) ∧
    ackNumbers (runs backEnv 6 [.recvFrom 1, .sendTo [9], .flush] (server backEnv)).log = ackNumbers (server backEnv).log ++ [2, 3, 2] ∧
    ¬ NeverBack (server backEnv).s.ackNr.toNat [2, 3, 2] := by
  refine ⟨.accept 1 (arr (dg .syn 5 1 0)) (.ok here) (r := .ok ()) (src := peer) (by decide +kernel) (by simp), by decide +kernel, run_runs 6 _ .refl (by decide +kernel), by decide +kernel, ?_⟩
  unfold NeverBack
  decide +kernel

/-- C93_partial applies: one byte is read, then the rest, then the application writes and flushes; the answers are 2, 3, 4. -/
example : ∃ l, (runs backEnv 6 [.recvFrom 1, .recvFrom 10, .sendTo [9], .flush] (server backEnv)).log = (server backEnv).log ++ l ∧ NeverBack 1 (ackNumbers l) :=
  C93_partial (w0 := server backEnv) (.accept 1 (arr (dg .syn 5 1 0)) (.ok here) (r := .ok ()) (src := peer) (by decide +kernel) (by simp)) (by decide +kernel)
    (runWith_runs 6 _ .refl (by decide +kernel) fun k h => by
      match k, h with
      | 0, _ => exact (by decide : 0 < 1)
      | 1, _ => exact (by decide : 0 < 10)
      | 2, _ => exact (by decide +kernel : (runs backEnv 6 [.recvFrom 1, .recvFrom 10] (server backEnv)).s.pending = [])
      | 3, _ => exact (by decide +kernel : (runs backEnv 6 [.recvFrom 1, .recvFrom 10, .sendTo [9]] (server backEnv)).s.pending = []))
    (by decide +kernel)

example : ackNumbers (runs backEnv 6 [.recvFrom 1, .recvFrom 10, .sendTo [9], .flush] (server backEnv)).log = ackNumbers (server backEnv).log ++ [2, 3, 4] := by decide +kernel

/-- C93_big_partial applies. -/
example : ∃ l, (runs backEnv 6 [.recvFrom 1500, .sendTo [9], .flush] (server backEnv)).log = (server backEnv).log ++ l ∧ NeverBack 1 (ackNumbers l) :=
  C93_big_partial (w0 := server backEnv) (.accept 1 (arr (dg .syn 5 1 0)) (.ok here) (r := .ok ()) (src := peer) (by decide +kernel) (by simp)) (by decide +kernel)
    (runWith_runs 6 _ .refl (by decide +kernel) fun k h => by
      match k, h with
      | 0, _ => exact (by decide : 1500 ≤ 1500)
      | 1, _ => trivial
      | 2, _ => trivial)
    (by decide +kernel)

end Utp
