import Verif.Lemmas.SplitRead
import Verif.Samples
/-!
# C122: reading a packet in pieces is reading it at once
-/

namespace Utp
open M

variable {E : Env}

/-- **C122.**  Let a read with a buffer of `k > 0` bytes return `b`, and let a part of the packet remain.  Then a further read returns at once, with
some bytes `c`, at most `m` of them, and without sending or waiting; and one read with a buffer of `k + m` bytes instead of
the two returns `b ++ c` and leaves the same world - no matter what was received, sent and waited for before `b` was
there. -/
theorem C122_pieces {fuel k m : Nat} (hk : 0 < k) (hm : 0 < m) {w u : World} {b : Bytes} {src : Addr}
    (h : runOp E fuel (.recvFrom k) w = (.ok (.bytes b src), u)) (hb : b ≠ []) (hu : u.s.pending ≠ []) :
    ∃ c v, c ≠ [] ∧ c.length ≤ m ∧ v.log = u.log ∧ (∀ f, runOp E f (.recvFrom m) u = (.ok (.bytes c u.s.connectedTo), v)) ∧
      runOp E fuel (.recvFrom (k + m)) w = (.ok (.bytes (b ++ c) src), v) := by
  simp only [runOp, bind_def, M.andThen] at h
  rcases hp : recvFrom E fuel k w with ⟨r, x⟩
  rw [hp] at h
  cases r with
  | err e => cases h
  | panic => cases h
  | pending => cases h
  | ok a =>
    obtain ⟨b', s'⟩ := a
    cases h
    have hc := (cut_recvFrom (m := m) hk fuel w _ _ u hp).2 hb hu
    have hf : (u.s.takePending m).1 = u.s.pending.take m := by unfold Socket.takePending; simp only; split <;> rfl
    have hn : (u.s.takePending m).1 ≠ [] := by
      rw [hf]
      intro h0
      rcases List.take_eq_nil_iff.mp h0 with h0 | h0
      · omega
      · exact hu h0
    have hd : (u.s.takePending m).2.connectedTo = u.s.connectedTo := by
      unfold Socket.takePending
      simp only
      split
      · unfold Socket.advanceIncoming
        split <;> rfl
      · rfl
    refine ⟨(u.s.takePending m).1, u.setS (u.s.takePending m).2, hn, ?_, rfl, fun f => ?_, ?_⟩
    · rw [hf, List.length_take]
      exact Nat.min_le_left ..
    · have hi : flushIncoming E m u = (.ok (u.s.takePending m).1, u.setS (u.s.takePending m).2) := by
        unfold flushIncoming
        simp only [bind_def, M.andThen, getS]
        rw [if_pos hu]
        rfl
      have hr : recvFrom E f m u = (.ok ((u.s.takePending m).1, u.s.connectedTo), u.setS (u.s.takePending m).2) := by
        unfold recvFrom
        simp only [bind_def, M.andThen, hi, getS]
        rw [if_pos hn]
        show ((.ok (_, (u.s.takePending m).2.connectedTo), _) : Res (Bytes × Addr) × World) = _
        rw [hd]
      simp only [runOp, bind_def, M.andThen, hr]
      rfl
    · simp only [runOp, bind_def, M.andThen, hc]
      rfl

section
open Sample

/-- Data arrive. -/
def fiveEnv : Env := env [arr (dg .data 6 2 99 [1, 2, 3, 4, 5]), arr (dg .data 6 3 99 [6, 7])]

/-- A read of two bytes that waits for the packet, and a read of two more. -/
example : ∃ v, runOp fiveEnv 20 (.recvFrom (2 + 2)) (server fiveEnv) = (.ok (.bytes [1, 2, 3, 4] peer), v) := by
  have h1 : (runOp fiveEnv 20 (.recvFrom 2) (server fiveEnv)).1 = .ok (.bytes [1, 2] peer) := by decide +kernel
  have h0 : (runOp fiveEnv 20 (.recvFrom 2) (server fiveEnv)).2.s.pending ≠ [] := by decide +kernel
  have h2 : (runOp fiveEnv 20 (.recvFrom 2) (runOp fiveEnv 20 (.recvFrom 2) (server fiveEnv)).2).1 = .ok (.bytes [3, 4] peer) := by decide +kernel
  generalize server fiveEnv = w at h0 h1 h2 ⊢
  rcases e : runOp fiveEnv 20 (.recvFrom 2) w with ⟨r, u⟩
  rw [e] at h0 h1 h2
  simp only at h0 h1 h2
  subst h1
  obtain ⟨c, v, _, _, _, h3, h4⟩ := C122_pieces (m := 2) (by omega) (by omega) e (by simp) h0
  rw [h3 20] at h2
  simp only [Res.ok.injEq, Out.bytes.injEq] at h2
  rw [h2.1] at h4
  exact ⟨v, h4⟩

/-- If nothing of the packet remains, it is not so: the two reads return the bytes of two packets, the one read those of one. -/
theorem C122_sharp : (results fiveEnv 20 [.recvFrom 5, .recvFrom 2] (server fiveEnv)).map bytesOf = [some [1, 2, 3, 4, 5], some [6, 7]] ∧
    (results fiveEnv 20 [.recvFrom 7] (server fiveEnv)).map bytesOf = [some [1, 2, 3, 4, 5]] := by decide +kernel

end

end Utp
