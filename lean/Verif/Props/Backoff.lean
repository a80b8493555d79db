import Verif.Lemmas.Backoff
import Verif.Props.Release
/-!
# C84: how long a socket waits for the peer
-/

namespace Utp
open M

variable {E : Env}

theorem Backs.of_run {w w' : World} (h : Run E w w') : Backs False E w w' := by
  induction h with
  | refl => exact .refl _
  | op fuel op _ _ ih => exact ih.trans (backs_runOp fuel op (fun h => h.elim) _)

/-- **C84**, what holds: after `n` receives that timed out, a socket that started with a timeout of `t` waits at most `max 60000 t · 2 ^ n` ms each time.

Partial: not at most 60 s (`C84_counterexample`, `C84_reads`). -/
theorem C84_partial {w w' : World} (h : Run E w w') :
    w'.s.congTimeout.toNat ≤ max 60000 w.s.congTimeout.toNat * 2 ^ timeouts E w.nNet w'.nNet ∧
    WaitsAtMost (max 60000 w.s.congTimeout.toNat * 2 ^ timeouts E w.nNet w'.nNet) w w' :=
  ⟨(Backs.of_run h).bound, (Backs.of_run h).waits⟩

/-- **C84**, exactly: nothing but an acknowledgement of outstanding data ends the doubling.  In any execution without `send_to`, with nothing outstanding at its start and whatever arrives in it,
`n` receives that time out multiply the timeout by `2 ^ n` (in 64 bits). -/
theorem C84_reads {w w' : World} {cs : List Bytes} (hs : w.s.sendWindow = []) (h : Exec E (fun op _ => ∀ buf, op ≠ .sendTo buf) w cs w') :
    w'.s.congTimeout = w.s.congTimeout * BitVec.ofNat 64 (2 ^ timeouts E w.nNet w'.nNet) := by
  suffices Backs True { E with checks := false } w w' from (this.exact trivial rfl hs).2
  induction h with
  | refl => exact .refl _
  | @op _ v fuel op _ _ hp ho _ ih =>
    have := backs_runOp (q := True) (E := { E with checks := false }) fuel op (fun _ => ho) v
    rw [C58_op hp] at this
    exact ih.trans this

section
open Sample

/-- Every byte of the peer comes after two receives that timed out. -/
def slowPeer : Env := env [.fail .timedOut, .fail .timedOut, arr (dg .data 6 2 100 [1]), .fail .timedOut, .fail .timedOut, arr (dg .data 6 3 100 [2]),
  .fail .timedOut, .fail .timedOut, arr (dg .data 6 4 100 [3]), .fail .timedOut, .fail .timedOut, arr (dg .data 6 5 100 [4])]

/-- `C84_reads` and `C84_partial` apply: there are 8 timeouts in this execution. -/
example : let w := runs slowPeer 9 [.recvFrom 9, .recvFrom 9, .recvFrom 9, .recvFrom 9] (server slowPeer)
    (server slowPeer).s.sendWindow = [] ∧ Run slowPeer (server slowPeer) w ∧ timeouts slowPeer (server slowPeer).nNet w.nNet = 8 ∧
    Exec slowPeer (fun op _ => ∀ buf, op ≠ .sendTo buf) (server slowPeer) ([] ++ []) (runs slowPeer 9 [.recvFrom 9] (server slowPeer)) :=
  ⟨by decide +kernel, run_runs 9 _ .refl (by decide +kernel), by decide +kernel,
    .op 9 (.recvFrom 9) [] .refl (by decide +kernel) (by simp) (by simp [Adds])⟩

/-- **C84 is false**: a socket that only reads, and got everything its peer sent, waits 256 s for the next datagram. -/
theorem C84_counterexample :
    let w := runs slowPeer 9 [.recvFrom 9, .recvFrom 9, .recvFrom 9, .recvFrom 9, .recvFrom 9] (server slowPeer)
    Reach slowPeer w ∧
    results slowPeer 9 [.recvFrom 9, .recvFrom 9, .recvFrom 9, .recvFrom 9, .recvFrom 9] (server slowPeer) =
      [.ok (.bytes [1] peer), .ok (.bytes [2] peer), .ok (.bytes [3] peer), .ok (.bytes [4] peer), .pending] ∧
    w.log.getLast? = some (.wait (some 256000)) :=
  ⟨reach_server _ _ (by decide +kernel) (by decide +kernel), by decide +kernel, by decide +kernel⟩

end

end Utp
