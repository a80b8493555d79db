import Verif.Lemmas.OtherClock
import Verif.Samples
/-!
# C110: what is read does not depend on the clock
-/

namespace Utp
open M

variable {E : Env} {clk : Nat → U32} {ew : List Int → Int} {cs : U32 → U32 → U32 → U32}

/-- One operation. -/
theorem clocks_op (fuel : Nat) {op : Op} (h : op.Silent) : Keeps Eq (runOp E fuel op) (runOp (E.withClock clk ew cs) fuel op) := by
  cases op with
  | recvFrom len => exact .seqE (clocks_recvFrom _ _) fun _ => .pure rfl
  | sendTo b => exact absurd rfl (h b)
  | flush => exact .seqE (clocks_flush _) fun _ => .pure rfl
  | close => exact .seqE (clocks_close _) fun _ => .pure rfl
  | setMaxRetries n =>
    refine .seqE (.modS ?_) fun _ => .pure rfl
    rintro s _ ⟨hs⟩
    exact ⟨hs⟩

/-- Operations in a row. -/
theorem clocks_ops (fuel : Nat) : ∀ (ops : List Op) (w w' : World), (∀ op ∈ ops, op.Silent) → PacedWorld w w' →
    results (E.withClock clk ew cs) fuel ops w' = results E fuel ops w ∧ PacedWorld (runs E fuel ops w) (runs (E.withClock clk ew cs) fuel ops w')
  | [], _, _, _, h => ⟨rfl, h⟩
  | op :: ops, w, w', ho, h => by
    obtain ⟨h1, h2⟩ := clocks_op (E := E) (clk := clk) (ew := ew) (cs := cs) fuel (ho op (by simp)) w w' h
    obtain ⟨h3, h4⟩ := clocks_ops fuel ops _ _ (fun o m => ho o (by simp [m])) h2
    refine ⟨?_, h4⟩
    simp only [results]
    rw [h3]
    refine congrArg (· :: _) ?_
    generalize (runOp E fuel op w).1 = r at h1
    generalize (runOp (E.withClock clk ew cs) fuel op w').1 = r' at h1
    cases h1 with
    | ok h => rw [h]
    | err | panic | pending => rfl

/-- A log agrees with itself. -/
theorem timedLog_refl (l : List Act) : List.Forall₂ TimedAct l l := by
  induction l with
  | nil => exact .nil
  | cons a l ih => cases a with
    | send d b ok => exact .cons (.send d ok (.refl b)) ih
    | wait t => exact .cons (.wait t) ih

/-- C110: as long as nothing sent is outstanding, what the operations other than sending return, which datagrams they send but for
the two timestamp fields, and how long they wait does not depend on what the clock shows (src/time.rs:7-14), nor on the floating
point computations on measured times.  Missing: sockets with unacknowledged data, for which it is false
(`C110_counterexample`). -/
theorem C110_clock_partial (clk : Nat → U32) (ew : List Int → Int) (cs : U32 → U32 → U32 → U32) (fuel : Nat) (ops : List Op) (w : World)
    (hw : w.s.sendWindow = []) (ho : ∀ op ∈ ops, op.Silent) :
    results (E.withClock clk ew cs) fuel ops w = results E fuel ops w ∧
      List.Forall₂ TimedAct (runs E fuel ops w).log (runs (E.withClock clk ew cs) fuel ops w).log := by
  obtain ⟨h1, h2⟩ := clocks_ops (E := E) (clk := clk) (ew := ew) (cs := cs) fuel ops w w ho
    ⟨.mk (d := w.s.theirDelay) (t := w.s.lastAckedTs) hw, rfl, rfl, rfl, timedLog_refl _⟩
  exact ⟨h1, h2.log⟩

namespace Sample

/-- Data out of order, a lost datagram, then the end of the stream. -/
def clockEnv : Env := env [arr (dg .data 6 3 100 [3, 3]), .fail .timedOut, arr (dg .data 6 2 100 [2]), arr (dg .fin 6 4 100)]

/-- A clock that runs backwards in large steps. -/
def strangeClock (k : Nat) : U32 := BitVec.ofNat 32 (4000000000 - 777777777 * k)

example : (server clockEnv).s.sendWindow = [] := by decide +kernel

/-- The data are read in order under either clock, while the datagrams sent differ. -/
example : (results clockEnv 20 [.recvFrom 10, .recvFrom 10, .close, .recvFrom 10] (server clockEnv)).map bytesOf = [some [2], some [3, 3], none, some []] ∧
    sent (runs clockEnv 20 [.recvFrom 10] (server clockEnv)) ≠
      sent (runs (clockEnv.withClock strangeClock (fun _ => 5) fun _ _ _ => 9) 20 [.recvFrom 10] (server clockEnv)) := by decide +kernel

/-- Two packets of data are outstanding when three equal acknowledgements and data arrive. -/
def busyEnv : Env := env [arr (dg .state 6 2 99), arr (dg .state 6 2 99), arr (dg .state 6 2 99), arr (dg .state 6 2 99), arr (dg .data 6 2 99 [1]), arr (dg .state 6 3 101),
  arr (dg .data 6 3 101 [2])]

/-- A socket that sent two full packets. -/
def busyWorld : World := runs busyEnv 20 [.sendTo (List.replicate 2760 7)] (server busyEnv)

end Sample

section
open Sample

/-- The same datagrams, read with two clocks: when the clock shows that half a second went by, the lost packet is sent again at once
and the data of the next datagram are returned; when it does not, the retransmission waits for room, reads that datagram itself and
throws its data away (src/socket.rs:654-664). -/
theorem C110_counterexample :
    Reach busyEnv busyWorld ∧ (results busyEnv 20 [.recvFrom 10] busyWorld).map bytesOf = [some [2]] ∧
      (results (busyEnv.withClock (fun k => BitVec.ofNat 32 (1000000 * k)) busyEnv.ewma busyEnv.cwndStep) 20 [.recvFrom 10] busyWorld).map bytesOf = [some [1]] :=
  ⟨reach_server 20 _ (by rfl) (by decide +kernel), by decide +kernel, by decide +kernel⟩

end

end Utp
