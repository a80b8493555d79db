import Verif.Spec.Karn
import Verif.Lemmas.Stamp
import Verif.Props.Ledbat
/-!
# C91: which transmission an acknowledgement is measured against

BEP 29: "rtt and rtt_var is only updated for packets that were sent only once" (Karn's algorithm).
-/

namespace Utp
open M Packet Sample

variable {E : Env}

/-- An outstanding packet is a data packet, and was handed to the operating system with its timestamp unless that is 0. -/
def WindowSent (w : World) : Prop :=
  ∀ p ∈ w.s.sendWindow, p.getType = some .data ∧ 20 ≤ p.bytes.length ∧ (p.timestamp = 0 ∨ ∃ dst ok, .send dst p.bytes ok ∈ w.log)

theorem step_windowSent {a b : World} (h : Step E .any a b) (hi : WindowSent a) : WindowSent b := by
  have keep : (∀ act ∈ a.log, act ∈ b.log) → (∀ p ∈ b.s.sendWindow, p ∈ a.s.sendWindow) → WindowSent b :=
    fun hl hs p hp => ⟨(hi p (hs p hp)).1, (hi p (hs p hp)).2.1, (hi p (hs p hp)).2.2.imp id fun ⟨d, o, h⟩ => ⟨d, o, hl _ h⟩⟩
  cases h with
  | wait => exact keep (fun _ h => List.mem_append_left _ h) fun _ h => h
  | send => exact keep (fun _ h => List.mem_append_left _ h) fun _ h => h
  | touch p rest t hw hk hl =>
    intro q hq
    simp only [setS_s, List.mem_cons] at hq
    rcases hq with rfl | hq
    · obtain ⟨h1, h2, _⟩ := hi p (by simp [hw])
      exact ⟨by rw [setTimestamp_getType]; exact h1, by rw [setTimestamp_length]; exact h2, .inr hl⟩
    · exact hi q (by simp [hw, hq])
  | push p _ hv hs hl _ =>
    intro q hq
    simp only [setS_s, List.mem_append, List.mem_singleton] at hq
    rcases hq with hq | rfl
    · exact hi q hq
    · exact ⟨hv.1.ty, hs.1, hl⟩
  | measure pkt src i p t s' _ _ _ _ _ _ hm =>
    refine keep (fun _ h => h) ?_
    obtain ⟨_, _, _, _, _, _, _, rfl⟩ := onNewAck_shape hm
    exact fun _ h => h
  | advance s' _ hm =>
    refine keep (fun _ h => h) ?_
    obtain ⟨n, c, rfl⟩ := advanceSendWindow_shape hm
    exact fun _ h => List.mem_of_mem_drop h
  | _ => exact keep (fun _ h => h) (by simp [enqueue, Socket.insertIntoBuffer, Socket.halveWindow])

theorem copies_mem {nr : Nat} {dst : Addr} {b : Bytes} {ok : Bool} (hk : kind b = 0) (hn : (b.getD 16 0).toNat * 256 + (b.getD 17 0).toNat = nr) :
    ∀ {l : List Act}, .send dst b ok ∈ l → stampOf b ∈ copies nr l
  | act :: l, h => by
    rcases List.mem_cons.mp h with rfl | h
    · unfold copies
      rw [if_pos ⟨hk, hn⟩]
      exact List.mem_cons_self
    · have ih := copies_mem hk hn h
      cases act with
      | send d c o =>
        unfold copies
        split
        · exact List.mem_cons_of_mem _ ih
        · exact ih
      | wait => exact ih

theorem seqNr_bytes (p : Packet) : (p.bytes.getD 16 0).toNat * 256 + (p.bytes.getD 17 0).toNat = p.seqNr.toNat := by
  have h := fun i => (byteAt p.bytes i).isLt
  have h1 := h 16; have h2 := h 17
  simp only [seqNr, be16, BitVec.toNat_ofNat, Nat.reduceAdd, byteAt] at *
  omega

theorem start_windowSent {w : World} (h : Start E w) : WindowSent w := by
  intro p hp
  exfalso
  cases h with
  | bound => simp [freshWorld, Socket.fromRawParts] at hp
  | connecting la a0 a st _ hs _ _ _ => simp [hs, Socket.fromRawParts] at hp
  | accepted => simp [acceptSocket, Socket.fromRawParts] at hp

theorem step_karn {a b : World} (h : Step E .any a b) (ha : WindowSent a) : KarnRule E a b := by
  cases h with
  | measure pkt src i p t s' hr ht _ _ hfi hp hm hk =>
    have hmem := List.mem_of_getElem? hp
    obtain ⟨h1, h2, h3⟩ := ha p hmem
    refine .inr ⟨pkt, src, p, hr, ht, hmem, (measure_acked hr ht hfi hp).2, ?_, hk.1, ?_⟩
    · rcases h3 with h3 | ⟨dst, ok, h3⟩
      · exact .inr (by rw [← timestamp_stampOf, h3]; rfl)
      · exact .inl (copies_mem (by rw [getType_kind h1]; rfl) (seqNr_bytes p) h3)
    · simp only [setS_s]
      rw [(onNewAck_delays hm).1, hk.2]
      simp [Socket.updateCurrentDelay, tsSub, timestamp_stampOf]
  | advance s' _ hm =>
    obtain ⟨n, c, rfl⟩ := advanceSendWindow_shape hm
    exact .inl ⟨rfl, rfl, rfl, rfl⟩
  | _ => exact .inl (by simp [enqueue, Socket.insertIntoBuffer, Socket.halveWindow])

/-- **C91** as far as it holds, along every operation of every execution, for any clock: what is known about the round trip changes only on an acknowledgement of an
outstanding packet, and the time counts from one of the times at which that packet was sent, or from 0.  Missing: that the packet was sent only once
(`C91_counterexample_timeout`, `C91_counterexample_resent`), and that the time does not count from 0 (`C91_counterexample_unsent`). -/
theorem C91_measured_partial {w : World} (hw : Reach E w) (fuel : Nat) (op : Op) (hp : (runOp E fuel op w).1 ≠ .panic) :
    Traced E (KarnRule E) w (runOp E fuel op w).2 :=
  op_path_inv (I := WindowSent) (fun _ h => start_windowSent h) (fun _ _ h hi => step_windowSent h hi) (fun _ _ h hi _ => step_karn h hi) hw fuel op hp

/-- The clock goes 10 ms per reading; then comes a timeout after a second, and then the acknowledgement of the packet. -/
def karnEnv : Env :=
  f64Env [.fail .timedOut, arr (dg .state 6 2 100)] fun k => BitVec.ofNat 32 (if k < 4 then 10000 * k else 1000000 + 10000 * k)

/-- What `C91_measured_partial` lacks: the packet 100 was sent at 30 ms and, after the timeout, again at 1040 ms; it is acknowledged at 1070 ms.  Whichever of
the two the acknowledgement answers, it counts as a round trip of 30 ms; the timeout goes down from 2 s to 500 ms. -/
theorem C91_counterexample_timeout : ∃ w, Reach karnEnv w ∧ w.s.rtt = 0 ∧ w.s.rttVar = 0 ∧ w.s.congTimeout = 1000 ∧ w.s.sendWindow.map Packet.seqNr = [100] ∧
    (runOp karnEnv 10 (.recvFrom 10) w).1 = .pending ∧
    copies 100 (runOp karnEnv 10 (.recvFrom 10) w).2.log = [30000, 1040000] ∧
    (runOp karnEnv 10 (.recvFrom 10) w).2.s.rtt = 3 ∧ (runOp karnEnv 10 (.recvFrom 10) w).2.s.rttVar = 7 ∧
    (runOp karnEnv 10 (.recvFrom 10) w).2.s.congTimeout = 500 ∧
    (runOp karnEnv 10 (.recvFrom 10) w).2.s.currDelays = [(1070000, 30000)] :=
  ⟨runs karnEnv 10 [full 1] (server karnEnv), reach_server _ _ (by decide +kernel) (by decide +kernel), by decide +kernel⟩

/-- The first of two packets is acknowledged three times, which means that the second is lost. -/
def karnEnv2 : Env :=
  f64Env [arr (dg .state 6 2 100), arr (dg .state 6 2 100), arr (dg .state 6 2 100), .fail .other, arr (dg .state 6 2 101)] fun k => BitVec.ofNat 32 (10000 * k)

/-- What `C91_measured_partial` lacks: the packet 101 was sent at 50 ms and again at 120 ms, and is acknowledged 30 ms later.  This counts as a round trip of
100 ms. -/
theorem C91_counterexample_resent : ∃ w, Reach karnEnv2 w ∧ copies 101 w.log = [50000, 120000] ∧ w.s.rtt = 6 ∧ w.s.rttVar = 12 ∧
    (runOp karnEnv2 10 (.recvFrom 10) w).1 = .pending ∧
    (runOp karnEnv2 10 (.recvFrom 10) w).2.s.rtt = 11 ∧ (runOp karnEnv2 10 (.recvFrom 10) w).2.s.rttVar = 20 ∧
    (runOp karnEnv2 10 (.recvFrom 10) w).2.s.currDelays = [(150000, 100000)] :=
  ⟨runs karnEnv2 10 [full 2, .recvFrom 10] (server karnEnv2), reach_server _ _ (by decide +kernel) (by decide +kernel), by decide +kernel⟩

/-- A listening socket that drew the number 40000: `send_to` does not send the first packets (`C23_counterexample`). -/
def karnEnv3 : Env :=
  { env [.fail .timedOut, arr (dg .state 6 2 40000), arr (dg .state 6 2 40000), arr (dg .state 6 2 40000), .fail .other, arr (dg .state 6 2 40001)]
      (rand := [7, 40000]) (now := fun k => BitVec.ofNat 32 (50000000 + 10000 * k)) with
    ewma := filteredDelay, cwndStep := cwndF64 }

/-- What `C91_measured_partial` lacks: the packet 40001 is sent once, after the packet before it was acknowledged three times, and acknowledged 30 ms later.  The
delay counts from the time 0, and is 50 s. -/
theorem C91_counterexample_unsent : ∃ w, Reach karnEnv3 w ∧ copies 40001 w.log = [50110000] ∧
    (runOp karnEnv3 10 (.recvFrom 10) w).1 = .pending ∧ copies 40001 (runOp karnEnv3 10 (.recvFrom 10) w).2.log = [50110000] ∧
    (runOp karnEnv3 10 (.recvFrom 10) w).2.s.currDelays = [(50140000, 50140000)] :=
  ⟨runs karnEnv3 10 [.sendTo [1], .sendTo [2], .recvFrom 10] (server karnEnv3), reach_server _ _ (by decide +kernel) (by decide +kernel), by decide +kernel⟩

/-- One packet, acknowledged 30 ms after it was sent. -/
def karnEnv0 : Env := f64Env [arr (dg .state 6 2 100)] fun k => BitVec.ofNat 32 (10000 * k)

/-- `C91_measured_partial` is about executions like this one. -/
example : ∃ w, Reach karnEnv0 w ∧ copies 100 w.log = [30000] ∧ Traced karnEnv0 (KarnRule karnEnv0) w (runOp karnEnv0 10 (.recvFrom 10) w).2 ∧
    (runOp karnEnv0 10 (.recvFrom 10) w).2.s.currDelays = [(60000, 30000)] := by
  have hr : Reach karnEnv0 (runs karnEnv0 10 [full 1] (server karnEnv0)) := reach_server _ _ (by decide +kernel) (by decide +kernel)
  exact ⟨_, hr, by decide +kernel, C91_measured_partial hr 10 (.recvFrom 10) (by decide +kernel), by decide +kernel⟩

end Utp
