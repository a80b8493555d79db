import Verif.Lemmas.OtherStartLow
import Verif.Lemmas.Reach
import Verif.Lemmas.EndToEnd
import Verif.Samples
/-!
# C112: where our sequence numbers begin does not matter
-/

namespace Utp
open M

variable {E : Env} {d : U16}

theorem later_run (hc : E.checks = false) (hn : E.NoSack) (fuel : Nat) : ∀ (ops : List Op) (w : World), BegunLong w.s →
    results (E.later d) fuel ops (w.later d) = results E fuel ops w ∧ runs (E.later d) fuel ops (w.later d) = (runs E fuel ops w).later d
  | [], _, _ => ⟨rfl, rfl⟩
  | op :: ops, w, hw => by
    obtain ⟨h1, h2, h3⟩ := later_op (E := E) (d := d) hc hn fuel op w hw
    obtain ⟨h4, h5⟩ := later_run hc hn fuel ops (runOp E fuel op w).2 h3
    simp only [results, runs, h2]
    exact ⟨by rw [h4, sameRes_eq h1], h5⟩

theorem low_later_run (hn : E.AckLow d) (fuel : Nat) : ∀ (ops : List Op) (B : Nat) (w : World), UpTo B w.s → B + (ops.map Op.packets).sum + d.toNat < 65535 →
    results (E.later d) fuel ops (w.later d) = results E fuel ops w ∧ runs (E.later d) fuel ops (w.later d) = (runs E fuel ops w).later d
  | [], _, _, _, _ => ⟨rfl, rfl⟩
  | op :: ops, B, w, hw, hB => by
    rw [List.map_cons, List.sum_cons] at hB
    obtain ⟨h1, h2, h3⟩ := low_later_op (E := E) (d := d) hn fuel op hw (by omega)
    obtain ⟨h4, h5⟩ := low_later_run hn fuel ops (B + op.packets) (runOp E fuel op w).2 h3 (by omega)
    simp only [results, runs, h2]
    exact ⟨by rw [h4, sameRes_eq h1], h5⟩

/-- C112: add the same number to all our sequence numbers, in the socket and in the acknowledgements that come back.  Then all operations
return the same results, and the socket and everything sent is the same but for that number; in particular nothing happens
when the numbers wrap around.

Partial: in release builds, as the number after 65535 is computed with overflow checks in one place
(`C112_counterexample_debug`); and without selective acknowledgements, whose numbers are compared without regard to
wrapping (`C112_counterexample_sack`).  And the number last acknowledged has to be among the numbers that are
added to, whereas `accept` sets it to 0 whatever number it draws (`C112_counterexample_accept`). -/
theorem C112_start_partial (hc : E.checks = false) (hn : E.NoSack) {w : World} (hr : Reach E w) (hs : w.s.state ≠ .new) (fuel : Nat) (ops : List Op) :
    results (E.later d) fuel ops (w.later d) = results E fuel ops w ∧ runs (E.later d) fuel ops (w.later d) = (runs E fuel ops w).later d :=
  later_run hc hn fuel ops w ⟨hs, fun p m => ((reach_any hr).win p m).1.len, fun p m => ((reach_any hr).uns p m).2.2⟩

/-- C112, the other part: in both build modes and with selective acknowledgements, if neither our numbers wrap around after the number is added nor
those a selective acknowledgement can name.

Partial: as `C112_start_partial` about the number last acknowledged, and without wrapping. -/
theorem C112_low_partial (hn : E.AckLow d) {w : World} (hr : Reach E w) (hs : w.s.state ≠ .new) (hy : w.s.state ≠ .synSent) (fuel : Nat) (ops : List Op) {B : Nat}
    (h1 : w.s.seqNr.toNat ≤ B) (h2 : ∀ p ∈ w.s.sendWindow ++ w.s.unsent, p.seqNr.toNat ≤ B) (hB : B + (ops.map Op.packets).sum + d.toNat < 65535) :
    results (E.later d) fuel ops (w.later d) = results E fuel ops w ∧ runs (E.later d) fuel ops (w.later d) = (runs E fuel ops w).later d :=
  low_later_run hn fuel ops B w ⟨hs, hy, h1, fun p m => ⟨((reach_any hr).win p m).1.len, h2 p (by simp [m])⟩, fun p m => ⟨((reach_any hr).uns p m).2.2, h2 p (by simp [m])⟩⟩ hB

namespace Sample

/-- No selective acknowledgement in this datagram. -/
def sackFree : NetEvent → Bool
  | .dgram b _ => match Packet.tryFrom (b.take 1520) with
    | some (.ok p) => match p.extensions with
      | some exts => exts.all fun e => decide (e.ty ≠ .selectiveAck)
      | none => true
    | _ => true
  | _ => true

theorem noSack_of_all (E : Env) (l : List NetEvent) (he : E.net = fun k => l.getD k .never) (h : l.all sackFree = true) : E.NoSack := by
  intro k b a hk p exts hp hx e m
  rw [he] at hk
  simp only [List.getD_eq_getElem?_getD] at hk
  rcases hl : l[k]? with _ | ev
  · rw [hl] at hk
    cases hk
  · rw [hl] at hk
    simp only [Option.getD_some] at hk
    subst hk
    have := List.all_eq_true.1 h _ (List.mem_of_getElem? hl)
    simp only [sackFree, hp, hx] at this
    simpa using List.all_eq_true.1 this e m

/-- The acknowledgement number of this datagram is low. -/
def ackLow (d : U16) : NetEvent → Bool
  | .dgram b _ => match Packet.tryFrom (b.take 1520) with
    | some (.ok p) => decide (p.ackNr.toNat + d.toNat + 2041 < 65536)
    | _ => true
  | _ => true

theorem ackLow_of_all (E : Env) (l : List NetEvent) (he : E.net = fun k => l.getD k .never) (h : l.all (ackLow d) = true) : E.AckLow d := by
  intro k b a hk p hp
  rw [he] at hk
  simp only [List.getD_eq_getElem?_getD] at hk
  rcases hl : l[k]? with _ | ev
  · rw [hl] at hk
    cases hk
  · rw [hl] at hk
    simp only [Option.getD_some] at hk
    subst hk
    have := List.all_eq_true.1 h _ (List.mem_of_getElem? hl)
    simpa only [ackLow, hp, decide_eq_true_eq] using this

/-- A packet is lost and sent again, first after three acknowledgements of the one before, then after a timeout; data arrive; the connection is closed. -/
def startEnv : Env :=
  env (checks := false) [arr (dg .state 6 2 100), arr (dg .state 6 2 100), arr (dg .state 6 2 100), .fail .timedOut, arr (dg .data 6 2 101 [8, 9]), arr (dg .state 6 3 102), arr (dg .fin 6 3 103)]

/-- The hypotheses of `C112_start_partial` hold in this execution. -/
example : startEnv.checks = false ∧ startEnv.NoSack ∧ Reach startEnv (server startEnv) ∧ (server startEnv).s.state ≠ .new :=
  ⟨rfl, noSack_of_all _ _ rfl (by decide +kernel), reach_server 20 [] (by rfl) (by decide +kernel), by decide +kernel⟩

/-- What is done on the connection. -/
def startOps : List Op := [.sendTo [1], .sendTo [2], .sendTo [3], .recvFrom 10, .close, .recvFrom 10]

/-- The numbers 100 to 103 become 65534, 65535, 0 and 1. -/
example : (results startEnv 20 startOps (server startEnv)).map bytesOf = [none, none, none, some [8, 9], none, some []] ∧
    ((sent (runs startEnv 20 startOps (server startEnv))).map fun b => (b.drop 16).take 2) =
      [[0, 100], [0, 100], [0, 101], [0, 102], [0, 101], [0, 101], [0, 103], [0, 103], [0, 103]] ∧
    ((sent (runs (startEnv.later 65434) 20 startOps ((server startEnv).later 65434))).map fun b => (b.drop 16).take 2) =
      [[255, 254], [255, 254], [255, 255], [0, 0], [255, 255], [255, 255], [0, 1], [0, 1], [0, 1]] := by decide +kernel

end Sample

section
open Sample

/-- What C112 lacks, 1: an accepted connection that drew 100 sends its first packet, one that drew 40000 sends nothing, though both report that the
data were sent. -/
theorem C112_counterexample_accept : ∃ E E' w w', Reach E w ∧ Reach E' w' ∧ E.checks = false ∧ E'.net = (E.later 39900).net ∧ w'.s.seqNr = w.s.seqNr + 39900 ∧
    (runOp E 20 (.sendTo [1, 2, 3]) w).1 = .ok (.count 3) ∧ (runOp E' 20 (.sendTo [1, 2, 3]) w').1 = .ok (.count 3) ∧
    (runOp E 20 (.sendTo [1, 2, 3]) w).2.log.length = w.log.length + 1 ∧ (runOp E' 20 (.sendTo [1, 2, 3]) w').2.log = w'.log :=
  ⟨env [] (checks := false), env [] (checks := false) (rand := [7, 40000]), server (env [] (checks := false)), server (env [] (checks := false) (rand := [7, 40000])),
    reach_server 20 [] (by rfl) (by decide +kernel), reach_server 20 [] (by rfl) (by decide +kernel), rfl, rfl, by decide +kernel, by decide +kernel, by decide +kernel, by decide +kernel, by decide +kernel⟩

namespace Sample

/-- Four packets; the peer has the first, the second and the fourth. -/
def lostEnv : Env := env (checks := false) [arr (sackDg 6 2 100 [2, 0, 0, 0])]

end Sample

/-- What C112 lacks, 2: the packet 102 that a selective acknowledgement reports lost is sent again; if it has the number 65535, and the packet after
it the number 0, it is not. -/
theorem C112_counterexample_sack : ∃ E w, Reach E w ∧ w.s.state ≠ .new ∧ E.checks = false ∧
    ((sent (runOp E 20 (.recvFrom 10) w).2).drop (sent w).length).map (fun b => (b.drop 16).take 2) = [[0, 102]] ∧
    (sent (runOp (E.later 65433) 20 (.recvFrom 10) (w.later 65433)).2) = sent (w.later 65433) :=
  ⟨lostEnv, runs lostEnv 20 [.sendTo [1], .sendTo [2], .sendTo [3], .sendTo [4]] (server lostEnv), reach_server 20 _ (by rfl) (by decide +kernel), by decide +kernel, rfl,
    by decide +kernel, by decide +kernel⟩

namespace Sample

/-- In a debug build: four packets, of which the third is reported lost, then acknowledgements and data. -/
def lowEnv : Env := env (checks := true) [arr (sackDg 6 2 100 [2, 0, 0, 0]), arr (dg .state 6 2 103), arr (dg .data 6 2 103 [8, 9]), arr (dg .state 6 3 104)]

/-- What is done on the connection. -/
def lowOps : List Op := [.recvFrom 10, .sendTo [5], .close]

/-- After the four packets. -/
def lowWorld : World := runs lowEnv 20 [.sendTo [1], .sendTo [2], .sendTo [3], .sendTo [4]] (server lowEnv)

/-- The hypotheses of `C112_low_partial` hold in this execution, with 60000 added. -/
example : lowEnv.AckLow 60000 ∧ Reach lowEnv lowWorld ∧ lowWorld.s.state ≠ .new ∧ lowWorld.s.state ≠ .synSent ∧ lowWorld.s.seqNr.toNat ≤ 104 ∧
    (∀ p ∈ lowWorld.s.sendWindow ++ lowWorld.s.unsent, p.seqNr.toNat ≤ 104) ∧ 104 + (lowOps.map Op.packets).sum + (60000 : U16).toNat < 65535 :=
  ⟨ackLow_of_all _ _ rfl (by decide +kernel), reach_server 20 _ (by rfl) (by decide +kernel), by decide +kernel, by decide +kernel, by decide +kernel, by decide +kernel, by decide +kernel⟩

/-- The lost packet and those after it are sent with 60000 added. -/
example : (results lowEnv 20 lowOps lowWorld).map bytesOf = [some [8, 9], none, none] ∧
    (((sent (runs lowEnv 20 lowOps lowWorld)).drop (sent lowWorld).length).map fun b => (b.drop 16).take 2) = [[0, 102], [0, 104], [0, 104], [0, 105]] ∧
    (((sent (runs (lowEnv.later 60000) 20 lowOps (lowWorld.later 60000))).drop (sent lowWorld).length).map fun b => (b.drop 16).take 2) =
      [[234, 198], [234, 200], [234, 200], [234, 201]] := by decide +kernel

end Sample

namespace Sample

/-- Two packets; the first is acknowledged four times. -/
def dupEnv : Env := env (checks := true) [arr (dg .state 6 2 100), arr (dg .state 6 2 100), arr (dg .state 6 2 100), arr (dg .state 6 2 100)]

end Sample

/-- What C112 lacks, 3: in a debug build, the third repetition of the acknowledgement 100 makes us send the packet 101 again; the third repetition of 65535 panics. -/
theorem C112_counterexample_debug : ∃ E w, E.checks = true ∧ Reach E w ∧ w.s.state ≠ .new ∧ E.NoSack ∧
    (runOp E 20 (.recvFrom 10) w).1 = .pending ∧ (runOp (E.later 65435) 20 (.recvFrom 10) (w.later 65435)).1 = .panic :=
  ⟨dupEnv, runs dupEnv 20 [.sendTo [1], .sendTo [2]] (server dupEnv), rfl, reach_server 20 _ (by rfl) (by decide +kernel), by decide +kernel,
    noSack_of_all _ _ rfl (by decide +kernel), by decide +kernel, by decide +kernel⟩

end

end Utp
