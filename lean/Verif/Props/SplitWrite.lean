import Verif.Lemmas.SplitWrite
import Verif.Samples
/-!
# C120: a write that needs no waiting may be cut in two
-/

namespace Utp
open M

variable {E : Env}

/-- What one write queues is what two writes queue. -/
theorem queued_append {k : Nat} {a b : Bytes} (ha : a.length = k * 1380) (w : World) :
    queued w (a ++ b) = (queued w a).behind (framed (queued w a).s (chunks b.length b)) ((queued w a).s.seqNr + BitVec.ofNat 16 (chunks b.length b).length) := by
  unfold queued
  rw [chunks_append k a b ha, List.foldl_append]
  generalize (chunks a.length a).foldl enqueue w.s = s
  rw [fold_enqueue]
  rfl

/-- **C120.**  Let a write of a multiple of 1380 bytes (a whole number of full packets) succeed without any waiting, and
let a second write follow it at once.  Then one write of all the bytes does the same: it leaves the same world (thus
has sent the same datagrams in the same order at the same times), and its result is that of the second write, with the
bytes of the first added if it succeeds. -/
theorem C120_split {fuel : Nat} {a b : Bytes} {w u v : World} {r : Res Out} (ha : a.length % 1380 = 0)
    (h1 : runOp E fuel (.sendTo a) w = (.ok (.count a.length), u)) (hw : Waitless w u)
    (h2 : runOp E fuel (.sendTo b) u = (r, v)) (hr : r ≠ .pending) :
    ∃ fuel', runOp E fuel' (.sendTo (a ++ b)) w = (joinRes a.length r, v) := by
  obtain ⟨k, hk⟩ : ∃ k, a.length = k * 1380 := ⟨a.length / 1380, by omega⟩
  have hs : w.s.state ≠ .closed := by
    intro hc
    simp only [runOp, bind_def, M.andThen, sendTo_closed fuel a hc] at h1
    cases h1
  simp only [runOp, bind_def, M.andThen, sendTo_eq fuel a hs] at h1
  rcases hm : sendQueue E fuel fuel (queued w a) with ⟨x, u'⟩
  rw [hm] at h1
  cases x with
  | err e => cases h1
  | panic => cases h1
  | pending => cases h1
  | ok x =>
    have hu : u' = u := congrArg Prod.snd h1
    subst hu
    have hq : Waitless (queued w a) u' := hw
    have hus : u'.s.unsent = [] := sendQueue_ok fuel fuel _ _ _ hm
    obtain ⟨b1, b2, b3, b4, b5⟩ := sendQueue_behind (framed (queued w a).s (chunks b.length b)) ((queued w a).s.seqNr + BitVec.ofNat 16 (chunks b.length b).length) hm hq
    have hb : World.behind (framed (queued w a).s (chunks b.length b)) ((queued w a).s.seqNr + BitVec.ofNat 16 (chunks b.length b).length) u' = queued u' b := by
      have hf : framed (queued w a).s (chunks b.length b) = framed u'.s (chunks b.length b) := framed_congr b2.symm b3.symm b4.symm _
      rw [hf, ← b2]
      unfold queued World.behind
      rw [fold_enqueue]
      rfl
    have hus' : u'.s.state ≠ .closed := by
      rw [b5]
      unfold queued World.setS
      rw [fold_enqueue]
      exact hs
    simp only [runOp, bind_def, M.andThen, sendTo_eq fuel b hus'] at h2
    refine ⟨fuel + (queued w a).s.unsent.length, ?_⟩
    have he := b1 fuel
    rw [hb, ← queued_append hk] at he
    have hp : (sendQueue E fuel fuel (queued u' b)).1 ≠ .pending := by
      intro hp
      rcases hx : sendQueue E fuel fuel (queued u' b) with ⟨y, z⟩
      rw [hx] at h2 hp
      simp only at hp
      subst hp
      cases h2
      exact hr rfl
    have hf := le_sendQueue (E := E) (f := fuel) (f' := fuel + (queued w a).s.unsent.length) (Nat.le_add_right ..)
      (Nat.le_refl (fuel + (queued w a).s.unsent.length)) (queued w (a ++ b)) (by rw [he]; exact hp)
    simp only [runOp, bind_def, M.andThen, sendTo_eq _ (a ++ b) hs, hf, he]
    rcases hx : sendQueue E fuel fuel (queued u' b) with ⟨y, z⟩
    rw [hx] at h2
    cases y with
    | ok y =>
      cases h2
      simp only [joinRes, M.ret, List.length_append]
      rfl
    | err e => cases h2; rfl
    | panic => cases h2; rfl
    | pending => cases h2; exact absurd rfl hr

theorem joinRes_add (i j : Nat) (r : Res Out) : joinRes i (joinRes j r) = joinRes (i + j) r := by
  match r with
  | .ok (.count n) => simp only [joinRes, Nat.add_assoc]
  | .ok (.bytes _ _) => rfl
  | .ok .unit => rfl
  | .err _ => rfl
  | .panic => rfl
  | .pending => rfl

theorem joinRes_pending {i : Nat} {r : Res Out} (h : r ≠ .pending) : joinRes i r ≠ .pending := by
  match r with
  | .ok (.count n) => exact fun h => nomatch h
  | .ok (.bytes _ _) => exact h
  | .ok .unit => exact h
  | .err _ => exact h
  | .panic => exact h
  | .pending => exact h

theorem grows_write (fuel : Nat) (a : Bytes) : Grows (runOp E fuel (.sendTo a)) := .bind (grows_sendTo fuel a) fun _ => .pure

theorem grows_writes (fuel : Nat) : ∀ (bufs : List Bytes) (u : World), u.log <+: (runs E fuel (bufs.map .sendTo) u).log
  | [], _ => List.prefix_refl _
  | a :: bufs, u => (grows_write fuel a u).trans (grows_writes fuel bufs _)

/-- C120 for any number of writes: if all but the last are of full packets and succeed without waiting, one write of all the bytes does the same. -/
theorem C120_many {fuel : Nat} {b : Bytes} {v : World} {r : Res Out} (hr : r ≠ .pending) : ∀ {bufs : List Bytes} {w : World}, (∀ a ∈ bufs, a.length % 1380 = 0) →
    results E fuel (bufs.map .sendTo) w = bufs.map (fun a => .ok (.count a.length)) → Waitless w (runs E fuel (bufs.map .sendTo) w) →
    runOp E fuel (.sendTo b) (runs E fuel (bufs.map .sendTo) w) = (r, v) →
    ∃ fuel', runOp E fuel' (.sendTo (bufs.flatten ++ b)) w = (joinRes bufs.flatten.length r, v)
  | [], w, _, _, _, h => by
    refine ⟨fuel, h.trans ?_⟩
    match r with
    | .ok (.count n) => simp only [joinRes, List.flatten_nil, List.length_nil, Nat.zero_add]
    | .ok (.bytes _ _) => rfl
    | .ok .unit => rfl
    | .err _ => rfl
    | .panic => rfl
    | .pending => rfl
  | a :: bufs, w, ha, hs, hw, h => by
    rcases e : runOp E fuel (.sendTo a) w with ⟨x, u⟩
    simp only [List.map_cons, results, runs, e, List.cons.injEq] at hs hw h
    obtain ⟨rfl, hs⟩ := hs
    have h1 : w.log <+: u.log := by
      have := grows_write (E := E) fuel a w
      rw [e] at this
      exact this
    obtain ⟨w1, w2⟩ := hw.split h1 (grows_writes fuel bufs u)
    obtain ⟨f, hf⟩ := C120_many hr (fun c hc => ha c (List.mem_cons_of_mem _ hc)) hs w2 h
    have e1 := runOp_fuel (E := E) (Nat.le_add_right fuel f) (.sendTo a) (w := w) (by rw [e]; simp)
    have e2 := runOp_fuel (E := E) (Nat.le_add_left f fuel) (.sendTo (bufs.flatten ++ b)) (w := u) (by rw [hf]; exact joinRes_pending hr)
    rw [e] at e1
    rw [hf] at e2
    obtain ⟨g, hg⟩ := C120_split (ha a (List.mem_cons_self ..)) e1 w1 e2 (joinRes_pending hr)
    refine ⟨g, ?_⟩
    rw [List.flatten_cons, List.append_assoc, List.length_append, hg, joinRes_add]

section
open Sample

/-- Nothing arrives. -/
def stillEnv : Env := env []

/-- A world in whose log nothing was waited for. -/
theorem waitless_of {w v : World} (k : Nat) (h : v.log = w.log ++ v.log.drop k) (hn : (v.log.drop k).all (fun a => match a with | .wait _ => false | _ => true) = true) :
    Waitless w v := by
  refine ⟨_, h, fun t ht => ?_⟩
  have := List.all_eq_true.mp hn _ ht
  cases this

theorem pair_of {α β : Type} {x : α × β} {a : α} (h : x.1 = a) : x = (a, x.2) := by
  subst h
  rfl

/-- The hypotheses hold for a full packet and one byte written to a new connection; the one write returns 1381. -/
example : ∃ fuel', ∃ v, runOp stillEnv fuel' (.sendTo (List.replicate 1380 7 ++ [8])) (server stillEnv) = (.ok (.count 1381), v) ∧
    (sent v).map List.length = [20, 1400, 21] := by
  have h1 : (runOp stillEnv 5 (.sendTo (List.replicate 1380 7)) (server stillEnv)).1 = .ok (.count 1380) := by decide +kernel
  have h2 : (runOp stillEnv 5 (.sendTo [8]) (runOp stillEnv 5 (.sendTo (List.replicate 1380 7)) (server stillEnv)).2).1 = .ok (.count 1) := by decide +kernel
  have h3 : (sent (runOp stillEnv 5 (.sendTo [8]) (runOp stillEnv 5 (.sendTo (List.replicate 1380 7)) (server stillEnv)).2).2).map List.length = [20, 1400, 21] := by
    decide +kernel
  have hw : Waitless (server stillEnv) (runOp stillEnv 5 (.sendTo (List.replicate 1380 7)) (server stillEnv)).2 :=
    waitless_of (server stillEnv).log.length (by decide +kernel) (by decide +kernel)
  obtain ⟨f, hf⟩ := C120_split (E := stillEnv) (fuel := 5) (a := List.replicate 1380 7) (b := [8]) (w := server stillEnv) (by decide +kernel)
    (pair_of (by rw [h1, List.length_replicate])) hw (pair_of h2) (by simp)
  refine ⟨f, _, hf.trans ?_, h3⟩
  rw [List.length_replicate]
  rfl

/-- Three writes: the hypotheses of the general form hold, too. -/
example : results stillEnv 5 ([List.replicate 1380 7, List.replicate 1380 8].map .sendTo) (server stillEnv) = [.ok (.count 1380), .ok (.count 1380)] ∧
    Waitless (server stillEnv) (runs stillEnv 5 ([List.replicate 1380 7, List.replicate 1380 8].map .sendTo) (server stillEnv)) :=
  ⟨by decide +kernel, waitless_of (server stillEnv).log.length (by decide +kernel) (by decide +kernel)⟩

/-- The first part must end with a full packet: two writes of one byte send two datagrams, one write of two bytes sends one. -/
theorem C120_sharp : ∃ u v, runOp stillEnv 5 (.sendTo [7]) (server stillEnv) = (.ok (.count 1), u) ∧ Waitless (server stillEnv) u ∧
    runOp stillEnv 5 (.sendTo [8]) u = (.ok (.count 1), v) ∧ ∀ fuel', runOp stillEnv fuel' (.sendTo [7, 8]) (server stillEnv) ≠ (.ok (.count 2), v) := by
  refine ⟨(runOp stillEnv 5 (.sendTo [7]) (server stillEnv)).2, (runOp stillEnv 5 (.sendTo [8]) (runOp stillEnv 5 (.sendTo [7]) (server stillEnv)).2).2,
    Prod.ext (by decide +kernel) rfl, waitless_of (server stillEnv).log.length (by decide +kernel) (by decide +kernel), Prod.ext (by decide +kernel) rfl, ?_⟩
  intro f hf
  have h5 : (runOp stillEnv 5 (.sendTo [7, 8]) (server stillEnv)).1 ≠ .pending := by decide +kernel
  have hx : (runOp stillEnv f (.sendTo [7, 8]) (server stillEnv)).1 ≠ .pending := by rw [hf]; simp
  have e1 := runOp_fuel (f' := f + 5) (Nat.le_add_right f 5) _ hx
  have e2 := runOp_fuel (f' := f + 5) (Nat.le_add_left 5 f) _ h5
  have e : (runOp stillEnv 5 (.sendTo [7, 8]) (server stillEnv)).2.nSnd = (runOp stillEnv 5 (.sendTo [8]) (runOp stillEnv 5 (.sendTo [7]) (server stillEnv)).2).2.nSnd := by
    rw [← e2, e1, hf]
  revert e
  decide +kernel

end

end Utp
