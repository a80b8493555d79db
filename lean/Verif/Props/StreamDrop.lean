import Verif.StreamDrop
import Verif.Props.Threads
import Verif.Props.Drop
import Verif.Props.Liveness
import Verif.Props.Lifecycle
/-!
# Dropping the last clone of a stream: C74
-/

namespace Utp
open M Sample

variable {E : Env}

theorem discard_other {fuel : Nat} {s : Slot} {st : Stream} (w : World) (l : Option Holder) (hi : ∀ vec, st.slot s ≠ some (vec, .holding)) :
    ({ st with w := w, lock := l } : Stream).discard E fuel s = { st with w := w, lock := l } :=
  discard_idle (by cases s <;> exact hi)

theorem discard_holding {st : Stream} {s : Slot} {vec : Bytes} (fuel : Nat) (h : st.slot s = some (vec, .holding)) :
    st.discard E fuel s = { st with w := (runOp E fuel (s.op vec) st.w).2, lock := none } := by
  unfold Stream.discard
  rw [h]

/-- The world in which the socket is dropped. -/
theorem dropStream_eq {st : Stream} (h : st.Consistent) (hm : st.lock ≠ some .method) (fuel fuel' : Nat) :
    (st.lock = none ∧ dropStream E fuel fuel' st = dropSocket E fuel' st.w) ∨
    ∃ s vec, st.lock = some (Slot.holder s) ∧ st.slot s = some (vec, .holding) ∧ dropStream E fuel fuel' st = dropSocket E fuel' (runOp E fuel (s.op vec) st.w).2 := by
  have hr : st.lock ≠ some .read → ∀ vec, st.read ≠ some (vec, .holding) := fun h1 vec h2 => h1 (h.read.mpr ⟨vec, h2⟩)
  have hw : st.lock ≠ some .write → ∀ vec, st.write ≠ some (vec, .holding) := fun h1 vec h2 => h1 (h.write.mpr ⟨vec, h2⟩)
  have hf : st.lock ≠ some .flush → ∀ vec, (st.flush.map fun x => (([] : Bytes), x)) ≠ some (vec, .holding) := by
    intro h1 vec h2
    refine h1 (h.flush.mpr ?_)
    cases hs : st.flush with
    | none => rw [hs] at h2; simp at h2
    | some x => rw [hs] at h2; simp at h2; rw [h2.2]
  have hc : ∀ vec, (st.close.map fun x => (([] : Bytes), x)) ≠ some (vec, .holding) := by
    intro vec
    rw [h.close.1]
    simp
  unfold dropStream
  rcases hl : st.lock with _ | o
  · left
    refine ⟨rfl, ?_⟩
    rw [discard_idle (st := st) (s := .read) (fuel := fuel) (hr (by simp [hl])), discard_idle (st := st) (s := .write) (fuel := fuel) (hw (by simp [hl])), discard_idle (st := st) (s := .flush) (fuel := fuel) (hf (by simp [hl])),
      discard_idle (st := st) (s := .close) (fuel := fuel) hc]
  · right
    cases o with
    | read =>
      obtain ⟨vec, hv⟩ := h.read.mp hl
      refine ⟨.read, vec, rfl, hv, ?_⟩
      rw [discard_holding (s := .read) fuel hv, discard_other (st := st) (s := .write) (fuel := fuel) _ _ (hw (by simp [hl])), discard_other (st := st) (s := .flush) (fuel := fuel) _ _ (hf (by simp [hl])),
        discard_other (st := st) (s := .close) (fuel := fuel) _ _ hc]
    | write =>
      obtain ⟨vec, hv⟩ := h.write.mp hl
      refine ⟨.write, vec, rfl, hv, ?_⟩
      rw [discard_idle (st := st) (s := .read) (fuel := fuel) (hr (by simp [hl])), discard_holding (s := .write) fuel hv, discard_other (st := st) (s := .flush) (fuel := fuel) _ _ (hf (by simp [hl])),
        discard_other (st := st) (s := .close) (fuel := fuel) _ _ hc]
    | flush =>
      have hv := h.flush.mp hl
      have hv' : st.slot .flush = some ([], .holding) := by simp [Stream.slot, hv]
      refine ⟨.flush, [], rfl, hv', ?_⟩
      rw [discard_idle (st := st) (s := .read) (fuel := fuel) (hr (by simp [hl])), discard_idle (st := st) (s := .write) (fuel := fuel) (hw (by simp [hl])), discard_holding (s := .flush) fuel hv',
        discard_other (st := st) (s := .close) (fuel := fuel) _ _ hc]
    | close => exact absurd hl h.close.2
    | method => exact absurd hl hm

/-- **C74.**  Dropping the last clone of a stream drops the socket: in the state it has, if nothing is in progress; otherwise the operation in progress, whichever it is, is cut off and the socket is
dropped in the state the operation left.  In a build without overflow checks this is a state that calls of socket operations can reach, so everything that is proved of such states holds of it. -/
theorem C74_drop {st : Stream} (h : SReach E st) (hm : st.lock ≠ some .method) (hc : E.checks = false) (fuel : Nat) :
    ∃ w, Reach E w ∧ (∀ fuel', dropStream E fuel fuel' st = dropSocket E fuel' w) ∧ (st.lock = none → w = st.w) ∧
      ∀ s, st.lock = some (Slot.holder s) → ∃ vec, st.slot s = some (vec, .holding) ∧ w = (runOp E fuel (s.op vec) st.w).2 := by
  have key := fun fuel' => dropStream_eq (E := E) h.consistent hm fuel fuel'
  rcases key 0 with ⟨h1, -⟩ | ⟨s, vec, h1, h2, -⟩
  · refine ⟨st.w, h.reach, fun fuel' => ?_, fun _ => rfl, fun s hs => by rw [h1] at hs; cases hs⟩
    rcases key fuel' with ⟨-, h2⟩ | ⟨s, vec, h2, -⟩
    · exact h2
    · rw [h1] at h2
      cases h2
  · have hu : ∀ s', st.lock = some (Slot.holder s') → s' = s := by
      intro s' hs
      rw [h1] at hs
      cases s <;> cases s' <;> simp_all [Slot.holder]
    refine ⟨(runOp E fuel (s.op vec) st.w).2, ?_, fun fuel' => ?_, fun hn => ?_, fun s' hs => ?_⟩
    · obtain ⟨w0, h4, h5⟩ := h.reach
      exact ⟨w0, h4, .op fuel _ h5 (C45_ops_partial hc h.reach fuel _)⟩
    · rcases key fuel' with ⟨h3, -⟩ | ⟨s', vec', h3, h4, h5⟩
      · rw [h1] at h3
        cases h3
      · obtain rfl := hu s' h3
        rw [h2] at h4
        cases h4
        exact h5
    · rw [h1] at hn
      cases hn
    · obtain rfl := hu s' hs
      exact ⟨vec, h2, rfl⟩

/-- A dropped socket and `close`. -/
theorem dropSocket_close {fuel : Nat} {w w' : World} {r : Res Out} (h : runOp E fuel .close w = (r, w')) (h1 : r ≠ .pending) (h2 : r ≠ .panic) :
    dropSocket E fuel w = (.ok (), w') := by
  have h' : M.andThen (close E fuel) (fun _ => pure Out.unit) w = (r, w') := h
  unfold M.andThen at h'
  unfold dropSocket M.ignoreErr
  rcases hcl : close E fuel w with ⟨r', v⟩
  rw [hcl] at h'
  cases r' <;> cases h'
  · rfl
  · rfl
  · exact absurd rfl h2
  · exact absurd rfl h1

/-- **C74.**  If the network falls silent in the end, the drop ends, and it ends normally, whatever was in progress. -/
theorem C74_ends {st : Stream} (h : SReach E st) (hm : st.lock ≠ some .method) (hc : E.checks = false) {N : Nat} (hq : FallsSilent E N) (fuel : Nat) :
    ∃ w', ∃ F, ∀ fuel', F ≤ fuel' → dropStream E fuel fuel' st = (.ok (), w') := by
  obtain ⟨w, hw, h1, -⟩ := C74_drop h hm hc fuel
  obtain ⟨r, w', h2, F, h3⟩ := C57_partial hq .close w
  refine ⟨w', F, fun fuel' hf => ?_⟩
  rw [h1]
  refine dropSocket_close (h3 fuel' hf) h2 fun hp => ?_
  have := C45_ops_partial hc hw F .close
  rw [h3 F (Nat.le_refl _), hp] at this
  exact this rfl

/-- **C74.**  The drop sends a FIN only when the peer has acknowledged everything sent (or a FIN was sent before). -/
theorem C74_fin {st : Stream} (h : SReach E st) (hm : st.lock ≠ some .method) (hc : E.checks = false) (fuel fuel' : Nat) :
    ∃ w, Reach E w ∧ (st.lock = none → w = st.w) ∧ Traced E FinRule w (dropStream E fuel fuel' st).2 := by
  obtain ⟨w, hw, h1, h2, -⟩ := C74_drop h hm hc fuel
  refine ⟨w, hw, h2, ?_⟩
  rw [h1]
  have h3 := C34_fin hw fuel' .close (C45_ops_partial hc hw fuel' .close)
  have e : (dropSocket E fuel' w).2 = (runOp E fuel' .close w).2 := by
    show (M.ignoreErr (close E fuel') w).2 = (M.andThen (close E fuel') (fun _ => pure Out.unit) w).2
    unfold M.ignoreErr M.andThen
    rcases close E fuel' w with ⟨r', v⟩
    cases r' <;> rfl
  rw [e]
  exact h3

/-- A read waits for data; the last clone is dropped, the FIN goes out at once, and the drop ends when it is acknowledged. -/
example :
    let E := env [.never, arr (dg .state 6 2 100)]
    let st := (pollRead E 9 false [0, 0, 0] (sstream E)).2.2
    SReach E st ∧ st.lock = some .read ∧ (dropStream E 9 9 st).1 = .ok () ∧
      (sent (dropStream E 9 9 st).2).map (fun b => (Packet.mk b).getType) = [some .state, some .fin] ∧ (dropStream E 9 9 st).2.s.state = .closed := by
  refine ⟨.step (sreach_server (by decide +kernel)) (.other (.read 9 false _ ?_)), by decide +kernel, by decide +kernel, by decide +kernel, by decide +kernel⟩
  intro h
  have : (match (pollRead (env [.never, arr (dg .state 6 2 100)]) 9 false [0, 0, 0] (sstream (env [.never, arr (dg .state 6 2 100)]))).1 with | .panic => true | _ => false) = true := by rw [h]
  revert this
  decide +kernel

end Utp
