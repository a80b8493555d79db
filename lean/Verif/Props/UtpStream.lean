import Verif.Lemmas.UtpStream
import Verif.Props.Safety
import Verif.Props.Handshake
import Verif.Samples
/-!
# The stream interface: C49–C53, and the stream of incoming connections (C41)
-/

namespace Utp
open M

variable {E : Env}

/-- **C49.**  A read that completes ran one `recv_from` on the socket, with a buffer as long as the caller's; it returns the number of bytes received, and
they are the beginning of the caller's buffer. -/
theorem C49_read {fuel : Nat} {go : Bool} {buf buf' : Bytes} {st st' : Stream} {n : Nat}
    (h : pollRead E fuel go buf st = (.ready (.ok n), buf', st')) :
    ∃ src, runOp E fuel (.recvFrom buf.length) st.w = (.ok (.bytes (buf'.take n) src), st'.w) ∧ (buf'.take n).length = n ∧
      buf'.length = buf.length ∧ st'.read = none ∧ (st.read = none → buf'.drop n = buf.drop n) := by
  rcases pollRead_cases (E := E) fuel go buf st with ⟨l, sg, h1, -⟩ | ⟨-, -, ⟨b, src, w, h1, h2, h3, h4⟩ | ⟨e, w, h1, h4⟩⟩ | ⟨h1, -⟩
  · rw [h1] at h; simp at h
  · rw [h4] at h
    simp only [Prod.mk.injEq, PollRes.ready.injEq, Except.ok.injEq] at h
    obtain ⟨rfl, rfl, rfl⟩ := h
    refine ⟨src, ?_, by simp, by simp; omega, rfl, ?_⟩
    · rw [h3] at h1; simpa using h1
    · intro hn
      simp [Stream.reading, hn]
  · rw [h4] at h; simp at h
  · rw [h] at h1; simp at h1

theorem socket_safe {st : Stream} (hr : SReach E st) (fuel : Nat) {α : Type} {f : α → Op}
    (hop : E.checks = true → ∀ a, (runOp E fuel (f a) st.w).1 ≠ .panic) (a : α) : (runOp E fuel (f a) st.w).1 ≠ .panic := by
  rcases h : E.checks
  · exact C45_ops_partial h hr.reach fuel _
  · exact hop h a

/-- **C49.**  A poll of a read that does not complete leaves the socket and the caller's buffer as they are; one that fails was refused by the socket.  So, with
`C49_read`, bytes are taken from the socket and not returned to the caller only if the poll panics, which happens (if `recv_from` itself does not, as it never does in a build without overflow checks) only after a failed read
or if the caller passes a buffer of another length than the one of the pending read.

Partial: nothing forbids a caller to do so (`C49_counterexample`). -/
theorem C49_kept_partial {st : Stream} (hr : SReach E st) (fuel : Nat) (hop : E.checks = true → ∀ len, (runOp E fuel (.recvFrom len) st.w).1 ≠ .panic)
    (go : Bool) (buf : Bytes) :
    (∃ n, (pollRead E fuel go buf st).1 = .ready (.ok n)) ∨
    ((pollRead E fuel go buf st).1 = .pending ∧ (pollRead E fuel go buf st).2.1 = buf ∧ (pollRead E fuel go buf st).2.2.w = st.w) ∨
    (∃ e w, pollRead E fuel go buf st = (.ready (.error e), buf, w) ∧ ∃ len, runOp E fuel (.recvFrom len) st.w = (.err e, w.w)) ∨
    ((pollRead E fuel go buf st).1 = .panic ∧ ∃ vec sg, st.read = some (vec, sg) ∧ (sg = .finished ∨ vec.length ≠ buf.length)) := by
  rcases pollRead_cases (E := E) fuel go buf st with ⟨l, sg, h1, -⟩ | ⟨-, -, ⟨b, src, w, h1, h2, h3, h4⟩ | ⟨e, w, h1, h4⟩⟩ | ⟨h1, -, h2⟩
  · rw [h1]; exact .inr (.inl ⟨rfl, rfl, rfl⟩)
  · rw [h4]; exact .inl ⟨_, rfl⟩
  · rw [h4]; exact .inr (.inr (.inl ⟨e, _, rfl, _, h1⟩))
  · refine .inr (.inr (.inr ⟨h1, ?_⟩))
    rcases hs : st.read with _ | ⟨vec, sg⟩
    · exfalso
      have : st.reading buf = (buf, .queued) := by simp [Stream.reading, hs]
      rw [this] at h2
      rcases h2 with h2 | h2 | h2
      · simp at h2
      · exact h2 rfl
      · exact socket_safe (f := Op.recvFrom) hr fuel hop _ h2
    · have : st.reading buf = (vec, sg) := by simp [Stream.reading, hs]
      rw [this] at h2
      rcases h2 with h2 | h2 | h2
      · exact ⟨vec, sg, rfl, .inl h2⟩
      · exact ⟨vec, sg, rfl, .inr h2⟩
      · exact absurd h2 (socket_safe (f := Op.recvFrom) hr fuel hop _)

theorem waiting_slot {buf : Bytes} {a b : Stream} (hc : a.Consistent) (hw : a.write = none) (h : Waiting E buf a b) :
    b.Consistent ∧ (b.writing buf).1 = buf := by
  induction h with
  | refl => exact ⟨hc, by simp [Stream.writing, hw]⟩
  | @write b fuel go h hp ih =>
    obtain ⟨ih, ih'⟩ := ih
    refine ⟨ih.step (.write fuel go buf (by rw [hp]; simp)), ?_⟩
    rcases pollWrite_cases (E := E) fuel go buf b with ⟨l, sg, h1, -⟩ | ⟨-, -, ⟨w, h3, h4⟩ | ⟨e, w, h3, h4⟩⟩ | ⟨h1, -⟩
    · rw [h1]; exact ih'
    · rw [h4] at hp; simp at hp
    · rw [h4] at hp; simp at hp
    · rw [h1] at hp; simp at hp
  | other h hs ih =>
    obtain ⟨ih, ih'⟩ := ih
    exact ⟨ih.step (.other hs), by unfold Stream.writing at ih' ⊢; rw [(sother_op ih hs).1]; exact ih'⟩

/-- **C50.**  A write that completes, when all polls since the write before it passed the same buffer, ran one `send_to` with exactly this buffer, and returns its
length.

Partial: polls with another buffer, or by another clone, are not excluded by the interface (`C50_counterexample`). -/
theorem C50_write_partial {fuel : Nat} {go : Bool} {buf : Bytes} {st0 st st' : Stream} {n : Nat} (hr : SReach E st0) (h0 : st0.write = none)
    (hw : Waiting E buf st0 st) (h : pollWrite E fuel go buf st = (.ready (.ok n), st')) :
    n = buf.length ∧ runOp E fuel (.sendTo buf) st.w = (.ok (.count n), st'.w) ∧ st'.write = none := by
  obtain ⟨hc, hv⟩ := waiting_slot hr.consistent h0 hw
  rcases pollWrite_cases (E := E) fuel go buf st with ⟨l, sg, h1, -⟩ | ⟨-, -, ⟨w, h3, h4⟩ | ⟨e, w, h3, h4⟩⟩ | ⟨h1, -⟩
  · rw [h1] at h; simp at h
  · rw [h4, hv] at h
    rw [hv] at h3
    simp only [Prod.mk.injEq, PollRes.ready.injEq, Except.ok.injEq] at h
    obtain ⟨rfl, rfl⟩ := h
    exact ⟨rfl, h3, rfl⟩
  · rw [h4] at h; simp at h
  · rw [h] at h1; simp at h1

/-- **C50**, exactly once: until then nothing is passed to `send_to`.  A pending poll of a write leaves the socket as it is, and all other calls leave it as it is or run another
operation. -/
theorem C50_once {buf : Bytes} {st : Stream} (hr : SReach E st) :
    (∀ fuel go, (pollWrite E fuel go buf st).1 = .pending → (pollWrite E fuel go buf st).2.w = st.w) ∧
    (∀ st', SOther E st st' → st'.w = st.w ∨ ∃ fuel op r, runOp E fuel op st.w = (r, st'.w) ∧ ∀ b, op ≠ .sendTo b) := by
  constructor
  · intro fuel go hp
    rcases pollWrite_cases (E := E) fuel go buf st with ⟨l, sg, h1, -⟩ | ⟨-, -, ⟨w, h3, h4⟩ | ⟨e, w, h3, h4⟩⟩ | ⟨h1, -⟩
    · rw [h1]
    · rw [h4] at hp; simp at hp
    · rw [h4] at hp; simp at hp
    · rw [h1] at hp; simp at hp
  · intro st' h
    rcases (sother_op hr.consistent h).2 with h | ⟨fuel, op, r, h1, -, h2⟩
    · exact .inl h
    · exact .inr ⟨fuel, op, r, h1, h2⟩

/-- **C51 is false of the code**: after a read that failed, every poll of a read panics, and after a write that failed, every poll of a write does. -/
theorem C51_counterexample_always :
    (∀ (st st' : Stream) fuel go buf buf' e, pollRead E fuel go buf st = (.ready (.error e), buf', st') →
      ∀ fuel go buf, (pollRead E fuel go buf st').1 = .panic) ∧
    (∀ (st st' : Stream) fuel go buf e, pollWrite E fuel go buf st = (.ready (.error e), st') →
      ∀ fuel go buf, (pollWrite E fuel go buf st').1 = .panic) := by
  constructor
  · intro st st' fuel go buf buf' e h fuel' go' b
    have hs : ∃ vec, st'.read = some (vec, .finished) := by
      rcases pollRead_cases (E := E) fuel go buf st with ⟨l, sg, h1, -⟩ | ⟨-, -, ⟨b, src, w, h1, h2, h3, h4⟩ | ⟨e, w, h1, h4⟩⟩ | ⟨h1, -⟩
      · rw [h1] at h; simp at h
      · rw [h4] at h; simp at h
      · rw [h4] at h
        simp only [Prod.mk.injEq] at h
        rw [← h.2.2]; exact ⟨_, rfl⟩
      · rw [h] at h1; simp at h1
    obtain ⟨vec, hs⟩ := hs
    rw [pollRead_eq]
    simp [Stream.reading, hs, pollFuture]
  · intro st st' fuel go buf e h fuel' go' b
    have hs : ∃ vec, st'.write = some (vec, .finished) := by
      rcases pollWrite_cases (E := E) fuel go buf st with ⟨l, sg, h1, -⟩ | ⟨-, -, ⟨w, h3, h4⟩ | ⟨e, w, h3, h4⟩⟩ | ⟨h1, -⟩
      · rw [h1] at h; simp at h
      · rw [h4] at h; simp at h
      · rw [h4] at h
        simp only [Prod.mk.injEq] at h
        rw [← h.2]; exact ⟨_, rfl⟩
      · rw [h] at h1; simp at h1
    obtain ⟨vec, hs⟩ := hs
    rw [pollWrite_eq]
    simp [Stream.writing, hs, pollFuture]

/-- **C51.**  What remains true (if the socket itself does not panic, as it never does in a build without overflow checks): flushing never panics, not even after it failed; and a write panics only if
an earlier one failed. -/
theorem C51_partial {st : Stream} (hr : SReach E st) (fuel : Nat) (hop : E.checks = true → ∀ op, (runOp E fuel op st.w).1 ≠ .panic) (go : Bool) :
    (pollFlush E fuel go st).1 ≠ .panic ∧
    (∀ buf, (pollWrite E fuel go buf st).1 = .panic → ∃ vec, st.write = some (vec, .finished)) := by
  constructor
  · intro h
    rcases pollFlush_cases (E := E) fuel go st with ⟨l, sg, h1, -⟩ | ⟨h1, h2, ⟨out, w, h3, h4⟩ | ⟨e, w, h3, h4⟩⟩ | ⟨-, h1 | h1⟩
    · rw [h1] at h; simp at h
    · rw [h4] at h; simp at h
    · rw [h4] at h; simp at h
    · exact hr.consistent.flushed h1
    · exact socket_safe (f := id) hr fuel hop _ h1
  · intro buf h
    rcases pollWrite_cases (E := E) fuel go buf st with ⟨l, sg, h1, -⟩ | ⟨-, -, ⟨w, h3, h4⟩ | ⟨e, w, h3, h4⟩⟩ | ⟨-, h1 | h1⟩
    · rw [h1] at h; simp at h
    · rw [h4] at h; simp at h
    · rw [h4] at h; simp at h
    · unfold Stream.writing at h1
      rcases hs : st.write with _ | ⟨vec, sg⟩
      · rw [hs] at h1; simp at h1
      · rw [hs] at h1; simp only [Option.getD_some] at h1; exact ⟨vec, by rw [h1]⟩
    · exact absurd h1 (socket_safe (f := id) hr fuel hop _)

/-- **C52 is false of the code**: whatever happened before, polling the stream closed panics, when no other thread does so at the same moment. -/
theorem C52_counterexample {st : Stream} (hr : SReach E st) (fuel : Nat) (tryWrite go : Bool) :
    (pollClose E fuel true tryWrite go st).1 = .panic := by
  rw [pollClose_panic fuel tryWrite go hr.consistent.close.1]

/-- **C52**, what `poll_close` does otherwise.  Only when `try_read` fails, as another thread polls the slot at this moment, does it make a future, and it panics if `try_write` fails, too.
The future flushes the socket, and does not close it: when the flush succeeds, `poll_close` is ready without an error, and the socket is as the flush left it.  While
the flush waits, or another operation has the lock, the future stays in the slot, and the next `poll_close` goes on with it. -/
theorem C52_flushes {st : Stream} (fuel : Nat) :
    (∀ go, (pollClose E fuel false false go st).1 = .panic) ∧
    (∀ out w, st.lock = none → runOp E fuel .flush st.w = (.ok out, w) → pollClose E fuel false true true st = (.ready (.ok ()), { st with w := w, close := none })) ∧
    (∀ e w, st.lock = none → runOp E fuel .flush st.w = (.err e, w) → pollClose E fuel false true true st = (.ready (.error e), { st with w := w, close := none })) ∧
    (st.lock = none → pollClose E fuel false true false st = (.pending, { st with lock := some .close, close := some .holding })) ∧
    (∀ go, st.lock ≠ none → pollClose E fuel false true go st = (.pending, { st with close := some .queued })) ∧
    (∀ tw, st.close = some .holding →
      (∀ out w, runOp E fuel .flush st.w = (.ok out, w) → pollClose E fuel true tw true st = (.ready (.ok ()), { st with w := w, lock := none, close := none })) ∧
      pollClose E fuel true tw false st = (.pending, st)) := by
  refine ⟨fun go => rfl, fun out w hl ho => ?_, fun e w hl he => ?_, fun hl => ?_, fun go hl => ?_, fun tw hc => ⟨fun out w ho => ?_, ?_⟩⟩
  · simp [pollClose, pollUnit, pollFuture, runHolding, hl, ho]
  · simp [pollClose, pollUnit, pollFuture, runHolding, hl, he]
  · simp [pollClose, pollUnit, pollFuture, runHolding, hl]
  · simp [pollClose, pollUnit, pollFuture, hl]
  · simp [pollClose, pollUnit, pollFuture, runHolding, hc, ho]
  · obtain ⟨w, l, r, wr, f, c⟩ := st
    subst hc
    rfl

/-- **C53.**  The address queries answer exactly when no operation is in progress: no future in a slot and no method has the lock.

Partial: the property says always (`C53_counterexample`). -/
theorem C53_partial {st : Stream} (hr : SReach E st) :
    (st.localAddr = some st.w.s.localAddr ↔ ¬ ((∃ v, st.read = some (v, .holding)) ∨ (∃ v, st.write = some (v, .holding)) ∨ st.flush = some .holding ∨ st.lock = some .method)) ∧
    (st.localAddr = none ↔ (∃ v, st.read = some (v, .holding)) ∨ (∃ v, st.write = some (v, .holding)) ∨ st.flush = some .holding ∨ st.lock = some .method) ∧
    (st.peerAddr = none ↔ st.localAddr = none) ∧ (st.peerAddr ≠ none → st.peerAddr = some st.w.s.peerAddr) := by
  have hc := hr.consistent
  rw [← hc.read, ← hc.write, ← hc.flush]
  unfold Stream.localAddr Stream.peerAddr
  have := hc.close.2
  rcases hl : st.lock with _ | h
  · simp
  · rw [hl] at this
    cases h <;> simp at this ⊢

/-- **C41**, the stream of incoming connections: polling it never ends it, and gives each result of `accept` once: the slot holds a
future until the future is ready, and then the next poll makes a new one. -/
theorem C41_incoming {F R : Type} (make : F) (poll : F → Sum F R) (slot : Option F) :
    (pollNext make poll slot).1 ≠ some none ∧
    (∀ r, poll (slot.getD make) = .inr r → pollNext make poll slot = (some (some r), none)) ∧
    (∀ f, poll (slot.getD make) = .inl f → pollNext make poll slot = (none, some f)) := by
  have e : pollNext make poll slot = match poll (slot.getD make) with
      | .inl f' => (none, some f')
      | .inr r => (some (some r), none) := by
    unfold pollNext; cases slot <;> rfl
  rw [e]
  rcases poll (slot.getD make) with f | r <;> simp

section
open Sample

/-- One data packet arrives. -/
def oneData : Env := env [arr (dg .data 6 2 0 [7, 8, 9])]

/-- The stream of an accepted socket. -/
def sstream (E : Env) : Stream := .ofWorld (server E)

theorem sreach_server {E : Env} (h : accept E 1 (arr (dg .syn 5 1 0)) (.ok here) = .made (.ok ()) (server E) peer) : SReach E (sstream E) :=
  .made (reach_server 0 [] h (by simp [results]))

/-- **C49**: a case that meets the hypotheses. -/
example : (pollRead oneData 9 true [0, 0, 0, 0, 0] (sstream oneData)).2.1 = [7, 8, 9, 0, 0] ∧
    (match (pollRead oneData 9 true [0, 0, 0, 0, 0] (sstream oneData)).1 with | .ready (.ok n) => n == 3 | _ => false) = true := by decide +kernel

/-- **C49 is false of the code**: a read with a buffer of 5 bytes is pending; a read with a buffer of 4 bytes (by a clone, or after the first one was given up) panics, and
the bytes taken from the socket are lost. -/
theorem C49_counterexample :
    let st := (pollRead oneData 9 false [0, 0, 0, 0, 0] (sstream oneData)).2.2
    let r := pollRead oneData 9 true [0, 0, 0, 0] st
    SReach oneData st ∧ (match r.1 with | .panic => true | _ => false) = true ∧ r.2.1 = [0, 0, 0, 0] ∧ st.w.s.lastDropped = 1 ∧
    r.2.2.w.s.lastDropped = 2 := by
  refine ⟨.step (sreach_server (by decide +kernel)) (.other (.read 9 false _ ?_)), by decide +kernel, by decide +kernel, by decide +kernel, by decide +kernel⟩
  intro h
  have : (match (pollRead oneData 9 false [0, 0, 0, 0, 0] (sstream oneData)).1 with | .panic => true | _ => false) = true := by rw [h]
  revert this
  decide +kernel

/-- **C50 is false of the code**: a write of `[1, 2, 3]` is pending and given up; a write of `[9]` then returns 3, and what is sent is `[1, 2, 3]`. -/
theorem C50_counterexample :
    let E := env []
    let st := (pollWrite E 9 false [1, 2, 3] (sstream E)).2
    let r := pollWrite E 9 true [9] st
    SReach E st ∧ (match r.1 with | .ready (.ok n) => n == 3 | _ => false) = true ∧
    ((sent r.2.w).getLast?.map fun b => (Packet.mk b).payload) = some (some [1, 2, 3]) := by
  refine ⟨.step (sreach_server (by decide +kernel)) (.write 9 false _ ?_), by decide +kernel, by decide +kernel⟩
  intro h
  have : (match (pollWrite (env []) 9 false [1, 2, 3] (sstream (env []))).1 with | .panic => true | _ => false) = true := by rw [h]
  revert this
  decide +kernel

/-- **C50**: a case that meets the hypotheses. -/
example : (match (pollWrite (env []) 9 true [1, 2] (sstream (env []))).1 with | .ready (.ok n) => n == 2 | _ => false) = true := by decide +kernel

/-- **C51 is false of the code**: the peer closes; a write fails; the next write panics. -/
theorem C51_counterexample :
    let E := env [arr (dg .fin 6 2 0)]
    let st := (pollRead E 9 true [0] (sstream E)).2.2
    let r := pollWrite E 9 true [1] st
    let r' := pollWrite E 9 true [1] r.2
    (match r.1 with | .ready (.error (.sock .connectionClosed)) => true | _ => false) = true ∧
    (match r'.1 with | .panic => true | _ => false) = true := by
  decide +kernel

/-- **C52** in a state that meets the hypotheses. -/
example : SReach (env []) (sstream (env [])) := sreach_server (by decide +kernel)

/-- **C52**: the flush of a stream that has nothing to send succeeds; the socket stays connected, and nothing is sent. -/
example : let r := pollClose (env []) 9 false true true (sstream (env []))
    (match r.1 with | .ready (.ok ()) => true | _ => false) = true ∧ r.2.w.s.state = .connected ∧ sent r.2.w = sent (sstream (env [])).w := by decide +kernel

/-- **C53**: no operation is in progress. -/
example : SReach (env []) (sstream (env [])) ∧ (sstream (env [])).localAddr = some here :=
  ⟨sreach_server (by decide +kernel), by decide +kernel⟩

/-- **C53 is false of the code**: a read is pending. -/
theorem C53_counterexample :
    let E := env []
    let st := (pollRead E 9 false [0] (sstream E)).2.2
    SReach E st ∧ st.localAddr = none ∧ st.peerAddr = none := by
  refine ⟨.step (sreach_server (by decide +kernel)) (.other (.read 9 false _ ?_)), by decide +kernel, by decide +kernel⟩
  intro h
  have : (match (pollRead (env []) 9 false [0] (sstream (env []))).1 with | .panic => true | _ => false) = true := by rw [h]
  revert this
  decide +kernel

end

end Utp
