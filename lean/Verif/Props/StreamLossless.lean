import Verif.Spec.StreamLossless
import Verif.Lemmas.UtpStream
import Verif.Props.Shutdown
/-!
# C108: two streams over a network that loses nothing
-/

namespace Utp
open M

variable {E : Env}

/-- What the operation of an awaited future does to the socket. -/
inductive Awaited {α : Type} (E : Env) (op : Op) (f : Out → α) (w : World) : PollRes α → Stream → Prop
  | ok {fuel : Nat} {out : Out} {w' : World} : runOp E fuel op w = (.ok out, w') → Awaited E op f w (.ready (.ok (f out))) (.ofWorld w')
  | err {fuel : Nat} {e : IoErr} {w' : World} {st : Stream} : runOp E fuel op w = (.err e, w') → Awaited E op f w (.ready (.error e)) st
  | panic {fuel : Nat} {st : Stream} : (runOp E fuel op w).1 = .panic → Awaited E op f w .panic st

/-- The stream whose writer waits. -/
def writeWaits (w : World) (buf : Bytes) : Stream := { Stream.ofWorld w with lock := some .write, write := some (buf, .holding) }
def readWaits (w : World) (buf : Bytes) : Stream := { Stream.ofWorld w with lock := some .read, read := some (buf, .holding) }
def flushWaits (w : World) : Stream := { Stream.ofWorld w with lock := some .flush, flush := some .holding }

def countOf : Out → Nat
  | .count n => n
  | _ => 0
def bytesOf : Out → Bytes
  | .bytes b _ => b
  | _ => []

/-- One poll of a write, from an idle stream or while it waits. -/
theorem write_poll {w : World} {buf : Bytes} {st : Stream} (hst : st = .ofWorld w ∨ st = writeWaits w buf) (fuel : Nat) (go : Bool) :
    writePoll E buf fuel go st = (.pending, writeWaits w buf) ∨ ∃ r st', writePoll E buf fuel go st = (r, st') ∧ r ≠ .pending ∧ Awaited E (.sendTo buf) countOf w r st' := by
  have hw : st.w = w := by rcases hst with rfl | rfl <;> rfl
  have hwr : (st.writing buf).1 = buf := by rcases hst with rfl | rfl <;> rfl
  rcases pollWrite_cases (E := E) fuel go buf st with ⟨l, stage, h, h1, h2, h3⟩ | ⟨h1, h2, h⟩ | ⟨h, h1⟩
  · left
    unfold writePoll
    rw [h]
    rcases hst with rfl | rfl
    · cases stage with
      | finished => exact absurd rfl h1
      | queued => exact absurd (h3 rfl).2.1 (h3 rfl).2.2
      | holding =>
        rcases h2 rfl with ⟨_, _, rfl⟩ | ⟨h4, _⟩
        · rfl
        · cases h4
    · cases stage with
      | finished => exact absurd rfl h1
      | queued => cases (h3 rfl).1
      | holding =>
        rcases h2 rfl with ⟨h4, _⟩ | ⟨_, rfl⟩
        · cases h4
        · rfl
  · right
    rw [hwr, hw] at h
    rcases h with ⟨w', h3, h4⟩ | ⟨e, w', h3, h4⟩
    · refine ⟨_, _, h4, by simp, ?_⟩
      have : ({ st with w := w', lock := none, write := none } : Stream) = .ofWorld w' := by rcases hst with rfl | rfl <;> rfl
      rw [this]
      exact .ok (f := countOf) h3
    · exact ⟨_, _, h4, by simp, .err h3⟩
  · right
    rcases h1 with h1 | h1
    · rcases hst with rfl | rfl <;> cases h1
    · rw [hwr, hw] at h1
      exact ⟨.panic, (pollWrite E fuel go buf st).2, by unfold writePoll; rw [← h], by simp, .panic h1⟩

theorem read_poll {w : World} {buf : Bytes} {st : Stream} (hst : st = .ofWorld w ∨ st = readWaits w buf) (fuel : Nat) (go : Bool) :
    readPoll E buf fuel go st = (.pending, readWaits w buf) ∨ ∃ r st', readPoll E buf fuel go st = (r, st') ∧ r ≠ .pending ∧ Awaited E (.recvFrom buf.length) bytesOf w r st' := by
  have hw : st.w = w := by rcases hst with rfl | rfl <;> rfl
  have hwr : (st.reading buf).1 = buf := by rcases hst with rfl | rfl <;> rfl
  rcases pollRead_cases (E := E) fuel go buf st with ⟨l, stage, h, h1, h2, h3⟩ | ⟨h1, h2, h⟩ | ⟨h, h4, h1⟩
  · left
    unfold readPoll
    rw [h]
    rcases hst with rfl | rfl
    · cases stage with
      | finished => exact absurd rfl h1
      | queued => exact absurd (h3 rfl).2.1 (h3 rfl).2.2
      | holding =>
        rcases h2 rfl with ⟨_, _, rfl⟩ | ⟨h4, _⟩
        · rfl
        · cases h4
    · cases stage with
      | finished => exact absurd rfl h1
      | queued => cases (h3 rfl).1
      | holding =>
        rcases h2 rfl with ⟨h4, _⟩ | ⟨_, rfl⟩
        · cases h4
        · rfl
  · right
    rw [hwr, hw] at h
    rcases h with ⟨b, src, w', h3, h5, _, h4⟩ | ⟨e, w', h3, h4⟩
    · refine ⟨.ready (.ok b), .ofWorld w', ?_, by simp, .ok (f := bytesOf) h3⟩
      have : ({ st with w := w', lock := none, read := none } : Stream) = .ofWorld w' := by rcases hst with rfl | rfl <;> rfl
      unfold readPoll
      rw [h4, this]
      simp
    · refine ⟨.ready (.error e), _, by unfold readPoll; rw [h4], by simp, .err h3⟩
  · right
    rcases h1 with h1 | h1 | h1
    · rcases hst with rfl | rfl <;> cases h1
    · rw [hwr] at h1; exact absurd rfl h1
    · rw [hwr, hw] at h1
      refine ⟨.panic, (pollRead E fuel go buf st).2.2, ?_, by simp, .panic h1⟩
      unfold readPoll
      generalize pollRead E fuel go buf st = x at h
      obtain ⟨r, x1, x2⟩ := x
      cases h
      rfl

theorem flush_poll {w : World} {st : Stream} (hst : st = .ofWorld w ∨ st = flushWaits w) (fuel : Nat) (go : Bool) :
    pollFlush E fuel go st = (.pending, flushWaits w) ∨ ∃ r st', pollFlush E fuel go st = (r, st') ∧ r ≠ .pending ∧ Awaited E .flush (fun _ => ()) w r st' := by
  have hw : st.w = w := by rcases hst with rfl | rfl <;> rfl
  rcases pollFlush_cases (E := E) fuel go st with ⟨l, stage, h, h1, h2, h3⟩ | ⟨h1, h2, h⟩ | ⟨h, h1⟩
  · left
    rw [h]
    rcases hst with rfl | rfl
    · cases stage with
      | finished => exact absurd rfl h1
      | queued => exact absurd (h3 rfl).2.1 (h3 rfl).2.2
      | holding =>
        rcases h2 rfl with ⟨_, _, rfl⟩ | ⟨h4, _⟩
        · rfl
        · cases h4
    · cases stage with
      | finished => exact absurd rfl h1
      | queued => cases (h3 rfl).1
      | holding =>
        rcases h2 rfl with ⟨h4, _⟩ | ⟨_, rfl⟩
        · cases h4
        · rfl
  · right
    rw [hw] at h
    rcases h with ⟨out, w', h3, h4⟩ | ⟨e, w', h3, h4⟩
    · refine ⟨_, _, h4, by simp, ?_⟩
      have : ({ st with w := w', lock := none, flush := none } : Stream) = .ofWorld w' := by rcases hst with rfl | rfl <;> rfl
      rw [this]
      exact .ok (f := fun _ => ()) h3
    · exact ⟨_, _, h4, by simp, .err h3⟩
  · right
    rcases h1 with h1 | h1
    · rcases hst with rfl | rfl <;> cases h1
    · rw [hw] at h1
      exact ⟨.panic, (pollFlush E fuel go st).2, by rw [← h], by simp, .panic h1⟩

/-- An awaited future does what its operation does. -/
theorem awaits_awaited {α : Type} {poll : Nat → Bool → Stream → PollRes α × Stream} {op : Op} {f : Out → α} {w : World} {waits : Stream}
    (hpoll : ∀ st, st = .ofWorld w ∨ st = waits → ∀ fuel go, poll fuel go st = (.pending, waits) ∨ ∃ r st', poll fuel go st = (r, st') ∧ r ≠ .pending ∧ Awaited E op f w r st')
    {st st' : Stream} {r : PollRes α} (h : Awaits poll st r st') (hst : st = .ofWorld w ∨ st = waits) : Awaited E op f w r st' := by
  induction h with
  | @now fuel go st st' r h1 h2 =>
    rcases hpoll st hst fuel go with h3 | ⟨r', st2, h3, _, h5⟩
    · rw [h1] at h3; cases h3; exact absurd rfl h2
    · rw [h1] at h3; cases h3; exact h5
  | @later fuel go st st1 st' r h1 _ ih =>
    rcases hpoll st hst fuel go with h3 | ⟨r', st2, h3, h4, _⟩
    · rw [h1] at h3; cases h3; exact ih (.inr rfl)
    · rw [h1] at h3; cases h3; exact absurd rfl h4

theorem awaited_write {w : World} {buf : Bytes} {st' : Stream} {r : PollRes Nat} (h : Awaits (writePoll E buf) (.ofWorld w) r st') : Awaited E (.sendTo buf) countOf w r st' :=
  awaits_awaited (waits := writeWaits w buf) (fun _ hst fuel go => write_poll hst fuel go) h (.inl rfl)

theorem awaited_read {w : World} {buf : Bytes} {st' : Stream} {r : PollRes Bytes} (h : Awaits (readPoll E buf) (.ofWorld w) r st') : Awaited E (.recvFrom buf.length) bytesOf w r st' :=
  awaits_awaited (waits := readWaits w buf) (fun _ hst fuel go => read_poll hst fuel go) h (.inl rfl)

theorem awaited_flush {w : World} {st' : Stream} {r : PollRes Unit} (h : Awaits (pollFlush E) (.ofWorld w) r st') : Awaited E .flush (fun _ => ()) w r st' :=
  awaits_awaited (waits := flushWaits w) (fun _ hst fuel go => flush_poll hst fuel go) h (.inl rfl)

/-- If the operation succeeds with enough fuel, this is how the future ends. -/
theorem Awaited.ends {α : Type} {op : Op} {f : Out → α} {w w' : World} {out : Out} {F : Nat} (hok : ∀ fuel, F ≤ fuel → runOp E fuel op w = (.ok out, w')) {r : PollRes α} {st : Stream}
    (h : Awaited E op f w r st) : r = .ready (.ok (f out)) ∧ st = .ofWorld w' := by
  cases h with
  | @ok fuel out' w'' h =>
    have := le_runOp (Nat.le_max_right F fuel) op w (by rw [h]; simp)
    rw [hok _ (Nat.le_max_left F fuel), h] at this
    cases this
    exact ⟨rfl, rfl⟩
  | @err fuel e w'' st h =>
    have := le_runOp (Nat.le_max_right F fuel) op w (by rw [h]; simp)
    rw [hok _ (Nat.le_max_left F fuel), h] at this
    cases this
  | @panic fuel st h =>
    have := le_runOp (Nat.le_max_right F fuel) op w (by rw [h]; simp)
    rw [hok _ (Nat.le_max_left F fuel)] at this
    rw [← this] at h
    cases h

theorem runOp_send_of {fuel n : Nat} {b : Bytes} {w w' : World} (h : sendTo E fuel b w = (.ok n, w')) : runOp E fuel (.sendTo b) w = (.ok (.count n), w') := by
  rw [runOp, bind_def, andThen_eq h]; rfl

theorem runOp_flush_of {fuel : Nat} {w w' : World} (h : flush E fuel w = (.ok (), w')) : runOp E fuel .flush w = (.ok .unit, w') := by
  rw [runOp, bind_def, andThen_eq h]; rfl

theorem runOp_recv_of {fuel len : Nat} {x : Bytes × Addr} {w w' : World} (h : recvFrom E fuel len w = (.ok x, w')) : runOp E fuel (.recvFrom len) w = (.ok (.bytes x.1 x.2), w') := by
  rw [runOp, bind_def, andThen_eq h]; rfl

theorem always {fuel : Nat} {op : Op} {w w' : World} {out : Out} (h : runOp E fuel op w = (.ok out, w')) : ∀ fuel', fuel ≤ fuel' → runOp E fuel' op w = (.ok out, w') := by
  intro fuel' hf
  rw [le_runOp hf op w (by rw [h]; simp), h]

/-- The first write of a batch. -/
theorem transfer_write {fuel : Nat} {b : Bytes} {bs : List Bytes} {rest : List (List Bytes)} {w w' : World} (h : transfer E fuel ((b :: bs) :: rest) w = (.ok (), w')) :
    ∃ w1, sendTo E fuel b w = (.ok b.length, w1) ∧ transfer E fuel (bs :: rest) w1 = (.ok (), w') := by
  obtain ⟨_, w2, h1, h2⟩ := andThen_ok (show andThen (sendAll E fuel (b :: bs)) _ w = _ from h)
  obtain ⟨n, w1, h3, h4⟩ := andThen_ok (show andThen (sendTo E fuel b) (fun _ => sendAll E fuel bs) w = _ from h1)
  have hn : n = b.length := by
    have := runOp_sendTo (runOp_send_of h3)
    cases this
    rfl
  subst hn
  refine ⟨w1, h3, ?_⟩
  show andThen (sendAll E fuel bs) _ w1 = _
  rw [andThen_eq h4]
  exact h2

/-- The flush after a batch. -/
theorem transfer_flush {fuel : Nat} {rest : List (List Bytes)} {w w' : World} (h : transfer E fuel ([] :: rest) w = (.ok (), w')) :
    ∃ w1, flush E fuel w = (.ok (), w1) ∧ transfer E fuel rest w1 = (.ok (), w') := by
  have h' : andThen (flush E fuel) (fun _ => transfer E fuel rest) w = (.ok (), w') := h
  obtain ⟨_, w1, h1, h2⟩ := andThen_ok h'
  exact ⟨w1, h1, h2⟩

/-- If the program that uses the socket succeeds, so does the program that uses the stream, whatever it awaits how. -/
theorem streamWrites_ends {batches : List (List Bytes)} {st st' : Stream} {r : PollRes Unit} (h : StreamWrites E batches st r st') : ∀ {w w' : World} {F : Nat},
    st = .ofWorld w → transfer E F batches w = (.ok (), w') → r = .ready (.ok ()) ∧ st' = .ofWorld w' := by
  induction h with
  | done => intro w w' F hst hok; cases hok; exact ⟨rfl, hst⟩
  | flushed h _ ih =>
    intro w w' F hst hok
    subst hst
    obtain ⟨w1, h1, h2⟩ := transfer_flush hok
    exact ih ((awaited_flush h).ends (always (runOp_flush_of h1))).2 h2
  | flushFailed h =>
    intro w w' F hst hok
    subst hst
    obtain ⟨w1, h1, h2⟩ := transfer_flush hok
    cases ((awaited_flush h).ends (always (runOp_flush_of h1))).1
  | flushPanic h =>
    intro w w' F hst hok
    subst hst
    obtain ⟨w1, h1, h2⟩ := transfer_flush hok
    cases ((awaited_flush h).ends (always (runOp_flush_of h1))).1
  | written h _ ih =>
    intro w w' F hst hok
    subst hst
    obtain ⟨w1, h1, h2⟩ := transfer_write hok
    exact ih ((awaited_write h).ends (always (runOp_send_of h1))).2 h2
  | short h hn =>
    intro w w' F hst hok
    subst hst
    obtain ⟨w1, h1, h2⟩ := transfer_write hok
    have := ((awaited_write h).ends (always (runOp_send_of h1))).1
    cases this
    exact absurd rfl hn
  | writeFailed h =>
    intro w w' F hst hok
    subst hst
    obtain ⟨w1, h1, h2⟩ := transfer_write hok
    cases ((awaited_write h).ends (always (runOp_send_of h1))).1
  | writePanic h =>
    intro w w' F hst hok
    subst hst
    obtain ⟨w1, h1, h2⟩ := transfer_write hok
    cases ((awaited_write h).ends (always (runOp_send_of h1))).1

/-- Polled when what it waits for is there, a write is ready at once. -/
theorem write_now {w w' : World} {F : Nat} {b : Bytes} (h : sendTo E F b w = (.ok b.length, w')) : writePoll E b F true (.ofWorld w) = (.ready (.ok b.length), .ofWorld w') := by
  have hf : pollFuture E F .write (.sendTo b) true .queued (.ofWorld w) = (.ready (.ok (.count b.length)), .finished, .ofWorld w') := by
    unfold pollFuture runHolding
    simp only [Stream.ofWorld, if_true]
    rw [runOp_send_of h]
  unfold writePoll
  rw [pollWrite_eq, show (Stream.ofWorld w).writing b = (b, .queued) from rfl, hf]
  rfl

theorem flush_now {w w' : World} {F : Nat} (h : flush E F w = (.ok (), w')) : pollFlush E F true (.ofWorld w) = (.ready (.ok ()), .ofWorld w') := by
  unfold pollFlush pollUnit pollFuture runHolding
  simp only [Stream.ofWorld, if_true]
  rw [runOp_flush_of h]

theorem read_now {w w' : World} {F : Nat} {buf : Bytes} {x : Bytes × Addr} (h : recvFrom E F buf.length w = (.ok x, w')) :
    readPoll E buf F true (.ofWorld w) = (.ready (.ok x.1), .ofWorld w') := by
  have hf : pollFuture E F .read (.recvFrom buf.length) true .queued (.ofWorld w) = (.ready (.ok (.bytes x.1 x.2)), .finished, .ofWorld w') := by
    unfold pollFuture runHolding
    simp only [Stream.ofWorld, if_true]
    rw [runOp_recv_of h]
  have hle : x.1.length ≤ buf.length := by
    obtain ⟨b, src, h1, h2⟩ := runOp_recvFrom (runOp_recv_of h)
    cases h1
    exact h2
  have hp : pollRead E F true buf (.ofWorld w) = (.ready (.ok x.1.length), x.1 ++ buf.drop x.1.length, .ofWorld w') := by
    rw [pollRead_eq, show (Stream.ofWorld w).reading buf = (buf, .queued) from rfl, hf]
    show (if _ then _ else _) = _
    rw [if_pos (by simp; omega)]
    rfl
  unfold readPoll
  rw [hp]
  simp

theorem streamWrites_exists : ∀ {batches : List (List Bytes)} {w w' : World} {F : Nat}, transfer E F batches w = (.ok (), w') →
    StreamWrites E batches (.ofWorld w) (.ready (.ok ())) (.ofWorld w') := by
  intro batches
  induction batches with
  | nil => intro w w' F h; cases h; exact .done
  | cons bs rest ih =>
    induction bs with
    | nil =>
      intro w w' F h
      obtain ⟨w1, h1, h2⟩ := transfer_flush h
      exact .flushed (.now (flush_now h1) (by simp)) (ih h2)
    | cons b bs ih2 =>
      intro w w' F h
      obtain ⟨w1, h1, h2⟩ := transfer_write h
      exact .written (.now (write_now h1) (by simp)) (ih2 h2)

theorem streamReads_ends {len total : Nat} {got : Bytes} {st st' : Stream} {r : PollRes Bytes} (h : StreamReads E len total got st r st') : ∀ {w w' : World} {F n : Nat} {all : Bytes},
    st = .ofWorld w → readLoop E F len total n got w = (.ok all, w') → r = .ready (.ok all) ∧ st' = .ofWorld w' := by
  have step : ∀ {got : Bytes} {w w' : World} {F n : Nat} {all : Bytes}, got.length < total → readLoop E F len total n got w = (.ok all, w') →
      ∃ n' x w1, recvFrom E F len w = (.ok x, w1) ∧ readLoop E F len total n' (got ++ x.1) w1 = (.ok all, w') := by
    intro got w w' F n all hlt hok
    cases n with
    | zero => cases hok
    | succ n =>
      rw [readLoop, if_neg (by omega)] at hok
      obtain ⟨x, w1, h1, h2⟩ := andThen_ok hok
      exact ⟨n, x, w1, h1, h2⟩
  induction h with
  | done hle =>
    intro w w' F n all hst hok
    cases n with
    | zero => cases hok
    | succ n =>
      rw [readLoop, if_pos hle] at hok
      cases hok
      exact ⟨rfl, hst⟩
  | more hlt hbuf h _ ih =>
    intro w w' F n all hst hok
    subst hst hbuf
    obtain ⟨n', x, w1, h1, h2⟩ := step hlt hok
    obtain ⟨h3, h4⟩ := (awaited_read h).ends (always (runOp_recv_of h1))
    cases h3
    exact ih h4 h2
  | failed hlt hbuf h =>
    intro w w' F n all hst hok
    subst hst hbuf
    obtain ⟨n', x, w1, h1, h2⟩ := step hlt hok
    cases ((awaited_read h).ends (always (runOp_recv_of h1))).1
  | panicked hlt hbuf h =>
    intro w w' F n all hst hok
    subst hst hbuf
    obtain ⟨n', x, w1, h1, h2⟩ := step hlt hok
    cases ((awaited_read h).ends (always (runOp_recv_of h1))).1

theorem streamReads_exists {len total : Nat} : ∀ {n F : Nat} {got all : Bytes} {w w' : World}, readLoop E F len total n got w = (.ok all, w') →
    StreamReads E len total got (.ofWorld w) (.ready (.ok all)) (.ofWorld w') := by
  intro n
  induction n with
  | zero => intro F got all w w' h; cases h
  | succ n ih =>
    intro F got all w w' h
    rw [readLoop] at h
    split at h
    · rename_i hle
      cases h
      exact .done hle
    · rename_i hlt
      obtain ⟨x, w1, h1, h2⟩ := andThen_ok h
      have hl : (List.replicate len (0 : U8)).length = len := by simp
      exact .more (buf := List.replicate len 0) (by omega) hl (.now (read_now (by rw [hl]; exact h1)) (by simp)) (ih h2)

section
variable {A B : Env} {a b : World}

/-- **C108.**  Over a network that loses nothing, a task that writes to a stream and flushes it, and a task that reads from the stream at the other end, both succeed, however
they are scheduled: every way to run the writer to its end, whenever its futures are polled, ends with Ok, every way to run the reader to its end returns exactly the bytes that were
written, and there are such runs.  Afterwards both streams are idle and ready for more, in either direction.

Partial: as `C67_transfer_partial`. -/
theorem C108_transfer_partial {batches : List (List Bytes)} {len : Nat} (h : Linked a b) (hr : Ready a.s b.s) (hA : ∀ n, A.snd n = .ok) (hB : ∀ n, B.snd n = .ok)
    (hfit : Fits a.s batches) (hl : 0 < len) (ha : Arrives (fun fuel => transfer A fuel batches) a B b)
    (hb : Arrives (fun fuel => readUntil B len batches.flatten.flatten.length fuel) b A a) :
    ∃ a' b', (∀ r st, StreamWrites A batches (.ofWorld a) r st → r = .ready (.ok ()) ∧ st = .ofWorld a') ∧
      (∀ r st, StreamReads B len batches.flatten.flatten.length [] (.ofWorld b) r st → r = .ready (.ok batches.flatten.flatten) ∧ st = .ofWorld b') ∧
      StreamWrites A batches (.ofWorld a) (.ready (.ok ())) (.ofWorld a') ∧
      StreamReads B len batches.flatten.flatten.length [] (.ofWorld b) (.ready (.ok batches.flatten.flatten)) (.ofWorld b') ∧
      Linked a' b' ∧ Ready a'.s b'.s ∧ (Ready b.s a.s → Ready b'.s a'.s) ∧ a'.s.lead ≤ a.s.lead ∧ b'.s.lead = b.s.lead := by
  obtain ⟨a', b', ⟨F, k⟩, k1, k2, k3, k4, k5, _⟩ := C67_transfer_partial h hr hA hB hfit hl ha hb
  exact ⟨a', b', fun r st hx => streamWrites_ends hx rfl (k F (Nat.le_refl _)).1, fun r st hx => streamReads_ends hx rfl (k F (Nat.le_refl _)).2,
    streamWrites_exists (k F (Nat.le_refl _)).1, streamReads_exists (k F (Nat.le_refl _)).2, k1, k2, k3, k4, k5⟩

/-- **C108.**  Then `close` of the one stream succeeds, and the next read of the other one returns 0 bytes, however it is polled. -/
theorem C108_close {buf : Bytes} (h : Linked a b) (hr : Ready a.s b.s) (hb : b.s.sendWindow = []) (hA : A.snd a.nSnd = .ok) (hB : B.snd b.nSnd = .ok)
    (ha : Arrives (fun fuel => close A fuel) a B b) (hb' : Arrives (fun fuel => recvFrom B fuel buf.length) b A a) :
    ∃ a' b', (∀ r st, StreamCloses A (.ofWorld a) r st → r = .ready (.ok .unit) ∧ st = .ofWorld a') ∧
      (∀ r st, Awaits (readPoll B buf) (.ofWorld b) r st → r = .ready (.ok []) ∧ st = .ofWorld b') ∧
      StreamCloses A (.ofWorld a) (.ready (.ok .unit)) (.ofWorld a') ∧ Awaits (readPoll B buf) (.ofWorld b) (.ready (.ok [])) (.ofWorld b') ∧ Over A a' ∧ Over B b' := by
  obtain ⟨a', b', src, k, k1, k2, _⟩ := C68_close h hr hb hA hB ha hb'
  have hc : ∀ fuel, 2 ≤ fuel → runOp A fuel .close a = (.ok .unit, a') := by
    intro fuel hf
    obtain ⟨n, rfl⟩ : ∃ n, fuel = n + 2 := ⟨fuel - 2, by omega⟩
    rw [runOp, bind_def, andThen_eq (k n).1]; rfl
  have hrd : ∀ fuel, 2 ≤ fuel → runOp B fuel (.recvFrom buf.length) b = (.ok (.bytes [] src), b') := by
    intro fuel hf
    obtain ⟨n, rfl⟩ : ∃ n, fuel = n + 2 := ⟨fuel - 2, by omega⟩
    exact runOp_recv_of (k n).2
  refine ⟨a', b', ?_, fun r st hx => (awaited_read hx).ends hrd, ⟨2, _, rfl, ?_, by simp⟩, .now (read_now (k 0).2) (by simp), k1, k2⟩
  · rintro r st ⟨fuel, st1, g1, g2, g3⟩
    cases g1
    unfold Stream.runMethod runHolding at g2
    rw [if_pos rfl] at g2
    have hle := le_runOp (E := A) (Nat.le_max_left fuel 2) .close a
    rw [hc _ (Nat.le_max_right fuel 2)] at hle
    rcases hx : runOp A fuel .close a with ⟨_ | _ | _ | _, w1⟩
    case pending =>
      simp only [Stream.ofWorld, hx] at g2
      cases g2
      exact absurd rfl g3
    all_goals
      rw [hx] at hle
      have := hle (by simp)
      cases this
    simp only [Stream.ofWorld, hx] at g2
    cases g2
    exact ⟨rfl, rfl⟩
  · unfold Stream.runMethod runHolding
    rw [if_pos rfl]
    simp only [Stream.ofWorld, hc 2 (Nat.le_refl _)]

end

namespace Sample

/-- Two buffers and a third, flushed in between, and read three bytes at a time.  The first write is polled twice before it is ready. -/
example : ∃ a' b', (∀ st st1 st2, writePoll (senv losslessA []) [1, 2] 5 false (.ofWorld (client (senv losslessA []))) = (.pending, st1) →
      writePoll (senv losslessA []) [1, 2] 5 false st1 = (.pending, st2) → writePoll (senv losslessA []) [1, 2] 5 true st2 = (.ready (.ok 2), st) →
      ∀ r st', StreamWrites (senv losslessA []) [[[3]], [[4]]] st r st' → r = .ready (.ok ()) ∧ st' = .ofWorld a') ∧
    (∀ r st, StreamReads (senv losslessB []) 3 4 [] (.ofWorld (readerStart losslessB [])) r st → r = .ready (.ok [1, 2, 3, 4]) ∧ st = .ofWorld b') := by
  have hr : Ready (client (senv losslessA [])).s (readerStart losslessB []).s :=
    ⟨by decide +kernel, by decide +kernel, by decide +kernel⟩
  have hl : Linked (client (senv losslessA [])) (readerStart losslessB []) :=
    ⟨by decide +kernel, by decide +kernel, by decide +kernel, by decide +kernel, by decide +kernel, by decide +kernel, by decide +kernel, by decide +kernel⟩
  have hf : Fits (client (senv losslessA [])).s [[[1, 2], [3]], [[4]]] := by unfold Fits; decide +kernel
  have h1 : ((fun fuel => transfer (senv losslessA []) fuel [[[1, 2], [3]], [[4]]]) 5 (client (senv losslessA []))).1 ≠ .pending := by decide +kernel
  have h2 : ((fun fuel => readUntil (senv losslessB []) 3 4 fuel) 5 (readerStart losslessB [])).1 ≠ .pending := by decide +kernel
  have ha : Arrives (fun fuel => transfer (senv losslessA []) fuel [[[1, 2], [3]], [[4]]]) (client (senv losslessA [])) (senv losslessB []) (readerStart losslessB []) :=
    arrives_of 5 (fun f h => le_transfer h _) h1 (by decide +kernel)
  have hb : Arrives (fun fuel => readUntil (senv losslessB []) 3 4 fuel) (readerStart losslessB []) (senv losslessA []) (client (senv losslessA [])) :=
    arrives_of 5 (fun f h => le_readLoop h _ h) h2 (by decide +kernel)
  obtain ⟨a', b', k1, k2, _⟩ := C108_transfer_partial hl hr (fun n => by simp [senv, env]) (fun n => by simp [senv, env]) hf (by decide) ha hb
  exact ⟨a', b', fun st st1 st2 g1 g2 g3 r st' g4 => k1 r st' (.written (.later g1 (.later g2 (.now g3 (by simp)))) g4), k2⟩

/-- The polls of this example do happen. -/
example : let E := senv losslessA []
    let s0 := Stream.ofWorld (client E)
    let p1 := writePoll E [1, 2] 5 false s0
    let p2 := writePoll E [1, 2] 5 false p1.2
    let p3 := writePoll E [1, 2] 5 true p2.2
    p1.1 = .pending ∧ p2.1 = .pending ∧ p3.1 = .ready (.ok 2) ∧ p1.2.lock = some .write ∧ p3.2.lock = none := ⟨rfl, rfl, rfl, rfl, rfl⟩

/-- The connecting side closes its stream. -/
example : ∃ a' b', StreamCloses (senv endA []) (.ofWorld (client (senv endA []))) (.ready (.ok .unit)) (.ofWorld a') ∧
    ∀ r st, Awaits (readPoll (senv endB []) [0, 0, 0]) (.ofWorld (readerStart endB [])) r st → r = .ready (.ok []) ∧ st = .ofWorld b' := by
  have hr : Ready (client (senv endA [])).s (readerStart endB []).s := ⟨by decide +kernel, by decide +kernel, by decide +kernel⟩
  have hl : Linked (client (senv endA [])) (readerStart endB []) :=
    ⟨by decide +kernel, by decide +kernel, by decide +kernel, by decide +kernel, by decide +kernel, by decide +kernel, by decide +kernel, by decide +kernel⟩
  have h1 : ((fun fuel => close (senv endA []) fuel) 5 (client (senv endA []))).1 ≠ .pending := by decide +kernel
  have h2 : ((fun fuel => recvFrom (senv endB []) fuel 3) 5 (readerStart endB [])).1 ≠ .pending := by decide +kernel
  have ha : Arrives (fun fuel => close (senv endA []) fuel) (client (senv endA [])) (senv endB []) (readerStart endB []) :=
    arrives_of 5 (fun f h => le_close h) h1 (by decide +kernel)
  have hb : Arrives (fun fuel => recvFrom (senv endB []) fuel ([0, 0, 0] : Bytes).length) (readerStart endB []) (senv endA []) (client (senv endA [])) :=
    arrives_of 5 (fun f h => le_recvFrom h 3) h2 (by decide +kernel)
  have hw : (readerStart endB []).s.sendWindow = [] := by decide +kernel
  obtain ⟨a', b', _, k2, k3, _⟩ := C108_close hl hr hw (by simp [senv, env]) (by simp [senv, env]) ha hb
  exact ⟨a', b', k3, k2⟩

end Sample

end Utp
