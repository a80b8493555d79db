import Verif.Lemmas.Deliver
import Verif.Spec.UtpStream
/-!
# Everything a poll of a stream can do
-/

namespace Utp
open M

variable {E : Env}

/-! ### Helpers -/

/-- `Q` holds of every successful result of `m`. -/
def Gives (m : M α) (Q : α → Prop) : Prop := ∀ w a w', m w = (.ok a, w') → Q a

theorem Gives.bind {m : M α} {f : α → M β} {P : α → Prop} {Q : β → Prop} (hm : Gives m P) (hf : ∀ a, P a → Gives (f a) Q) :
    Gives (M.andThen m f) Q := by
  intro w b w' h
  unfold M.andThen at h
  rcases hr : m w with ⟨r, w1⟩
  rw [hr] at h
  cases r <;> simp only [reduceCtorEq, Prod.mk.injEq, false_and] at h
  exact hf _ (hm _ _ _ hr) _ _ _ h

theorem Gives.any {m : M α} : Gives m fun _ => True := fun _ _ _ _ => trivial
theorem Gives.ret {a : α} {Q : α → Prop} (h : Q a) : Gives (M.ret a) Q := by
  intro w b w' e
  simp only [M.ret, Prod.mk.injEq, Res.ok.injEq] at e
  exact e.1 ▸ h
theorem Gives.throw {e : IoErr} {Q : α → Prop} : Gives (M.throw e) Q := by
  intro w b w' h; simp [M.throw] at h
theorem Gives.never {Q : α → Prop} : Gives (M.never) Q := by
  intro w b w' h; simp [M.never] at h

theorem flushIncoming_gives (len : Nat) : Gives (flushIncoming E len) fun out => out.length ≤ len := by
  intro w out w' h
  obtain ⟨out', w1, h1, -, h2, -⟩ := flushIncoming_spec (E := E) len w (by rw [h]; simp)
  rw [h] at h1
  simp only [Prod.mk.injEq, Res.ok.injEq] at h1
  exact h1.1 ▸ h2

theorem recv_gives (fuel len : Nat) : Gives (recv E fuel len) fun r => r.1.length ≤ len := by
  cases fuel with
  | zero => exact .never
  | succ fuel =>
    unfold recv recvBody
    simp only [bind_def]
    refine .bind .any fun x _ => ?_
    rcases x with ⟨b, src⟩
    simp only
    refine .bind .any fun x _ => ?_
    cases x with
    | error e => exact .bind .any fun s _ => .ret (by simp)
    | ok pkt =>
      simp only
      unfold recvPacket
      simp only [bind_def]
      refine .bind .any fun _ _ => .bind .any fun _ _ => .bind .any fun _ _ => .bind .any fun _ _ => ?_
      exact .bind (flushIncoming_gives len) fun out h => .ret h

theorem recvFrom_gives (fuel len : Nat) : Gives (recvFrom E fuel len) fun r => r.1.length ≤ len := by
  unfold recvFrom
  simp only [bind_def]
  refine .bind (flushIncoming_gives len) fun out h => .bind .any fun s _ => ?_
  split
  · exact .ret h
  · split
    · exact .throw
    · generalize fuel = n
      suffices h : ∀ fuel, Gives (recvFromLoop E fuel len n) fun r => r.1.length ≤ len from h n
      intro fuel
      induction n with
      | zero => exact .never
      | succ n ih =>
        unfold recvFromLoop
        simp only [bind_def]
        refine .bind .any fun s _ => ?_
        split
        · exact .ret (by simp)
        · refine .bind (recv_gives fuel len) fun r hr => ?_
          rcases r with ⟨out, src⟩
          simp only
          split
          · exact ih
          · exact .ret hr

theorem runOp_recvFrom {fuel len : Nat} {w w' : World} {out : Out} (h : runOp E fuel (.recvFrom len) w = (.ok out, w')) :
    ∃ b src, out = .bytes b src ∧ b.length ≤ len := by
  have : Gives (runOp E fuel (.recvFrom len)) fun out => ∃ b src, out = .bytes b src ∧ b.length ≤ len := by
    unfold runOp
    exact .bind (recvFrom_gives fuel len) fun r hr => .ret ⟨r.1, r.2, rfl, hr⟩
  exact this _ _ _ h

theorem runOp_sendTo {fuel : Nat} {buf : Bytes} {w w' : World} {out : Out} (h : runOp E fuel (.sendTo buf) w = (.ok out, w')) :
    out = .count buf.length := by
  have : Gives (runOp E fuel (.sendTo buf)) fun out => out = .count buf.length := by
    unfold runOp
    refine .bind (P := fun n => n = buf.length) ?_ fun n hn => .ret (by rw [hn])
    unfold sendTo
    simp only [bind_def]
    refine .bind .any fun s _ => ?_
    split
    · exact .throw
    · exact .bind .any fun _ _ => .bind .any fun _ _ => .ret rfl
  exact this _ _ _ h

theorem runHolding_cases (fuel : Nat) (op : Op) (go : Bool) (st : Stream) :
    (runHolding E fuel op go st = (.pending, .holding, st)) ∨
    (∃ out w, runHolding E fuel op go st = (.ready (.ok out), .finished, { st with w := w, lock := none }) ∧ runOp E fuel op st.w = (.ok out, w)) ∨
    (∃ e w, runHolding E fuel op go st = (.ready (.error e), .finished, { st with w := w, lock := none }) ∧ runOp E fuel op st.w = (.err e, w)) ∨
    (∃ w, runHolding E fuel op go st = (.panic, .finished, { st with w := w, lock := none }) ∧ runOp E fuel op st.w = (.panic, w)) := by
  unfold runHolding
  cases go with
  | false => left; simp
  | true =>
    rcases h : runOp E fuel op st.w with ⟨r, w⟩
    cases r with
    | ok out => right; left; exact ⟨out, w, by simp, rfl⟩
    | err e => right; right; left; exact ⟨e, w, by simp, rfl⟩
    | panic => right; right; right; exact ⟨w, by simp, rfl⟩
    | pending => left; simp

/-- The outcomes of polling a future. -/
theorem pollFuture_cases (fuel : Nat) (who : Holder) (op : Op) (go : Bool) (stage : Stage) (st : Stream) :
    (stage = .finished ∧ pollFuture E fuel who op go stage st = (.panic, .finished, st)) ∨
    (stage = .queued ∧ st.lock ≠ none ∧ pollFuture E fuel who op go stage st = (.pending, .queued, st)) ∨
    (∃ l, (stage = .queued ∧ st.lock = none ∧ l = some who ∨ stage = .holding ∧ l = st.lock) ∧
      pollFuture E fuel who op go stage st = (.pending, .holding, { st with lock := l })) ∨
    (stage ≠ .finished ∧ (stage = .queued → st.lock = none) ∧
      ((∃ out w, pollFuture E fuel who op go stage st = (.ready (.ok out), .finished, { st with w := w, lock := none }) ∧ runOp E fuel op st.w = (.ok out, w)) ∨
       (∃ e w, pollFuture E fuel who op go stage st = (.ready (.error e), .finished, { st with w := w, lock := none }) ∧ runOp E fuel op st.w = (.err e, w)) ∨
       (∃ w, pollFuture E fuel who op go stage st = (.panic, .finished, { st with w := w, lock := none }) ∧ runOp E fuel op st.w = (.panic, w)))) := by
  unfold pollFuture
  cases stage with
  | finished => left; exact ⟨rfl, rfl⟩
  | queued =>
    simp only
    by_cases h : st.lock = none
    · rw [if_pos h]
      rcases runHolding_cases (E := E) fuel op go { st with lock := some who } with hr | hr | hr | hr
      · right; right; left; exact ⟨some who, .inl ⟨trivial, h, rfl⟩, hr⟩
      · right; right; right; exact ⟨by simp, fun _ => h, .inl hr⟩
      · right; right; right; exact ⟨by simp, fun _ => h, .inr (.inl hr)⟩
      · right; right; right; exact ⟨by simp, fun _ => h, .inr (.inr hr)⟩
    · rw [if_neg h]
      right; left; exact ⟨trivial, h, rfl⟩
  | holding =>
    simp only
    rcases runHolding_cases (E := E) fuel op go st with hr | hr | hr | hr
    · right; right; left; exact ⟨st.lock, .inr ⟨trivial, rfl⟩, hr⟩
    · right; right; right; exact ⟨by simp, by simp, .inl hr⟩
    · right; right; right; exact ⟨by simp, by simp, .inr (.inl hr)⟩
    · right; right; right; exact ⟨by simp, by simp, .inr (.inr hr)⟩

/-- The copy of the buffer a poll of a read works with, and its stage. -/
def Stream.reading (st : Stream) (buf : Bytes) : Bytes × Stage := st.read.getD (buf, .queued)
/-- The copy of the buffer a poll of a write works with, and its stage. -/
def Stream.writing (st : Stream) (buf : Bytes) : Bytes × Stage := st.write.getD (buf, .queued)


theorem pollRead_eq (fuel : Nat) (go : Bool) (buf : Bytes) (st : Stream) :
    pollRead E fuel go buf st =
      match pollFuture E fuel .read (.recvFrom (st.reading buf).1.length) go (st.reading buf).2 st with
      | (.pending, stage, st') => (.pending, buf, { st' with read := some ((st.reading buf).1, stage) })
      | (.panic, stage, st') => (.panic, buf, { st' with read := some ((st.reading buf).1, stage) })
      | (.ready (.error e), stage, st') => (.ready (.error e), buf, { st' with read := some ((st.reading buf).1, stage) })
      | (.ready (.ok (.bytes b _)), stage, st') =>
        if (b ++ (st.reading buf).1.drop b.length).length = buf.length then
          (.ready (.ok b.length), b ++ (st.reading buf).1.drop b.length, { st' with read := none })
        else (.panic, buf, { st' with read := some ((st.reading buf).1, stage) })
      | (.ready (.ok _), stage, st') => (.panic, buf, { st' with read := some ((st.reading buf).1, stage) }) := by
  unfold pollRead Stream.reading
  cases st.read <;> rfl

/-- Everything a poll of a read can do. -/
theorem pollRead_cases (fuel : Nat) (go : Bool) (buf : Bytes) (st : Stream) :
    (∃ l stage, pollRead E fuel go buf st = (.pending, buf, { st with lock := l, read := some ((st.reading buf).1, stage) }) ∧ stage ≠ .finished ∧
      (stage = .holding → (st.reading buf).2 = .queued ∧ st.lock = none ∧ l = some .read ∨ (st.reading buf).2 = .holding ∧ l = st.lock) ∧
      (stage = .queued → (st.reading buf).2 = .queued ∧ l = st.lock ∧ l ≠ none)) ∨
    ((st.reading buf).2 ≠ .finished ∧ ((st.reading buf).2 = .queued → st.lock = none) ∧
      ((∃ b src w, runOp E fuel (.recvFrom (st.reading buf).1.length) st.w = (.ok (.bytes b src), w) ∧ b.length ≤ (st.reading buf).1.length ∧
          (st.reading buf).1.length = buf.length ∧
          pollRead E fuel go buf st = (.ready (.ok b.length), b ++ (st.reading buf).1.drop b.length, { st with w := w, lock := none, read := none })) ∨
       (∃ e w, runOp E fuel (.recvFrom (st.reading buf).1.length) st.w = (.err e, w) ∧
          pollRead E fuel go buf st = (.ready (.error e), buf, { st with w := w, lock := none, read := some ((st.reading buf).1, .finished) })))) ∨
    ((pollRead E fuel go buf st).1 = .panic ∧ (pollRead E fuel go buf st).2.1 = buf ∧
      ((st.reading buf).2 = .finished ∨ (st.reading buf).1.length ≠ buf.length ∨
        (runOp E fuel (.recvFrom (st.reading buf).1.length) st.w).1 = .panic)) := by
  rw [pollRead_eq]
  obtain ⟨vec, hvec⟩ : ∃ vec, vec = (st.reading buf).1 := ⟨_, rfl⟩
  obtain ⟨sg, hsg⟩ : ∃ sg, sg = (st.reading buf).2 := ⟨_, rfl⟩
  rw [← hvec, ← hsg]
  clear hvec hsg
  rcases pollFuture_cases (E := E) fuel .read (.recvFrom vec.length) go sg st with ⟨h1, h2⟩ | ⟨h1, h2, h3⟩ | ⟨l, h1, h2⟩ | ⟨h1, h2, h3⟩
  · rw [h2]; right; right; exact ⟨rfl, rfl, .inl h1⟩
  · rw [h3]; left; exact ⟨st.lock, .queued, rfl, by simp, by simp, fun _ => ⟨h1, rfl, h2⟩⟩
  · rw [h2]; left; exact ⟨l, .holding, rfl, by simp, fun _ => h1, by simp⟩
  · rcases h3 with ⟨out, w, h4, h5⟩ | ⟨e, w, h4, h5⟩ | ⟨w, h4, h5⟩
    · obtain ⟨b, src, rfl, hb⟩ := runOp_recvFrom h5
      rw [h4]
      simp only
      have hl : (b ++ vec.drop b.length).length = vec.length := by simp; omega
      by_cases hlen : vec.length = buf.length
      · rw [if_pos (hl.trans hlen)]
        right; left
        exact ⟨h1, h2, .inl ⟨b, src, w, h5, hb, hlen, rfl⟩⟩
      · rw [if_neg (by rw [hl]; exact hlen)]
        right; right
        exact ⟨rfl, rfl, .inr (.inl hlen)⟩
    · rw [h4]; right; left; exact ⟨h1, h2, .inr ⟨e, w, h5, rfl⟩⟩
    · rw [h4]; right; right; exact ⟨rfl, rfl, .inr (.inr (by rw [h5]))⟩

theorem pollWrite_eq (fuel : Nat) (go : Bool) (buf : Bytes) (st : Stream) :
    pollWrite E fuel go buf st =
      match pollFuture E fuel .write (.sendTo (st.writing buf).1) go (st.writing buf).2 st with
      | (.pending, stage, st') => (.pending, { st' with write := some ((st.writing buf).1, stage) })
      | (.panic, stage, st') => (.panic, { st' with write := some ((st.writing buf).1, stage) })
      | (.ready (.error e), stage, st') => (.ready (.error e), { st' with write := some ((st.writing buf).1, stage) })
      | (.ready (.ok (.count n)), _, st') => (.ready (.ok n), { st' with write := none })
      | (.ready (.ok _), stage, st') => (.panic, { st' with write := some ((st.writing buf).1, stage) }) := by
  unfold pollWrite Stream.writing
  cases st.write <;> rfl

/-- Everything a poll of a write can do. -/
theorem pollWrite_cases (fuel : Nat) (go : Bool) (buf : Bytes) (st : Stream) :
    (∃ l stage, pollWrite E fuel go buf st = (.pending, { st with lock := l, write := some ((st.writing buf).1, stage) }) ∧ stage ≠ .finished ∧
      (stage = .holding → (st.writing buf).2 = .queued ∧ st.lock = none ∧ l = some .write ∨ (st.writing buf).2 = .holding ∧ l = st.lock) ∧
      (stage = .queued → (st.writing buf).2 = .queued ∧ l = st.lock ∧ l ≠ none)) ∨
    ((st.writing buf).2 ≠ .finished ∧ ((st.writing buf).2 = .queued → st.lock = none) ∧
      ((∃ w, runOp E fuel (.sendTo (st.writing buf).1) st.w = (.ok (.count (st.writing buf).1.length), w) ∧
          pollWrite E fuel go buf st = (.ready (.ok (st.writing buf).1.length), { st with w := w, lock := none, write := none })) ∨
       (∃ e w, runOp E fuel (.sendTo (st.writing buf).1) st.w = (.err e, w) ∧
          pollWrite E fuel go buf st = (.ready (.error e), { st with w := w, lock := none, write := some ((st.writing buf).1, .finished) })))) ∨
    ((pollWrite E fuel go buf st).1 = .panic ∧
      ((st.writing buf).2 = .finished ∨ (runOp E fuel (.sendTo (st.writing buf).1) st.w).1 = .panic)) := by
  rw [pollWrite_eq]
  obtain ⟨vec, hvec⟩ : ∃ vec, vec = (st.writing buf).1 := ⟨_, rfl⟩
  obtain ⟨sg, hsg⟩ : ∃ sg, sg = (st.writing buf).2 := ⟨_, rfl⟩
  rw [← hvec, ← hsg]
  clear hvec hsg
  rcases pollFuture_cases (E := E) fuel .write (.sendTo vec) go sg st with ⟨h1, h2⟩ | ⟨h1, h2, h3⟩ | ⟨l, h1, h2⟩ | ⟨h1, h2, h3⟩
  · rw [h2]; right; right; exact ⟨rfl, .inl h1⟩
  · rw [h3]; left; exact ⟨st.lock, .queued, rfl, by simp, by simp, fun _ => ⟨h1, rfl, h2⟩⟩
  · rw [h2]; left; exact ⟨l, .holding, rfl, by simp, fun _ => h1, by simp⟩
  · rcases h3 with ⟨out, w, h4, h5⟩ | ⟨e, w, h4, h5⟩ | ⟨w, h4, h5⟩
    · have := runOp_sendTo h5
      subst this
      rw [h4]; right; left
      exact ⟨h1, h2, .inl ⟨w, h5, rfl⟩⟩
    · rw [h4]; right; left; exact ⟨h1, h2, .inr ⟨e, w, h5, rfl⟩⟩
    · rw [h4]; right; right; exact ⟨rfl, .inr (by rw [h5])⟩

/-- Everything a poll of a flush can do. -/
theorem pollFlush_cases (fuel : Nat) (go : Bool) (st : Stream) :
    (∃ l stage, pollFlush E fuel go st = (.pending, { st with lock := l, flush := some stage }) ∧ stage ≠ .finished ∧
      (stage = .holding → st.flush.getD .queued = .queued ∧ st.lock = none ∧ l = some .flush ∨ st.flush.getD .queued = .holding ∧ l = st.lock) ∧
      (stage = .queued → st.flush.getD .queued = .queued ∧ l = st.lock ∧ l ≠ none)) ∨
    (st.flush.getD .queued ≠ .finished ∧ (st.flush.getD .queued = .queued → st.lock = none) ∧
      ((∃ out w, runOp E fuel .flush st.w = (.ok out, w) ∧ pollFlush E fuel go st = (.ready (.ok ()), { st with w := w, lock := none, flush := none })) ∨
       (∃ e w, runOp E fuel .flush st.w = (.err e, w) ∧ pollFlush E fuel go st = (.ready (.error e), { st with w := w, lock := none, flush := none })))) ∨
    ((pollFlush E fuel go st).1 = .panic ∧ (st.flush = some .finished ∨ (runOp E fuel .flush st.w).1 = .panic)) := by
  have e : pollFlush E fuel go st = match pollUnit E fuel .flush .flush go (st.flush.getD .queued) st with
      | (r, slot, st') => (r, { st' with flush := slot }) := by
    unfold pollFlush
    cases st.flush <;> rfl
  rw [e]
  clear e
  have hfin : st.flush.getD .queued = .finished → st.flush = some .finished := by
    cases st.flush <;> simp
  generalize st.flush.getD .queued = sg at *
  unfold pollUnit
  rcases pollFuture_cases (E := E) fuel .flush .flush go sg st with ⟨h1, h2⟩ | ⟨h1, h2, h3⟩ | ⟨l, h1, h2⟩ | ⟨h1, h2, h3⟩
  · rw [h2]; right; right; exact ⟨rfl, .inl (hfin h1)⟩
  · rw [h3]; left; exact ⟨st.lock, .queued, rfl, by simp, by simp, fun _ => ⟨h1, rfl, h2⟩⟩
  · rw [h2]; left; exact ⟨l, .holding, rfl, by simp, fun _ => h1, by simp⟩
  · rcases h3 with ⟨out, w, h4, h5⟩ | ⟨e, w, h4, h5⟩ | ⟨w, h4, h5⟩
    · rw [h4]; right; left; exact ⟨h1, h2, .inl ⟨out, w, h5, rfl⟩⟩
    · rw [h4]; right; left; exact ⟨h1, h2, .inr ⟨e, w, h5, rfl⟩⟩
    · rw [h4]; right; right; exact ⟨rfl, .inr (by rw [h5])⟩

/-- The lock and the stages of the futures agree. -/
structure Stream.Consistent (st : Stream) : Prop where
  read : st.lock = some .read ↔ ∃ vec, st.read = some (vec, .holding)
  write : st.lock = some .write ↔ ∃ vec, st.write = some (vec, .holding)
  flush : st.lock = some .flush ↔ st.flush = some .holding
  close : st.close = none ∧ st.lock ≠ some .close
  flushed : st.flush ≠ some .finished

theorem pollClose_panic (fuel : Nat) (tw go : Bool) {st : Stream} (h : st.close = none) : pollClose E fuel true tw go st = (.panic, st) := by
  simp [pollClose, h]

theorem Stream.Consistent.step {st st' : Stream} (hc : st.Consistent) (h : SStep E st st') : st'.Consistent := by
  obtain ⟨c1, c2, c3, c4, c5⟩ := hc
  cases h with
  | write fuel go buf hp =>
    have hholds : (st.writing buf).2 = .holding → st.lock = some .write := by
      unfold Stream.writing
      rcases hs : st.write with _ | ⟨v, g⟩
      · simp
      · intro h; simp only [Option.getD_some] at h; exact c2.mpr ⟨v, by rw [hs, h]⟩
    rcases pollWrite_cases (E := E) fuel go buf st with ⟨l, sg, h1, h2, h3, h4⟩ | ⟨h1, h2, h3⟩ | h
    · rw [h1]
      have hq : (st.writing buf).2 = .queued → st.lock ≠ some .write := by
        unfold Stream.writing
        rcases hs : st.write with _ | ⟨v, g⟩
        · intro _ h; obtain ⟨v, hv⟩ := c2.mp h; rw [hs] at hv; simp at hv
        · intro h h'
          obtain ⟨v, hv⟩ := c2.mp h'
          rw [hs] at hv
          simp only [Option.some.injEq, Prod.mk.injEq] at hv
          simp [hv.2] at h
      cases sg with
      | finished => exact absurd rfl h2
      | queued =>
        obtain ⟨k1, k2, k3⟩ := h4 rfl
        refine ⟨?_, ?_, ?_, ?_, c5⟩ <;> simp only [k2]
        · exact c1
        · exact ⟨fun h => absurd h (hq k1), by simp⟩
        · exact c3
        · exact c4
      | holding =>
        rcases h3 rfl with ⟨k1, k2, k3⟩ | ⟨k1, k2⟩
        · refine ⟨?_, ?_, ?_, ?_, c5⟩ <;> simp only [k3]
          · rw [k2] at c1; simp only [Option.some.injEq, reduceCtorEq, false_iff] at c1 ⊢; exact c1
          · simp
          · rw [k2] at c3; simp only [Option.some.injEq, reduceCtorEq, false_iff] at c3; simp [c3]
          · exact ⟨c4.1, by simp⟩
        · refine ⟨?_, ?_, ?_, ?_, c5⟩ <;> simp only [k2]
          · exact c1
          · simp [hholds k1]
          · exact c3
          · exact c4
    · have hl : st.lock = none ∨ st.lock = some .write := by
        rcases hs : (st.writing buf).2 with _ | _ | _
        · exact .inl (h2 hs)
        · exact .inr (hholds hs)
        · exact absurd hs h1
      have hrest : ∀ w x, (∀ vec, x ≠ some (vec, Stage.holding)) → Stream.Consistent { st with w := w, lock := none, write := x } := by
        intro w x hx
        refine ⟨?_, by simpa using hx, ?_, ⟨c4.1, by simp⟩, c5⟩
        · rcases hl with hl | hl <;> rw [hl] at c1 <;> simp only [Option.some.injEq, reduceCtorEq, false_iff] at c1 ⊢ <;> exact c1
        · rcases hl with hl | hl <;> rw [hl] at c3 <;> simp only [Option.some.injEq, reduceCtorEq, false_iff] at c3 ⊢ <;> exact c3
      rcases h3 with ⟨w, -, h3⟩ | ⟨e, w, -, h3⟩ <;> rw [h3] <;> exact hrest _ _ (by simp)
    · exact absurd h.1 hp
  | other h =>
    cases h with
    | read fuel go buf hp =>
      rcases pollRead_cases (E := E) fuel go buf st with ⟨l, sg, h1, h2, h3, h4⟩ | ⟨h1, h2, ⟨b, src, w, -, -, -, h3⟩ | ⟨e, w, -, h3⟩⟩ | h
      · rw [h1]
        have hr : (st.reading buf).2 = .holding → st.lock = some .read := by
          unfold Stream.reading
          rcases hs : st.read with _ | ⟨v, g⟩
          · simp
          · intro h; simp only [Option.getD_some] at h; exact c1.mpr ⟨v, by rw [hs, h]⟩
        have hq : (st.reading buf).2 = .queued → st.lock ≠ some .read := by
          unfold Stream.reading
          rcases hs : st.read with _ | ⟨v, g⟩
          · intro _ h; obtain ⟨v, hv⟩ := c1.mp h; rw [hs] at hv; simp at hv
          · intro h h'
            obtain ⟨v, hv⟩ := c1.mp h'
            rw [hs] at hv
            simp only [Option.some.injEq, Prod.mk.injEq] at hv
            simp [hv.2] at h
        cases sg with
        | finished => exact absurd rfl h2
        | queued =>
          obtain ⟨k1, k2, k3⟩ := h4 rfl
          refine ⟨?_, ?_, ?_, ?_, c5⟩ <;> simp only [k2]
          · exact ⟨fun h => absurd h (hq k1), by simp⟩
          · exact c2
          · exact c3
          · exact c4
        | holding =>
          rcases h3 rfl with ⟨k1, k2, k3⟩ | ⟨k1, k2⟩
          · refine ⟨?_, ?_, ?_, ?_, c5⟩ <;> simp only [k3]
            · simp
            · rw [k2] at c2; simp only [Option.some.injEq, reduceCtorEq, false_iff] at c2 ⊢; exact c2
            · rw [k2] at c3; simp only [Option.some.injEq, reduceCtorEq, false_iff] at c3; simp [c3]
            · exact ⟨c4.1, by simp⟩
          · refine ⟨?_, ?_, ?_, ?_, c5⟩ <;> simp only [k2]
            · simp [hr k1]
            · exact c2
            · exact c3
            · exact c4
      · rw [h3]
        have hl : st.lock = none ∨ st.lock = some .read := by
          rcases hs : (st.reading buf).2 with _ | _ | _
          · exact .inl (h2 hs)
          · right
            unfold Stream.reading at hs
            rcases hs' : st.read with _ | ⟨v, g⟩
            · rw [hs'] at hs; simp at hs
            · rw [hs'] at hs; simp only [Option.getD_some] at hs; exact c1.mpr ⟨v, by rw [hs', hs]⟩
          · exact absurd hs h1
        refine ⟨by simp, ?_, ?_, ⟨c4.1, by simp⟩, c5⟩
        · rcases hl with hl | hl <;> rw [hl] at c2 <;> simp only [Option.some.injEq, reduceCtorEq, false_iff] at c2 ⊢ <;> exact c2
        · rcases hl with hl | hl <;> rw [hl] at c3 <;> simp only [Option.some.injEq, reduceCtorEq, false_iff] at c3 ⊢ <;> exact c3
      · rw [h3]
        have hl : st.lock = none ∨ st.lock = some .read := by
          rcases hs : (st.reading buf).2 with _ | _ | _
          · exact .inl (h2 hs)
          · right
            unfold Stream.reading at hs
            rcases hs' : st.read with _ | ⟨v, g⟩
            · rw [hs'] at hs; simp at hs
            · rw [hs'] at hs; simp only [Option.getD_some] at hs; exact c1.mpr ⟨v, by rw [hs', hs]⟩
          · exact absurd hs h1
        refine ⟨by simp, ?_, ?_, ⟨c4.1, by simp⟩, c5⟩
        · rcases hl with hl | hl <;> rw [hl] at c2 <;> simp only [Option.some.injEq, reduceCtorEq, false_iff] at c2 ⊢ <;> exact c2
        · rcases hl with hl | hl <;> rw [hl] at c3 <;> simp only [Option.some.injEq, reduceCtorEq, false_iff] at c3 ⊢ <;> exact c3
      · exact absurd h.1 hp
    | flush fuel go hp =>
      have hholds : st.flush.getD .queued = .holding → st.lock = some .flush := by
        rcases hs : st.flush with _ | g
        · simp
        · intro h; simp only [Option.getD_some] at h; exact c3.mpr (by rw [hs, h])
      rcases pollFlush_cases (E := E) fuel go st with ⟨l, sg, h1, h2, h3, h4⟩ | ⟨h1, h2, h3⟩ | h
      · rw [h1]
        have hq : st.flush.getD .queued = .queued → st.lock ≠ some .flush := by
          intro h h'
          rw [c3.mp h'] at h
          simp at h
        cases sg with
        | finished => exact absurd rfl h2
        | queued =>
          obtain ⟨k1, k2, k3⟩ := h4 rfl
          refine ⟨?_, ?_, ?_, ?_, by simp⟩ <;> simp only [k2]
          · exact c1
          · exact c2
          · exact ⟨fun h => absurd h (hq k1), by simp⟩
          · exact c4
        | holding =>
          rcases h3 rfl with ⟨k1, k2, k3⟩ | ⟨k1, k2⟩
          · refine ⟨?_, ?_, ?_, ?_, by simp⟩ <;> simp only [k3]
            · rw [k2] at c1; simp only [Option.some.injEq, reduceCtorEq, false_iff] at c1 ⊢; exact c1
            · rw [k2] at c2; simp only [Option.some.injEq, reduceCtorEq, false_iff] at c2 ⊢; exact c2
            · exact ⟨c4.1, by simp⟩
          · refine ⟨?_, ?_, ?_, ?_, by simp⟩ <;> simp only [k2]
            · exact c1
            · exact c2
            · simp [hholds k1]
            · exact c4
      · have hl : st.lock = none ∨ st.lock = some .flush := by
          rcases hs : st.flush.getD .queued with _ | _ | _
          · exact .inl (h2 hs)
          · exact .inr (hholds hs)
          · exact absurd hs h1
        have hrest : ∀ w, Stream.Consistent { st with w := w, lock := none, flush := none } := by
          intro w
          refine ⟨?_, ?_, by simp, ⟨c4.1, by simp⟩, by simp⟩
          · rcases hl with hl | hl <;> rw [hl] at c1 <;> simp only [Option.some.injEq, reduceCtorEq, false_iff] at c1 ⊢ <;> exact c1
          · rcases hl with hl | hl <;> rw [hl] at c2 <;> simp only [Option.some.injEq, reduceCtorEq, false_iff] at c2 ⊢ <;> exact c2
        rcases h3 with ⟨out, w, -, h3⟩ | ⟨e, w, -, h3⟩ <;> rw [h3] <;> exact hrest _
      · exact absurd h.1 hp
    | close fuel tw go hp => rw [pollClose_panic fuel tw go c4.1] at hp; exact absurd rfl hp
    | lock h =>
      unfold Stream.takeLock at h
      split at h
      · rename_i hl
        simp only [Option.some.injEq] at h
        subst h
        rw [hl] at c1 c2 c3
        simp only [Option.some.injEq, reduceCtorEq, false_iff] at c1 c2 c3
        exact ⟨by simpa using c1, by simpa using c2, by simpa using c3, ⟨c4.1, by simp⟩, c5⟩
      · simp at h
    | method fuel op hl _ hp =>
      unfold Stream.runMethod at hp ⊢
      rw [hl] at c1 c2 c3
      simp only [Option.some.injEq, reduceCtorEq, false_iff] at c1 c2 c3
      rcases runHolding_cases (E := E) fuel op true st with hr | ⟨out, w, hr, -⟩ | ⟨e, w, hr, -⟩ | ⟨w, hr, -⟩
      · rw [hr]; simp only; exact ⟨by rw [hl]; simpa using c1, by rw [hl]; simpa using c2, by rw [hl]; simpa using c3, c4, c5⟩
      · rw [hr]; simp only; exact ⟨by simpa using c1, by simpa using c2, by simpa using c3, ⟨c4.1, by simp⟩, c5⟩
      · rw [hr]; simp only; exact ⟨by simpa using c1, by simpa using c2, by simpa using c3, ⟨c4.1, by simp⟩, c5⟩
      · rw [hr] at hp; exact absurd rfl hp

theorem SReach.consistent {st : Stream} (h : SReach E st) : st.Consistent := by
  induction h with
  | made _ => exact ⟨by simp [Stream.ofWorld], by simp [Stream.ofWorld], by simp [Stream.ofWorld], by simp [Stream.ofWorld], by simp [Stream.ofWorld]⟩
  | step _ hs ih => exact ih.step hs

/-- A call other than a poll of a write does not touch the slot of the write; it leaves the socket as it is or runs one operation on it, not `send_to`, that
does not panic. -/
theorem sother_op {st st' : Stream} (hc : st.Consistent) (h : SOther E st st') : st'.write = st.write ∧
    (st'.w = st.w ∨ ∃ fuel op r, runOp E fuel op st.w = (r, st'.w) ∧ r ≠ .panic ∧ ∀ buf, op ≠ .sendTo buf) := by
  cases h with
  | read fuel go buf hp =>
    rcases pollRead_cases (E := E) fuel go buf st with ⟨l, sg, h1, -⟩ | ⟨h1, h2, ⟨b, src, w, h3, -, -, h4⟩ | ⟨e, w, h3, h4⟩⟩ | h
    · rw [h1]; exact ⟨rfl, .inl rfl⟩
    · rw [h4]; exact ⟨rfl, .inr ⟨fuel, _, _, h3, by simp, fun _ => by simp⟩⟩
    · rw [h4]; exact ⟨rfl, .inr ⟨fuel, _, _, h3, by simp, fun _ => by simp⟩⟩
    · exact absurd h.1 hp
  | flush fuel go hp =>
    rcases pollFlush_cases (E := E) fuel go st with ⟨l, sg, h1, -⟩ | ⟨h1, h2, ⟨out, w, h3, h4⟩ | ⟨e, w, h3, h4⟩⟩ | h
    · rw [h1]; exact ⟨rfl, .inl rfl⟩
    · rw [h4]; exact ⟨rfl, .inr ⟨fuel, _, _, h3, by simp, fun _ => by simp⟩⟩
    · rw [h4]; exact ⟨rfl, .inr ⟨fuel, _, _, h3, by simp, fun _ => by simp⟩⟩
    · exact absurd h.1 hp
  | close fuel tw go hp => rw [pollClose_panic fuel tw go hc.close.1] at hp; exact absurd rfl hp
  | lock h =>
    unfold Stream.takeLock at h
    split at h
    · simp only [Option.some.injEq] at h
      subst h
      exact ⟨rfl, .inl rfl⟩
    · simp at h
  | method fuel op hl ho hp =>
    unfold Stream.runMethod at hp ⊢
    have hno : ∀ buf, op ≠ .sendTo buf := by
      rcases ho with rfl | ⟨n, rfl⟩ <;> simp
    rcases runHolding_cases (E := E) fuel op true st with hr | ⟨out, w, hr, h3⟩ | ⟨e, w, hr, h3⟩ | ⟨w, hr, -⟩
    · rw [hr]; exact ⟨rfl, .inl rfl⟩
    · rw [hr]; exact ⟨rfl, .inr ⟨fuel, _, _, h3, by simp, hno⟩⟩
    · rw [hr]; exact ⟨rfl, .inr ⟨fuel, _, _, h3, by simp, hno⟩⟩
    · rw [hr] at hp; exact absurd rfl hp

theorem SReach.reach {st : Stream} (h : SReach E st) : Reach E st.w := by
  induction h with
  | made h => exact h
  | @step st st' hr hs ih =>
    have hop : st'.w = st.w ∨ ∃ fuel op r, runOp E fuel op st.w = (r, st'.w) ∧ r ≠ .panic := by
      cases hs with
      | write fuel go buf hp =>
        rcases pollWrite_cases (E := E) fuel go buf st with ⟨l, sg, h1, -⟩ | ⟨h1, h2, ⟨w, h3, h4⟩ | ⟨e, w, h3, h4⟩⟩ | h
        · rw [h1]; exact .inl rfl
        · rw [h4]; exact .inr ⟨fuel, _, _, h3, by simp⟩
        · rw [h4]; exact .inr ⟨fuel, _, _, h3, by simp⟩
        · exact absurd h.1 hp
      | other h =>
        rcases (sother_op hr.consistent h).2 with h | ⟨fuel, op, r, h1, h2, -⟩
        · exact .inl h
        · exact .inr ⟨fuel, op, r, h1, h2⟩
    rcases hop with h | ⟨fuel, op, r, h1, h2⟩
    · rw [h]; exact ih
    · obtain ⟨w0, hm, hrun⟩ := ih
      have := Run.op fuel op hrun (by rw [h1]; exact h2)
      rw [h1] at this
      exact ⟨w0, hm, this⟩

end Utp
