import Verif.Wakers
import Verif.Lemmas.Threads
import Verif.Props.Threads
import Verif.Samples
/-!
# C75: tasks that wait for a stream are woken
-/

namespace Utp
open M Sample

variable {E : Env}

/-- Nobody polls a slot another task waits for. -/
def TaskAct.alone (T : Tasks) : TaskAct → Prop
  | .poll t c _ => ∀ t', T.waits t' = some c.slot → t' = t
  | _ => True

/-- Steps in which nobody polls a slot another task waits for. -/
inductive AloneRun (E : Env) (st : Stream) : Tasks → Prop
  | init : AloneRun E st (.init st)
  | step {T T' : Tasks} {a : TaskAct} : AloneRun E st T → a.alone T → WStep E T a T' → AloneRun E st T'

/-- A poll that returns `Pending` leaves an unfinished future in its slot; a poll leaves the other slots alone. -/
theorem run_slots {fuel : Nat} {go : Bool} {c : Poll} {st st' : Stream} {a : Answer} (h : c.run E fuel go st = (a, st')) :
    (∀ s, s ≠ c.slot → st'.slot s = st.slot s) ∧ (a.1 = .pending → ∃ vec stage, st'.slot c.slot = some (vec, stage) ∧ stage ≠ .finished) := by
  rw [Poll.run_eq] at h
  split at h
  · cases h
    exact ⟨fun _ _ => rfl, fun h => by simp at h⟩
  · dsimp only at h
    have hfit : c.slot.Fits ((st.slot c.slot).getD (c.buf, .queued)).1 := by
      rcases hs : st.slot c.slot with _ | ⟨v, g⟩
      · exact fits_buf c
      · exact fits_slot hs
    split at h
    · next hp =>
      cases h
      refine ⟨fun s hs => by rw [slot_setSlot_ne _ hs, slot_with], fun _ => ⟨_, _, slot_setSlot_some _ hfit _, ?_⟩⟩
      unfold pollCore at hp ⊢
      rcases pollFuture_cases (E := E) fuel c.slot.holder (c.slot.op ((st.slot c.slot).getD (c.buf, .queued)).1) go ((st.slot c.slot).getD (c.buf, .queued)).2 st with
        ⟨-, h⟩ | ⟨-, -, h⟩ | ⟨l, -, h⟩ | ⟨-, -, ⟨_, _, h, -⟩ | ⟨_, _, h, -⟩ | ⟨_, h, -⟩⟩ <;> rw [h] at hp ⊢ <;> simp at hp ⊢
    · cases h
      exact ⟨fun s hs => by rw [slot_setSlot_ne _ hs, slot_with], fun h => by simp at h⟩
    · next r hr =>
      have hpend : ∀ a, c.after ((st.slot c.slot).getD (c.buf, .queued)).1 r = .stop a ∨ c.after ((st.slot c.slot).getD (c.buf, .queued)).1 r = .clear a → a.1 ≠ .pending := by
        intro a
        cases c <;> rcases r with e | o <;> (try cases o) <;> simp only [Poll.after] <;> (try split) <;> rintro (h | h) <;> cases h <;> simp
      split at h
      · next x hx =>
        cases h
        exact ⟨fun s hs => by rw [slot_setSlot_ne _ hs, slot_with], fun h => absurd h (hpend _ (.inl hx))⟩
      · next x hx =>
        cases h
        exact ⟨fun s hs => by rw [slot_setSlot_ne _ hs, slot_with], fun h => absurd h (hpend _ (.inr hx))⟩

/-- A method leaves the slots alone. -/
theorem runMethod_slot {fuel : Nat} {op : Op} {st st' : Stream} {r : PollRes Out} (h : st.runMethod E fuel op = (r, st')) (s : Slot) : st'.slot s = st.slot s := by
  obtain ⟨r', w, l, h'⟩ := runMethod_core (E := E) fuel op st
  rw [h' st rfl rfl] at h
  cases h
  exact slot_with ..

/-- Wakers are in futures that have not finished. -/
def Tasks.Live (T : Tasks) : Prop := ∀ s t, T.waker s = some t → ∃ vec stage, T.st.slot s = some (vec, stage) ∧ stage ≠ .finished

theorem Tasks.Live.step {T T' : Tasks} {a : TaskAct} (h : T.Live) (hs : WStep E T a T') : T'.Live := by
  cases hs with
  | @poll t c a st fuel go hw hr =>
    obtain ⟨h1, h2⟩ := run_slots hr
    intro s t' ht
    unfold Tasks.polled at ht ⊢
    by_cases hc : s = c.slot
    · subst hc
      rcases a with ⟨r, b⟩
      cases r
      · exact h2 rfl
      · simp [put] at ht
      · simp [put] at ht
    · have : T.waker s = some t' := by
        rcases a with ⟨r, b⟩
        cases r <;> simpa [put, hc] using ht
      obtain ⟨vec, stage, h3, h4⟩ := h s t' this
      refine ⟨vec, stage, ?_, h4⟩
      rw [← h3, ← h1 s hc]
      rcases a with ⟨r, b⟩
      cases r <;> rfl
  | @wake s t hw =>
    intro s' t' ht
    by_cases hc : s' = s
    · simp [put, hc] at ht
    · exact h s' t' (by simpa [put, hc] using ht)
  | leave => exact h
  | lock hl =>
    obtain ⟨-, rfl⟩ := takeLock_eq.mp hl
    intro s t ht
    obtain ⟨vec, stage, h3, h4⟩ := h s t ht
    exact ⟨vec, stage, by rw [← h3]; exact slot_with .., h4⟩
  | method fuel op _ _ hm =>
    intro s t ht
    obtain ⟨vec, stage, h3, h4⟩ := h s t ht
    exact ⟨vec, stage, by rw [← h3]; exact runMethod_slot hm s, h4⟩

/-- **C75, partial.**  A task whose poll returned `Pending` will be woken: the future in the slot has its waker, and has not finished.  This holds if no task polls a slot another
task waits for. -/
theorem C75_partial {st : Stream} {T : Tasks} (h : AloneRun E st T) (t : Nat) (s : Slot) (hw : T.waits t = some s) :
    T.waker s = some t ∧ ∃ vec stage, T.st.slot s = some (vec, stage) ∧ stage ≠ .finished := by
  have key : T.Live ∧ ∀ t s, T.waits t = some s → T.waker s = some t := by
    clear hw
    induction h with
    | init => exact ⟨fun s t h => by simp [Tasks.init] at h, fun s t h => by simp [Tasks.init] at h⟩
    | @step T T' a h ha hs ih =>
      refine ⟨ih.1.step hs, ?_⟩
      intro t s hw
      cases hs with
      | @poll t0 c a st fuel go hn hr =>
        rcases a with ⟨r, b⟩
        have old : T.waits t = some s → (s = c.slot → t = t0) := fun h1 h2 => ha t (h2 ▸ h1)
        cases r with
        | pending =>
          simp only [Tasks.polled, put] at hw ⊢
          by_cases ht : t = t0
          · subst ht
            rw [if_pos rfl] at hw
            cases hw
            simp
          · rw [if_neg ht] at hw
            have : s ≠ c.slot := fun h => ht (old hw h)
            rw [if_neg this]
            exact ih.2 t s hw
        | ready x =>
          simp only [Tasks.polled, put] at hw ⊢
          have : s ≠ c.slot := fun h => by
            have := old hw h
            subst this
            rw [hn] at hw
            cases hw
          rw [if_neg this]
          exact ih.2 t s hw
        | panic =>
          simp only [Tasks.polled, put] at hw ⊢
          have : s ≠ c.slot := fun h => by
            have := old hw h
            subst this
            rw [hn] at hw
            cases hw
          rw [if_neg this]
          exact ih.2 t s hw
      | @wake s0 t0 hk =>
        simp only [put] at hw ⊢
        by_cases ht : t = t0
        · rw [if_pos ht] at hw
          cases hw
        · rw [if_neg ht] at hw
          have h1 := ih.2 t s hw
          have : s ≠ s0 := fun h => by
            subst h
            rw [h1] at hk
            cases hk
            exact ht rfl
          rw [if_neg this]
          exact h1
      | @leave t0 =>
        simp only [put] at hw
        by_cases ht : t = t0
        · rw [if_pos ht] at hw
          cases hw
        · rw [if_neg ht] at hw
          exact ih.2 t s hw
      | lock => exact ih.2 t s hw
      | method => exact ih.2 t s hw
  have h1 := key.2 t s hw
  exact ⟨h1, key.1 s t h1⟩

/-- **C75.**  A task whose waker is nowhere waits until it gives up, whatever else happens: data may arrive, other tasks may read it, the connection may end. -/
theorem C75_forgotten {T T' : Tasks} {l : List TaskAct} (h : WRun E T l T') {t : Nat} {s : Slot} (hw : T.waits t = some s) (hk : ∀ s', T.waker s' ≠ some t)
    (hl : TaskAct.leave t ∉ l) : T'.waits t = some s ∧ ∀ c a, TaskAct.poll t c a ∉ l := by
  have key : (T'.waits t = some s ∧ ∀ s', T'.waker s' ≠ some t) ∧ ∀ c a, TaskAct.poll t c a ∉ l := by
    induction h with
    | nil => exact ⟨⟨hw, hk⟩, by simp⟩
    | @step T' T'' l a h hs ih =>
      obtain ⟨⟨h1, h2⟩, h3⟩ := ih (fun h => hl (by simp [h]))
      have hne : ∀ t0, T'.waits t0 = none → t ≠ t0 := fun t0 h0 he => by
        rw [← he, h1] at h0
        cases h0
      cases hs with
      | @poll t0 c a st fuel go hn hr =>
        refine ⟨?_, ?_⟩
        · rcases a with ⟨r, b⟩
          have ht := hne t0 hn
          cases r <;> simp only [Tasks.polled, put, if_neg ht] <;> refine ⟨h1, fun s' => ?_⟩ <;> split
          · intro he
            cases he
            exact ht rfl
          · exact h2 s'
          · simp
          · exact h2 s'
          · simp
          · exact h2 s'
        · intro c' a' hm
          rcases List.mem_append.mp hm with hm | hm
          · exact h3 c' a' hm
          · rw [List.mem_singleton] at hm
            cases hm
            exact hne t hn rfl
      | @wake s0 t0 hk0 =>
        have ht : t ≠ t0 := fun h => h2 s0 (h ▸ hk0)
        refine ⟨⟨by simp only [put, if_neg ht]; exact h1, fun s' => ?_⟩, fun c a hm => ?_⟩
        · simp only [put]
          split
          · simp
          · exact h2 s'
        · rcases List.mem_append.mp hm with hm | hm
          · exact h3 c a hm
          · simp at hm
      | @leave t0 =>
        have ht : t ≠ t0 := fun h => hl (by simp [h])
        refine ⟨⟨by simp only [put, if_neg ht]; exact h1, h2⟩, fun c a hm => ?_⟩
        rcases List.mem_append.mp hm with hm | hm
        · exact h3 c a hm
        · simp at hm
      | lock =>
        refine ⟨⟨h1, h2⟩, fun c a hm => ?_⟩
        rcases List.mem_append.mp hm with hm | hm
        · exact h3 c a hm
        · simp at hm
      | method =>
        refine ⟨⟨h1, h2⟩, fun c a hm => ?_⟩
        rcases List.mem_append.mp hm with hm | hm
        · exact h3 c a hm
        · simp at hm
  exact ⟨key.1.1, key.2⟩

/-- A poll does not return `Pending` when the operation can end and the lock of the socket is free or the future has it. -/
theorem run_ready {fuel : Nat} {c : Poll} {st : Stream} {vec : Bytes} {stage : Stage} (h : st.slot c.slot = some (vec, stage)) (hl : stage = .queued → st.lock = none)
    (hr : (runOp E fuel (c.slot.op vec) st.w).1 ≠ .pending) : (c.run E fuel true st).1.1 ≠ .pending := by
  rw [Poll.run_eq]
  rw [if_neg (by rintro ⟨h1, h2⟩; rw [h1, h2] at h; cases h)]
  simp only [h, Option.getD_some]
  have hp : (pollCore E fuel c.slot.holder (c.slot.op vec) true stage st).1 ≠ .pending := by
    unfold pollCore pollFuture runHolding
    cases stage with
    | finished => simp
    | queued =>
      simp only [hl rfl, if_true]
      generalize runOp E fuel (c.slot.op vec) st.w = x at hr
      rcases x with ⟨r, w⟩
      cases r <;> simp at hr ⊢
    | holding =>
      simp only [if_true]
      generalize runOp E fuel (c.slot.op vec) st.w = x at hr
      rcases x with ⟨r, w⟩
      cases r <;> simp at hr ⊢
  split
  · next h => exact absurd h hp
  · simp
  · next r _ =>
    have hpend : ∀ a, c.after vec r = .stop a ∨ c.after vec r = .clear a → a.1 ≠ .pending := by
      intro a
      cases c <;> rcases r with e | o <;> (try cases o) <;> simp only [Poll.after] <;> (try split) <;> rintro (h | h) <;> cases h <;> simp
    split
    · next hx => exact hpend _ (.inl hx)
    · next hx => exact hpend _ (.inr hx)

/-- **C75, partial.**  When what a task waits for is there, it is woken and its poll does not return `Pending` again: the operation can end, and its future has the lock of the socket or the
lock is free. -/
theorem C75_served_partial {st : Stream} {T : Tasks} (h : AloneRun E st T) {t : Nat} {c : Poll} (hw : T.waits t = some c.slot) :
    ∃ vec stage, T.st.slot c.slot = some (vec, stage) ∧ ∀ fuel, (stage = .queued → T.st.lock = none) → (runOp E fuel (c.slot.op vec) T.st.w).1 ≠ .pending →
      ∃ T1 T2 a, WStep E T (.wake c.slot) T1 ∧ WStep E T1 (.poll t c a) T2 ∧ a = (c.run E fuel true T.st).1 ∧ a.1 ≠ .pending ∧ T2.waits t = none := by
  obtain ⟨h1, vec, stage, h2, h3⟩ := C75_partial h t c.slot hw
  refine ⟨vec, stage, h2, fun fuel hl hr => ?_⟩
  have hp := run_ready h2 hl hr
  rcases hrun : c.run E fuel true T.st with ⟨a, st'⟩
  rw [hrun] at hp
  refine ⟨_, _, a, .wake h1, .poll fuel true (by simp [put]) hrun, rfl, hp, ?_⟩
  rcases a with ⟨r, b⟩
  cases r
  · exact absurd rfl hp
  · simp [Tasks.polled, put]
  · simp [Tasks.polled, put]

/-- Two tasks poll the same slot, the second one is woken and gets the result. -/
theorem two_tasks {st : Stream} {c : Poll} {a b a' : Answer} {fuel : Nat} (h1 : (c.run E fuel false st).1 = a) (h2 : (c.run E fuel false (c.run E fuel false st).2).1 = b)
    (h3 : (c.run E fuel true (c.run E fuel false (c.run E fuel false st).2).2).1 = a') (ha : a.1 = .pending) (hb : b.1 = .pending) (hc : a'.1 ≠ .pending) :
    ∃ T, WRun E (.init st) [.poll 1 c a, .poll 2 c b, .wake c.slot, .poll 2 c a'] T ∧ T.waits 1 = some c.slot ∧ T.waits 2 = none ∧ ∀ s, T.waker s ≠ some 1 := by
  rcases e1 : c.run E fuel false st with ⟨x, st1⟩
  rw [e1] at h1 h2 h3
  dsimp only at h1 h2 h3
  rcases e2 : c.run E fuel false st1 with ⟨y, st2⟩
  rw [e2] at h2 h3
  dsimp only at h2 h3
  rcases e3 : c.run E fuel true st2 with ⟨z, st3⟩
  rw [e3] at h3
  dsimp only at h3
  subst h1 h2 h3
  rcases x with ⟨x, xb⟩
  rcases y with ⟨y, yb⟩
  rcases z with ⟨z, zb⟩
  simp only at ha hb hc
  subst ha hb
  have s1 : WStep E (.init st) (.poll 1 c (.pending, xb)) _ := .poll fuel false rfl e1
  have s2 : WStep E _ (.poll 2 c (.pending, yb)) _ := .poll (T := (Tasks.init st).polled 1 c.slot (.pending, xb) st1) fuel false (by simp [Tasks.polled, Tasks.init, put]) e2
  have s3 : WStep E _ (.wake c.slot) _ := .wake (T := ((Tasks.init st).polled 1 c.slot (.pending, xb) st1).polled 2 c.slot (.pending, yb) st2) (t := 2) (by simp [Tasks.polled, put])
  have s4 := WStep.poll (E := E) (T := _) (t := 2) fuel true (by simp [put]) (show c.run E fuel true _ = _ from e3) |> fun s => WRun.step (WRun.step (WRun.step (WRun.step .nil s1) s2) s3) s
  refine ⟨_, s4, ?_, ?_, fun s => ?_⟩
  · cases z
    · exact absurd rfl hc
    · simp [Tasks.polled, put]
    · simp [Tasks.polled, put]
  · cases z
    · exact absurd rfl hc
    · simp [Tasks.polled, put]
    · simp [Tasks.polled, put]
  · cases z
    · exact absurd rfl hc
    · by_cases h : s = c.slot <;> simp [Tasks.polled, Tasks.init, put, h]
    · by_cases h : s = c.slot <;> simp [Tasks.polled, Tasks.init, put, h]

/-- **C75 is false of the code**: two tasks read from clones of one stream.  Data arrives, the second task is woken and gets it.  The first task is never woken, whatever happens
afterwards, unless it gives up by itself. -/
theorem C75_counterexample : let c := Poll.read [0, 0, 0, 0]
    SReach oneData (sstream oneData) ∧ ∃ T, WRun oneData (.init (sstream oneData))
      [.poll 1 c (.pending, [0, 0, 0, 0]), .poll 2 c (.pending, [0, 0, 0, 0]), .wake .read, .poll 2 c (.ready (.ok 3), [7, 8, 9, 0])] T ∧
      T.waits 1 = some .read ∧ ∀ l T', WRun oneData T l T' → .leave 1 ∉ l → T'.waits 1 = some .read ∧ ∀ c a, .poll 1 c a ∉ l := by
  obtain ⟨T, h1, h2, -, h3⟩ := two_tasks (E := oneData) (st := sstream oneData) (c := .read [0, 0, 0, 0]) (fuel := 9) (a := (.pending, [0, 0, 0, 0])) (b := (.pending, [0, 0, 0, 0]))
    (a' := (.ready (.ok 3), [7, 8, 9, 0])) (by decide +kernel) (by decide +kernel) (by decide +kernel) rfl rfl (by simp)
  exact ⟨sreach_server (by decide +kernel), T, h1, h2, fun l T' h hl => C75_forgotten h h2 h3 hl⟩

/-- A task polls, in a run in which nobody else does. -/
theorem one_task {st : Stream} {c : Poll} {fuel : Nat} (t : Nat) (h : (c.run E fuel false st).1.1 = .pending) :
    ∃ T, AloneRun E st T ∧ T.waits t = some c.slot ∧ T.st = (c.run E fuel false st).2 := by
  rcases e1 : c.run E fuel false st with ⟨⟨x, b⟩, st1⟩
  rw [e1] at h
  simp only at h
  subst h
  exact ⟨_, .step .init (by simp [TaskAct.alone, Tasks.init]) (.poll (t := t) fuel false rfl e1), by simp [Tasks.polled, put], rfl⟩

/-- **C75_partial, C75_served_partial**: a task reads and waits; when the data is there the read returns it. -/
example : let c := Poll.read [0, 0, 0, 0]
    ∃ T, AloneRun oneData (sstream oneData) T ∧ T.waits 1 = some .read ∧ T.st.slot .read = some ([0, 0, 0, 0], .holding) ∧
      (runOp oneData 9 (Slot.op [0, 0, 0, 0] .read) T.st.w).1 ≠ .pending ∧ (c.run oneData 9 true T.st).1 = (.ready (.ok 3), [7, 8, 9, 0]) := by
  obtain ⟨T, h1, h2, h3⟩ := one_task (E := oneData) (st := sstream oneData) (c := .read [0, 0, 0, 0]) (fuel := 9) 1 (by decide +kernel)
  exact ⟨T, h1, h2, by rw [h3]; decide +kernel, by rw [h3]; decide +kernel, by rw [h3]; decide +kernel⟩

end Utp
