import Verif.Lemmas.Threads
import Verif.Props.UtpStream
import Verif.Lemmas.Misuse
import Mathlib.Data.List.Nodup
/-!
# Several threads use one stream: C69, C70, C71
-/

namespace Utp

variable {E : Env}

/-- **C69.**  Threads poll clones of a stream and call its methods, and their steps interleave in any way, except that no two polls of the same kind overlap.  Then
there is an order of the calls, one after the other, that explains everything: each call that ended has the result that it has in this order, and a call that
ended before another one began stands before it.  When no call is in progress, the stream is as it is at the end of this order. -/
theorem C69_one_by_one {st0 : Stream} {h : List Ev} {T : Threads} (hr : TRun E st0 h T) (hap : Apart h) :
    ∃ l st, OneByOne E st0 l st ∧ Explains h l ∧ ((∀ i, T.frame i = none) → T.st = st) := by
  obtain ⟨l, a, t⟩ := tinv_run hr hap
  refine ⟨l, a, t.seq, t.explains, fun hn => ?_⟩
  exact (stream_ext t.w t.lock fun s => (t.idle s fun i f hf => by rw [hn i] at hf; cases hf).2).symm

/-- So everything that is proved about histories of atomic calls (C49–C53) holds of concurrent ones: if no call of the order panicked, its end is reachable by
atomic calls. -/
theorem C69_reach {st0 st : Stream} {l : List Entry} (h0 : SReach E st0) (h : OneByOne E st0 l st)
    (hp : (∀ i c fuel go b, Entry.poll i c fuel go (.panic, b) ∉ l) ∧ (∀ i fuel op, Entry.method i fuel op .panic ∉ l)) : SReach E st := by
  induction h with
  | nil => exact h0
  | @poll l st i c fuel go _ ih =>
    have ih := ih ⟨fun i c f g b h => hp.1 i c f g b (List.mem_append_left _ h), fun i f o h => hp.2 i f o (List.mem_append_left _ h)⟩
    have hn : (c.run E fuel go st).1.1 ≠ .panic := by
      intro hx
      refine hp.1 i c fuel go (c.run E fuel go st).1.2 (List.mem_append_right _ ?_)
      rw [List.mem_singleton, ← hx]
    cases c with
    | read buf => exact .step ih (.other (.read fuel go buf hn))
    | write buf => exact .step ih (.write fuel go buf hn)
    | flush => exact .step ih (.other (.flush fuel go (fun hx => hn (by simp only [Poll.run]; rw [hx]; rfl))))
    | close => exact .step ih (.other (.close fuel true go (fun hx => hn (by simp only [Poll.run]; rw [hx]; rfl))))
  | @lock l st st' i _ hl ih =>
    have ih := ih ⟨fun i c f g b h => hp.1 i c f g b (List.mem_append_left _ h), fun i f o h => hp.2 i f o (List.mem_append_left _ h)⟩
    exact .step ih (.other (.lock hl))
  | @method l st i fuel op _ hl ho ih =>
    have ih := ih ⟨fun i c f g b h => hp.1 i c f g b (List.mem_append_left _ h), fun i f o h => hp.2 i f o (List.mem_append_left _ h)⟩
    exact .step ih (.other (.method fuel op hl ho (fun hx => hp.2 i fuel op (List.mem_append_right _ (by simp [hx])))))

/-- **C69**, for `poll_close`, which panics when it is alone (`C52_counterexample`): also when several threads call it at once, the first one that ends panics. -/
theorem C69_close {st0 : Stream} {h : List Ev} {T : Threads} (h0 : SReach E st0) (hr : TRun E st0 h T) {i : Nat} {a : Answer} (hi : Ev.ret i .close a ∈ h) :
    ∃ j b, Ev.ret j .close (.panic, b) ∈ h := by
  by_cases hn : ∀ j b, Ev.ret j .close (.panic, b) ∉ h
  · exact absurd hi ((closeInv_run h0.consistent.close.1 hr hn).none i a)
  · simpa using hn

/-! ### Reading and writing at the same time -/

/-- A read waits for data, and has the lock of the socket. -/
structure ReadWaits (vec : Bytes) (st : Stream) : Prop where
  lock : st.lock = some .read
  read : st.read = some (vec, .holding)
  others : ∀ s, s ≠ .read → ∀ v, st.slot s ≠ some (v, .holding)

theorem run_blocked {st : Stream} {vec : Bytes} (hb : ReadWaits vec st) (fuel : Nat) (go : Bool) {c : Poll} (hne : ∀ b, c ≠ .read b) :
    ((c.run E fuel go st).1.1 = .pending ∨ (c.run E fuel go st).1.1 = .panic) ∧ (c.run E fuel go st).2.w = st.w ∧ ReadWaits vec (c.run E fuel go st).2 := by
  have hs : c.slot ≠ .read := by
    cases c with
    | read b => exact absurd rfl (hne b)
    | _ => simp [Poll.slot]
  rw [Poll.run_eq]
  by_cases hc : c.slot = .close ∧ st.slot .close = none
  · rw [if_pos hc]
    exact ⟨.inr rfl, rfl, hb⟩
  · rw [if_neg hc]
    obtain ⟨v, sg, hf, hfit, hsg⟩ : ∃ v sg, (st.slot c.slot).getD (c.buf, .queued) = (v, sg) ∧ c.slot.Fits v ∧ sg ≠ .holding := by
      rcases hv : st.slot c.slot with _ | ⟨v, sg⟩
      · exact ⟨_, _, rfl, fits_buf c, by simp⟩
      · exact ⟨v, sg, rfl, fits_slot hv, fun h => hb.others _ hs v (by rw [hv, h])⟩
    have key : ∃ r, (r = PollRes.pending ∨ r = PollRes.panic) ∧ pollCore E fuel c.slot.holder (c.slot.op v) go sg st = (r, sg, st.w, st.lock) := by
      cases sg with
      | queued => exact ⟨.pending, .inl rfl, by simp [pollCore, pollFuture, hb.lock]⟩
      | holding => exact absurd rfl hsg
      | finished => exact ⟨.panic, .inr rfl, by simp [pollCore, pollFuture]⟩
    obtain ⟨r, hr, hp⟩ := key
    simp only [hf, hp]
    have hw : ReadWaits vec (Stream.setSlot st c.slot (some (v, sg))) := by
      refine ⟨by simpa using hb.lock, (slot_setSlot_ne st hs.symm _).trans hb.read, fun s h1 v' => ?_⟩
      by_cases h2 : s = c.slot
      · subst h2
        rw [slot_setSlot_some _ hfit]
        intro h3
        cases h3
        exact hsg rfl
      · rw [slot_setSlot_ne _ h2]; exact hb.others s h1 v'
    rcases hr with rfl | rfl
    · exact ⟨.inl rfl, by simp, hw⟩
    · exact ⟨.inr rfl, by simp, hw⟩

/-- **C70 is false of the code**: while a read waits for data, no write and no flush completes, by whichever clone and however often they are polled, nothing is done with
the socket, and no method gets its lock, until the read itself is polled again. -/
theorem C70_counterexample_always {st st' : Stream} {vec : Bytes} {l : List Entry} (hr : SReach E st) (hrd : st.read = some (vec, .holding))
    (h : OneByOne E st l st') (hl : ∀ i buf fuel go a, Entry.poll i (.read buf) fuel go a ∉ l) :
    st'.w = st.w ∧ st'.read = some (vec, .holding) ∧ ∀ e ∈ l, ∃ i c fuel go a, e = .poll i c fuel go a ∧ (a.1 = .pending ∨ a.1 = .panic) := by
  have hb : ReadWaits vec st := by
    have hc := hr.consistent
    have hlk := hc.read.2 ⟨vec, hrd⟩
    refine ⟨hlk, hrd, fun s hs v hv => ?_⟩
    cases s with
    | read => exact hs rfl
    | write => have := hc.write.2 ⟨v, hv⟩; rw [hlk] at this; cases this
    | flush =>
      simp [Stream.slot] at hv
      have := hc.flush.2 hv.1
      rw [hlk] at this; cases this
    | close => simp [Stream.slot, hc.close.1] at hv
  suffices hx : ReadWaits vec st' ∧ st'.w = st.w ∧ ∀ e ∈ l, ∃ i c fuel go a, e = .poll i c fuel go a ∧ (a.1 = .pending ∨ a.1 = .panic) from
    ⟨hx.2.1, hx.1.read, hx.2.2⟩
  induction h with
  | nil => exact ⟨hb, rfl, by simp⟩
  | @poll l st1 i c fuel go _ ih =>
    obtain ⟨h1, h2, h3⟩ := ih fun i b f g a h => hl i b f g a (List.mem_append_left _ h)
    obtain ⟨k1, k2, k3⟩ := run_blocked h1 fuel go (c := c) (by
      rintro b rfl
      exact hl i b fuel go _ (List.mem_append_right _ (List.mem_singleton.2 rfl)))
    refine ⟨k3, k2.trans h2, fun e he => ?_⟩
    rcases List.mem_append.1 he with he | he
    · exact h3 e he
    · exact ⟨i, c, fuel, go, _, List.mem_singleton.1 he, k1⟩
  | lock i _ hk ih =>
    obtain ⟨h1, -, -⟩ := ih fun i b f g a h => hl i b f g a (List.mem_append_left _ h)
    have := (takeLock_eq.1 hk).1
    rw [h1.lock] at this; cases this
  | method i fuel op _ hk _ ih =>
    obtain ⟨h1, -, -⟩ := ih fun i b f g a h => hl i b f g a (List.mem_append_left _ h)
    rw [h1.lock] at hk; cases hk

/-- **C70.**  What remains true: when no operation is in progress, a write that finds its slot empty runs `send_to` at once and returns its result, whatever is in the other slots
(a read that waits for the lock does not keep it from doing so).

Partial: a read in progress does (`C70_counterexample`). -/
theorem C70_partial {st : Stream} (hl : st.lock = none) (hw : st.write = none) (fuel : Nat) (buf : Bytes) :
    (∀ w, runOp E fuel (.sendTo buf) st.w = (.ok (.count buf.length), w) → pollWrite E fuel true buf st = (.ready (.ok buf.length), { st with w := w })) ∧
    (∀ e w, runOp E fuel (.sendTo buf) st.w = (.err e, w) → (pollWrite E fuel true buf st).1 = .ready (.error e) ∧ (pollWrite E fuel true buf st).2.w = w) := by
  constructor
  · intro w h
    simp [pollWrite, hw, pollFuture, hl, runHolding, h]
  · intro e w h
    simp [pollWrite, hw, pollFuture, hl, runHolding, h]

/-- **C71.**  However the polls overlap, and whichever of them panic: the socket is in a state that operations one after the other can lead to, and its lock is with the
future in one slot, which is in the middle of its operation, or with a method, or free.  (In a build without overflow checks; with them an operation can panic.) -/
theorem C71_socket (hc : E.checks = false) {st0 : Stream} (h0 : SReach E st0) {h : List Ev} {T : Threads} (hr : TRun E st0 h T) :
    Reach E T.st.w ∧ (∀ s, T.st.lock = some s.holder ↔ ∃ v, T.st.slot s = some (v, .holding)) ∧
    (T.st.lock = none ∨ T.st.lock = some .method ∨ ∃ s v, T.st.lock = some s.holder ∧ T.st.slot s = some (v, .holding) ∧ ∀ s' v', T.st.slot s' = some (v', .holding) → s' = s) := by
  have t := locked_run hc (locked_start h0) hr
  refine ⟨t.reach, t.lock, ?_⟩
  have key : ∀ s, T.st.lock = some (Slot.holder s) → T.st.lock = none ∨ T.st.lock = some .method ∨
      ∃ s v, T.st.lock = some (Slot.holder s) ∧ T.st.slot s = some (v, .holding) ∧ ∀ s' v', T.st.slot s' = some (v', .holding) → s' = s := by
    intro s hs
    obtain ⟨v, hv⟩ := (t.lock s).1 hs
    refine .inr (.inr ⟨s, v, hs, hv, fun s' v' hx => ?_⟩)
    have := (t.lock s').2 ⟨v', hx⟩
    rw [hs] at this
    exact (Slot.holder_inj (Option.some.inj this)).symm
  rcases hl : T.st.lock with _ | l
  · exact .inl rfl
  · cases l with
    | method => exact .inr (.inl rfl)
    | read => exact hl ▸ key .read hl
    | write => exact hl ▸ key .write hl
    | flush => exact hl ▸ key .flush hl
    | close => exact hl ▸ key .close hl

/-- The lock of a slot is never lost: a call in progress has it, and when no call is in progress all of them are free.  So a panic leaves nothing behind but
what is in the slots: the next calls start as if they were the first ones on that stream. -/
theorem C71_slots {st0 : Stream} {h : List Ev} {T : Threads} (hr : TRun E st0 h T) :
    (∀ s, (T.guard s).writer = true ∨ 0 < (T.guard s).readers → ∃ i c pc, T.frame i = some ⟨c, pc⟩ ∧ c.slot = s) ∧
    ((∀ i, T.frame i = none) → T = { Threads.init T.st with next := T.next }) := by
  have t := guarded_run hr
  have key : ∀ (k : Pc → Bool) (s : Slot), (¬ ∃ i c pc, T.frame i = some ⟨c, pc⟩ ∧ c.slot = s) → tally (fun i => hasGuard k s (T.frame i)) T.next = 0 := by
    intro k s hn
    refine tally_zero fun i _ => ?_
    rcases hf : T.frame i with _ | ⟨c, pc⟩
    · rfl
    · have : c.slot ≠ s := fun hx => hn ⟨i, c, pc, hf, hx⟩
      simp [hasGuard, this]
  have free : ∀ s, (¬ ∃ i c pc, T.frame i = some ⟨c, pc⟩ ∧ c.slot = s) → T.guard s = ⟨0, false⟩ := by
    intro s hn
    have h1 := (t.readers s).trans (key _ s hn)
    have h2 := (t.writer s).trans (key _ s hn)
    rcases hg : T.guard s with ⟨n, b⟩
    rw [hg] at h1 h2
    cases b
    · simp only at h1; rw [h1]
    · simp at h2
  refine ⟨fun s hs => ?_, fun hn => ?_⟩
  · refine Classical.byContradiction fun hx => ?_
    rw [free s hx] at hs
    simp at hs
  · have hg : T.guard = fun _ => ⟨0, false⟩ := funext fun s => free s (by rintro ⟨i, c, pc, hf, -⟩; rw [hn i] at hf; cases hf)
    have hf : T.frame = fun _ => none := funext hn
    obtain ⟨st, g, f, n⟩ := T
    simp only at hg hf
    subst hg hf
    rfl

/-! ### Examples -/

deriving instance DecidableEq for Except
deriving instance DecidableEq for PollRes
deriving instance DecidableEq for Ev

/-- What the scheduler does next. -/
inductive Cmd
  | call (c : Poll)
  | go (i : Nat) (fuel : Nat) (go : Bool)

/-- Follow a schedule. -/
def schedule (E : Env) : List Cmd → Threads → List Ev × Threads
  | [], T => ([], T)
  | .call c :: rest, T =>
    let (h, T') := schedule E rest { T with frame := put T.frame T.next (some ⟨c, .start⟩), next := T.next + 1 }
    (.inv T.next c :: h, T')
  | .go i fuel go :: rest, T =>
    match T.frame i with
    | none => schedule E rest T
    | some ⟨c, pc⟩ =>
      match advance E fuel go c pc (T.guard c.slot) T.st with
      | (g, st, .inl pc') => schedule E rest { T with st := st, guard := put T.guard c.slot g, frame := put T.frame i (some ⟨c, pc'⟩) }
      | (g, st, .inr a) =>
        let (h, T') := schedule E rest { T with st := st, guard := put T.guard c.slot g, frame := put T.frame i none }
        (.ret i c a :: h, T')

theorem schedule_run {st0 : Stream} (cmds : List Cmd) : ∀ {h : List Ev} {T : Threads}, TRun E st0 h T →
    TRun E st0 (h ++ (schedule E cmds T).1) (schedule E cmds T).2 := by
  induction cmds with
  | nil => intro h T hr; simpa [schedule] using hr
  | cons cmd rest ih =>
    intro h T hr
    cases cmd with
    | call c =>
      have := ih (hr.step (.call c))
      simpa [schedule] using this
    | go i fuel go =>
      unfold schedule
      rcases hf : T.frame i with _ | ⟨c, pc⟩
      · exact ih hr
      · dsimp only
        rcases ha : advance E fuel go c pc (T.guard c.slot) T.st with ⟨g, st, pc' | a⟩
        · have := ih (hr.step (.move fuel go hf ha))
          simpa using this
        · have := ih (hr.step (.ret fuel go hf ha))
          simpa using this

theorem schedule_from {st0 : Stream} {cmds : List Cmd} {h : List Ev} (hs : (schedule E cmds (.init st0)).1 = h) : ∃ T, TRun E st0 h T :=
  ⟨_, by simpa [hs] using schedule_run (E := E) cmds (.init (st := st0))⟩

/-- A check that implies `Apart`; `o` are the calls in progress. -/
def apartB : List Ev → List (Nat × Poll) → Bool
  | [], _ => true
  | .inv i c :: h, o => o.all (fun x => x.2.slot ≠ c.slot) && apartB h ((i, c) :: o)
  | .ret i c _ :: h, o => apartB h (o.filter (· ≠ (i, c)))
  | _ :: h, o => apartB h o

theorem apart_snoc {p : List Ev} {e : Ev} (hp : Apart p) (he : ∀ j c, e = .inv j c → ∀ i c', Ev.inv i c' ∈ p → c'.slot = c.slot → ∃ a, Ev.ret i c' a ∈ p) :
    Apart (p ++ [e]) := by
  intro h1 h2 i j c c' hh hi hc
  rcases List.eq_nil_or_concat h2 with rfl | ⟨h2', x, rfl⟩
  · have := List.append_inj' hh (by simp)
    obtain ⟨rfl, he'⟩ := this
    exact he j c (by simpa using he') i c' hi hc
  · have : p = h1 ++ Ev.inv j c :: h2' ∧ [e] = [x] := by
      refine List.append_inj' (hh.trans ?_) (by simp)
      simp [List.concat_eq_append]
    exact hp h1 h2' i j c c' this.1 hi hc

theorem apart_of {h : List Ev} : ∀ {p : List Ev} {o : List (Nat × Poll)}, Apart p → (∀ i c, Ev.inv i c ∈ p → (i, c) ∈ o ∨ ∃ a, Ev.ret i c a ∈ p) →
    apartB h o = true → Apart (p ++ h) := by
  induction h with
  | nil => intro p o hp _ _; simpa using hp
  | cons e h ih =>
    intro p o hp ho hb
    rw [show p ++ e :: h = (p ++ [e]) ++ h by simp]
    cases e with
    | inv j c =>
      simp only [apartB, Bool.and_eq_true, List.all_eq_true, decide_eq_true_eq] at hb
      refine ih (apart_snoc hp ?_) ?_ hb.2
      · intro j' c' e i c'' hi hc
        cases e
        rcases ho i c'' hi with hm | hm
        · exact absurd hc (hb.1 _ hm)
        · exact hm
      · intro i c' hi
        simp only [List.mem_append, List.mem_singleton, Ev.inv.injEq] at hi
        rcases hi with hi | ⟨rfl, rfl⟩
        · rcases ho i c' hi with hm | ⟨a, hm⟩
          · exact .inl (List.mem_cons_of_mem _ hm)
          · exact .inr ⟨a, List.mem_append_left _ hm⟩
        · exact .inl (List.mem_cons_self ..)
    | ret j c a =>
      refine ih (apart_snoc hp (by simp)) ?_ hb
      intro i c' hi
      simp only [List.mem_append, List.mem_singleton, reduceCtorEq, or_false] at hi
      rcases ho i c' hi with hm | ⟨a', hm⟩
      · by_cases hx : (i, c') = (j, c)
        · cases hx; exact .inr ⟨a, by simp⟩
        · exact .inl (List.mem_filter.2 ⟨hm, by simpa only [ne_eq, decide_eq_true_eq] using hx⟩)
      · exact .inr ⟨a', List.mem_append_left _ hm⟩
    | lock j =>
      refine ih (apart_snoc hp (by simp)) ?_ hb
      intro i c' hi
      simp only [List.mem_append, List.mem_singleton, reduceCtorEq, or_false] at hi
      rcases ho i c' hi with hm | ⟨a', hm⟩
      · exact .inl hm
      · exact .inr ⟨a', List.mem_append_left _ hm⟩
    | method j f op r =>
      refine ih (apart_snoc hp (by simp)) ?_ hb
      intro i c' hi
      simp only [List.mem_append, List.mem_singleton, reduceCtorEq, or_false] at hi
      rcases ho i c' hi with hm | ⟨a', hm⟩
      · exact .inl hm
      · exact .inr ⟨a', List.mem_append_left _ hm⟩

theorem apart_check {h : List Ev} (hb : apartB h [] = true) : Apart h := by
  have := apart_of (p := []) (o := []) (fun h1 h2 i j c c' hh => by simp at hh) (by simp) hb
  simpa using this

/-- Every poll in the order was run on the stream the calls before it left. -/
theorem oneByOne_split {st0 st : Stream} {l : List Entry} (h : OneByOne E st0 l st) {i : Nat} {c : Poll} {fuel : Nat} {go : Bool} {a : Answer}
    (hm : Entry.poll i c fuel go a ∈ l) : ∃ l1 st1 l2, l = l1 ++ Entry.poll i c fuel go a :: l2 ∧ OneByOne E st0 l1 st1 ∧ a = (c.run E fuel go st1).1 := by
  have ext : ∀ {l : List Entry} {x : Entry}, (∃ l1 st1 l2, l = l1 ++ Entry.poll i c fuel go a :: l2 ∧ OneByOne E st0 l1 st1 ∧ a = (c.run E fuel go st1).1) →
      ∃ l1 st1 l2, l ++ [x] = l1 ++ Entry.poll i c fuel go a :: l2 ∧ OneByOne E st0 l1 st1 ∧ a = (c.run E fuel go st1).1 := by
    rintro l x ⟨l1, st1, l2, rfl, h1, h2⟩
    exact ⟨l1, st1, l2 ++ [x], by simp, h1, h2⟩
  induction h with
  | nil => simp at hm
  | @poll l st j c' f g h0 ih =>
    rcases List.mem_append.1 hm with hm | hm
    · exact ext (ih hm)
    · simp only [List.mem_singleton, Entry.poll.injEq] at hm
      obtain ⟨rfl, rfl, rfl, rfl, rfl⟩ := hm
      exact ⟨l, st, [], rfl, h0, rfl⟩
  | lock j h0 hl ih =>
    rcases List.mem_append.1 hm with hm | hm
    · exact ext (ih hm)
    · simp at hm
  | method j f op h0 hl ho ih =>
    rcases List.mem_append.1 hm with hm | hm
    · exact ext (ih hm)
    · simp at hm

theorem oneByOne_nil {st0 st : Stream} {l : List Entry} (h : OneByOne E st0 l st) (hl : l = []) : st = st0 := by
  cases h <;> first | rfl | simp at hl

/-- A stream whose read is in progress or that has none does not panic in `poll_read` with a buffer of the same length in a release build. -/
theorem read_survives {st : Stream} (hr : SReach E st) (hE : E.checks = false) {buf : Bytes} (h : ∀ vec sg, st.read = some (vec, sg) → sg ≠ .finished ∧ vec.length = buf.length)
    (fuel : Nat) (go : Bool) : ((Poll.read buf).run E fuel go st).1.1 ≠ .panic := by
  intro hp
  have hp' : (pollRead E fuel go buf st).1 = .panic := hp
  rcases C49_kept_partial hr fuel (by simp [hE]) go buf with ⟨n, h1⟩ | ⟨h1, -⟩ | ⟨e, w, h1, -⟩ | ⟨-, vec, sg, h1, h2⟩
  · rw [h1] at hp'; cases hp'
  · rw [h1] at hp'; cases hp'
  · rw [h1] at hp'; cases hp'
  · exact h2.elim (h vec sg h1).1 fun h3 => h3 (h vec sg h1).2

theorem pending_read {st : Stream} {buf : Bytes} {fuel : Nat} {go : Bool} (h0 : st.read = none) (h : ((Poll.read buf).run E fuel go st).1.1 = .pending) :
    ∀ vec sg, ((Poll.read buf).run E fuel go st).2.read = some (vec, sg) → sg ≠ .finished ∧ vec.length = buf.length := by
  intro vec sg hv
  have h' : (pollRead E fuel go buf st).1 = .pending := h
  have hv' : (pollRead E fuel go buf st).2.2.read = some (vec, sg) := hv
  rcases pollRead_cases (E := E) fuel go buf st with ⟨l, sg', h1, h2, -⟩ | ⟨-, -, ⟨b, src, w, -, -, -, h1⟩ | ⟨e, w, -, h1⟩⟩ | ⟨h1, -⟩
  · rw [h1] at hv'
    simp only [Option.some.injEq, Prod.mk.injEq] at hv'
    obtain ⟨rfl, rfl⟩ := hv'
    exact ⟨h2, by simp [Stream.reading, h0]⟩
  · rw [h1] at h'; cases h'
  · rw [h1] at h'; cases h'
  · rw [h1] at h'; cases h'

/-- What two overlapping reads, one that panics and one that stays pending, look like cannot come from reads one at a time. -/
theorem clash_unexplained {st0 : Stream} {buf : Bytes} (hr : SReach E st0) (hE : E.checks = false) (h0 : st0.read = none) {l : List Entry} {st : Stream}
    (hl : OneByOne E st0 l st)
    (hx : Explains [.inv 0 (.read buf), .inv 1 (.read buf), .ret 1 (.read buf) (.panic, buf), .ret 0 (.read buf) (.pending, buf)] l) : False := by
  obtain ⟨-, f1, g1, h1⟩ := hx.ret 1 (.read buf) (.panic, buf) (by simp)
  obtain ⟨-, f0, g0, h2⟩ := hx.ret 0 (.read buf) (.pending, buf) (by simp)
  obtain ⟨l1, st1, l2, rfl, h3, h4⟩ := oneByOne_split hl h1
  have key : ∀ e ∈ l1, e = Entry.poll 0 (.read buf) f0 g0 (.pending, buf) := by
    intro e he
    have hb := hx.began e (List.mem_append_left _ he)
    have hid : e.id = 0 ∨ e.id = 1 := by
      rcases hb with ⟨c, hb⟩ | hb | ⟨_, _, _, hb⟩
      · simp at hb; rcases hb with ⟨hb, -⟩ | ⟨hb, -⟩
        · exact .inl hb
        · exact .inr hb
      · simp at hb
      · simp at hb
    have hn := hx.once
    have inj := List.inj_on_of_nodup_map hn
    rcases hid with hid | hid
    · exact inj (List.mem_append_left _ he) h2 hid
    · rw [List.map_append, List.map_cons, List.nodup_append] at hn
      exact absurd hid (hn.2.2 e.id (List.mem_map_of_mem he) 1 (List.mem_cons_self ..))
  refine read_survives (E := E) (buf := buf) (st := st1) ?_ hE ?_ f1 g1 (by rw [← h4])
  all_goals
    cases h3 with
    | nil => first | exact hr | simp [h0]
    | @poll l st j c f g h5 =>
      have hl0 : l = [] := by
        rcases l with _ | ⟨x, l⟩
        · rfl
        · have hx1 := key x (by simp)
          have hx2 := key _ (List.mem_append_right _ (List.mem_singleton.2 rfl))
          have hn := hx.once
          rw [hx1, hx2] at hn
          simp at hn
      subst hl0
      obtain rfl := oneByOne_nil h5 rfl
      have hx2 := key _ (List.mem_append_right _ (List.mem_singleton.2 rfl))
      simp only [Entry.poll.injEq] at hx2
      obtain ⟨-, rfl, -, -, h6⟩ := hx2
      have hp : ((Poll.read buf).run E f g st).1.1 = .pending := by rw [h6]
      first
      | exact hr.step (.other (.read f g buf (by
          have : (pollRead E f g buf st).1 = .pending := hp
          rw [this]; simp)))
      | exact pending_read h0 hp
    | lock j h5 h6 =>
      have := key _ (List.mem_append_right _ (List.mem_singleton.2 rfl))
      cases this
    | method j f op h5 h6 h7 =>
      have := key _ (List.mem_append_right _ (List.mem_singleton.2 rfl))
      cases this

section
open Sample

/-- One thread reads, the other one writes, step by step in turn; the read finds the socket locked.  Later another write and another read complete. -/
def readAndWrite : List Cmd :=
  [.call (.read [0, 0, 0, 0]), .call (.write [1, 2])] ++ (List.replicate 5 [Cmd.go 1 9 true, Cmd.go 0 9 true]).flatten ++
    [.go 1 9 false, .go 0 9 true, .call (.write [1, 2])] ++ List.replicate 9 (.go 2 9 true) ++ [.call (.read [0, 0, 0, 0])] ++ List.replicate 9 (.go 3 9 true)

/-- What is seen of it. -/
def readAndWriteSeen : List Ev :=
  [.inv 0 (.read [0, 0, 0, 0]), .inv 1 (.write [1, 2]), .ret 1 (.write [1, 2]) (.pending, [1, 2]), .ret 0 (.read [0, 0, 0, 0]) (.pending, [0, 0, 0, 0]),
    .inv 2 (.write [1, 2]), .ret 2 (.write [1, 2]) (.ready (.ok 2), [1, 2]), .inv 3 (.read [0, 0, 0, 0]),
    .ret 3 (.read [0, 0, 0, 0]) (.ready (.ok 3), [7, 8, 9, 0])]

/-- **C69**: a case that meets the hypotheses. -/
example : SReach oneData (sstream oneData) ∧ (∃ T, TRun oneData (sstream oneData) readAndWriteSeen T) ∧ Apart readAndWriteSeen :=
  ⟨sreach_server (by decide +kernel), schedule_from (cmds := readAndWrite) (by decide +kernel), apart_check (by decide +kernel)⟩

/-- Two threads read at the same time. -/
def clash : List Cmd := [.call (.read [0]), .call (.read [0])] ++ List.replicate 5 (.go 0 9 false) ++ [.go 1 9 true, .go 0 9 false]

/-- **C69 needs its condition**: two threads read at the same time; one of them panics and the other one stays pending.  In no order of single reads do they. -/
theorem C69_counterexample : let h := [Ev.inv 0 (.read [0]), .inv 1 (.read [0]), .ret 1 (.read [0]) (.panic, [0]), .ret 0 (.read [0]) (.pending, [0])]
    SReach (env []) (sstream (env [])) ∧ (∃ T, TRun (env []) (sstream (env [])) h T) ∧
    ∀ l st, OneByOne (env []) (sstream (env [])) l st → ¬ Explains h l :=
  ⟨sreach_server (by decide +kernel), schedule_from (cmds := clash) (by decide +kernel),
    fun _ _ h hx => clash_unexplained (sreach_server (by decide +kernel)) rfl rfl h hx⟩

/-- **C71**: a case with a panic. -/
example : (env []).checks = false ∧ SReach (env []) (sstream (env [])) ∧
    (∃ T, TRun (env []) (sstream (env [])) [.inv 0 (.read [0]), .inv 1 (.read [0]), .ret 1 (.read [0]) (.panic, [0]), .ret 0 (.read [0]) (.pending, [0])] T) :=
  ⟨rfl, C69_counterexample.1, C69_counterexample.2.1⟩

/-- **C70 is false of the code**: a read waits for data, and a write does nothing. -/
theorem C70_counterexample : SReach (env []) (sstream (env [])) ∧ (pollRead (env []) 9 true [0] (sstream (env []))).1 = .pending ∧
    (pollRead (env []) 9 true [0] (sstream (env []))).2.2.lock = some .read ∧
    (pollWrite (env []) 9 true [1] (pollRead (env []) 9 true [0] (sstream (env []))).2.2).1 = .pending ∧
    (pollWrite (env []) 9 true [1] (sstream (env []))).1 = .ready (.ok 1) :=
  ⟨sreach_server (by decide +kernel), by decide +kernel, by decide +kernel, by decide +kernel, by decide +kernel⟩

/-- Two threads close at the same time. -/
def twoClose : List Cmd := [.call .close, .call .close] ++ List.replicate 3 (.go 0 9 true) ++ [.go 1 9 true, .go 0 9 true] ++ List.replicate 6 (.go 1 9 true)

/-- **C69**, `poll_close`: the first one panics, the second one, at the right moment, does not. -/
example : SReach (env []) (sstream (env [])) ∧
    ∃ T, TRun (env []) (sstream (env [])) [.inv 0 .close, .inv 1 .close, .ret 0 .close (.panic, []), .ret 1 .close (.ready (.ok 0), [])] T :=
  ⟨sreach_server (by decide +kernel), schedule_from (cmds := twoClose) (by decide +kernel)⟩

end

end Utp
