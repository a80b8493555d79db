import Verif.Spec.Threads
import Verif.Lemmas.UtpStream
/-!
# Concurrent polls: every step of the atomic model is one step of the finer one
-/

namespace Utp

variable {E : Env}

/-- Polling a future changes nothing but the socket and its lock, and looks at nothing else. -/
def pollCore (E : Env) (fuel : Nat) (who : Holder) (op : Op) (go : Bool) (stage : Stage) (st : Stream) : PollRes Out × Stage × World × Option Holder :=
  ((pollFuture E fuel who op go stage st).1, (pollFuture E fuel who op go stage st).2.1, (pollFuture E fuel who op go stage st).2.2.w,
    (pollFuture E fuel who op go stage st).2.2.lock)

theorem pollFuture_core (fuel : Nat) (who : Holder) (op : Op) (go : Bool) (stage : Stage) (st : Stream) :
    pollFuture E fuel who op go stage st = ((pollCore E fuel who op go stage st).1, (pollCore E fuel who op go stage st).2.1,
      { st with w := (pollCore E fuel who op go stage st).2.2.1, lock := (pollCore E fuel who op go stage st).2.2.2 }) := by
  unfold pollCore
  rcases pollFuture_cases (E := E) fuel who op go stage st with ⟨-, h⟩ | ⟨-, -, h⟩ | ⟨l, -, h⟩ | ⟨-, -, ⟨_, _, h, -⟩ | ⟨_, _, h, -⟩ | ⟨_, h, -⟩⟩ <;> rw [h]

theorem pollCore_congr (fuel : Nat) (who : Holder) (op : Op) (go : Bool) (stage : Stage) {st a : Stream} (hw : a.w = st.w) (hl : a.lock = st.lock) :
    pollCore E fuel who op go stage a = pollCore E fuel who op go stage st := by
  unfold pollCore pollFuture runHolding
  simp only [hw, hl]
  cases stage
  · dsimp only
    split
    · cases go
      · rfl
      · rcases runOp E fuel op st.w with ⟨r, w⟩; cases r <;> simp
    · simp [hw, hl]
  · dsimp only
    cases go
    · simp [hw, hl]
    · rcases runOp E fuel op st.w with ⟨r, w⟩; cases r <;> simp [hw, hl]
  · simp [hw, hl]

/-- A future that was ready is finished. -/
theorem pollCore_ready {fuel : Nat} {who : Holder} {op : Op} {go : Bool} {stage : Stage} {st : Stream} {r : Except IoErr Out}
    (h : (pollCore E fuel who op go stage st).1 = .ready r) : (pollCore E fuel who op go stage st).2.1 = .finished := by
  unfold pollCore at *
  rcases pollFuture_cases (E := E) fuel who op go stage st with ⟨-, h'⟩ | ⟨-, -, h'⟩ | ⟨l, -, h'⟩ | ⟨-, -, ⟨_, _, h', -⟩ | ⟨_, _, h', -⟩ | ⟨_, h', -⟩⟩ <;>
    rw [h'] at h ⊢ <;> simp at h ⊢

/-- The atomic poll, for all slots alike. -/
theorem Poll.run_eq (fuel : Nat) (go : Bool) (st : Stream) (c : Poll) :
    c.run E fuel go st =
      if c.slot = .close ∧ st.slot .close = none then ((.panic, c.buf), st) else
      let f := (st.slot c.slot).getD (c.buf, .queued)
      let p := pollCore E fuel c.slot.holder (c.slot.op f.1) go f.2 st
      let st' : Stream := { st with w := p.2.2.1, lock := p.2.2.2 }
      match p.1 with
      | .pending => ((.pending, c.buf), st'.setSlot c.slot (some (f.1, p.2.1)))
      | .panic => ((.panic, c.buf), st'.setSlot c.slot (some (f.1, p.2.1)))
      | .ready r =>
        match c.after f.1 r with
        | .stop a => (a, st'.setSlot c.slot (some (f.1, p.2.1)))
        | .clear a => (a, st'.setSlot c.slot none) := by
  cases c with
  | read buf =>
    rw [if_neg (by simp [Poll.slot])]
    simp only [Poll.run, pollRead_eq, Stream.reading, Poll.slot, Stream.slot, Poll.buf, Slot.holder, Slot.op]
    rw [pollFuture_core]
    generalize pollCore E fuel .read _ go _ st = p
    obtain ⟨r, sg, w, l⟩ := p
    cases r with
    | pending => rfl
    | panic => rfl
    | ready r =>
      rcases r with e | out
      · rfl
      · cases out with
        | bytes b src =>
          simp only [Poll.after]
          by_cases h : (b ++ (st.read.getD (buf, Stage.queued)).1.drop b.length).length = buf.length
          · rw [if_pos h]
            exact (congrArg (fun q : PollRes Nat × Bytes × Stream => ((q.1, q.2.1), q.2.2)) (if_pos h)).trans rfl
          · rw [if_neg h]
            exact (congrArg (fun q : PollRes Nat × Bytes × Stream => ((q.1, q.2.1), q.2.2)) (if_neg h)).trans rfl
        | _ => rfl
  | write buf =>
    rw [if_neg (by simp [Poll.slot])]
    simp only [Poll.run, pollWrite_eq, Stream.writing, Poll.slot, Stream.slot, Poll.buf, Slot.holder, Slot.op]
    rw [pollFuture_core]
    generalize pollCore E fuel .write _ go _ st = p
    obtain ⟨r, sg, w, l⟩ := p
    cases r with
    | pending => rfl
    | panic => rfl
    | ready r =>
      rcases r with e | out
      · rfl
      · cases out <;> rfl
  | flush =>
    obtain ⟨w0, l0, rd, wr, fl, cl⟩ := st
    cases fl with
    | none =>
      rw [if_neg (by simp [Poll.slot])]
      simp only [Poll.run, pollFlush, pollUnit, Poll.slot, Stream.slot, Poll.buf, Slot.holder, Slot.op, Option.map_none, Option.getD_none]
      rw [pollFuture_core]
      generalize pollCore E fuel .flush .flush go .queued ⟨w0, l0, rd, wr, none, cl⟩ = p
      obtain ⟨r, sg, w, l⟩ := p
      cases r with
      | pending => rfl
      | panic => rfl
      | ready r => rcases r with e | out <;> rfl
    | some sg0 =>
      rw [if_neg (by simp [Poll.slot, Stream.slot])]
      simp only [Poll.run, pollFlush, pollUnit, Poll.slot, Stream.slot, Poll.buf, Slot.holder, Slot.op, Option.map_some, Option.getD_some]
      rw [pollFuture_core]
      generalize pollCore E fuel .flush .flush go sg0 ⟨w0, l0, rd, wr, some sg0, cl⟩ = p
      obtain ⟨r, sg, w, l⟩ := p
      cases r with
      | pending => rfl
      | panic => rfl
      | ready r => rcases r with e | out <;> rfl
  | close =>
    obtain ⟨w0, l0, rd, wr, fl, cl⟩ := st
    cases cl with
    | none => rfl
    | some sg0 =>
      rw [if_neg (by simp [Poll.slot, Stream.slot])]
      simp only [Poll.run, pollClose, pollUnit, Poll.slot, Stream.slot, Poll.buf, Slot.holder, Slot.op, Option.map_some, Option.getD_some, if_true]
      rw [pollFuture_core]
      generalize pollCore E fuel .close .flush go sg0 ⟨w0, l0, rd, wr, fl, some sg0⟩ = p
      obtain ⟨r, sg, w, l⟩ := p
      cases r with
      | pending => rfl
      | panic => rfl
      | ready r => rcases r with e | out <;> rfl

/-! ### Slots -/

@[simp] theorem setSlot_w (st : Stream) (s : Slot) (v : Option (Bytes × Stage)) : (st.setSlot s v).w = st.w := by cases s <;> rfl
@[simp] theorem setSlot_lock (st : Stream) (s : Slot) (v : Option (Bytes × Stage)) : (st.setSlot s v).lock = st.lock := by cases s <;> rfl

theorem slot_setSlot_ne (st : Stream) {s s' : Slot} (h : s' ≠ s) (v : Option (Bytes × Stage)) : (st.setSlot s v).slot s' = st.slot s' := by
  cases s <;> cases s' <;> first | rfl | exact absurd rfl h

/-- A future that flushes has no buffer. -/
def Slot.Fits (s : Slot) (vec : Bytes) : Prop := s = .flush ∨ s = .close → vec = []

theorem fits_buf (c : Poll) : c.slot.Fits c.buf := by cases c <;> simp [Slot.Fits, Poll.slot, Poll.buf]

theorem fits_slot {st : Stream} {s : Slot} {vec : Bytes} {sg : Stage} (h : st.slot s = some (vec, sg)) : s.Fits vec := by
  cases s <;> simp [Stream.slot, Slot.Fits] at h ⊢
  · exact h.2
  · exact h.2

theorem slot_setSlot_some (st : Stream) {s : Slot} {vec : Bytes} (h : s.Fits vec) (sg : Stage) :
    (st.setSlot s (some (vec, sg))).slot s = some (vec, sg) := by
  cases s
  · rfl
  · rfl
  · simp [Stream.setSlot, Stream.slot, h (.inl rfl)]
  · simp [Stream.setSlot, Stream.slot, h (.inr rfl)]

theorem slot_setSlot_none (st : Stream) (s : Slot) : (st.setSlot s none).slot s = none := by cases s <;> rfl

theorem slot_with (st : Stream) (w : World) (l : Option Holder) (s : Slot) : ({ st with w := w, lock := l } : Stream).slot s = st.slot s := by
  cases s <;> rfl

theorem stream_ext {a b : Stream} (hw : a.w = b.w) (hl : a.lock = b.lock) (hs : ∀ s, a.slot s = b.slot s) : a = b := by
  obtain ⟨w, l, r, wr, f, c⟩ := a
  obtain ⟨w', l', r', wr', f', c'⟩ := b
  have h1 := hs .read
  have h2 := hs .write
  have h3 := hs .flush
  have h4 := hs .close
  simp only [Stream.slot] at hw hl h1 h2 h3 h4
  have inj : ∀ x y : Option Stage, (x.map fun z => (([] : Bytes), z)) = (y.map fun z => (([] : Bytes), z)) → x = y := by
    intro x y h; cases x <;> cases y <;> simp at h ⊢; exact h
  rw [hw, hl, h1, h2, inj _ _ h3, inj _ _ h4]

@[simp] theorem put_same {α β : Type} [DecidableEq α] (f : α → β) (a : α) (b : β) : put f a b a = b := by simp [put]
theorem put_ne {α β : Type} [DecidableEq α] (f : α → β) {a x : α} (h : x ≠ a) (b : β) : put f a b x = f x := by simp [put, h]

/-! ### Explaining a history -/

theorem Began.mono {h h' : List Ev} {i : Nat} (hs : ∀ e ∈ h, e ∈ h') (hb : Began h i) : Began h' i := by
  rcases hb with ⟨c, hb⟩ | hb | ⟨f, o, r, hb⟩
  · exact .inl ⟨c, hs _ hb⟩
  · exact .inr (.inl (hs _ hb))
  · exact .inr (.inr ⟨f, o, r, hs _ hb⟩)

theorem Explains.ended {h : List Ev} {l : List Entry} (x : Explains h l) {i : Nat} (hi : Ended h i) : i ∈ l.map Entry.id := by
  rcases hi with ⟨c, a, hi⟩ | hi | ⟨f, o, r, hi⟩
  · obtain ⟨-, fuel, go, hm⟩ := x.ret i c a hi
    exact List.mem_map.2 ⟨_, hm, rfl⟩
  · exact List.mem_map.2 ⟨_, x.lock i hi, rfl⟩
  · exact List.mem_map.2 ⟨_, x.method i f o r hi, rfl⟩

/-- One more event, and perhaps more calls in the order. -/
theorem Explains.extend {h e : List Ev} {l m : List Entry} (x : Explains h l) (he : e.length ≤ 1)
    (hret : ∀ i c a, Ev.ret i c a ∈ e → Ev.inv i c ∈ h ∧ ∃ fuel go, Entry.poll i c fuel go a ∈ l ++ m)
    (hlock : ∀ i, Ev.lock i ∈ e → Entry.lock i ∈ l ++ m)
    (hmeth : ∀ i fuel op r, Ev.method i fuel op r ∈ e → Entry.method i fuel op r ∈ l ++ m)
    (honce : ((l ++ m).map Entry.id).Nodup) (hbegan : ∀ y ∈ m, Began (h ++ e) y.id) : Explains (h ++ e) (l ++ m) := by
  have hsub : ∀ y ∈ h, y ∈ h ++ e := fun y hy => List.mem_append_left _ hy
  have r1 : ∀ i c a, Ev.ret i c a ∈ h ++ e → Ev.inv i c ∈ h ++ e ∧ ∃ fuel go, Entry.poll i c fuel go a ∈ l ++ m := by
    intro i c a hm
    rcases List.mem_append.1 hm with hm | hm
    · obtain ⟨h1, f, g, h2⟩ := x.ret i c a hm
      exact ⟨hsub _ h1, f, g, List.mem_append_left _ h2⟩
    · obtain ⟨h1, f, g, h2⟩ := hret i c a hm
      exact ⟨hsub _ h1, f, g, h2⟩
  have r2 : ∀ i, Ev.lock i ∈ h ++ e → Entry.lock i ∈ l ++ m := fun i hm =>
    (List.mem_append.1 hm).elim (fun hm => List.mem_append_left _ (x.lock i hm)) (hlock i)
  have r3 : ∀ i fuel op r, Ev.method i fuel op r ∈ h ++ e → Entry.method i fuel op r ∈ l ++ m := fun i f o r hm =>
    (List.mem_append.1 hm).elim (fun hm => List.mem_append_left _ (x.method i f o r hm)) (hmeth i f o r)
  have r4 : ∀ y ∈ l ++ m, Began (h ++ e) y.id := fun y hy =>
    (List.mem_append.1 hy).elim (fun hy => (x.began y hy).mono hsub) (hbegan y)
  refine ⟨r1, r2, r3, honce, r4, fun h1 h2 i j hh hi hj => ?_⟩
  have full : h1 = h ++ e → ∃ l1 l2, l ++ m = l1 ++ l2 ∧ i ∈ l1.map Entry.id ∧ j ∉ l1.map Entry.id := by
    rintro rfl
    refine ⟨l ++ m, [], by simp, ?_, fun hm => ?_⟩
    · rcases hi with ⟨c, a, hi⟩ | hi | ⟨f, o, r, hi⟩
      · obtain ⟨-, fuel, go, hm⟩ := r1 i c a hi
        exact List.mem_map.2 ⟨_, hm, rfl⟩
      · exact List.mem_map.2 ⟨_, r2 i hi, rfl⟩
      · exact List.mem_map.2 ⟨_, r3 i f o r hi, rfl⟩
    · obtain ⟨y, hy, rfl⟩ := List.mem_map.1 hm
      exact hj (r4 y hy)
  have part : ∀ h2', h = h1 ++ h2' → ∃ l1 l2, l ++ m = l1 ++ l2 ∧ i ∈ l1.map Entry.id ∧ j ∉ l1.map Entry.id := by
    intro h2' hh'
    obtain ⟨l1, l2, e1, e2, e3⟩ := x.order h1 h2' i j hh' hi hj
    exact ⟨l1, l2 ++ m, by rw [e1, List.append_assoc], e2, e3⟩
  rcases List.append_eq_append_iff.1 hh with ⟨y, e1, e2⟩ | ⟨y, e1, e2⟩
  · rcases y with _ | ⟨y, ys⟩
    · exact part [] (by simpa using e1.symm)
    · have : ys = [] ∧ h2 = [] := by
        rw [e2] at he
        simp only [List.cons_append, List.length_cons, List.length_append] at he
        exact ⟨List.length_eq_zero_iff.1 (by omega), List.length_eq_zero_iff.1 (by omega)⟩
      obtain ⟨rfl, rfl⟩ := this
      exact full (by rw [e1, e2]; simp)
  · exact part y e1

/-! ### The invariant -/

/-- The slot of a call in progress: the lock, the content in the atomic model, the real content. -/
def PcOk (c : Poll) (g : Guard) (a st : Option (Bytes × Stage)) : Pc → Prop
  | .start => g = ⟨0, false⟩ ∧ a = st
  | .looking => g = ⟨1, false⟩ ∧ a = st
  | .create => g = ⟨0, false⟩ ∧ a = none ∧ st = none ∧ c.slot ≠ .close
  | .filling => g = ⟨0, true⟩ ∧ a = none ∧ st = none ∧ c.slot ≠ .close
  | .poll => g = ⟨0, false⟩ ∧ (c.slot = .close ∧ a = st ∨ c.slot ≠ .close ∧ (a = st ∧ st ≠ none ∨ a = none ∧ st = some (c.buf, .queued)))
  | .polling => g = ⟨0, true⟩ ∧ (c.slot = .close ∧ a = st ∨ c.slot ≠ .close ∧ (a = st ∧ st ≠ none ∨ a = none ∧ st = some (c.buf, .queued)))
  | .done _ => g = ⟨0, false⟩ ∧ a = none ∧ ∃ vec, st = some (vec, .finished)
  | .clearing _ => g = ⟨0, true⟩ ∧ a = none ∧ ∃ vec, st = some (vec, .finished)

/-- What the call will return, if this is decided. -/
def Pc.answer : Pc → Option Answer
  | .done a => some a
  | .clearing a => some a
  | _ => none

/-- The calls in progress fit the order `l`, which leads to the stream `a`. -/
structure TInv (E : Env) (st0 : Stream) (h : List Ev) (T : Threads) (l : List Entry) (a : Stream) : Prop where
  seq : OneByOne E st0 l a
  w : a.w = T.st.w
  lock : a.lock = T.st.lock
  alone : ∀ i j f f', T.frame i = some f → T.frame j = some f' → f.call.slot = f'.call.slot → i = j
  busy : ∀ i f, T.frame i = some f → PcOk f.call (T.guard f.call.slot) (a.slot f.call.slot) (T.st.slot f.call.slot) f.pc
  idle : ∀ s, (∀ i f, T.frame i = some f → f.call.slot ≠ s) → T.guard s = ⟨0, false⟩ ∧ a.slot s = T.st.slot s
  called : ∀ i f, T.frame i = some f → Ev.inv i f.call ∈ h ∧ ∀ c x, Ev.ret i c x ∉ h
  committed : ∀ i f x, T.frame i = some f → f.pc.answer = some x → ∃ fuel go, Entry.poll i f.call fuel go x ∈ l
  open_ : ∀ i f, T.frame i = some f → f.pc.answer = none → i ∉ l.map Entry.id
  fresh : ∀ i, Began h i → i < T.next
  explains : Explains h l

theorem init_tinv (st : Stream) : TInv E st [] (.init st) [] st where
  seq := .nil
  w := rfl
  lock := rfl
  alone := fun i j f f' h => by simp [Threads.init] at h
  busy := fun i f h => by simp [Threads.init] at h
  idle := fun s _ => ⟨rfl, rfl⟩
  called := fun i f h => by simp [Threads.init] at h
  committed := fun i f x h => by simp [Threads.init] at h
  open_ := fun i f h => by simp [Threads.init] at h
  fresh := fun i h => by rcases h with ⟨c, h⟩ | h | ⟨f, o, r, h⟩ <;> simp at h
  explains := ⟨by simp, by simp, by simp, by simp, by simp, fun h1 h2 i j hh hi _ => by
    have : h1 = [] := by simp at hh; exact hh.1
    subst this
    rcases hi with ⟨c, x, h⟩ | h | ⟨f, o, r, h⟩ <;> simp at h⟩

/-- New entries of the call `i`. -/
def NewEntry (i : Nat) (c : Poll) (pc : Pc) (x : Answer) (m : List Entry) : Prop :=
  m = [] ∧ pc.answer = some x ∨ pc.answer = none ∧ ∃ fuel go, m = [Entry.poll i c fuel go x]

theorem once_new {h : List Ev} {l m : List Entry} {i : Nat} {c : Poll} {pc : Pc} {x : Answer} (hx : Explains h l) (hn : NewEntry i c pc x m)
    (ho : pc.answer = none → i ∉ l.map Entry.id) : ((l ++ m).map Entry.id).Nodup := by
  rcases hn with ⟨rfl, -⟩ | ⟨hp, fuel, go, rfl⟩
  · simpa using hx.once
  · rw [List.map_append, List.nodup_append]
    refine ⟨hx.once, by simp, fun y hy z hz => ?_⟩
    simp [Entry.id] at hz
    subst hz
    rintro rfl
    exact ho hp hy

/-- A step inside a call. -/
theorem TInv.move {st0 : Stream} {h : List Ev} {T : Threads} {l m : List Entry} {a a' st' : Stream} {i : Nat} {c : Poll} {pc pc' : Pc} {g' : Guard}
    (t : TInv E st0 h T l a) (hf : T.frame i = some ⟨c, pc⟩) (hs : OneByOne E st0 (l ++ m) a') (hw : a'.w = st'.w) (hl : a'.lock = st'.lock)
    (ha : ∀ s, s ≠ c.slot → a'.slot s = a.slot s) (hst : ∀ s, s ≠ c.slot → st'.slot s = T.st.slot s)
    (hp : PcOk c g' (a'.slot c.slot) (st'.slot c.slot) pc')
    (hm : m = [] ∧ pc'.answer = pc.answer ∨ ∃ x, pc'.answer = some x ∧ NewEntry i c pc x m) :
    TInv E st0 h { T with st := st', guard := put T.guard c.slot g', frame := put T.frame i (some ⟨c, pc'⟩) } (l ++ m) a' := by
  have hm' : ∀ j ≠ i, j ∉ l.map Entry.id → j ∉ (l ++ m).map Entry.id := by
    intro j hj hn
    rcases hm with ⟨rfl, -⟩ | ⟨x, -, ⟨rfl, -⟩ | ⟨-, fuel, go, rfl⟩⟩
    · simpa using hn
    · simpa using hn
    · simp only [List.map_append, List.map_cons, List.map_nil, Entry.id, List.mem_append, List.mem_singleton]
      exact fun h => h.elim hn hj
  refine ⟨hs, hw, hl, ?_, ?_, ?_, ?_, ?_, ?_, t.fresh, ?_⟩
  · intro j k f f' hj hk hjk
    dsimp only at hj hk
    by_cases e1 : j = i <;> by_cases e2 : k = i
    · rw [e1, e2]
    · subst e1
      rw [put_same] at hj; rw [put_ne _ e2] at hk
      cases hj
      exact t.alone j k _ f' hf hk hjk
    · subst e2
      rw [put_same] at hk; rw [put_ne _ e1] at hj
      cases hk
      exact t.alone j k f _ hj hf hjk
    · rw [put_ne _ e1] at hj; rw [put_ne _ e2] at hk
      exact t.alone j k f f' hj hk hjk
  · intro j f hj
    dsimp only at hj ⊢
    by_cases e1 : j = i
    · subst e1
      rw [put_same] at hj
      cases hj
      rw [put_same]; exact hp
    · rw [put_ne _ e1] at hj
      have hne : f.call.slot ≠ c.slot := fun h => e1 (t.alone j i f _ hj hf h)
      rw [put_ne _ hne, ha _ hne, hst _ hne]
      exact t.busy j f hj
  · intro s hs'
    dsimp only at hs' ⊢
    have hne : s ≠ c.slot := fun h => hs' i _ (put_same ..) h.symm
    rw [put_ne _ hne, ha _ hne, hst _ hne]
    refine t.idle s fun j f hj => ?_
    by_cases e1 : j = i
    · subst e1; rw [hf] at hj; cases hj; exact hne.symm
    · exact hs' j f (by rw [put_ne _ e1]; exact hj)
  · intro j f hj
    dsimp only at hj
    by_cases e1 : j = i
    · subst e1
      rw [put_same] at hj
      cases hj
      exact t.called j ⟨c, pc⟩ hf
    · rw [put_ne _ e1] at hj
      exact t.called j f hj
  · intro j f x hj hx
    dsimp only at hj
    by_cases e1 : j = i
    · subst e1
      rw [put_same] at hj
      cases hj
      dsimp only at hx ⊢
      rcases hm with ⟨rfl, e⟩ | ⟨x', e, ⟨rfl, e'⟩ | ⟨-, fuel, go, rfl⟩⟩
      · obtain ⟨fu, g, h⟩ := t.committed j _ x hf (by dsimp only; rw [← e]; exact hx)
        exact ⟨fu, g, List.mem_append_left _ h⟩
      · rw [hx] at e; cases e
        obtain ⟨fu, g, h⟩ := t.committed j _ x hf e'
        exact ⟨fu, g, List.mem_append_left _ h⟩
      · rw [hx] at e; cases e
        exact ⟨fuel, go, List.mem_append_right _ (by simp)⟩
    · rw [put_ne _ e1] at hj
      obtain ⟨fu, g, h⟩ := t.committed j f x hj hx
      exact ⟨fu, g, List.mem_append_left _ h⟩
  · intro j f hj hx
    dsimp only at hj
    by_cases e1 : j = i
    · subst e1
      rw [put_same] at hj
      cases hj
      dsimp only at hx
      rcases hm with ⟨rfl, e⟩ | ⟨x', e, -⟩
      · simpa using t.open_ j _ hf (by dsimp only; rw [← e]; exact hx)
      · rw [hx] at e; cases e
    · rw [put_ne _ e1] at hj
      exact hm' j e1 (t.open_ j f hj hx)
  · have := t.explains.extend (e := []) (m := m) (by simp) (by simp) (by simp) (by simp) ?_ ?_
    · simpa using this
    · rcases hm with ⟨rfl, -⟩ | ⟨x, -, hn⟩
      · simpa using t.explains.once
      · exact once_new t.explains hn (t.open_ i _ hf)
    · rcases hm with ⟨rfl, -⟩ | ⟨x, -, ⟨rfl, -⟩ | ⟨-, fuel, go, rfl⟩⟩
      · simp
      · simp
      · intro y hy
        simp only [List.mem_singleton] at hy
        subst hy
        exact .inl ⟨c, List.mem_append_left _ (t.called i _ hf).1⟩

/-- The end of a call. -/
theorem TInv.done {st0 : Stream} {h : List Ev} {T : Threads} {l m : List Entry} {a a' st' : Stream} {i : Nat} {c : Poll} {pc : Pc} {x : Answer}
    (t : TInv E st0 h T l a) (hf : T.frame i = some ⟨c, pc⟩) (hs : OneByOne E st0 (l ++ m) a') (hw : a'.w = st'.w) (hl : a'.lock = st'.lock)
    (ha : ∀ s, s ≠ c.slot → a'.slot s = a.slot s) (hst : ∀ s, s ≠ c.slot → st'.slot s = T.st.slot s)
    (hp : a'.slot c.slot = st'.slot c.slot) (hm : NewEntry i c pc x m) :
    TInv E st0 (h ++ [.ret i c x]) { T with st := st', guard := put T.guard c.slot ⟨0, false⟩, frame := put T.frame i none } (l ++ m) a' := by
  have old : ∀ {j f}, put T.frame i none j = some f → j ≠ i ∧ T.frame j = some f := by
    intro j f hj
    by_cases e1 : j = i
    · subst e1; rw [put_same] at hj; cases hj
    · rw [put_ne _ e1] at hj; exact ⟨e1, hj⟩
  refine ⟨hs, hw, hl, ?_, ?_, ?_, ?_, ?_, ?_, ?_, ?_⟩
  · intro j k f f' hj hk hjk
    exact t.alone j k f f' (old hj).2 (old hk).2 hjk
  · intro j f hj
    obtain ⟨e1, hj⟩ := old hj
    have hne : f.call.slot ≠ c.slot := fun h => e1 (t.alone j i f _ hj hf h)
    dsimp only
    rw [put_ne _ hne, ha _ hne, hst _ hne]
    exact t.busy j f hj
  · intro s hs'
    dsimp only at hs' ⊢
    by_cases hne : s = c.slot
    · subst hne
      rw [put_same]; exact ⟨rfl, hp⟩
    · rw [put_ne _ hne, ha _ hne, hst _ hne]
      refine t.idle s fun j f hj => ?_
      by_cases e1 : j = i
      · subst e1; rw [hf] at hj; cases hj; exact fun h => hne h.symm
      · exact hs' j f (by rw [put_ne _ e1]; exact hj)
  · intro j f hj
    obtain ⟨e1, hj⟩ := old hj
    obtain ⟨h1, h2⟩ := t.called j f hj
    refine ⟨List.mem_append_left _ h1, fun c' y hy => ?_⟩
    rcases List.mem_append.1 hy with hy | hy
    · exact h2 c' y hy
    · simp at hy; exact e1 hy.1
  · intro j f y hj hy
    obtain ⟨e1, hj⟩ := old hj
    obtain ⟨fu, g, h⟩ := t.committed j f y hj hy
    exact ⟨fu, g, List.mem_append_left _ h⟩
  · intro j f hj hy
    obtain ⟨e1, hj⟩ := old hj
    have hn := t.open_ j f hj hy
    rcases hm with ⟨rfl, -⟩ | ⟨-, fuel, go, rfl⟩
    · simpa using hn
    · simp only [List.map_append, List.map_cons, List.map_nil, Entry.id, List.mem_append, List.mem_singleton]
      exact fun h => h.elim hn e1
  · intro j hj
    refine t.fresh j ?_
    rcases hj with ⟨c, hj⟩ | hj | ⟨f, o, r, hj⟩ <;> rcases List.mem_append.1 hj with hj | hj
    · exact .inl ⟨c, hj⟩
    · simp at hj
    · exact .inr (.inl hj)
    · simp at hj
    · exact .inr (.inr ⟨f, o, r, hj⟩)
    · simp at hj
  · refine t.explains.extend (by simp) ?_ (by simp) (by simp) (once_new t.explains hm (t.open_ i _ hf)) ?_
    · intro j c' y hj
      simp only [List.mem_singleton, Ev.ret.injEq] at hj
      obtain ⟨rfl, rfl, rfl⟩ := hj
      rcases hm with ⟨rfl, e⟩ | ⟨-, fuel, go, rfl⟩
      · obtain ⟨fu, g, h⟩ := t.committed j _ y hf e
        exact ⟨(t.called j _ hf).1, fu, g, List.mem_append_left _ h⟩
      · exact ⟨(t.called j _ hf).1, fuel, go, by simp⟩
    · rcases hm with ⟨rfl, -⟩ | ⟨-, fuel, go, rfl⟩
      · simp
      · intro y hy
        simp only [List.mem_singleton] at hy
        subst hy
        exact .inl ⟨c, List.mem_append_left _ (t.called i _ hf).1⟩

/-- A new call. -/
theorem TInv.call {st0 : Stream} {h : List Ev} {T : Threads} {l : List Entry} {a : Stream} (t : TInv E st0 h T l a) (c : Poll)
    (hap : ∀ i f, T.frame i = some f → f.call.slot ≠ c.slot) :
    TInv E st0 (h ++ [.inv T.next c]) { T with frame := put T.frame T.next (some ⟨c, .start⟩), next := T.next + 1 } l a := by
  have hb : ¬ Began h T.next := fun hb => absurd (t.fresh _ hb) (by omega)
  have hn : T.next ∉ l.map Entry.id := by
    intro hm
    obtain ⟨y, hy, e⟩ := List.mem_map.1 hm
    exact hb (e ▸ t.explains.began y hy)
  have new : ∀ {j f}, put T.frame T.next (some ⟨c, .start⟩) j = some f → j = T.next ∧ f = ⟨c, .start⟩ ∨ j ≠ T.next ∧ T.frame j = some f := by
    intro j f hj
    by_cases e : j = T.next
    · subst e; rw [put_same] at hj; cases hj; exact .inl ⟨rfl, rfl⟩
    · rw [put_ne _ e] at hj; exact .inr ⟨e, hj⟩
  refine ⟨t.seq, t.w, t.lock, ?_, ?_, ?_, ?_, ?_, ?_, ?_, ?_⟩
  · intro j k f f' hj hk hjk
    rcases new hj with ⟨rfl, rfl⟩ | ⟨e1, hj⟩ <;> rcases new hk with ⟨rfl, rfl⟩ | ⟨e2, hk⟩
    · rfl
    · exact absurd hjk.symm (hap k f' hk)
    · exact absurd hjk (hap j f hj)
    · exact t.alone j k f f' hj hk hjk
  · intro j f hj
    rcases new hj with ⟨rfl, rfl⟩ | ⟨e1, hj⟩
    · exact t.idle c.slot hap
    · exact t.busy j f hj
  · intro s hs
    refine t.idle s fun j f hj => hs j f ?_
    dsimp only
    rw [put_ne _ (show j ≠ T.next from fun e => hb (.inl ⟨f.call, e ▸ (t.called j f hj).1⟩))]
    exact hj
  · intro j f hj
    rcases new hj with ⟨rfl, rfl⟩ | ⟨e1, hj⟩
    · refine ⟨by simp, fun c' x hx => ?_⟩
      rcases List.mem_append.1 hx with hx | hx
      · exact hb (.inl ⟨c', (t.explains.ret _ _ _ hx).1⟩)
      · simp at hx
    · obtain ⟨h1, h2⟩ := t.called j f hj
      refine ⟨List.mem_append_left _ h1, fun c' x hx => ?_⟩
      rcases List.mem_append.1 hx with hx | hx
      · exact h2 c' x hx
      · simp at hx
  · intro j f x hj hx
    rcases new hj with ⟨rfl, rfl⟩ | ⟨e1, hj⟩
    · simp [Pc.answer] at hx
    · exact t.committed j f x hj hx
  · intro j f hj hx
    rcases new hj with ⟨rfl, rfl⟩ | ⟨e1, hj⟩
    · exact hn
    · exact t.open_ j f hj hx
  · intro j hj
    by_cases e : j = T.next
    · dsimp only; omega
    · have : j < T.next := by
        refine t.fresh j ?_
        rcases hj with ⟨c, hj⟩ | hj | ⟨f, o, r, hj⟩ <;> rcases List.mem_append.1 hj with hj | hj
        · exact .inl ⟨c, hj⟩
        · simp at hj; exact absurd hj.1 e
        · exact .inr (.inl hj)
        · simp at hj
        · exact .inr (.inr ⟨f, o, r, hj⟩)
        · simp at hj
      dsimp only; omega
  · have := t.explains.extend (e := [.inv T.next c]) (m := []) (by simp) (by simp) (by simp) (by simp) (by simpa using t.explains.once) (by simp)
    simpa using this

/-- A step of a method. -/
theorem TInv.other {st0 : Stream} {h : List Ev} {T : Threads} {l : List Entry} {a a' st' : Stream} {y : Entry} {ev : Ev} (t : TInv E st0 h T l a)
    (hs : OneByOne E st0 (l ++ [y]) a') (hw : a'.w = st'.w) (hl : a'.lock = st'.lock) (ha : ∀ s, a'.slot s = a.slot s)
    (hst : ∀ s, st'.slot s = T.st.slot s) (hy : y = .lock T.next ∧ ev = .lock T.next ∨ ∃ fuel op r, y = .method T.next fuel op r ∧ ev = .method T.next fuel op r) :
    TInv E st0 (h ++ [ev]) { T with st := st', next := T.next + 1 } (l ++ [y]) a' := by
  have hid : y.id = T.next := by rcases hy with ⟨rfl, -⟩ | ⟨_, _, _, rfl, -⟩ <;> rfl
  have hb : ¬ Began h T.next := fun hb => absurd (t.fresh _ hb) (by omega)
  have hn : T.next ∉ l.map Entry.id := by
    intro hm
    obtain ⟨y, hy, e⟩ := List.mem_map.1 hm
    exact hb (e ▸ t.explains.began y hy)
  have hev : (∀ i c x, ev ≠ .ret i c x) ∧ (∀ i c, ev ≠ .inv i c) ∧ (∀ i, ev = .lock i → i = T.next ∧ y = .lock i) ∧
      (∀ i f o r, ev = .method i f o r → i = T.next ∧ y = .method i f o r) := by
    rcases hy with ⟨rfl, rfl⟩ | ⟨f, o, r, rfl, rfl⟩
    · refine ⟨by simp, by simp, ?_, by simp⟩
      intro i hi; cases hi; exact ⟨rfl, rfl⟩
    · refine ⟨by simp, by simp, by simp, ?_⟩
      intro i _ _ _ hi; cases hi; exact ⟨rfl, rfl⟩
  have hne : ∀ j f, T.frame j = some f → j ≠ T.next := fun j f hj e => hb (.inl ⟨f.call, e ▸ (t.called j f hj).1⟩)
  refine ⟨hs, hw, hl, t.alone, ?_, ?_, ?_, ?_, ?_, ?_, ?_⟩
  · intro j f hj
    dsimp only
    rw [ha, hst]
    exact t.busy j f hj
  · intro s hs'
    dsimp only
    rw [ha, hst]
    exact t.idle s hs'
  · intro j f hj
    obtain ⟨h1, h2⟩ := t.called j f hj
    refine ⟨List.mem_append_left _ h1, fun c' x hx => ?_⟩
    rcases List.mem_append.1 hx with hx | hx
    · exact h2 c' x hx
    · simp only [List.mem_singleton] at hx; exact hev.1 _ _ _ hx.symm
  · intro j f x hj hx
    obtain ⟨fu, g, h⟩ := t.committed j f x hj hx
    exact ⟨fu, g, List.mem_append_left _ h⟩
  · intro j f hj hx
    simp only [List.map_append, List.map_cons, List.map_nil, List.mem_append, List.mem_singleton, hid]
    exact fun h => h.elim (t.open_ j f hj hx) (hne j f hj)
  · intro j hj
    by_cases e : j = T.next
    · dsimp only; omega
    · have : j < T.next := by
        refine t.fresh j ?_
        rcases hj with ⟨c, hj⟩ | hj | ⟨f, o, r, hj⟩ <;> rcases List.mem_append.1 hj with hj | hj
        · exact .inl ⟨c, hj⟩
        · simp only [List.mem_singleton] at hj; exact absurd hj.symm (hev.2.1 _ _)
        · exact .inr (.inl hj)
        · simp only [List.mem_singleton] at hj; exact absurd (hev.2.2.1 _ hj.symm).1 e
        · exact .inr (.inr ⟨f, o, r, hj⟩)
        · simp only [List.mem_singleton] at hj; exact absurd (hev.2.2.2 _ _ _ _ hj.symm).1 e
      dsimp only; omega
  · refine t.explains.extend (by simp) ?_ ?_ ?_ ?_ ?_
    · intro i c x hx; simp only [List.mem_singleton] at hx; exact absurd hx.symm (hev.1 _ _ _)
    · intro i hx; simp only [List.mem_singleton] at hx; rw [(hev.2.2.1 _ hx.symm).2]; simp
    · intro i f o r hx; simp only [List.mem_singleton] at hx; rw [(hev.2.2.2 _ _ _ _ hx.symm).2]; simp
    · rw [List.map_append, List.nodup_append]
      refine ⟨t.explains.once, by simp, fun x hx z hz => ?_⟩
      simp [hid] at hz
      subst hz
      rintro rfl
      exact hn hx
    · intro z hz
      simp only [List.mem_singleton] at hz
      subst hz
      rw [hid]
      rcases hy with ⟨rfl, rfl⟩ | ⟨f, o, r, rfl, rfl⟩
      · exact .inr (.inl (by simp))
      · exact .inr (.inr ⟨f, o, r, by simp⟩)

theorem apart_prefix {h e : List Ev} (hap : Apart (h ++ e)) : Apart h :=
  fun h1 h2 i j c c' hh => hap h1 (h2 ++ e) i j c c' (by rw [hh]; simp)

/-- A future that is not in the middle of its operation is dropped without effect. -/
theorem discard_idle {fuel : Nat} {s : Slot} {st : Stream} (h : ∀ vec, st.slot s ≠ some (vec, .holding)) : st.discard E fuel s = st := by
  unfold Stream.discard
  split
  · rename_i vec hs; exact absurd hs (h vec)
  · rfl

theorem takeLock_eq {st st' : Stream} : st.takeLock = some st' ↔ st.lock = none ∧ st' = { st with lock := some .method } := by
  unfold Stream.takeLock
  split <;> rename_i h
  · simp [h, eq_comm]
  · simp [h]

theorem runMethod_core (fuel : Nat) (op : Op) (st : Stream) : ∃ r w l, ∀ a : Stream, a.w = st.w → a.lock = st.lock →
    a.runMethod E fuel op = (r, { a with w := w, lock := l }) := by
  unfold Stream.runMethod runHolding
  simp only [if_true]
  rcases h : runOp E fuel op st.w with ⟨r, w⟩
  cases r with
  | ok o => exact ⟨.ready (.ok o), w, none, fun a hw hl => by rw [hw, h]⟩
  | err e => exact ⟨.ready (.error e), w, none, fun a hw hl => by rw [hw, h]⟩
  | panic => exact ⟨.panic, w, none, fun a hw hl => by rw [hw, h]⟩
  | pending => exact ⟨.pending, st.w, st.lock, fun a hw hl => by rw [hw, h, ← hl]; simp [← hw]⟩

/-- Polling the future is where the atomic poll takes place. -/
theorem commit (fuel : Nat) (go : Bool) {c : Poll} {a st : Stream} (hw : a.w = st.w) (hl : a.lock = st.lock)
    (hm : c.slot = .close ∧ a.slot c.slot = st.slot c.slot ∨
      c.slot ≠ .close ∧ (a.slot c.slot = st.slot c.slot ∧ st.slot c.slot ≠ none ∨ a.slot c.slot = none ∧ st.slot c.slot = some (c.buf, .queued))) :
    ∃ st' r, advance E fuel go c .polling ⟨0, true⟩ st = (⟨0, false⟩, st', r) ∧ (c.run E fuel go a).2.w = st'.w ∧ (c.run E fuel go a).2.lock = st'.lock ∧
      (∀ s, s ≠ c.slot → (c.run E fuel go a).2.slot s = a.slot s) ∧ (∀ s, s ≠ c.slot → st'.slot s = st.slot s) ∧
      (r = .inr (c.run E fuel go a).1 ∧ (c.run E fuel go a).2.slot c.slot = st'.slot c.slot ∨
       r = .inl (.done (c.run E fuel go a).1) ∧ (c.run E fuel go a).2.slot c.slot = none ∧ ∃ vec, st'.slot c.slot = some (vec, .finished)) := by
  rcases hv : st.slot c.slot with _ | ⟨vec, stage⟩
  · have hc : c.slot = .close ∧ a.slot c.slot = none := by
      rcases hm with ⟨h1, h2⟩ | ⟨h1, ⟨h2, h3⟩ | ⟨h2, h3⟩⟩
      · exact ⟨h1, h2.trans hv⟩
      · exact absurd hv h3
      · rw [hv] at h3; simp at h3
    have hr : c.run E fuel go a = ((.panic, c.buf), a) := by rw [Poll.run_eq, if_pos ⟨hc.1, hc.1 ▸ hc.2⟩]
    refine ⟨st, .inr (.panic, c.buf), ?_, ?_⟩
    · unfold advance; simp only [hv]
    · rw [hr]
      exact ⟨hw, hl, fun _ _ => rfl, fun _ _ => rfl, .inl ⟨rfl, by rw [hc.2, hv]⟩⟩
  · have hf : (a.slot c.slot).getD (c.buf, .queued) = (vec, stage) := by
      rcases hm with ⟨h1, h2⟩ | ⟨h1, ⟨h2, h3⟩ | ⟨h2, h3⟩⟩
      · rw [h2, hv]; rfl
      · rw [h2, hv]; rfl
      · rw [hv] at h3; cases h3; rw [h2]; rfl
    have hc : ¬ (c.slot = .close ∧ a.slot .close = none) := by
      rintro ⟨h1, h2⟩
      rcases hm with ⟨h3, h4⟩ | ⟨h3, -⟩
      · rw [hv, h1, h2] at h4; cases h4
      · exact h3 h1
    have hfit := fits_slot hv
    rw [Poll.run_eq, if_neg hc]
    simp only [hf]
    rw [pollCore_congr fuel _ _ go _ hw hl]
    unfold advance
    simp only [hv]
    rw [pollFuture_core]
    have hrd := @pollCore_ready E fuel c.slot.holder (c.slot.op vec) go stage st
    generalize pollCore E fuel c.slot.holder (c.slot.op vec) go stage st = p at hrd ⊢
    obtain ⟨r, sg, w, lk⟩ := p
    have ho : ∀ (x : Stream) v s, s ≠ c.slot → (Stream.setSlot { x with w := w, lock := lk } c.slot v).slot s = x.slot s := fun x v s hs => by
      rw [slot_setSlot_ne _ hs, slot_with]
    cases r with
    | pending =>
      exact ⟨_, _, rfl, by simp, by simp, ho a _, ho st _, .inl ⟨rfl, by rw [slot_setSlot_some _ hfit, slot_setSlot_some _ hfit]⟩⟩
    | panic =>
      exact ⟨_, _, rfl, by simp, by simp, ho a _, ho st _, .inl ⟨rfl, by rw [slot_setSlot_some _ hfit, slot_setSlot_some _ hfit]⟩⟩
    | ready r =>
      have hrd := hrd rfl
      dsimp only at hrd
      subst hrd
      rcases hx : c.after vec r with x | x
      · simp only [hx]
        exact ⟨_, _, rfl, by simp, by simp, ho a _, ho st _, .inl ⟨rfl, by rw [slot_setSlot_some _ hfit, slot_setSlot_some _ hfit]⟩⟩
      · simp only [hx]
        exact ⟨_, _, rfl, by simp, by simp, ho a _, ho st _, .inr ⟨rfl, slot_setSlot_none _ _, vec, slot_setSlot_some _ hfit _⟩⟩

theorem tinv_step {st0 : Stream} {h e : List Ev} {T T' : Threads} {l : List Entry} {a : Stream} (t : TInv E st0 h T l a) (hap : Apart (h ++ e))
    (hs : TStep E T e T') : ∃ l' a', TInv E st0 (h ++ e) T' l' a' := by
  cases hs with
  | call c =>
    refine ⟨l, a, t.call c fun i f hf hc => ?_⟩
    obtain ⟨x, hx⟩ := hap h [] i T.next c f.call (by simp) (t.called i f hf).1 hc
    exact (t.called i f hf).2 _ x hx
  | lock hl =>
    obtain ⟨h1, rfl⟩ := takeLock_eq.1 hl
    exact ⟨_, _, t.other (y := .lock T.next) (a' := { a with lock := some .method }) (.lock T.next t.seq (takeLock_eq.2 ⟨by rw [t.lock, h1], rfl⟩)) t.w rfl
      (fun s => slot_with a a.w _ s) (fun s => slot_with T.st T.st.w _ s) (.inl ⟨rfl, rfl⟩)⟩
  | method fuel op h1 h2 h3 =>
    obtain ⟨r', w, lk, hr⟩ := runMethod_core (E := E) fuel op T.st
    rw [hr T.st rfl rfl] at h3
    cases h3
    have hseq := OneByOne.method (E := E) T.next fuel op t.seq (by rw [t.lock, h1]) h2
    rw [hr a t.w t.lock] at hseq
    exact ⟨_, _, t.other hseq rfl rfl (fun s => slot_with a w _ s) (fun s => slot_with T.st w _ s) (.inr ⟨_, _, _, rfl, rfl⟩)⟩
  | @move i c pc pc' g st fuel go hf hadv =>
    rw [List.append_nil]
    have hb := t.busy i _ hf
    dsimp only at hb
    cases pc with
    | start =>
      obtain ⟨hg, hv⟩ := hb
      rw [hg] at hadv
      simp [advance] at hadv
      obtain ⟨rfl, rfl, rfl⟩ := hadv
      exact ⟨_, _, t.move (m := []) hf (by simpa using t.seq) t.w t.lock (fun _ _ => rfl) (fun _ _ => rfl) ⟨rfl, hv⟩ (.inl ⟨rfl, rfl⟩)⟩
    | looking =>
      obtain ⟨hg, hv⟩ := hb
      rw [hg] at hadv
      simp only [advance, Prod.mk.injEq, Sum.inl.injEq] at hadv
      obtain ⟨rfl, rfl, rfl⟩ := hadv
      refine ⟨_, _, t.move (m := []) hf (by simpa using t.seq) t.w t.lock (fun _ _ => rfl) (fun _ _ => rfl) ?_ (.inl ⟨rfl, ?_⟩)⟩
      · split <;> rename_i hc
        · exact ⟨rfl, by rw [hv, hc.2], hc.2, hc.1⟩
        · refine ⟨rfl, ?_⟩
          by_cases h1 : c.slot = .close
          · exact .inl ⟨h1, hv⟩
          · exact .inr ⟨h1, .inl ⟨hv, fun h2 => hc ⟨h1, h2⟩⟩⟩
      · split <;> rfl
    | create =>
      obtain ⟨hg, h1, h2, h3⟩ := hb
      rw [hg] at hadv
      simp [advance] at hadv
      obtain ⟨rfl, rfl, rfl⟩ := hadv
      exact ⟨_, _, t.move (m := []) hf (by simpa using t.seq) t.w t.lock (fun _ _ => rfl) (fun _ _ => rfl) ⟨rfl, h1, h2, h3⟩ (.inl ⟨rfl, rfl⟩)⟩
    | filling =>
      obtain ⟨hg, h1, h2, h3⟩ := hb
      rw [hg] at hadv
      simp only [advance, Prod.mk.injEq, Sum.inl.injEq] at hadv
      rw [discard_idle (by rw [h2]; simp)] at hadv
      obtain ⟨rfl, rfl, rfl⟩ := hadv
      exact ⟨_, _, t.move (m := []) hf (by simpa using t.seq) (by simpa using t.w) (by simpa using t.lock) (fun _ _ => rfl) (fun s hs => slot_setSlot_ne _ hs _)
        ⟨rfl, .inr ⟨h3, .inr ⟨h1, slot_setSlot_some _ (fits_buf c) _⟩⟩⟩ (.inl ⟨rfl, rfl⟩)⟩
    | poll =>
      obtain ⟨hg, h1⟩ := hb
      rw [hg] at hadv
      simp [advance] at hadv
      obtain ⟨rfl, rfl, rfl⟩ := hadv
      exact ⟨_, _, t.move (m := []) hf (by simpa using t.seq) t.w t.lock (fun _ _ => rfl) (fun _ _ => rfl) ⟨rfl, h1⟩ (.inl ⟨rfl, rfl⟩)⟩
    | polling =>
      obtain ⟨hg, h1⟩ := hb
      rw [hg] at hadv
      obtain ⟨st', r, ha, hw, hl, hs1, hs2, ⟨hr, hv⟩ | ⟨hr, hv⟩⟩ := commit (E := E) fuel go t.w t.lock h1
      · rw [ha, hr] at hadv; cases hadv
      · rw [ha, hr] at hadv
        cases hadv
        exact ⟨_, _, t.move hf (.poll i c fuel go t.seq) hw hl hs1 hs2 ⟨rfl, hv⟩ (.inr ⟨_, rfl, .inr ⟨rfl, fuel, go, rfl⟩⟩)⟩
    | done x =>
      obtain ⟨hg, h1, h2⟩ := hb
      rw [hg] at hadv
      simp [advance] at hadv
      obtain ⟨rfl, rfl, rfl⟩ := hadv
      exact ⟨_, _, t.move (m := []) hf (by simpa using t.seq) t.w t.lock (fun _ _ => rfl) (fun _ _ => rfl) ⟨rfl, h1, h2⟩ (.inl ⟨rfl, rfl⟩)⟩
    | clearing x => simp [advance] at hadv
  | @ret i c pc g st x fuel go hf hadv =>
    have hb := t.busy i _ hf
    dsimp only at hb
    cases pc with
    | start =>
      obtain ⟨hg, hv⟩ := hb
      rw [hg] at hadv
      simp [advance] at hadv
    | looking => simp [advance] at hadv
    | create =>
      obtain ⟨hg, h1, h2, h3⟩ := hb
      rw [hg] at hadv
      simp [advance] at hadv
    | filling => simp [advance] at hadv
    | poll =>
      obtain ⟨hg, h1⟩ := hb
      rw [hg] at hadv
      simp [advance] at hadv
    | polling =>
      obtain ⟨hg, h1⟩ := hb
      rw [hg] at hadv
      obtain ⟨st', r, ha, hw, hl, hs1, hs2, ⟨hr, hv⟩ | ⟨hr, hv⟩⟩ := commit (E := E) fuel go t.w t.lock h1
      · rw [ha, hr] at hadv
        cases hadv
        exact ⟨_, _, t.done hf (.poll i c fuel go t.seq) hw hl hs1 hs2 hv (.inr ⟨rfl, fuel, go, rfl⟩)⟩
      · rw [ha, hr] at hadv; cases hadv
    | done y =>
      obtain ⟨hg, h1, h2⟩ := hb
      rw [hg] at hadv
      simp [advance] at hadv
    | clearing y =>
      obtain ⟨hg, h1, vec, h2⟩ := hb
      rw [hg] at hadv
      simp only [advance, Prod.mk.injEq, Sum.inr.injEq] at hadv
      rw [discard_idle (by rw [h2]; simp)] at hadv
      obtain ⟨rfl, rfl, rfl⟩ := hadv
      exact ⟨_, _, t.done (m := []) hf (by simpa using t.seq) (by simpa using t.w) (by simpa using t.lock) (fun _ _ => rfl) (fun s hs => slot_setSlot_ne _ hs _)
        (by rw [h1, slot_setSlot_none]) (.inl ⟨rfl, rfl⟩)⟩

theorem tinv_run {st0 : Stream} {h : List Ev} {T : Threads} (hr : TRun E st0 h T) (hap : Apart h) : ∃ l a, TInv E st0 h T l a := by
  induction hr with
  | init => exact ⟨_, _, init_tinv st0⟩
  | step _ hs ih =>
    obtain ⟨l, a, t⟩ := ih (apart_prefix hap)
    exact tinv_step t hap hs

/-! ### `poll_close` -/

/-- A poll leaves the other slots alone. -/
theorem advance_other {fuel : Nat} {go : Bool} {c : Poll} {pc : Pc} {g g' : Guard} {st st' : Stream} {r : Pc ⊕ Answer}
    (h : advance E fuel go c pc g st = (g', st', r)) {s : Slot} (hs : s ≠ c.slot) : st'.slot s = st.slot s := by
  have hd : ∀ v, ((st.discard E fuel c.slot).setSlot c.slot v).slot s = st.slot s := by
    intro v
    rw [slot_setSlot_ne _ hs]
    unfold Stream.discard
    split
    · rw [slot_with]
    · rfl
  unfold advance at h
  cases pc with
  | start => dsimp only at h; split at h <;> cases h <;> rfl
  | looking => cases h; rfl
  | create => dsimp only at h; split at h <;> cases h <;> rfl
  | filling => cases h; exact hd _
  | poll => dsimp only at h; split at h <;> cases h <;> rfl
  | polling =>
    dsimp only at h
    split at h
    · cases h; rfl
    · rename_i vec stage hv
      rw [pollFuture_core] at h
      generalize pollCore E fuel c.slot.holder (c.slot.op vec) go stage st = p at h
      obtain ⟨r', sg, w, lk⟩ := p
      cases r' <;> dsimp only at h <;> cases h <;> rw [slot_setSlot_ne _ hs, slot_with]
  | done a => dsimp only at h; split at h <;> cases h <;> rfl
  | clearing a => cases h; exact hd _

/-- The places in `poll_close` a thread reaches before any `poll_close` has panicked. -/
def Pc.early : Pc → Prop
  | .filling => False
  | .done _ => False
  | .clearing _ => False
  | _ => True

/-- Before any `poll_close` has panicked. -/
structure CloseInv (h : List Ev) (T : Threads) : Prop where
  empty : T.st.slot .close = none
  early : ∀ i pc, T.frame i = some ⟨.close, pc⟩ → pc.early
  create : ∀ i, T.frame i = some ⟨.close, .create⟩ → (T.guard .close).writer = true
  none : ∀ i a, Ev.ret i .close a ∉ h

theorem slot_close {c : Poll} (h : c.slot = .close) : c = .close := by cases c <;> simp [Poll.slot] at h ⊢

theorem closeInv_run {st0 : Stream} {h : List Ev} {T : Threads} (h0 : st0.close = none) (hr : TRun E st0 h T)
    (hn : ∀ i b, Ev.ret i .close (.panic, b) ∉ h) : CloseInv h T := by
  induction hr with
  | init => exact ⟨by simp [Threads.init, Stream.slot, h0], by simp [Threads.init], by simp [Threads.init], by simp⟩
  | @step h e T T' _ hs ih =>
    have t := ih fun i b hm => hn i b (List.mem_append_left _ hm)
    have hret : (∀ i a, Ev.ret i .close a ∉ e) → ∀ i a, Ev.ret i .close a ∉ h ++ e := by
      intro he i a hm
      exact (List.mem_append.1 hm).elim (t.none i a) (he i a)
    cases hs with
    | call c =>
      have new : ∀ {i pc}, put T.frame T.next (some ⟨c, .start⟩) i = some ⟨.close, pc⟩ → pc = .start ∨ T.frame i = some ⟨.close, pc⟩ := by
        intro i pc hi
        by_cases hx : i = T.next
        · subst hx; rw [put_same] at hi; cases hi; exact .inl rfl
        · rw [put_ne _ hx] at hi; exact .inr hi
      refine ⟨t.empty, fun i pc hi => ?_, fun i hi => ?_, hret (by simp)⟩
      · rcases new hi with rfl | hi
        · trivial
        · exact t.early i pc hi
      · rcases new hi with hx | hi
        · cases hx
        · exact t.create i hi
    | lock hl =>
      obtain ⟨-, rfl⟩ := takeLock_eq.1 hl
      exact ⟨t.empty, t.early, t.create, hret (by simp)⟩
    | method fuel op h1 h2 h3 =>
      obtain ⟨r', w, lk, hr⟩ := runMethod_core (E := E) fuel op T.st
      rw [hr T.st rfl rfl] at h3
      cases h3
      exact ⟨t.empty, t.early, t.create, hret (by simp)⟩
    | @move i c pc pc' g st fuel go hf hadv =>
      by_cases hc : c.slot = .close
      · have := slot_close hc
        subst this
        have he := t.early i pc hf
        have key : st.slot .close = Option.none ∧ pc'.early ∧ (pc' = .create → (T.guard .close).writer = true) ∧
            ((T.guard .close).writer = true → g.writer = true) := by
          have hem := t.empty
          have hcr : pc = .create → (T.guard .close).writer = true := fun hx => t.create i (hx ▸ hf)
          simp only [show Poll.close.slot = Slot.close from rfl] at hadv
          generalize T.guard .close = g0 at hadv hcr ⊢
          cases pc with
          | start =>
            simp only [advance] at hadv
            split at hadv <;> rename_i hw
            · cases hadv; exact ⟨hem, trivial, fun _ => hw, id⟩
            · cases hadv; exact ⟨hem, trivial, fun hx => (by cases hx), fun hx => absurd hx hw⟩
          | looking =>
            simp [advance, Poll.slot] at hadv
            obtain ⟨rfl, rfl, rfl⟩ := hadv
            exact ⟨hem, trivial, fun hx => (by cases hx), id⟩
          | create =>
            simp only [advance, hcr rfl, true_or, if_true] at hadv
            cases hadv
          | filling => exact absurd he id
          | poll =>
            simp only [advance] at hadv
            split at hadv
            · cases hadv
            · cases hadv; exact ⟨hem, trivial, fun hx => (by cases hx), fun _ => rfl⟩
          | polling =>
            simp only [advance, show Poll.close.slot = Slot.close from rfl, hem] at hadv
            cases hadv
          | done a => exact absurd he id
          | clearing a => exact absurd he id
        obtain ⟨k1, k2, k3, k4⟩ := key
        refine ⟨k1, fun j pc2 hj => ?_, fun j hj => ?_, hret (by simp)⟩
        · by_cases hx : j = i
          · subst hx; simp only [put_same] at hj; cases hj; exact k2
          · simp only [put_ne _ hx] at hj; exact t.early j pc2 hj
        · simp only [show Poll.close.slot = Slot.close from rfl, put_same]
          by_cases hx : j = i
          · subst hx; simp only [put_same] at hj; cases hj; exact k4 (k3 rfl)
          · simp only [put_ne _ hx] at hj; exact k4 (t.create j hj)
      · have old : ∀ {j pc2}, put T.frame i (some ⟨c, pc'⟩) j = some ⟨.close, pc2⟩ → T.frame j = some ⟨.close, pc2⟩ := by
          intro j pc2 hj
          by_cases hx : j = i
          · subst hx; rw [put_same] at hj; cases hj; exact absurd rfl hc
          · rw [put_ne _ hx] at hj; exact hj
        refine ⟨?_, fun j pc2 hj => t.early j pc2 (old hj), fun j hj => ?_, hret (by simp)⟩
        · exact (advance_other hadv (fun hx => hc hx.symm)).trans t.empty
        · dsimp only; rw [put_ne _ (fun hx => hc hx.symm)]; exact t.create j (old hj)
    | @ret i c pc g st x fuel go hf hadv =>
      have old : ∀ {j pc2}, put T.frame i Option.none j = some ⟨.close, pc2⟩ → T.frame j = some ⟨.close, pc2⟩ := by
        intro j pc2 hj
        by_cases hx : j = i
        · subst hx; rw [put_same] at hj; cases hj
        · rw [put_ne _ hx] at hj; exact hj
      by_cases hc : c.slot = .close
      · have := slot_close hc
        subst this
        exfalso
        have he := t.early i pc hf
        have key : ∃ b, x = (.panic, b) := by
          have hem := t.empty
          cases pc with
          | start =>
            simp only [advance] at hadv
            split at hadv
            · simp [Poll.slot] at hadv
            · cases hadv
          | looking => simp [advance] at hadv
          | create =>
            simp only [advance] at hadv
            split at hadv
            · cases hadv; exact ⟨_, rfl⟩
            · cases hadv
          | filling => exact absurd he id
          | poll =>
            simp only [advance] at hadv
            split at hadv
            · cases hadv; exact ⟨_, rfl⟩
            · cases hadv
          | polling =>
            simp only [advance, show Poll.close.slot = Slot.close from rfl, hem] at hadv
            cases hadv; exact ⟨_, rfl⟩
          | done a => exact absurd he id
          | clearing a => exact absurd he id
        obtain ⟨b, rfl⟩ := key
        exact hn i b (by simp)
      · refine ⟨?_, fun j pc2 hj => t.early j pc2 (old hj), fun j hj => ?_, hret ?_⟩
        · exact (advance_other hadv (fun hx => hc hx.symm)).trans t.empty
        · dsimp only; rw [put_ne _ (fun hx => hc hx.symm)]; exact t.create j (old hj)
        · intro j a hm
          simp only [List.mem_singleton, Ev.ret.injEq] at hm
          exact hc (by rw [← hm.2.1]; rfl)

end Utp
