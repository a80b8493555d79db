import Verif.Lemmas.Threads
import Verif.Lemmas.UtpStream
import Verif.Props.Safety
/-!
# Helper lemmas: threads whose polls overlap
-/

namespace Utp

variable {E : Env}

theorem Slot.holder_inj {s s' : Slot} (h : s.holder = s'.holder) : s = s' := by cases s <;> cases s' <;> simp [Slot.holder] at h ⊢
theorem Slot.holder_method (s : Slot) : s.holder ≠ .method := by cases s <;> simp [Slot.holder]

/-- The lock of the socket is with the future that has it. -/
structure Locked (E : Env) (st : Stream) : Prop where
  reach : Reach E st.w
  lock : ∀ s, st.lock = some s.holder ↔ ∃ v, st.slot s = some (v, .holding)

theorem Locked.set {st : Stream} (h : Locked E st) {w : World} (hw : Reach E w) {l : Option Holder} (s : Slot) {v : Option (Bytes × Stage)}
    (hfit : ∀ b g, v = some (b, g) → s.Fits b) (hv : l = some s.holder ↔ ∃ b, v = some (b, .holding))
    (ho : ∀ s', s' ≠ s → (l = some s'.holder ↔ st.lock = some s'.holder)) : Locked E (({ st with w := w, lock := l } : Stream).setSlot s v) := by
  refine ⟨by simpa using hw, fun s' => ?_⟩
  by_cases hs : s' = s
  · subst hs
    rcases v with _ | ⟨b, g⟩
    · simpa [slot_setSlot_none] using hv
    · rw [slot_setSlot_some _ (hfit b g rfl)]
      simpa using hv
  · rw [slot_setSlot_ne _ hs, slot_with, setSlot_lock]
    exact (ho s' hs).trans (h.lock s')

theorem reach_op (hc : E.checks = false) {w : World} (h : Reach E w) (fuel : Nat) (op : Op) : Reach E (runOp E fuel op w).2 := by
  obtain ⟨w0, hm, hr⟩ := h
  exact ⟨w0, hm, hr.op fuel op (C45_ops_partial hc ⟨w0, hm, hr⟩ fuel op)⟩

theorem locked_drop (hc : E.checks = false) {st : Stream} (h : Locked E st) (fuel : Nat) (s : Slot) {v : Option (Bytes × Stage)}
    (hfit : ∀ b g, v = some (b, g) → s.Fits b) (hv : ∀ b, v ≠ some (b, .holding)) : Locked E ((st.discard E fuel s).setSlot s v) := by
  unfold Stream.discard
  split
  · rename_i vec hs
    have hl := (h.lock s).2 ⟨vec, hs⟩
    exact h.set (reach_op hc h.reach fuel _) s hfit (by simp [hv]) fun s' hs' => by
      rw [hl]
      simp only [reduceCtorEq, Option.some.injEq, false_iff]
      exact fun hx => hs' (Slot.holder_inj hx).symm
  · rename_i hs
    have := h.set h.reach (l := st.lock) s hfit (by
      simp only [h.lock s]
      constructor
      · rintro ⟨b, hb⟩; exact absurd hb (hs b)
      · rintro ⟨b, hb⟩; exact absurd hb (hv b)) fun s' _ => Iff.rfl
    exact this

theorem locked_poll (hc : E.checks = false) {st : Stream} (h : Locked E st) (fuel : Nat) (go : Bool) {s : Slot} {vec : Bytes} {sg : Stage}
    (hs : st.slot s = some (vec, sg)) : Locked E (({ st with
      w := (pollCore E fuel s.holder (s.op vec) go sg st).2.2.1, lock := (pollCore E fuel s.holder (s.op vec) go sg st).2.2.2 } : Stream).setSlot s
        (some (vec, (pollCore E fuel s.holder (s.op vec) go sg st).2.1))) := by
  have hfit := fits_slot hs
  have hf : ∀ (g : Stage) b g', some (vec, g) = some (b, g') → s.Fits b := by rintro g b g' hx; cases hx; exact hfit
  have old : st.lock = some s.holder ↔ sg = .holding := by
    rw [h.lock s, hs]
    constructor
    · rintro ⟨v, hv⟩; cases hv; rfl
    · rintro rfl; exact ⟨vec, rfl⟩
  have free : sg ≠ .finished → (sg = .queued → st.lock = none) → ∀ s', s' ≠ s → (none = some s'.holder ↔ st.lock = some s'.holder) := by
    intro h1 h2 s' hs'
    cases sg with
    | queued => rw [h2 rfl]
    | holding =>
      rw [old.2 rfl]
      simp only [reduceCtorEq, Option.some.injEq, false_iff]
      exact fun hx => hs' (Slot.holder_inj hx).symm
    | finished => exact absurd rfl h1
  unfold pollCore
  rcases pollFuture_cases (E := E) fuel s.holder (s.op vec) go sg st with ⟨rfl, h'⟩ | ⟨rfl, h1, h'⟩ | ⟨l, h1, h'⟩ | ⟨h1, h2, ⟨o, w, h', hr⟩ | ⟨e, w, h', hr⟩ | ⟨w, h', hr⟩⟩
  · rw [h']; exact h.set h.reach s (hf _) (by rw [old]; simp) fun s' _ => Iff.rfl
  · rw [h']; exact h.set h.reach s (hf _) (by rw [old]; simp) fun s' _ => Iff.rfl
  · rw [h']
    rcases h1 with ⟨rfl, h1, rfl⟩ | ⟨rfl, rfl⟩
    · refine h.set h.reach s (hf _) (by simp) fun s' hs' => ?_
      rw [h1]
      simp only [reduceCtorEq, Option.some.injEq, iff_false]
      exact fun hx => hs' (Slot.holder_inj hx).symm
    · exact h.set h.reach s (hf _) (by rw [old]; simp) fun s' _ => Iff.rfl
  all_goals
    rw [h']
    refine h.set ?_ s (hf _) (by simp) (free h1 h2)
    have := reach_op hc h.reach fuel (s.op vec)
    rw [hr] at this
    exact this

theorem locked_advance (hc : E.checks = false) {fuel : Nat} {go : Bool} {c : Poll} {pc : Pc} {g g' : Guard} {st st' : Stream} {r : Pc ⊕ Answer}
    (h : Locked E st) (ha : advance E fuel go c pc g st = (g', st', r)) : Locked E st' := by
  unfold advance at ha
  cases pc with
  | start => dsimp only at ha; split at ha <;> cases ha <;> exact h
  | looking => cases ha; exact h
  | create => dsimp only at ha; split at ha <;> cases ha <;> exact h
  | filling =>
    cases ha
    exact locked_drop hc h fuel c.slot (by rintro b g' hx; cases hx; exact fits_buf c) (by simp)
  | poll => dsimp only at ha; split at ha <;> cases ha <;> exact h
  | polling =>
    dsimp only at ha
    split at ha
    · cases ha; exact h
    · rename_i vec stage hv
      have key := locked_poll hc h fuel go hv
      rw [pollFuture_core] at ha
      generalize pollCore E fuel c.slot.holder (c.slot.op vec) go stage st = p at ha key
      obtain ⟨r', sg, w, lk⟩ := p
      cases r' <;> dsimp only at ha <;> cases ha <;> exact key
  | done a => dsimp only at ha; split at ha <;> cases ha <;> exact h
  | clearing a => cases ha; exact locked_drop hc h fuel c.slot (by simp) (by simp)

theorem locked_run (hc : E.checks = false) {st0 : Stream} {h : List Ev} {T : Threads} (h0 : Locked E st0) (hr : TRun E st0 h T) : Locked E T.st := by
  induction hr with
  | init => exact h0
  | @step h e T T' _ hs ih =>
    cases hs with
    | call c => exact ih
    | lock hl =>
      obtain ⟨h1, rfl⟩ := takeLock_eq.1 hl
      refine ⟨ih.reach, fun s => ?_⟩
      have := ih.lock s
      rw [h1] at this
      dsimp only
      rw [slot_with T.st T.st.w, ← this]
      simp only [Option.some.injEq, reduceCtorEq, iff_false]
      exact fun hx => Slot.holder_method s hx.symm
    | method fuel op h1 h2 h3 =>
      have hre := reach_op hc ih.reach fuel op
      have old : ∀ s, ¬ ∃ v, T.st.slot s = some (v, .holding) := fun s => by
        rw [← ih.lock s, h1]
        simp only [Option.some.injEq]
        exact fun hx => Slot.holder_method s hx.symm
      unfold Stream.runMethod runHolding at h3
      simp only [if_true] at h3
      rcases hp : runOp E fuel op T.st.w with ⟨r', w⟩
      rw [hp] at h3 hre
      have none_ok : Locked E { T.st with w := w, lock := none } := ⟨hre, fun s => by
        rw [slot_with]
        simp only [reduceCtorEq, false_iff]
        exact old s⟩
      cases r' with
      | ok o => cases h3; exact none_ok
      | err o => cases h3; exact none_ok
      | panic => cases h3; exact none_ok
      | pending => cases h3; exact ih
    | move fuel go hf ha => exact locked_advance hc ih ha
    | ret fuel go hf ha => exact locked_advance hc ih ha

theorem locked_start {st0 : Stream} (h : SReach E st0) : Locked E st0 := by
  have hc := h.consistent
  refine ⟨h.reach, fun s => ?_⟩
  cases s with
  | read => exact hc.read
  | write => exact hc.write
  | flush => rw [show Slot.flush.holder = Holder.flush from rfl, hc.flush]; simp [Stream.slot]
  | close => simp [Slot.holder, Stream.slot, hc.close.1, hc.close.2]

/-! ### The locks of the slots -/

/-- How many numbers below `n` have the property. -/
def tally (p : Nat → Bool) : Nat → Nat
  | 0 => 0
  | n + 1 => tally p n + (p n).toNat

theorem tally_congr {p q : Nat → Bool} {n : Nat} (h : ∀ i, i < n → p i = q i) : tally p n = tally q n := by
  induction n with
  | zero => rfl
  | succ n ih => simp only [tally]; rw [ih fun i hi => h i (by omega), h n (by omega)]

theorem tally_change {p q : Nat → Bool} {n i : Nat} (hi : i < n) (h : ∀ j, j ≠ i → p j = q j) : tally q n + (p i).toNat = tally p n + (q i).toNat := by
  induction n with
  | zero => omega
  | succ n ih =>
    simp only [tally]
    by_cases hn : i = n
    · subst hn
      rw [tally_congr fun j hj => h j (by omega)]; omega
    · have := ih (by omega)
      rw [h n fun hx => hn hx.symm]; omega

theorem tally_pos {p : Nat → Bool} {n i : Nat} (hi : i < n) (h : p i = true) : 0 < tally p n := by
  induction n with
  | zero => omega
  | succ n ih =>
    simp only [tally]
    by_cases hn : i = n
    · subst hn; simp [h]
    · have := ih (by omega); omega

theorem tally_zero {p : Nat → Bool} {n : Nat} (h : ∀ i, i < n → p i = false) : tally p n = 0 := by
  induction n with
  | zero => rfl
  | succ n ih => simp [tally, ih fun i hi => h i (by omega), h n (by omega)]

/-- Has a read guard. -/
def Pc.reads : Pc → Bool
  | .looking => true
  | _ => false

/-- Has a write guard. -/
def Pc.writes : Pc → Bool
  | .filling => true
  | .polling => true
  | .clearing _ => true
  | _ => false

/-- The call has such a guard of the slot. -/
def hasGuard (k : Pc → Bool) (s : Slot) : Option Frame → Bool
  | some f => f.call.slot = s && k f.pc
  | none => false

/-- The locks of the slots are with the calls that have them. -/
structure Guarded (T : Threads) : Prop where
  fresh : ∀ i, T.next ≤ i → T.frame i = none
  readers : ∀ s, (T.guard s).readers = tally (fun i => hasGuard Pc.reads s (T.frame i)) T.next
  writer : ∀ s, (T.guard s).writer.toNat = tally (fun i => hasGuard Pc.writes s (T.frame i)) T.next
  apart : ∀ s, (T.guard s).writer = true → (T.guard s).readers = 0

/-- What a step does to the lock of the slot, the thread being where `pc` says. -/
theorem advance_guard {fuel : Nat} {go : Bool} {c : Poll} {pc : Pc} {g g' : Guard} {st st' : Stream} {r : Pc ⊕ Answer}
    (ha : advance E fuel go c pc g st = (g', st', r)) (hrd : pc.reads = true → 0 < g.readers) (hwr : pc.writes = true → g.writer = true)
    (hap : g.writer = true → g.readers = 0) :
    g'.readers + pc.reads.toNat = g.readers + (r.elim Pc.reads fun _ => false).toNat ∧
    g'.writer.toNat + pc.writes.toNat = g.writer.toNat + (r.elim Pc.writes fun _ => false).toNat ∧
    (g'.writer = true → g'.readers = 0) := by
  obtain ⟨n, b⟩ := g
  unfold advance at ha
  cases pc with
  | start =>
    dsimp only at ha
    split at ha <;> rename_i hw
    · cases ha; split <;> simp_all [Pc.reads, Pc.writes]
    · cases ha; simp_all [Pc.reads, Pc.writes]
  | looking =>
    have := hrd rfl
    cases ha
    split <;> simp_all [Pc.reads, Pc.writes] <;> omega
  | create =>
    dsimp only at ha
    split at ha <;> cases ha <;> simp_all [Pc.reads, Pc.writes]
  | filling => cases ha; simp_all [Pc.reads, Pc.writes]
  | poll =>
    dsimp only at ha
    split at ha <;> cases ha <;> simp_all [Pc.reads, Pc.writes]
  | polling =>
    have hb := hwr rfl
    dsimp only at ha
    split at ha
    · cases ha; simp_all [Pc.reads, Pc.writes]
    · rename_i vec stage hv
      rw [pollFuture_core] at ha
      generalize pollCore E fuel c.slot.holder (c.slot.op vec) go stage st = p at ha
      obtain ⟨r', sg, w, lk⟩ := p
      cases r' with
      | pending => dsimp only at ha; cases ha; simp_all [Pc.reads, Pc.writes]
      | panic => dsimp only at ha; cases ha; simp_all [Pc.reads, Pc.writes]
      | ready x =>
        dsimp only at ha; cases ha
        split <;> simp_all [Pc.reads, Pc.writes]
  | done a =>
    dsimp only at ha
    split at ha <;> cases ha <;> simp_all [Pc.reads, Pc.writes]
  | clearing a => cases ha; simp_all [Pc.reads, Pc.writes]

theorem Guarded.advance {T : Threads} (h : Guarded T) {i : Nat} {c : Poll} {pc : Pc} (hf : T.frame i = some ⟨c, pc⟩) {fuel : Nat} {go : Bool} {g : Guard} {st : Stream}
    {r : Pc ⊕ Answer} (ha : Utp.advance E fuel go c pc (T.guard c.slot) T.st = (g, st, r)) :
    Guarded { T with st := st, guard := put T.guard c.slot g, frame := put T.frame i (r.elim (fun p => some ⟨c, p⟩) fun _ => none) } := by
  have hi : i < T.next := by
    rcases Nat.lt_or_ge i T.next with hi | hi
    · exact hi
    · rw [h.fresh i hi] at hf; cases hf
  have hk : ∀ k : Pc → Bool, hasGuard k c.slot (T.frame i) = k pc := fun k => by simp [hasGuard, hf]
  obtain ⟨k1, k2, k3⟩ := advance_guard ha
    (fun hx => by rw [h.readers]; exact tally_pos hi ((hk _).trans hx))
    (fun hx => by
      have := h.writer c.slot
      have hp := tally_pos (p := fun j => hasGuard Pc.writes c.slot (T.frame j)) hi ((hk Pc.writes).trans hx)
      cases hw : (T.guard c.slot).writer
      · rw [hw] at this; simp at this; omega
      · rfl) (h.apart _)
  have new : ∀ k : Pc → Bool, hasGuard k c.slot (r.elim (fun p => some ⟨c, p⟩) fun _ => none) = r.elim k fun _ => false := by
    intro k; rcases r with p | a <;> simp [hasGuard]
  have upd : ∀ (k : Pc → Bool) (s : Slot), tally (fun j => hasGuard k s (put T.frame i (r.elim (fun p => some ⟨c, p⟩) fun _ => none) j)) T.next +
      (hasGuard k s (T.frame i)).toNat = tally (fun j => hasGuard k s (T.frame j)) T.next + (hasGuard k s (r.elim (fun p => some ⟨c, p⟩) fun _ => none)).toNat := by
    intro k s
    have := tally_change (p := fun j => hasGuard k s (T.frame j)) (q := fun j => hasGuard k s (put T.frame i (r.elim (fun p => some ⟨c, p⟩) fun _ => none) j)) hi
      (fun j hj => by simp only [put_ne _ hj])
    simpa only [put_same] using this
  have other : ∀ (k : Pc → Bool) {s : Slot}, s ≠ c.slot → hasGuard k s (T.frame i) = false ∧ hasGuard k s (r.elim (fun p => some ⟨c, p⟩) fun _ => none) = false := by
    intro k s hs
    constructor
    · simp [hasGuard, hf, Ne.symm hs]
    · rcases r with p | a <;> simp [hasGuard, Ne.symm hs]
  refine ⟨fun j hj => ?_, fun s => ?_, fun s => ?_, fun s => ?_⟩
  · have : j ≠ i := by have : T.next ≤ j := hj; omega
    dsimp only
    rw [put_ne _ this]; exact h.fresh j hj
  · dsimp only
    have u := upd Pc.reads s
    by_cases hs : s = c.slot
    · subst hs
      rw [put_same]
      rw [hk, new] at u
      have := h.readers c.slot
      omega
    · rw [put_ne _ hs, h.readers s]
      rw [(other _ hs).1, (other _ hs).2] at u
      simpa using u.symm
  · dsimp only
    have u := upd Pc.writes s
    by_cases hs : s = c.slot
    · subst hs
      rw [put_same]
      rw [hk, new] at u
      have := h.writer c.slot
      omega
    · rw [put_ne _ hs, h.writer s]
      rw [(other _ hs).1, (other _ hs).2] at u
      simpa using u.symm
  · dsimp only
    by_cases hs : s = c.slot
    · subst hs; rw [put_same]; exact k3
    · rw [put_ne _ hs]; exact h.apart s

theorem guarded_run {st0 : Stream} {h : List Ev} {T : Threads} (hr : TRun E st0 h T) : Guarded T := by
  induction hr with
  | init => exact ⟨fun _ _ => rfl, fun _ => rfl, fun _ => rfl, fun _ hx => by cases hx⟩
  | @step h e T T' _ hs ih =>
    have grow : ∀ (k : Pc → Bool) (s : Slot), tally (fun j => hasGuard k s (T.frame j)) (T.next + 1) = tally (fun j => hasGuard k s (T.frame j)) T.next := by
      intro k s; simp [tally, ih.fresh T.next (Nat.le_refl _), hasGuard]
    cases hs with
    | call c =>
      have grow' : ∀ (k : Pc → Bool) (s : Slot), k .start = false → tally (fun j => hasGuard k s (put T.frame T.next (some ⟨c, .start⟩) j)) (T.next + 1) =
          tally (fun j => hasGuard k s (T.frame j)) T.next := by
        intro k s hk
        simp only [tally, put_same]
        rw [tally_congr (q := fun j => hasGuard k s (T.frame j)) fun j hj => by simp only [put_ne _ (Nat.ne_of_lt hj)]]
        simp [hasGuard, hk]
      refine ⟨fun i hi => ?_, fun s => (ih.readers s).trans (grow' _ s rfl).symm, fun s => (ih.writer s).trans (grow' _ s rfl).symm, ih.apart⟩
      have : T.next + 1 ≤ i := hi
      dsimp only
      rw [put_ne _ (by omega)]
      exact ih.fresh i (by omega)
    | lock hl =>
      exact ⟨fun i hi => ih.fresh i (Nat.le_of_succ_le hi), fun s => (ih.readers s).trans (grow _ s).symm, fun s => (ih.writer s).trans (grow _ s).symm, ih.apart⟩
    | method fuel op h1 h2 h3 =>
      exact ⟨fun i hi => ih.fresh i (Nat.le_of_succ_le hi), fun s => (ih.readers s).trans (grow _ s).symm, fun s => (ih.writer s).trans (grow _ s).symm, ih.apart⟩
    | move fuel go hf ha => exact ih.advance hf ha
    | ret fuel go hf ha => exact ih.advance hf ha

end Utp
