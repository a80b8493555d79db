import Verif.Lemmas.Growth
import Verif.Props.Float
import Verif.Lemmas.Delay
/-!
# C59–C61: delay-based congestion control, in floating point
-/

namespace Utp

variable {E : Env}

/-! ### C59 -/

/-- **C59**, the computation (before the limits are applied): the new window is not smaller than the old one when the queuing delay is at most 100 ms, not larger when
it is at least 100 ms. -/
theorem C59_direction {c : U32} (hc : 0 < c.toNat) (q b : U32) :
    (q.toNat ≤ 100000 → c.toNat ≤ (cwndF64 c q b).toNat) ∧ (100000 ≤ q.toNat → (cwndF64 c q b).toNat ≤ c.toNat) := by
  have hcq : (0 : ℚ) < c.toNat := by exact_mod_cast hc
  have hbq : (0 : ℚ) ≤ b.toNat := by positivity
  obtain ⟨h1, h2, _, _⟩ := offTarget_bound q
  rw [cwndF64_eq]
  have hself := asU32_nat c.isLt
  constructor
  · intro h
    have := asU32_mono (grow_mono hcq hbq (h1 h))
    rwa [grow_zero, hself] at this
  · intro h
    have := asU32_mono (grow_mono hcq hbq (h2 h))
    rwa [grow_zero, hself] at this

/-- A larger queuing delay never gives a larger window. -/
theorem C59_monotone {c : U32} (hc : 0 < c.toNat) {q q' : U32} (h : q.toNat ≤ q'.toNat) (b : U32) :
    (cwndF64 c q' b).toNat ≤ (cwndF64 c q b).toNat := by
  rw [cwndF64_eq, cwndF64_eq]
  exact asU32_mono (grow_mono (by exact_mod_cast hc) (by positivity) (offTarget_anti h))

/-- The window grows by at most one segment per window of acknowledged bytes. -/
theorem C59_growth {c q b : U32} {k : ℕ} (hc : 0 < c.toNat) (hb : b.toNat ≤ k * c.toNat) (hk : c.toNat + 1400 * k < 2 ^ 32) :
    (cwndF64 c q b).toNat ≤ c.toNat + 1400 * k := by
  rw [cwndF64_eq]
  have := asU32_mono ((grow_mono (by exact_mod_cast hc) (by positivity) (offTarget_bound q).2.2.1).trans (grow_one hc hb (by omega)).1)
  rwa [asU32_nat hk] at this

/-- And it shrinks by at most one segment per window of acknowledged bytes, if the queuing delay is at most twice the target. -/
theorem C59_shrink {c q b : U32} {k : ℕ} (hc : 0 < c.toNat) (hb : b.toNat ≤ k * c.toNat) (hk : 1400 * k ≤ c.toNat) (hq : q.toNat ≤ 200000) :
    c.toNat ≤ (cwndF64 c q b).toNat + 1400 * k := by
  rw [cwndF64_eq]
  have hcl := c.isLt
  have h1 := (grow_one hc hb (k := k) (by omega)).2
  have h2 := asU32_mono (h1.trans (grow_mono (by exact_mod_cast hc) (by positivity) ((offTarget_bound q).2.2.2 hq)))
  have : (((c.toNat : ℤ) - 1400 * k : ℤ) : ℚ) = ((c.toNat - 1400 * k : ℕ) : ℚ) := by
    rw [Nat.cast_sub hk]; push_cast; ring
  rw [this, asU32_nat (by omega)] at h2
  omega

/-- The queuing delay of a socket: the average of the current delays less the smallest base delay. -/
def IsQueuingDelay (s : Socket) (q : ℤ) : Prop :=
  ∃ base ∈ s.baseDelays, (∀ b ∈ s.baseDelays, base ≤ b) ∧ q = filteredDelay (s.currDelays.map (·.2)) - base

theorem isQueuingDelay (hf : E.ewma = filteredDelay) {s : Socket} (h : s.baseDelays ≠ []) : IsQueuingDelay s (s.queuingDelay E) := by
  obtain ⟨h1, h2⟩ := (C12_min s).2 h
  exact ⟨_, h1, h2, by rw [Socket.queuingDelay, hf]⟩

theorem IsQueuingDelay.unique {s : Socket} {q q' : ℤ} (h : IsQueuingDelay s q) (h' : IsQueuingDelay s q') : q = q' := by
  obtain ⟨b, h1, h2, rfl⟩ := h
  obtain ⟨b', h3, h4, rfl⟩ := h'
  have := h2 _ h3
  have := h4 _ h1
  omega

/-- What one acknowledgement does to the congestion window and the round trip estimate. -/
theorem onNewAck_all {s s' : Socket} {i : Nat} {p : Packet} {t : U32} (h : s.onNewAck E i p t = some s') :
    ∃ c : U32, c = E.cwndStep s.cwnd (delayToU32 (s'.queuingDelay E)) (BitVec.ofNat 32 ((s.sendWindow.take (i + 1)).map Packet.len).sum) ∧
      s'.cwnd.toNat = max 2800 (min (s.currWindow + 1400).toNat c.toNat) ∧
      s'.rtt = s.rtt + (((delayToU32 (tsSub t p.timestamp - s'.queuingDelay E)).toNat / 1000 : ℕ) - s.rtt).tdiv 8 := by
  unfold Socket.onNewAck at h
  simp only at h
  split at h
  · simp at h
  · rename_i s1 h1
    have hcw : s1.currWindow = s.currWindow ∧ s1.cwnd = s.cwnd ∧ s1.rtt = s.rtt := by
      unfold Socket.updateBaseDelay at h1
      split at h1
      · simp at h1; rw [← h1]; simp
      · split at h1
        · simp at h1
        · split at h1 <;> (simp at h1; rw [← h1]; simp)
    split at h
    · simp at h
    · rename_i s2 h2
      unfold Socket.updateCongestionWindow at h2
      split at h2
      · simp at h2
      · simp only [Option.some.injEq] at h h2
        refine ⟨_, rfl, ?_, ?_⟩
        · rw [← h, ← h2]
          simp only [Socket.updateCongestionTimeout, Socket.updateCurrentDelay, hcw, Socket.queuingDelay, Socket.minBaseDelay]
          generalize E.cwndStep _ _ _ = c
          rw [toNat_atLeast, toNat_atMost]
          have : MIN_WND.toNat = 2800 := rfl
          rw [this]
          rfl
        · rw [← h, ← h2]
          simp only [Socket.updateCongestionTimeout, Socket.updateCurrentDelay, hcw, Socket.queuingDelay, Socket.minBaseDelay]

/-- While the clock does not run backwards, the queuing delay of a socket that has measured something is not negative and not larger than the largest
current delay. -/
theorem queuing_range (hf : E.ewma = filteredDelay) {w : World} (hd : Delays E w) (hn : DelaysNonneg w) (hs : ∀ d ∈ w.s.currDelays, d.2 < 2 ^ 32)
    (hne : w.s.currDelays ≠ []) : 0 ≤ w.s.queuingDelay E ∧ ∃ d ∈ w.s.currDelays, w.s.queuingDelay E ≤ d.2 := by
  obtain ⟨base, h1, h2, h3⟩ := isQueuingDelay hf (fun h => hne (hd.both.mp h))
  have hxs : w.s.currDelays.map (·.2) ≠ [] := by simpa using hne
  rw [h3]
  have hb0 := hn.2 base h1
  constructor
  · have := (C13_f64 (lo := base) (hi := 2 ^ 32) hxs (fun x hx => by
      obtain ⟨d, hd', rfl⟩ := List.mem_map.mp hx
      obtain ⟨pre, b, post, e, hb, _⟩ := hd.cover d hd'
      have := h2 b (by rw [e]; simp)
      have := hs d hd'
      constructor <;> omega) (by omega) (by norm_num)).1
    omega
  · obtain ⟨m, hm, hmax⟩ : ∃ m ∈ w.s.currDelays, ∀ d ∈ w.s.currDelays, d.2 ≤ m.2 := by
      have : ∀ l : List (U32 × ℤ), l ≠ [] → ∃ m ∈ l, ∀ d ∈ l, d.2 ≤ m.2 := by
        intro l
        induction l with
        | nil => intro h; exact absurd rfl h
        | cons x r ih =>
          intro _
          by_cases hr : r = []
          · subst hr; exact ⟨x, by simp, by simp⟩
          · obtain ⟨m, h1, h2⟩ := ih hr
            by_cases hx : x.2 ≤ m.2
            · exact ⟨m, by simp [h1], by simpa [hx] using h2⟩
            · refine ⟨x, by simp, ?_⟩
              intro d hd
              rcases List.mem_cons.mp hd with rfl | hd
              · exact le_refl _
              · have := h2 d hd; omega
      exact this _ hne
    refine ⟨m, hm, ?_⟩
    have := (C13_f64 (lo := 0) (hi := m.2) hxs (fun x hx => by
      obtain ⟨d, hd', rfl⟩ := List.mem_map.mp hx
      exact ⟨hn.1 d hd', hmax d hd'⟩) (by norm_num) (by have := hs m hm; omega)).2
    omega

/-- What is known of the delays at every step of an execution whose clock does not run backwards. -/
structure DelaysOk (E : Env) (w : World) : Prop where
  rtt : RttInRange w
  len : w.s.baseDelays.length ≤ 10
  del : Delays E w
  stamped : WindowStamped E w
  nonneg : DelaysNonneg w
  small : ∀ d ∈ w.s.currDelays, -(2 ^ 32) < d.2 ∧ d.2 < 2 ^ 32

theorem small_step {a b : World} (h : DelayStep E a b) (hi : ∀ d ∈ a.s.currDelays, -(2 ^ 32) < d.2 ∧ d.2 < 2 ^ 32) :
    ∀ d ∈ b.s.currDelays, -(2 ^ 32) < d.2 ∧ d.2 < 2 ^ 32 := by
  cases h with
  | same h1 _ _ _ => rw [h1]; exact hi
  | sample p d t hp hd hn ht hbn hcur hbase =>
    rw [hcur]
    intro x hx
    simp only [Socket.updateCurrentDelay, List.mem_append, List.mem_singleton] at hx
    rcases hx with hx | rfl
    · exact hi x ((List.dropWhile_sublist _).subset hx)
    · rw [hd]
      unfold tsSub
      have := t.isLt
      have := p.timestamp.isLt
      omega

theorem DelaysOk.start {w : World} (h : Start E w) : DelaysOk E w := by
  obtain ⟨h1, h2⟩ := start_base h
  exact ⟨start_rtt h, by simp [h1], ⟨by simp [h2], by simp [h2], by simp [h2], by simp [h1, h2]⟩, start_stamped h,
    ⟨by simp [h2], by simp [h1]⟩, by simp [h2]⟩

theorem DelaysOk.step (hc : ClockMonotone E) {V : Ctx} {a b : World} (h : Step E V a b) (hi : DelaysOk E a) : DelaysOk E b :=
  ⟨step_rtt h hi.rtt, step_baseLength h hi.len, hi.del.step hc (step_delay h) hi.rtt.1 hi.len, step_stamped h hi.stamped,
    hi.nonneg.step hc (step_delay h) hi.stamped, small_step (step_delay h) hi.small⟩

theorem delaysOk (hc : ClockMonotone E) {w : World} (hw : Reach E w) : DelaysOk E w :=
  reach_inv (I := DelaysOk E) (fun _ => DelaysOk.start) (fun _ _ h _ => DelaysOk.step hc h) hw

/-- Measured delays are differences of 32-bit numbers: `C13_f64` applies to every average the code computes. -/
theorem C13_samples {w : World} (hw : Reach E w) : ∀ d ∈ w.s.currDelays, -(2 ^ 32) < d.2 ∧ d.2 < 2 ^ 32 :=
  reach_inv (I := fun w => ∀ d ∈ w.s.currDelays, -(2 ^ 32) < d.2 ∧ d.2 < 2 ^ 32) (fun _ h => by simp [(start_base h).2])
    (fun _ _ h _ => small_step (step_delay h)) hw

/-- Every operation is a path of the rule `R`, if every step from a world with the invariant `I` is. -/
theorem op_path_inv {I : World → Prop} {R : World → World → Prop} (h0 : ∀ w, Start E w → I w)
    (hI : ∀ a b, Step E .any a b → I a → I b) (hR : ∀ a b, Step E .any a b → I a → I b → R a b) {w : World}
    (hw : Reach E w) (fuel : Nat) (op : Op) (hp : (runOp E fuel op w).1 ≠ .panic) : Traced E R w (runOp E fuel op w).2 := by
  have hi : I w := reach_inv h0 (fun a b h _ => hI a b h) hw
  have key : ∀ b, Path (fun a b => Step E .any a b ∧ True) w b → I b ∧ Traced E R w b := by
    intro b h
    induction h with
    | refl => exact ⟨hi, .refl _⟩
    | tail _ hs ih => exact ⟨hI _ _ hs.1 ih.1, .tail ih.2 ⟨hs.1, hR _ _ hs.1 ih.1 (hI _ _ hs.1 ih.1)⟩⟩
  exact (key _ (op_path (R := fun _ _ => True) (fun _ _ _ => trivial) hw fuel op hp)).2

/-- How the congestion window may change: not at all; to one segment after a timeout; to half after a loss; and on an acknowledgement of
outstanding packets (`acked`, oldest first) by the queuing delay `q` in microseconds measured then.  If `q` is at most 100 ms, the window does not shrink (except to the bytes in
flight and one segment).  If `q` is at least 100 ms, the window does not grow (except to two segments).  It grows by at most one
segment per window of acknowledged bytes, and shrinks by at most that if `q` is at most 200 ms (except to the bytes in flight and one segment). -/
def LedbatRule (E : Env) (a b : World) : Prop :=
  b.s.cwnd = a.s.cwnd ∨
  (TimedOut E a 1 ∧ b.s.cwnd.toNat = 1400) ∨
  ((∃ pkt src, Received E a pkt src ∧ pkt.getType = some .state) ∧ b.s.cwnd.toNat = max 2800 (a.s.cwnd.toNat / 2)) ∨
  (∃ pkt src acked p rest q, Received E a pkt src ∧ pkt.getType = some .state ∧ a.s.sendWindow = acked ++ p :: rest ∧ p.seqNr = pkt.ackNr ∧
    IsQueuingDelay b.s q ∧ 0 ≤ q ∧
    (q ≤ 100000 → min a.s.cwnd.toNat (a.s.currWindow + 1400).toNat ≤ b.s.cwnd.toNat) ∧
    (100000 ≤ q → b.s.cwnd.toNat ≤ max 2800 a.s.cwnd.toNat) ∧
    (∀ k, totalSize (acked ++ [p]) ≤ k * a.s.cwnd.toNat → a.s.cwnd.toNat + 1400 * k < 2 ^ 32 →
      b.s.cwnd.toNat ≤ max 2800 (a.s.cwnd.toNat + 1400 * k)) ∧
    (∀ k, totalSize (acked ++ [p]) ≤ k * a.s.cwnd.toNat → 1400 * k ≤ a.s.cwnd.toNat → q ≤ 200000 →
      min a.s.cwnd.toNat (a.s.currWindow + 1400).toNat ≤ b.s.cwnd.toNat + 1400 * k))

theorem totalSize_eq (l : List Packet) : (l.map Packet.len).sum = totalSize l := by
  unfold totalSize
  rfl

theorem step_ledbat (hf : E.ewma = filteredDelay) (hg : E.cwndStep = cwndF64) {V : Ctx} {a b : World}
    (h : Step E V a b) (hcw : 1400 ≤ a.s.cwnd.toNat) (hb : DelaysOk E b) : LedbatRule E a b := by
  cases h with
  | timeout ht => exact .inr (.inl ⟨ht, by simp [MSS]⟩)
  | halve pkt src hg ht =>
    refine .inr (.inr (.inl ⟨⟨pkt, src, hg, ht⟩, ?_⟩))
    simp only [setS_s, Socket.halveWindow]
    rw [toNat_atLeast, BitVec.toNat_udiv]
    rfl
  | advance s' _ hm => exact .inl (advanceSendWindow_cwnd hm)
  | measure pkt src i p t s' hr ht _ _ hfi hp hm hk =>
    refine .inr (.inr (.inr ⟨pkt, src, a.s.sendWindow.take i, p, a.s.sendWindow.drop (i + 1), s'.queuingDelay E, hr, ht, ?_, (measure_acked hr ht hfi hp).2, ?_⟩))
    · obtain ⟨hi, e⟩ := List.getElem?_eq_some_iff.mp hp
      rw [← e, List.getElem_cons_drop, List.take_append_drop]
    · have hcur : s'.currDelays ≠ [] := by
        rw [(onNewAck_delays hm).1]
        simp [Socket.updateCurrentDelay]
      have hq := queuing_range (w := a.setS s') hf hb.del hb.nonneg (fun d hd => (hb.small d hd).2) hcur
      have hbn : s'.baseDelays ≠ [] := fun e => hcur (hb.del.both.mp e)
      simp only [setS_s] at hq ⊢
      obtain ⟨q, hqe⟩ : ∃ q, q = s'.queuingDelay E := ⟨_, rfl⟩
      have hlt : q < 2 ^ 32 := by
        obtain ⟨d, hd, hle⟩ := hq.2
        have := (hb.small d hd).2
        omega
      have hu : (delayToU32 q).toNat = q.toNat := by
        unfold delayToU32
        rw [BitVec.toNat_ofInt]
        congr 1
        omega
      obtain ⟨c, hce, hcn, _⟩ := onNewAck_all hm
      rw [hg, ← hqe, totalSize_eq] at hce
      have htk : a.s.sendWindow.take (i + 1) = a.s.sendWindow.take i ++ [p] := by
        obtain ⟨hi, e⟩ := List.getElem?_eq_some_iff.mp hp
        rw [← e, List.take_concat_get']
      rw [htk] at hce
      generalize hbytes : totalSize (a.s.sendWindow.take i ++ [p]) = bytes at *
      have hby : (BitVec.ofNat 32 bytes).toNat ≤ bytes := by simp; exact Nat.mod_le _ _
      have hdir := C59_direction (c := a.s.cwnd) (by omega) (delayToU32 q) (BitVec.ofNat 32 bytes)
      rw [← hce, hu] at hdir
      rw [← hqe] at hq ⊢
      refine ⟨hqe ▸ isQueuingDelay hf hbn, hq.1, fun hle => ?_, fun hle => ?_, fun k hk1 hk2 => ?_, fun k hk1 hk2 hle => ?_⟩
      · have := hdir.1 (by omega)
        omega
      · have := hdir.2 (by omega)
        omega
      · have := C59_growth (c := a.s.cwnd) (q := delayToU32 q) (b := BitVec.ofNat 32 bytes) (by omega) (hby.trans hk1) hk2
        rw [← hce] at this
        omega
      · have := C59_shrink (c := a.s.cwnd) (q := delayToU32 q) (b := BitVec.ofNat 32 bytes) (by omega) (hby.trans hk1) hk2 (by omega)
        rw [← hce] at this
        omega
  | _ => exact .inl (by simp [enqueue, Socket.insertIntoBuffer])

/-- **C59** along every operation of every execution whose clock does not run backwards, with the floating point arithmetic of the code. -/
theorem C59_changes_partial (hc : ClockMonotone E) (hf : E.ewma = filteredDelay) (hg : E.cwndStep = cwndF64) {w : World} (hw : Reach E w)
    (fuel : Nat) (op : Op) (hp : (runOp E fuel op w).1 ≠ .panic) : Traced E (LedbatRule E) w (runOp E fuel op w).2 :=
  op_path_inv (I := fun w => DelaysOk E w ∧ 1400 ≤ w.s.cwnd.toNat)
    (fun w h => ⟨.start h, start_floor h⟩)
    (fun _ _ h hi => ⟨hi.1.step hc h, step_floor h hi.2⟩) (fun _ _ h hi hi' => step_ledbat hf hg h hi.2 hi'.1) hw fuel op hp

/-! ### C60 -/

/-- **C60** while the clock does not run backwards: the queuing delay of a reachable socket is not negative and not larger than the largest delay
in the current window. -/
theorem C60_range_partial (hc : ClockMonotone E) (hf : E.ewma = filteredDelay) {w : World} (hw : Reach E w) (hm : w.s.currDelays ≠ []) :
    ∃ q, IsQueuingDelay w.s q ∧ 0 ≤ q ∧ (∃ d ∈ w.s.currDelays, q ≤ d.2) ∧ ∀ d ∈ w.s.currDelays, 0 ≤ d.2 ∧ d.2 < 2 ^ 32 := by
  have h := delaysOk hc hw
  obtain ⟨h1, h2⟩ := queuing_range hf h.del h.nonneg (fun d hd => (h.small d hd).2) hm
  exact ⟨_, isQueuingDelay hf fun e => hm (h.del.both.mp e), h1, h2, fun d hd => ⟨h.nonneg.1 d hd, (h.small d hd).2⟩⟩

/-! ### C61 -/

/-- How the round trip estimate may change: not at all, or on an acknowledgement of the outstanding packet `p`; then the delay of `p` is
measured, and unless the queuing delay is larger than it, the estimate moves by an eighth towards a sample (in
milliseconds) that is at most the delay measured (in microseconds). -/
def RttRule (E : Env) (a b : World) : Prop :=
  b.s.rtt = a.s.rtt ∨
  ∃ pkt src p q d, Received E a pkt src ∧ pkt.getType = some .state ∧ p ∈ a.s.sendWindow ∧ p.seqNr = pkt.ackNr ∧ IsQueuingDelay b.s q ∧
    0 < a.nNow ∧ d = tsSub (E.now (a.nNow - 1)) p.timestamp ∧ 0 ≤ d ∧
    (q ≤ d → ∃ sample, 0 ≤ sample ∧ sample * 1000 ≤ d - q ∧ d - q < (sample + 1) * 1000 ∧ b.s.rtt = a.s.rtt + (sample - a.s.rtt).tdiv 8)

theorem step_rttRule (hc : ClockMonotone E) (hf : E.ewma = filteredDelay) {V : Ctx} {a b : World}
    (h : Step E V a b) (ha : DelaysOk E a) (hb : DelaysOk E b) : RttRule E a b := by
  cases h with
  | measure pkt src i p t s' hr ht _ _ hfi hp hm hk =>
    have hcur : s'.currDelays ≠ [] := by
      rw [(onNewAck_delays hm).1]
      simp [Socket.updateCurrentDelay]
    have hq := queuing_range (w := a.setS s') hf hb.del hb.nonneg (fun d hd => (hb.small d hd).2) hcur
    have hbn : s'.baseDelays ≠ [] := fun e => hcur (hb.del.both.mp e)
    have hmem := List.mem_of_getElem? hp
    refine .inr ⟨pkt, src, p, s'.queuingDelay E, _, hr, ht, hmem, (measure_acked hr ht hfi hp).2, isQueuingDelay hf hbn, hk.1, rfl,
      sample_nonneg hc (ha.stamped p hmem) hk.1, fun hle => ?_⟩
    obtain ⟨c, _, _, hrtt⟩ := onNewAck_all hm
    rw [hk.2] at hrtt
    simp only [setS_s] at hq ⊢
    obtain ⟨x, hx⟩ : ∃ x, x = tsSub (E.now (a.nNow - 1)) p.timestamp - s'.queuingDelay E := ⟨_, rfl⟩
    have hlt : x < 2 ^ 32 := by
      have : tsSub (E.now (a.nNow - 1)) p.timestamp < 2 ^ 32 := by
        unfold tsSub
        have := (E.now (a.nNow - 1)).isLt
        omega
      omega
    have hu : (delayToU32 x).toNat = x.toNat := by
      unfold delayToU32
      rw [BitVec.toNat_ofInt]
      congr 1
      omega
    rw [← hx] at hrtt ⊢
    rw [hu] at hrtt
    exact ⟨((x.toNat / 1000 : ℕ) : ℤ), by omega, by omega, by omega, hrtt⟩
  | advance s' _ hm => exact .inl (advanceSendWindow_rtt hm)
  | _ => exact .inl (by simp [enqueue, Socket.insertIntoBuffer, Socket.halveWindow])

/-- **C61** along every operation of every execution whose clock does not run backwards, except for acknowledgements at which the queuing delay exceeds the
delay just measured. -/
theorem C61_changes_partial (hc : ClockMonotone E) (hf : E.ewma = filteredDelay) {w : World} (hw : Reach E w)
    (fuel : Nat) (op : Op) (hp : (runOp E fuel op w).1 ≠ .panic) : Traced E (RttRule E) w (runOp E fuel op w).2 :=
  op_path_inv (I := DelaysOk E) (fun _ => .start) (fun _ _ h hi => hi.step hc h) (fun _ _ h hi hi' => step_rttRule hc hf h hi hi') hw fuel op hp

/-! ### C62 -/

theorem dropWhile_eq_filter {α : Type} {P : α → Bool} {R : α → α → Prop} (hR : ∀ x y, R x y → P x = false → P y = false) :
    ∀ {l : List α}, l.Pairwise R → l.dropWhile P = l.filter fun x => !P x
  | [], _ => rfl
  | a :: l, hp => by
    rw [List.pairwise_cons] at hp
    rw [List.dropWhile_cons, List.filter_cons]
    cases ha : P a with
    | true => simpa using dropWhile_eq_filter hR hp.2
    | false =>
      simp only [Bool.not_false, if_true, Bool.false_eq_true, if_false, List.cons.injEq, true_and]
      rw [List.filter_eq_self.mpr]
      intro x hx
      simp [hR a x (hp.1 x hx) ha]

/-- How the window of current delays may change: not at all, or on an acknowledgement of an outstanding packet; then a sample is added, and of
the others those are kept that are not older than a tenth of the round trip estimate (which is in milliseconds, the age in microseconds). -/
def SampleRule (E : Env) (a b : World) : Prop :=
  b.s.currDelays = a.s.currDelays ∨
  ∃ p ∈ a.s.sendWindow, 0 < a.nNow ∧ b.s.currDelays =
    a.s.currDelays.filter (fun x => 10 * (((E.now (a.nNow - 1)).toNat : ℤ) - x.1.toNat) ≤ 1000 * a.s.rtt) ++
      [(E.now (a.nNow - 1), ((E.now (a.nNow - 1)).toNat : ℤ) - p.timestamp.toNat)]

theorem step_sample {V : Ctx} {a b : World} (h : Step E V a b) (ha : Delays E a) : SampleRule E a b := by
  cases step_delay h with
  | same h1 _ _ _ => exact .inl h1
  | sample p d t hp hd hn ht hbn hcur hbase =>
    refine .inr ⟨p, hp, hn, ?_⟩
    rw [hcur, hd, ← ht]
    simp only [Socket.updateCurrentDelay]
    rw [dropWhile_eq_filter (R := fun d d' : U32 × ℤ => d.1.toNat ≤ d'.1.toNat) _ ha.sorted]
    · congr 1
      refine List.filter_congr fun x _ => ?_
      unfold tsSub
      rw [← decide_not]
      exact decide_eq_decide.mpr (by omega)
    · intro x y hxy h
      have h' := of_decide_eq_false h
      refine decide_eq_false ?_
      unfold tsSub at *
      omega

/-- **C62**, with a tenth of the round trip time in place of one. -/
theorem C62_changes_partial (hc : ClockMonotone E) {w : World} (hw : Reach E w) (fuel : Nat) (op : Op) (hp : (runOp E fuel op w).1 ≠ .panic) :
    Traced E (SampleRule E) w (runOp E fuel op w).2 :=
  op_path_inv (I := DelaysOk E) (fun _ => .start) (fun _ _ h hi => hi.step hc h) (fun _ _ h hi _ => step_sample h hi.del) hw fuel op hp

/-! ### Executions -/

section
open Sample

/-- An environment with the floating point arithmetic of the code and a given clock. -/
def f64Env (net : List NetEvent) (now : Nat → U32) : Env :=
  { env net (now := now) with ewma := filteredDelay, cwndStep := cwndF64 }

/-- Give so many full packets to `send_to`. -/
def full (n : Nat) : Op := .sendTo (List.replicate (1380 * n) 7)

/-- The clock goes 10 ms per reading, and is about to wrap; two packets are acknowledged 30 ms after they were sent, and two more. -/
def wrapEnv : Env :=
  f64Env [arr (dg .state 6 2 101), .fail .other, arr (dg .state 6 2 103)] fun k => BitVec.ofNat 32 (2 ^ 32 - 135000 + 10000 * k)

/-- What `C59_changes_partial` and `C60_range_partial` lack, a clock that wraps (every 71 minutes): all packets are acknowledged 30 ms after they were sent,
but the second measurement, across the wrap, is 30 ms − 2^32 µs.  It becomes the base delay, the queuing delay is more than
2000 s, the congestion window goes down from 4200 to 2800 bytes, the round trip estimate up to 178 s, and the timeout to 60 s. -/
theorem C60_counterexample : ∃ w, Reach wrapEnv w ∧ w.s.cwnd = 4200 ∧ w.s.rtt = 3 ∧ w.s.congTimeout = 500 ∧
    w.s.currDelays.map (·.2) = [30000] ∧ w.s.baseDelays = [30000] ∧ w.s.currWindow = 2800 ∧
    (runOp wrapEnv 10 (.recvFrom 10) w).1 = .pending ∧
    (runOp wrapEnv 10 (.recvFrom 10) w).2.s.currDelays.map (·.2) = [30000, 30000 - 2 ^ 32] ∧
    (runOp wrapEnv 10 (.recvFrom 10) w).2.s.cwnd = 2800 ∧ (runOp wrapEnv 10 (.recvFrom 10) w).2.s.rtt = 178784 ∧
    (runOp wrapEnv 10 (.recvFrom 10) w).2.s.congTimeout = 60000 ∧
    IsQueuingDelay (runOp wrapEnv 10 (.recvFrom 10) w).2.s 2864743187 :=
  ⟨runs wrapEnv 10 [full 2, .recvFrom 10, full 2] (server wrapEnv), reach_server _ _ (by decide +kernel) (by decide +kernel), by
    simp only [IsQueuingDelay]; decide +kernel⟩

/-- Two packets are sent, 200 ms apart; the acknowledgements arrive together, 3 ms after the second was sent. -/
def dropEnv : Env :=
  f64Env [arr (dg .state 6 2 100), .fail .other, arr (dg .state 6 2 101)]
    fun k => BitVec.ofNat 32 (if k < 5 then 500 * k else 200000 + 500 * k)

/-- What `C61_changes_partial` lacks: the delays are 202.5 ms and 3 ms; the queuing delay is 133 ms, more than the second delay.  The
difference is negative, becomes 4294837 ms, and the round trip estimate rises to 536 s, the timeout to 60 s. -/
theorem C61_counterexample : ∃ w, Reach dropEnv w ∧ w.s.rtt = 25 ∧ w.s.congTimeout = 500 ∧ w.s.currDelays.map (·.2) = [202500] ∧
    (runOp dropEnv 10 (.recvFrom 10) w).1 = .pending ∧
    (runOp dropEnv 10 (.recvFrom 10) w).2.s.currDelays.map (·.2) = [202500, 3000] ∧
    (runOp dropEnv 10 (.recvFrom 10) w).2.s.rtt = 536876 ∧ (runOp dropEnv 10 (.recvFrom 10) w).2.s.congTimeout = 60000 ∧
    IsQueuingDelay (runOp dropEnv 10 (.recvFrom 10) w).2.s 133066 :=
  ⟨runs dropEnv 10 [full 1, full 1, .recvFrom 10] (server dropEnv), reach_server _ _ (by decide +kernel) (by decide +kernel), by
    simp only [IsQueuingDelay]; decide +kernel⟩

/-- The same with a slower clock: the second acknowledgement arrives 3 ms after the first. -/
def forgetEnv : Env :=
  f64Env [arr (dg .state 6 2 100), .fail .other, arr (dg .state 6 2 101)]
    fun k => BitVec.ofNat 32 (if k < 5 then 1000 * k else 200000 + 1000 * k)

/-- What `C62_changes_partial` lacks: the round trip estimate is 25 ms and a sample is 3 ms old, but it is removed. -/
theorem C62_counterexample : ∃ w, Reach forgetEnv w ∧ w.s.rtt = 25 ∧ w.s.currDelays = [(208000, 205000)] ∧
    (runOp forgetEnv 10 (.recvFrom 10) w).1 = .pending ∧ (runOp forgetEnv 10 (.recvFrom 10) w).2.s.currDelays = [(211000, 6000)] :=
  ⟨runs forgetEnv 10 [full 1, full 1, .recvFrom 10] (server forgetEnv), reach_server _ _ (by decide +kernel) (by decide +kernel), by decide +kernel⟩

/-- Four windows of packets; the last is acknowledged 300 ms later than the others. -/
def delayEnv : Env :=
  f64Env [arr (dg .state 6 2 101), .fail .other, arr (dg .state 6 2 104), .fail .other, arr (dg .state 6 2 108), .fail .other,
    arr (dg .state 6 2 113)] fun k => BitVec.ofNat 32 (if k < 39 then 100 * k else 300000 + 100 * k)

/-- The window grows by one segment for every window of acknowledged bytes while the queuing delay is small, and shrinks when it is large.  The
documentation says that the deviation from the target is between −1 and 1, but it is not limited below: with a queuing delay of
300 ms the window shrinks by two segments when one window is acknowledged. -/
theorem C59_counterexample : ∃ w, Reach delayEnv w ∧ w.s.cwnd = 7000 ∧ w.s.currWindow = 7000 ∧ totalSize w.s.sendWindow = 7000 ∧
    (runOp delayEnv 10 (.recvFrom 10) w).1 = .pending ∧ (runOp delayEnv 10 (.recvFrom 10) w).2.s.sendWindow = [] ∧
    (runOp delayEnv 10 (.recvFrom 10) w).2.s.cwnd = 4200 ∧ IsQueuingDelay (runOp delayEnv 10 (.recvFrom 10) w).2.s 300000 :=
  ⟨runs delayEnv 10 [full 2, .recvFrom 10, full 3, .recvFrom 10, full 4, .recvFrom 10, full 5] (server delayEnv),
    reach_server _ _ (by decide +kernel) (by decide +kernel), by simp only [IsQueuingDelay]; decide +kernel⟩

/-- The clock stops when it would wrap. -/
def calmEnv : Env :=
  f64Env [arr (dg .state 6 2 101), .fail .other, arr (dg .state 6 2 104)] fun k => BitVec.ofNat 32 (min (20000 * k) 4000000000)

theorem calmEnv_monotone : ClockMonotone calmEnv := by
  intro i j h
  simp only [calmEnv, f64Env, env, BitVec.toNat_ofNat]
  rw [Nat.mod_eq_of_lt (by omega), Nat.mod_eq_of_lt (by omega)]
  omega

/-- An execution to which `C59_changes_partial`, `C60_range_partial` and `C61_changes_partial` apply. -/
example : ClockMonotone calmEnv ∧ calmEnv.ewma = filteredDelay ∧ calmEnv.cwndStep = cwndF64 ∧
    (let w := runs calmEnv 10 [full 2, .recvFrom 10, full 3] (server calmEnv)
     Reach calmEnv w ∧ w.s.cwnd = 4200 ∧ w.s.currDelays ≠ [] ∧ w.s.rtt = 7 ∧ (runOp calmEnv 10 (.recvFrom 10) w).1 ≠ .panic ∧
       (runOp calmEnv 10 (.recvFrom 10) w).2.s.cwnd = 5600 ∧ (runOp calmEnv 10 (.recvFrom 10) w).2.s.rtt = 13) :=
  ⟨calmEnv_monotone, rfl, rfl, reach_server _ _ (by decide +kernel) (by decide +kernel), by decide +kernel⟩

/-- The function itself. -/
example : cwndF64 10000 50000 5000 = 10350 ∧ cwndF64 10000 150000 5000 = 9650 ∧ cwndF64 10000 100000 5000 = 10000 := by decide +kernel

end

end Utp
