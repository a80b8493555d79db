import Verif.Props.Congestion
/-!
# The delay samples and the base delays

While the clock does not run backwards, every sample in the window of current delays is at least as large as one of the base
delays: a base delay is forgotten at the tenth change of the minute after its own, more than 540 s after
its last sample, and no sample is kept longer than 429.5 s (100 times the largest round trip estimate, in
microseconds).
-/

namespace Utp

variable {E : Env}

/-- The clock does not run backwards (in particular it does not wrap). -/
def ClockMonotone (E : Env) : Prop := ∀ i j, i ≤ j → (E.now i).toNat ≤ (E.now j).toNat

theorem onNewAck_delays {s s' : Socket} {i : Nat} {p : Packet} {t : U32} (h : s.onNewAck E i p t = some s') :
    s'.currDelays = (s.updateCurrentDelay (tsSub t p.timestamp) t).currDelays ∧
    ∃ s1, s.updateBaseDelay (tsSub t p.timestamp) t = some s1 ∧ s'.baseDelays = s1.baseDelays ∧ s'.lastRollover = s1.lastRollover := by
  refine ⟨?_, onNewAck_base h⟩
  unfold Socket.onNewAck at h
  simp only at h
  split at h
  · simp at h
  · rename_i s1 h1
    have hcw : s1.currDelays = s.currDelays ∧ s1.rtt = s.rtt := by
      unfold Socket.updateBaseDelay at h1
      split at h1
      · simp at h1; rw [← h1]; simp
      · split at h1
        · simp at h1
        · split at h1 <;> (simp at h1; rw [← h1]; simp)
    split at h
    · simp at h
    · rename_i s2 h2
      unfold Socket.updateCongestionWindow at h2
      split at h2
      · simp at h2
      · simp only [Option.some.injEq] at h h2
        rw [← h, ← h2]
        simp [Socket.updateCongestionTimeout, Socket.updateCurrentDelay, hcw]

/-- What a step may do to the delays. -/
inductive DelayStep (E : Env) (a b : World) : Prop
  | same : b.s.currDelays = a.s.currDelays → b.s.baseDelays = a.s.baseDelays → b.s.lastRollover = a.s.lastRollover → a.nNow ≤ b.nNow →
      DelayStep E a b
  | sample (p : Packet) (d : Int) (t : U32) : p ∈ a.s.sendWindow → d = tsSub t p.timestamp → 0 < a.nNow → t = E.now (a.nNow - 1) → b.nNow = a.nNow →
      b.s.currDelays = (a.s.updateCurrentDelay d t).currDelays →
      (∃ s1, a.s.updateBaseDelay d t = some s1 ∧ b.s.baseDelays = s1.baseDelays ∧ b.s.lastRollover = s1.lastRollover) → DelayStep E a b

theorem step_delay {V : Ctx} {a b : World} (h : Step E V a b) : DelayStep E a b := by
  cases h with
  | measure pkt src i p t s' hg ht _ _ hf hp hm hk =>
    obtain ⟨h1, h2⟩ := onNewAck_delays hm
    exact .sample p _ t (List.mem_of_getElem? hp) rfl hk.1 hk.2 rfl h1 h2
  | advance s' _ hm =>
    refine .same ?_ (advanceSendWindow_baseDelays hm) ?_ (Nat.le_refl _)
    all_goals
      unfold Socket.advanceSendWindow at hm
      split at hm
      · simp at hm; simp [hm]
      · split at hm
        · simp at hm
        · simp at hm; simp [← hm]
  | tick => exact .same rfl rfl rfl (Nat.le_succ _)
  | _ => exact .same (by simp [enqueue, Socket.insertIntoBuffer, Socket.halveWindow]) (by simp [enqueue, Socket.insertIntoBuffer, Socket.halveWindow])
          (by simp [enqueue, Socket.insertIntoBuffer, Socket.halveWindow]) (Nat.le_refl _)

/-- The delays of a world whose clock does not run backwards. -/
structure Delays (E : Env) (w : World) : Prop where
  past : ∀ d ∈ w.s.currDelays, 0 < w.nNow ∧ d.1.toNat ≤ (E.now (w.nNow - 1)).toNat
  sorted : w.s.currDelays.Pairwise fun d d' => d.1.toNat ≤ d'.1.toNat
  cover : ∀ d ∈ w.s.currDelays, ∃ pre b post, w.s.baseDelays = pre ++ b :: post ∧ b ≤ d.2 ∧
    d.1.toNat + 60000000 * post.length ≤ w.s.lastRollover.toNat + 60000000
  both : w.s.baseDelays = [] ↔ w.s.currDelays = []

theorem dropWhile_sorted {α : Type} {P : α → Bool} {R : α → α → Prop} (hR : ∀ x y, R x y → P x = false → P y = false) :
    ∀ {l : List α}, l.Pairwise R → ∀ x ∈ l.dropWhile P, x ∈ l ∧ P x = false
  | [], _, x, h => by simp at h
  | a :: l, hp, x, h => by
    rw [List.pairwise_cons] at hp
    rw [List.dropWhile_cons] at h
    split at h
    · obtain ⟨h1, h2⟩ := dropWhile_sorted hR hp.2 x h
      exact ⟨List.mem_cons_of_mem _ h1, h2⟩
    · rename_i ha
      rcases List.mem_cons.mp h with rfl | h
      · exact ⟨by simp, by simpa using ha⟩
      · exact ⟨List.mem_cons_of_mem _ h, hR a x (hp.1 x h) (by simpa using ha)⟩

theorem Delays.step {a b : World} (hc : ClockMonotone E) (h : DelayStep E a b) (hr : 0 ≤ a.s.rtt ∧ a.s.rtt ≤ maxRtt)
    (hl : a.s.baseDelays.length ≤ 10) (hi : Delays E a) : Delays E b := by
  cases h with
  | same h1 h2 h3 h4 =>
    refine ⟨?_, by rw [h1]; exact hi.sorted, by rw [h1, h2, h3]; exact hi.cover, by rw [h1, h2]; exact hi.both⟩
    rw [h1]
    intro d hd
    obtain ⟨g1, g2⟩ := hi.past d hd
    exact ⟨by omega, Nat.le_trans g2 (hc _ _ (by omega))⟩
  | sample p d t hp hd hn ht hbn hcur hbase =>
    obtain ⟨s1, hb1, hb2, hb3⟩ := hbase
    have hpast : ∀ x ∈ a.s.currDelays, x.1.toNat ≤ t.toNat := fun x hx => by rw [ht]; exact (hi.past x hx).2
    have hold : ∀ x ∈ a.s.currDelays.dropWhile (fun d => decide (tsSub t d.1 > a.s.rtt * 100)),
        x ∈ a.s.currDelays ∧ (t.toNat : Int) ≤ x.1.toNat + a.s.rtt * 100 := by
      intro x hx
      obtain ⟨h1, h2⟩ := dropWhile_sorted (R := fun d d' : U32 × Int => d.1.toNat ≤ d'.1.toNat) (by
        intro x y hxy h
        have h' := of_decide_eq_false h
        refine decide_eq_false ?_
        unfold tsSub at *
        omega) hi.sorted x hx
      have h2 := of_decide_eq_false h2
      unfold tsSub at h2
      exact ⟨h1, by omega⟩
    rw [show (a.s.updateCurrentDelay d t).currDelays =
      a.s.currDelays.dropWhile (fun d => decide (tsSub t d.1 > a.s.rtt * 100)) ++ [(t, d)] from rfl] at hcur
    have hks : (a.s.currDelays.dropWhile fun d => decide (tsSub t d.1 > a.s.rtt * 100)).Pairwise fun d d' => d.1.toNat ≤ d'.1.toNat :=
      hi.sorted.sublist (List.dropWhile_sublist _)
    generalize a.s.currDelays.dropWhile (fun d => decide (tsSub t d.1 > a.s.rtt * 100)) = kept at hcur hold hks
    have hnew : (∃ pre b', s1.baseDelays = pre ++ [b'] ∧ b' ≤ d ∧ t.toNat ≤ s1.lastRollover.toNat + 60000000) ∧
        ∀ x ∈ kept, ∃ pre b post, s1.baseDelays = pre ++ b :: post ∧ b ≤ x.2 ∧
          x.1.toNat + 60000000 * post.length ≤ s1.lastRollover.toNat + 60000000 := by
      simp only [maxRtt] at hr
      unfold Socket.updateBaseDelay at hb1
      split at hb1
      · rename_i hcond
        simp only [Option.some.injEq] at hb1
        rw [← hb1]
        refine ⟨⟨_, d, rfl, Int.le_refl _, by simp⟩, fun x hx => ?_⟩
        obtain ⟨hx1, hx2⟩ := hold x hx
        obtain ⟨pre, b', post, e, hb', hpost⟩ := hi.cover x hx1
        have hne : a.s.baseDelays ≠ [] := by rw [e]; simp
        have hroll : (t.toNat : Int) - a.s.lastRollover.toNat > 60000000 := by
          rcases hcond with h | h
          · exact absurd (List.isEmpty_iff.mp h) hne
          · simpa [tsSub, MAX_BASE_DELAY_AGE] using h
        simp only
        split
        · rename_i h10
          cases pre with
          | nil =>
            exfalso
            rw [e] at h10
            simp [BASE_HISTORY] at h10
            rw [h10] at hpost
            omega
          | cons y pre =>
            refine ⟨pre, b', post ++ [d], by simp [e], hb', ?_⟩
            simp only [List.length_append, List.length_singleton]
            omega
        · refine ⟨pre, b', post ++ [d], by simp [e], hb', ?_⟩
          simp only [List.length_append, List.length_singleton]
          omega
      · rename_i hcond
        simp only [not_or] at hcond
        have hroll : (t.toNat : Int) - a.s.lastRollover.toNat ≤ 60000000 := by
          simpa [tsSub, MAX_BASE_DELAY_AGE] using hcond.2
        split at hb1
        · simp at hb1
        · rename_i last hlast
          have hl : a.s.baseDelays = a.s.baseDelays.dropLast ++ [last] := by
            have hne : a.s.baseDelays ≠ [] := by intro e; simp [e] at hlast
            have := List.dropLast_concat_getLast hne
            rw [List.getLast?_eq_some_getLast hne] at hlast
            simp only [Option.some.injEq] at hlast
            rw [hlast] at this; exact this.symm
          split at hb1
          · rename_i hlt
            simp only [Option.some.injEq] at hb1
            rw [← hb1]
            refine ⟨⟨_, d, rfl, Int.le_refl _, by simp only; omega⟩, fun x hx => ?_⟩
            obtain ⟨hx1, hx2⟩ := hold x hx
            obtain ⟨pre, b', post, e, hb', hpost⟩ := hi.cover x hx1
            simp only
            rcases List.eq_nil_or_concat post with rfl | ⟨post', z, rfl⟩
            · have e1 : a.s.baseDelays.dropLast = pre := by rw [e]; simp
              have e2 : b' = last := by
                rw [e1, e] at hl
                simpa using hl
              exact ⟨pre, d, [], by rw [e1], by omega, hpost⟩
            · have e1 : a.s.baseDelays.dropLast = pre ++ b' :: post' := by
                rw [e, List.concat_eq_append, ← List.cons_append, ← List.append_assoc, List.dropLast_concat]
              exact ⟨pre, b', post' ++ [d], by simp [e1], hb', by simpa using hpost⟩
          · rename_i hge
            simp only [Option.some.injEq] at hb1
            rw [← hb1]
            refine ⟨⟨_, last, hl, by omega, by omega⟩, fun x hx => hi.cover x (hold x hx).1⟩
    refine ⟨?_, ?_, ?_, ?_⟩
    · rw [hcur, hbn]
      intro x hx
      rcases List.mem_append.mp hx with hx | hx
      · exact hi.past x (hold x hx).1
      · simp at hx; subst hx; exact ⟨hn, by simp [ht]⟩
    · rw [hcur, List.pairwise_append]
      refine ⟨hks, by simp, ?_⟩
      intro x hx y hy
      simp at hy; subst hy
      exact hpast x (hold x hx).1
    · rw [hcur, hb2, hb3]
      intro x hx
      rcases List.mem_append.mp hx with hx | hx
      · exact hnew.2 x hx
      · simp at hx; subst hx
        obtain ⟨pre, b', e, h1, h2⟩ := hnew.1
        exact ⟨pre, b', [], e, h1, by simpa using h2⟩
    · rw [hcur, hb2]
      obtain ⟨pre, b', e, _⟩ := hnew.1
      simp [e]

theorem delays_reach (hc : ClockMonotone E) {w : World} (hw : Reach E w) : Delays E w := by
  refine (reach_inv (E := E) (I := fun w => Delays E w ∧ RttInRange w ∧ w.s.baseDelays.length ≤ 10) ?_ ?_ hw).1
  · intro w h
    obtain ⟨h1, h2⟩ := start_base h
    refine ⟨⟨by simp [h2], by simp [h2], by simp [h2], by simp [h1, h2]⟩, start_rtt h, by simp [h1]⟩
  · intro a b h _ hi
    exact ⟨hi.1.step hc (step_delay h) hi.2.1.1 hi.2.2, step_rtt h hi.2.1, step_baseLength h hi.2.2⟩

/-- The timestamps of outstanding packets are earlier readings of the clock. -/
def WindowStamped (E : Env) (w : World) : Prop := ∀ p ∈ w.s.sendWindow, Stamped E w p

theorem Stamped.mono {a b : World} {p : Packet} (h : Stamped E a p) (hn : a.nNow ≤ b.nNow) : Stamped E b p :=
  ⟨h.1, h.2.imp id fun ⟨k, hk, e⟩ => ⟨k, by omega, e⟩⟩

theorem step_stamped {V : Ctx} {a b : World} (h : Step E V a b) (hi : WindowStamped E a) : WindowStamped E b := by
  have keep : a.nNow ≤ b.nNow → (∀ p ∈ b.s.sendWindow, p ∈ a.s.sendWindow) → WindowStamped E b :=
    fun hn hs p hp => (hi p (hs p hp)).mono hn
  cases h with
  | tick => exact keep (Nat.le_succ _) fun _ h => h
  | touch p rest t hw hk _ =>
    intro q hq
    simp only [setS_s, List.mem_cons] at hq
    rcases hq with rfl | hq
    · have h1 := (hi p (by simp [hw])).1
      exact ⟨by simpa [Packet.setTimestamp, Packet.put32] using h1, .inr (by rw [setTimestamp_timestamp h1]; exact hk)⟩
    · exact hi q (by simp [hw, hq])
  | push p _ _ hs _ _ =>
    intro q hq
    simp only [setS_s, List.mem_append, List.mem_singleton] at hq
    rcases hq with hq | rfl
    · exact hi q hq
    · exact hs
  | measure pkt src i p t s' _ _ _ _ _ _ hm =>
    refine keep (Nat.le_refl _) ?_
    obtain ⟨_, _, _, _, _, _, _, rfl⟩ := onNewAck_shape hm
    exact fun _ h => h
  | advance s' _ hm =>
    refine keep (Nat.le_refl _) ?_
    obtain ⟨n, c, rfl⟩ := advanceSendWindow_shape hm
    exact fun _ h => List.mem_of_mem_drop h
  | _ => exact keep (Nat.le_refl _) (by simp [enqueue, Socket.insertIntoBuffer, Socket.halveWindow])

/-- Measured delays are not negative, nor are the base delays. -/
def DelaysNonneg (w : World) : Prop := (∀ d ∈ w.s.currDelays, 0 ≤ d.2) ∧ ∀ b ∈ w.s.baseDelays, 0 ≤ b

theorem sample_nonneg (hc : ClockMonotone E) {a : World} {p : Packet} (h : Stamped E a p) (hn : 0 < a.nNow) :
    0 ≤ tsSub (E.now (a.nNow - 1)) p.timestamp := by
  unfold tsSub
  rcases h.2 with h | ⟨k, hk, h⟩
  · simp [h]
  · have := hc k (a.nNow - 1) (by omega)
    rw [h]; omega

theorem DelaysNonneg.step {a b : World} (hc : ClockMonotone E) (h : DelayStep E a b) (hw : WindowStamped E a) (hi : DelaysNonneg a) :
    DelaysNonneg b := by
  cases h with
  | same h1 h2 _ _ => unfold DelaysNonneg; rw [h1, h2]; exact hi
  | sample p d t hp hd hn ht hbn hcur hbase =>
    have h0 : 0 ≤ d := by rw [hd, ht]; exact sample_nonneg hc (hw p hp) hn
    obtain ⟨s1, hb1, hb2, hb3⟩ := hbase
    constructor
    · rw [hcur]
      intro x hx
      simp only [Socket.updateCurrentDelay, List.mem_append, List.mem_singleton] at hx
      rcases hx with hx | rfl
      · exact hi.1 x ((List.dropWhile_sublist _).subset hx)
      · exact h0
    · rw [hb2]
      rcases updateBaseDelay_rule hb1 with h | ⟨h, _⟩ | ⟨l, last, h, h', _⟩
      · rw [h]; exact hi.2
      · rw [h]
        intro x hx
        rcases List.mem_append.mp hx with hx | hx
        · split at hx
          · exact hi.2 x (List.mem_of_mem_drop hx)
          · exact hi.2 x hx
        · simp at hx; omega
      · rw [h']
        intro x hx
        rcases List.mem_append.mp hx with hx | hx
        · exact hi.2 x (by rw [h]; simp [hx])
        · simp at hx; omega

theorem start_stamped {w : World} (h : Start E w) : WindowStamped E w := by
  cases h with
  | bound => simp [WindowStamped, freshWorld, Socket.fromRawParts]
  | connecting la a0 a st _ hs _ _ _ => simp [WindowStamped, hs, Socket.fromRawParts]
  | accepted => simp [WindowStamped, acceptSocket, Socket.fromRawParts]

theorem nonneg_reach (hc : ClockMonotone E) {w : World} (hw : Reach E w) : DelaysNonneg w := by
  refine (reach_inv (E := E) (I := fun w => WindowStamped E w ∧ DelaysNonneg w) ?_ ?_ hw).2
  · intro w h
    obtain ⟨h1, h2⟩ := start_base h
    exact ⟨start_stamped h, by simp [h2], by simp [h1]⟩
  · intro a b h _ hi
    exact ⟨step_stamped h hi.1, hi.2.step hc (step_delay h) hi.1⟩

end Utp
