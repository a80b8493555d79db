import Verif.Spec.GivesUp
import Verif.Props.Timeout
/-!
# C98: how long it takes to notice that the peer is gone
-/

namespace Utp
open M

variable {E : Env}

theorem waitLimits_append (a b : List Act) : waitLimits (a ++ b) = waitLimits a ++ waitLimits b := by simp [waitLimits]

theorem waitLimits_sends {s : Socket} {done : Prop} {l : List Act} (h : TimeoutSends E s done l) : waitLimits l = [] := by
  have key : ∀ l : List Act, (∀ a ∈ l, ∃ dst b ok, a = .send dst b ok) → waitLimits l = [] := by
    intro l hl
    unfold waitLimits
    rw [List.filterMap_eq_nil_iff]
    intro a ha
    obtain ⟨dst, b, ok, rfl⟩ := hl a ha
    rfl
  refine key l ?_
  unfold TimeoutSends at h
  split at h
  · obtain ⟨b, ok, rfl, _⟩ := h
    rintro a (_ | _)
    · exact ⟨_, _, _, rfl⟩
    · contradiction
  · split at h
    · obtain ⟨b, ok, rfl, _⟩ := h
      rintro a (_ | _)
      · exact ⟨_, _, _, rfl⟩
      · contradiction
    · split at h
      · subst h; simp
      · intro a ha
        obtain ⟨b, ok, rfl, _⟩ := h.2.2 a ha
        exact ⟨_, _, _, rfl⟩

theorem two_pow (i : Nat) : ((2 : U64) ^ i) = BitVec.ofNat 64 (2 ^ i) := by
  induction i with
  | zero => rfl
  | succ n ih => rw [BitVec.pow_succ, ih, Nat.pow_succ, BitVec.ofNat_mul]; rfl

/-- Doubling times add up to a power of two. -/
theorem sum_doubling {s : Socket} (hs : s.state ≠ .new) : ∀ (blocks : List (List Act)) (i : Nat), s.congTimeout.toNat * 2 ^ (i + blocks.length) < 2 ^ 64 →
    (∀ j acts, blocks[j]? = some acts → Attempt E s (i + j) acts) →
    (waitLimits blocks.flatten).sum + s.congTimeout.toNat * 2 ^ i = s.congTimeout.toNat * 2 ^ (i + blocks.length)
  | [], i, _, _ => by simp [waitLimits]
  | acts :: blocks, i, hlt, h => by
    obtain ⟨sends, rfl, hts⟩ := h 0 acts rfl
    have ih := sum_doubling hs blocks (i + 1) (by simpa [Nat.add_assoc, Nat.add_comm 1] using hlt) fun j a ha => by
      have := h (j + 1) a (by simpa using ha)
      rwa [show i + (j + 1) = i + 1 + j by omega] at this
    have hle : s.congTimeout.toNat * 2 ^ i ≤ s.congTimeout.toNat * 2 ^ (i + (blocks.length + 1)) := Nat.mul_le_mul_left _ (Nat.pow_le_pow_right (by omega) (by omega))
    have hw : waitLimits [waitAct s (i + 0)] = [s.congTimeout.toNat * 2 ^ i] := by
      unfold waitLimits waitAct
      rw [if_pos hs]
      simp only [List.filterMap_cons, List.filterMap_nil, Nat.add_zero]
      congr 1
      rw [BitVec.toNat_mul, two_pow]
      rw [BitVec.toNat_ofNat, Nat.mul_mod_mod, Nat.mod_eq_of_lt]
      simp only [List.length_cons] at hlt
      omega
    rw [List.flatten_cons, List.cons_append, ← List.singleton_append, waitLimits_append, waitLimits_append, hw, waitLimits_sends hts]
    simp only [List.singleton_append, List.nil_append, List.sum_cons, List.length_cons]
    rw [show i + (blocks.length + 1) = i + 1 + blocks.length by omega, ← ih, Nat.pow_succ, Nat.mul_two, Nat.mul_add]
    omega

/-- One wait for a packet. -/
theorem wait_gone {w : World} (hst : w.s.state ≠ .new) (hg : PeerGone E w) (hno : w.s.congTimeout.toNat * 2 ^ w.s.maxRetries.toNat < 2 ^ 64) {fuel : Nat}
    (hf : w.s.maxRetries.toNat < fuel) :
    ∃ w', (∀ len, recv E (fuel + 1) len w = (.err (.sock .connectionTimedOut), w')) ∧ w'.s.state = .closed ∧
      (∃ l, w'.log = w.log ++ l ∧ (waitLimits l).sum = w.s.congTimeout.toNat * (2 ^ w.s.maxRetries.toNat - 1)) := by
  obtain ⟨w', h1, h2, blocks, h3, h4, h5⟩ := C42_gives_up fuel w (fun _ => hno) hf hg.sends (fun i _ => hg.silent _ (by omega))
  refine ⟨w', fun len => by rw [recv, recvBody, bind_def, andThen_err h1], h2, blocks.flatten, h4, ?_⟩
  have := sum_doubling (E := E) hst blocks 0 (by rwa [Nat.zero_add, h3]) (fun j a ha => by rw [Nat.zero_add]; exact h5 j a ha)
  rw [Nat.zero_add, h3, Nat.pow_zero, Nat.mul_one] at this
  rw [Nat.mul_sub, Nat.mul_one]
  omega

/-- `flush` with something outstanding. -/
theorem flush_gone {w : World} (hst : w.s.state ≠ .new) (hw : w.s.sendWindow ≠ []) (hg : PeerGone E w) (hno : w.s.congTimeout.toNat * 2 ^ w.s.maxRetries.toNat < 2 ^ 64) {fuel : Nat}
    (hf : w.s.maxRetries.toNat < fuel) :
    ∃ w', flush E (fuel + 1) w = (.err (.sock .connectionTimedOut), w') ∧ w'.s.state = .closed ∧
      (∃ l, w'.log = w.log ++ l ∧ (waitLimits l).sum = w.s.congTimeout.toNat * (2 ^ w.s.maxRetries.toNat - 1)) := by
  obtain ⟨w', h1, h2, h3⟩ := wait_gone hst hg hno hf
  refine ⟨w', ?_, h2, h3⟩
  have hsc : scratchRecv E (fuel + 1) w = (.err (.sock .connectionTimedOut), w') := by
    unfold scratchRecv
    rw [bind_def, andThen_err (h1 _)]
  unfold flush
  rw [whileM]
  msimp
  rw [if_pos (by simpa using hw), andThen_err hsc]

theorem msWaited_eq {w w' : World} {l : List Act} (h : w'.log = w.log ++ l) : msWaited w w' = (waitLimits l).sum := by
  unfold msWaited
  rw [h, List.drop_left]

/-- The FIN of `close` was sent. -/
def World.finGone (E : Env) (w : World) : World :=
  { w with
    s := { w.s with state := .finSent }
    nNow := w.nNow + 1
    nSnd := w.nSnd + 1
    log := w.log ++ [.send w.s.connectedTo (finPacket w.s (E.now w.nNow)).bytes true] }

/-- **C98.**  Nothing arrives any more.  A socket with the timeout `T` and the limit of `n` retries that waits for its peer, whether in `recv_from` with nothing left to
read, in `flush` with something outstanding, or in `close`, notices this after exactly `T * (2 ^ n - 1)` milliseconds of waiting: the call fails with TimedOut, and the socket is closed.

Partial: the documentation says that this is about 16 seconds for the default of 5 retries, which is so if `T` is 500 ms; but `T` is 1000 ms at first (`C98_counterexample`) and may be
larger later. -/
theorem C98_partial {w : World} (hr : Reach E w) (hst : w.s.state ≠ .new ∧ w.s.state ≠ .closed) (hg : PeerGone E w)
    (hno : w.s.congTimeout.toNat * 2 ^ w.s.maxRetries.toNat < 2 ^ 64) {fuel : Nat} (hf : w.s.maxRetries.toNat < fuel) (op : Op)
    (hop : op = .close ∧ w.s.state ≠ .synSent ∨ op = .flush ∧ w.s.sendWindow ≠ [] ∨
      (∃ len, op = .recvFrom len) ∧ w.s.deliverable = [] ∧ w.s.NoEmpty ∧ w.s.state ≠ .resetReceived ∧ (E.checks = true → w.s.ackNr ≠ 65535)) :
    ∃ e w', runOp E (fuel + 1) op w = (.err e, w') ∧ e.kind = .timedOut ∧ w'.s.state = .closed ∧ msWaited w w' = w.s.congTimeout.toNat * (2 ^ w.s.maxRetries.toNat - 1) := by
  refine ⟨.sock .connectionTimedOut, ?_⟩
  rcases hop with ⟨rfl, hs⟩ | ⟨rfl, hw⟩ | ⟨⟨len, rfl⟩, hd, hne, hrs, ha⟩
  · by_cases hw : w.s.sendWindow = []
    · -- the FIN is sent first
      have hfl : flush E (fuel + 1) w = (.ok (), w) := by
        unfold flush
        rw [whileM]
        msimp
        rw [if_neg (by simpa using hw)]
      obtain ⟨v, hv⟩ : ∃ v, v = w.finGone E := ⟨_, rfl⟩
      have hvm : v.s.maxRetries = w.s.maxRetries ∧ v.s.congTimeout = w.s.congTimeout := by rw [hv]; exact ⟨rfl, rfl⟩
      have hvs : v.s.state = .finSent := by rw [hv]; rfl
      obtain ⟨w', h1, h2, l, h3, h4⟩ := wait_gone (E := E) (w := v) (fuel := fuel) (by rw [hvs]; simp)
        ⟨fun j hj => hg.silent j (by rw [hv] at hj; exact hj), fun j hj => hg.sends j (by rw [hv] at hj; exact Nat.le_of_succ_le hj)⟩
        (by rw [hvm.1, hvm.2]; exact hno) (by rw [hvm.1]; exact hf)
      have hlog : w'.log = w.log ++ (.send w.s.connectedTo (finPacket w.s (E.now w.nNow)).bytes true :: l) := by rw [h3, hv]; simp [World.finGone]
      refine ⟨w', ?_, rfl, h2, ?_⟩
      · have hsc : scratchRecv E (fuel + 1) v = (.err (.sock .connectionTimedOut), w') := by
          unfold scratchRecv
          rw [bind_def, andThen_err (h1 _)]
        have hwh : whileM (fuel + 1) (do let s ← getS; return decide (s.state ≠ .closed)) (scratchRecv E (fuel + 1)) v = (.err (.sock .connectionTimedOut), w') := by
          rw [whileM]
          msimp
          rw [if_pos (by simp [hvs]), andThen_err hsc]
        have hc : close E (fuel + 1) w = (.err (.sock .connectionTimedOut), w') := by
          unfold close
          msimp
          rw [if_neg (by simp [hst.1, hst.2, hs])]
          rw [andThen_eq hfl]
          msimp
          have hu : udpSend E w.s.connectedTo (finPacket w.s (E.now w.nNow)).bytes { w with nNow := w.nNow + 1 } =
              (.ok (), { w with nNow := w.nNow + 1, nSnd := w.nSnd + 1, log := w.log ++ [.send w.s.connectedTo (finPacket w.s (E.now w.nNow)).bytes true] }) := by
            unfold udpSend
            rw [show E.snd ({ w with nNow := w.nNow + 1 } : World).nSnd = .ok from hg.sends _ (Nat.le_refl _)]
          rw [andThen_eq hu]
          msimp
          rw [hv] at hwh
          exact hwh
        show M.andThen (close E (fuel + 1)) _ w = _
        rw [andThen_err hc]
      · rw [msWaited_eq hlog, ← List.singleton_append, waitLimits_append]
        rw [hvm.1, hvm.2] at h4
        simpa [waitLimits] using h4
    · obtain ⟨w', h1, h2, l, h3, h4⟩ := flush_gone hst.1 hw hg hno hf
      refine ⟨w', ?_, rfl, h2, by rw [msWaited_eq h3, h4]⟩
      have hc : close E (fuel + 1) w = (.err (.sock .connectionTimedOut), w') := by
        unfold close
        msimp
        rw [if_neg (by simp [hst.1, hst.2, hs])]
        rw [andThen_err h1]
      show M.andThen (close E (fuel + 1)) _ w = _
      rw [andThen_err hc]
  · obtain ⟨w', h1, h2, l, h3, h4⟩ := flush_gone hst.1 hw hg hno hf
    refine ⟨w', ?_, rfl, h2, by rw [msWaited_eq h3, h4]⟩
    show M.andThen (flush E (fuel + 1)) _ w = _
    rw [andThen_err h1]
  · obtain ⟨w', h1, h2, l, h3, h4⟩ := wait_gone hst.1 hg hno hf
    refine ⟨w', ?_, rfl, h2, by rw [msWaited_eq h3, h4]⟩
    have hq := flush_quiet (E := E) (reach_any hr).inc hd hne ha len
    have hloop : recvFromLoop E (fuel + 1) len (fuel + 1) w = (.err (.sock .connectionTimedOut), w') := by
      rw [recvFromLoop]
      msimp
      rw [if_neg hst.2, andThen_err (h1 len)]
    have : recvFrom E (fuel + 1) len w = (.err (.sock .connectionTimedOut), w') := by
      rw [recvFrom_quiet hq hrs, hloop]
    show M.andThen (recvFrom E (fuel + 1) len) _ w = _
    rw [andThen_err this]

section
open Sample

/-- Nothing arrives after the SYN. -/
def deserted : Env := { env [] with net := fun _ => .fail .timedOut }

theorem deserted_gone (w : World) : PeerGone deserted w := ⟨fun _ _ => .inl rfl, fun _ _ => rfl⟩

/-- The hypotheses of `C98_partial` can be met. -/
example : ∃ e w', runOp deserted 7 (.recvFrom 9) (server deserted) = (.err e, w') ∧ e.kind = .timedOut ∧ w'.s.state = .closed ∧ msWaited (server deserted) w' = 31000 := by
  have hr : Reach deserted (server deserted) := reach_server 0 [] (by decide +kernel) (by decide +kernel)
  have hi : (server deserted).s.incoming = [] := by decide +kernel
  have h1 : (server deserted).s.congTimeout.toNat = 1000 := by decide +kernel
  have h2 : (server deserted).s.maxRetries.toNat = 5 := by decide +kernel
  have := C98_partial (fuel := 6) hr (by decide +kernel) (deserted_gone _) (by decide +kernel) (by decide +kernel) (.recvFrom 9)
    (.inr (.inr ⟨⟨9, rfl⟩, by decide +kernel, by simp [Socket.NoEmpty, hi], by decide +kernel, by decide +kernel⟩))
  rw [h1, h2] at this
  exact this

/-- **C98 is false**: a socket with the default limit waits 31 seconds for a peer that is gone, in `recv_from`, in `flush` and in `close`, and not about 16. -/
theorem C98_counterexample : Reach deserted (server deserted) ∧ (server deserted).s.maxRetries = 5 ∧
    results deserted 9 [.recvFrom 9] (server deserted) = [.err (.sock .connectionTimedOut)] ∧ msWaited (server deserted) (runs deserted 9 [.recvFrom 9] (server deserted)) = 31000 ∧
    results deserted 9 [.close] (server deserted) = [.err (.sock .connectionTimedOut)] ∧ msWaited (server deserted) (runs deserted 9 [.close] (server deserted)) = 31000 ∧
    results deserted 9 [.sendTo [1], .flush] (server deserted) = [.ok (.count 1), .err (.sock .connectionTimedOut)] ∧
    msWaited (server deserted) (runs deserted 9 [.sendTo [1], .flush] (server deserted)) = 31000 :=
  ⟨reach_server 0 [] (by decide +kernel) (by decide +kernel), by decide +kernel⟩

end

end Utp
