import Verif.Lemmas.Build
import Verif.Samples
/-!
# C09–C12: congestion window, retransmission timeout, round-trip estimation, base delay
-/

namespace Utp

variable {E : Env}

/-- Every socket operation is a path of steps, and of the rule `R` if every step is. -/
theorem op_path {R : World → World → Prop} (hR : ∀ a b, Step E .any a b → R a b) {w : World}
    (hw : Reach E w) (fuel : Nat) (op : Op) (hp : (runOp E fuel op w).1 ≠ .panic) :
    Traced E R w (runOp E fuel op w).2 := by
  obtain ⟨w0, h0, hs⟩ := reach_steps .any ⟨trivial, trivial⟩ trivial trivial dataPacket_any hw
  have hi := (start_inv h0).steps .any hs
  refine ((at_runOp .any fuel op (fun _ _ => ⟨trivial, trivial⟩) (fun _ => trivial) (fun _ => trivial) hi ?_).1 hp).path fun a b h => ⟨h, hR a b h⟩
  intro buf _ p hpm
  rcases fold_enqueue_mem _ _ _ hpm with h | ⟨c, hc, n, rfl⟩
  · exact (hi.uns p h).1
  · exact dataPacket_any _ _ (chunks_bounds _ _ c hc).1 (chunks_bounds _ _ c hc).2

/-- An acknowledgement of an outstanding packet was received: a State packet whose acknowledgement number is
the sequence number of a packet in the send window. -/
def AckedOutstanding (E : Env) (w : World) : Prop :=
  ∃ pkt src p, Received E w pkt src ∧ pkt.getType = some .state ∧ p ∈ w.s.sendWindow ∧ p.seqNr = pkt.ackNr

theorem measure_acked {w : World} {pkt : Packet} {src : Addr} {i : Nat} {p : Packet} (hg : Received E w pkt src)
    (ht : pkt.getType = some .state) (hf : (w.s.sendWindow.findIdx? fun q => pkt.ackNr == q.seqNr) = some i)
    (hp : w.s.sendWindow[i]? = some p) : AckedOutstanding E w ∧ p.seqNr = pkt.ackNr := by
  obtain ⟨h1, h2, _⟩ := List.findIdx?_eq_some_iff_getElem.mp hf
  have hpe : w.s.sendWindow[i] = p := by
    rw [List.getElem?_eq_getElem h1] at hp; simpa using hp
  have hseq : p.seqNr = pkt.ackNr := by
    rw [hpe] at h2; simpa using (by simpa using h2 : pkt.ackNr = p.seqNr).symm
  exact ⟨⟨pkt, src, p, hg, ht, by rw [← hpe]; exact List.getElem_mem _, hseq⟩, hseq⟩

theorem toNat_atLeast {n : Nat} (a b : BitVec n) : (if a < b then b else a).toNat = max b.toNat a.toNat := by
  by_cases h : a < b
  · rw [if_pos h]; rw [BitVec.lt_def] at h; omega
  · rw [if_neg h]; rw [BitVec.lt_def] at h; omega

theorem toNat_atMost {n : Nat} (a b : BitVec n) : (if b < a then b else a).toNat = min b.toNat a.toNat := by
  by_cases h : b < a
  · rw [if_pos h]; rw [BitVec.lt_def] at h; omega
  · rw [if_neg h]; rw [BitVec.lt_def] at h; omega

/-! ### C09 -/

theorem onNewAck_cwnd {s s' : Socket} {i : Nat} {p : Packet} {t : U32} (h : s.onNewAck E i p t = some s') :
    2800 ≤ s'.cwnd.toNat ∧ s'.cwnd.toNat ≤ max 2800 (s.currWindow + 1400).toNat ∧
    (E.checks = true → s.currWindow.toNat + 1400 < 2 ^ 32) := by
  unfold Socket.onNewAck at h
  simp only at h
  split at h
  · simp at h
  · rename_i s1 h1
    have hcw : s1.currWindow = s.currWindow := by
      unfold Socket.updateBaseDelay at h1
      split at h1
      · simp at h1; rw [← h1]
      · split at h1
        · simp at h1
        · split at h1 <;> (simp at h1; rw [← h1])
    split at h
    · simp at h
    · rename_i s2 h2
      unfold Socket.updateCongestionWindow at h2
      split at h2
      · simp at h2
      · rename_i hno
        simp only [Option.some.injEq] at h h2
        rw [← h, ← h2]
        simp only [Socket.updateCongestionTimeout, Socket.updateCurrentDelay] at hno ⊢
        simp only [hcw] at hno ⊢
        generalize E.cwndStep _ _ _ = c
        rw [toNat_atLeast, toNat_atMost]
        have e : s.currWindow + MSS = s.currWindow + 1400 := rfl
        rw [e]
        generalize s.currWindow + 1400 = m
        have : MIN_WND.toNat = 2800 := rfl
        refine ⟨by omega, by omega, ?_⟩
        · intro hc
          simp only [hc, true_and] at hno
          omega

/-- The ways in which the congestion window may change: not at all; to one segment, when the last receive timed
out and the timeout is doubled; on an acknowledgement of outstanding data, to between two segments and one segment more than the bytes in
flight (`curr_window`, C17); after a loss reported by a State packet, to half of it but at least two segments. -/
def CwndRule (E : Env) (a b : World) : Prop :=
  b.s.cwnd = a.s.cwnd ∨
  (TimedOut E a 1 ∧ b.s.cwnd.toNat = 1400 ∧ b.s.congTimeout = a.s.congTimeout * 2) ∨
  (AckedOutstanding E a ∧ 2800 ≤ b.s.cwnd.toNat ∧ b.s.cwnd.toNat ≤ max 2800 (a.s.currWindow + 1400).toNat ∧
    (E.checks = true → a.s.currWindow.toNat + 1400 < 2 ^ 32)) ∨
  ((∃ pkt src, Received E a pkt src ∧ pkt.getType = some .state) ∧ b.s.cwnd.toNat = max 2800 (a.s.cwnd.toNat / 2))

theorem step_cwnd {V : Ctx} {a b : World} (h : Step E V a b) : CwndRule E a b := by
  cases h with
  | timeout ht => exact .inr (.inl ⟨ht, by simp [MSS], rfl⟩)
  | measure pkt src i p t s' hg ht _ _ hf hp hm =>
    have := onNewAck_cwnd hm
    exact .inr (.inr (.inl ⟨(measure_acked hg ht hf hp).1, this⟩))
  | halve pkt src hg ht =>
    refine .inr (.inr (.inr ⟨⟨pkt, src, hg, ht⟩, ?_⟩))
    simp only [setS_s, Socket.halveWindow]
    rw [toNat_atLeast, BitVec.toNat_udiv]
    rfl
  | advance s' _ hm => exact .inl (advanceSendWindow_cwnd hm)
  | _ => exact .inl (by simp [enqueue, Socket.insertIntoBuffer])

/-- Along every operation the congestion window only changes by the rule above. -/
theorem C09_changes_partial {w : World} (hw : Reach E w) (fuel : Nat) (op : Op) (hp : (runOp E fuel op w).1 ≠ .panic) :
    Traced E (CwndRule E) w (runOp E fuel op w).2 := op_path (fun _ _ => step_cwnd) hw fuel op hp

section
open Sample

/-- One packet is sent; a timeout; then three State packets that do not acknowledge it (an I/O error in between
makes the first `recv_from` return). -/
def lossAfterTimeout : Env :=
  env [.fail .timedOut, arr (dg .state 6 2 99), arr (dg .state 6 2 99), .fail .other, arr (dg .state 6 2 99)]

/-- C09 says that the window does not grow on a detected loss, and that is what `C09_changes_partial` lacks: the
code takes the maximum of half the window and two segments, so after a timeout (one segment) the third duplicate
acknowledgement, which acknowledges nothing, doubles the window. -/
theorem C09_counterexample : ∃ w, Reach lossAfterTimeout w ∧ (runOp lossAfterTimeout 10 (.recvFrom 10) w).1 = .pending ∧
    w.s.cwnd = 1400 ∧ (runOp lossAfterTimeout 10 (.recvFrom 10) w).2.s.cwnd = 2800 ∧
    w.s.sendWindow.length = 1 ∧ (runOp lossAfterTimeout 10 (.recvFrom 10) w).2.s.sendWindow.length = 1 ∧
    (runOp lossAfterTimeout 10 (.recvFrom 10) w).2.s.lastAcked = w.s.lastAcked :=
  ⟨runs lossAfterTimeout 10 [.sendTo [1, 2, 3], .recvFrom 10] (server lossAfterTimeout),
    reach_server _ _ (by decide +kernel) (by decide +kernel), by decide +kernel⟩

/-- The rules are used: an execution in which the window falls to one segment on a timeout. -/
example : (runs lossAfterTimeout 10 [.sendTo [1, 2, 3]] (server lossAfterTimeout)).s.cwnd = 2800 ∧
    (runs lossAfterTimeout 10 [.sendTo [1, 2, 3], .recvFrom 10] (server lossAfterTimeout)).s.cwnd = 1400 ∧
    results lossAfterTimeout 10 [.sendTo [1, 2, 3], .recvFrom 10] (server lossAfterTimeout) =
      [.ok (.count 3), .err (.os .other)] := by decide +kernel

end

theorem start_floor {w : World} (h : Start E w) : 1400 ≤ w.s.cwnd.toNat := by
  cases h with
  | bound => simp [freshWorld, Socket.fromRawParts, MIN_WND]
  | connecting la a0 a st _ hs _ _ _ => simp [hs, Socket.fromRawParts, MIN_WND]
  | accepted => simp [acceptSocket, Socket.fromRawParts, MIN_WND]

theorem step_floor {V : Ctx} {a b : World} (h : Step E V a b) (hi : 1400 ≤ a.s.cwnd.toNat) : 1400 ≤ b.s.cwnd.toNat := by
  rcases step_cwnd h with h | ⟨_, h, _⟩ | ⟨_, h, _⟩ | ⟨_, h⟩
  · rw [h]; exact hi
  all_goals omega

/-- In every reachable state the congestion window is at least one segment. -/
theorem C09_floor {w : World} (hw : Reach E w) : 1400 ≤ w.s.cwnd.toNat :=
  reach_inv (I := fun w => 1400 ≤ w.s.cwnd.toNat) (fun _ => start_floor) (fun _ _ h _ => step_floor h) hw

/-! ### C10 -/

/-- `update_congestion_timeout`, for values in range: the clamped sum. -/
theorem congestionTimeout_clamped (s : Socket) (d : Int) :
    500 ≤ (s.updateCongestionTimeout d).congTimeout.toNat ∧ (s.updateCongestionTimeout d).congTimeout.toNat ≤ 60000 := by
  simp only [Socket.updateCongestionTimeout]
  generalize BitVec.ofInt 64 _ = t
  rw [toNat_atMost, toNat_atLeast]
  have h1 : MIN_CONGESTION_TIMEOUT.toNat = 500 := rfl
  have h2 : MAX_CONGESTION_TIMEOUT.toNat = 60000 := rfl
  omega

theorem onNewAck_last {s s' : Socket} {i : Nat} {p : Packet} {t : U32} (h : s.onNewAck E i p t = some s') :
    ∃ s2 : Socket, s2.rtt = s.rtt ∧ s2.rttVar = s.rttVar ∧
      s' = s2.updateCongestionTimeout ((delayToU32 (tsSub t p.timestamp - s2.queuingDelay E)).toNat / 1000) := by
  unfold Socket.onNewAck at h
  simp only at h
  split at h
  · simp at h
  · rename_i s1 h1
    have hcw : s1.rtt = s.rtt ∧ s1.rttVar = s.rttVar := by
      unfold Socket.updateBaseDelay at h1
      split at h1
      · simp at h1; rw [← h1]; simp
      · split at h1
        · simp at h1
        · split at h1 <;> (simp at h1; rw [← h1]; simp)
    split at h
    · simp at h
    · rename_i s2 h2
      unfold Socket.updateCongestionWindow at h2
      split at h2
      · simp at h2
      · simp only [Option.some.injEq] at h h2
        refine ⟨s2, ?_, ?_, h.symm⟩
        · rw [← h2]; exact hcw.1
        · rw [← h2]; exact hcw.2

/-- The ways in which the retransmission timeout may change: not at all; doubled, when the last receive timed out
(and the congestion window is one segment); on an acknowledgement of outstanding data, to a value between 500 ms and 60 s. -/
def TimeoutRule (E : Env) (a b : World) : Prop :=
  b.s.congTimeout = a.s.congTimeout ∨
  (TimedOut E a 1 ∧ b.s.congTimeout = a.s.congTimeout * 2 ∧ b.s.cwnd.toNat = 1400) ∨
  (AckedOutstanding E a ∧ 500 ≤ b.s.congTimeout.toNat ∧ b.s.congTimeout.toNat ≤ 60000)

theorem step_timeout {V : Ctx} {a b : World} (h : Step E V a b) : TimeoutRule E a b := by
  cases h with
  | timeout ht => exact .inr (.inl ⟨ht, rfl, by simp [MSS]⟩)
  | measure pkt src i p t s' hg ht _ _ hf hp hm =>
    obtain ⟨s2, _, _, rfl⟩ := onNewAck_last hm
    exact .inr (.inr ⟨(measure_acked hg ht hf hp).1, congestionTimeout_clamped _ _⟩)
  | advance s' _ hm => exact .inl (advanceSendWindow_congTimeout hm)
  | _ => exact .inl (by simp [enqueue, Socket.insertIntoBuffer, Socket.halveWindow])

theorem C10_changes {w : World} (hw : Reach E w) (fuel : Nat) (op : Op) (hp : (runOp E fuel op w).1 ≠ .panic) :
    Traced E (TimeoutRule E) w (runOp E fuel op w).2 := op_path (fun _ _ => step_timeout) hw fuel op hp

section
open Sample

/-- Two packets are sent; a receive times out; then the first and later the second is acknowledged.  The clock is read every 40 s. -/
def measured : Env :=
  env [.fail .timedOut, .fail .other, arr (dg .state 6 2 100), .fail .other, arr (dg .state 6 2 101)] (now := fun k => BitVec.ofNat 32 (40000000 * k))

/-- The operations. -/
def measuredOps : List Op := [.sendTo [1], .sendTo [2, 3], .recvFrom 9, .recvFrom 9, .flush]

/-- The world after `i` of them. -/
def measuredAt (i : Nat) : World := runs measured 20 (measuredOps.take i) (server measured)

theorem measured_reach (i : Nat) (hi : i ∈ List.range 6) : Reach measured (measuredAt i) := by
  have h : ∀ i ∈ List.range 6, accept measured 1 (arr (dg .syn 5 1 0)) (.ok here) = .made (.ok ()) (server measured) peer ∧
      .panic ∉ results measured 20 (measuredOps.take i) (server measured) := by decide +kernel
  exact reach_server _ _ (h i hi).1 (h i hi).2

/-- The timeout doubles and is then computed from a measurement (and cut to 60 s). -/
example : Reach measured (measuredAt 2) ∧ (runOp measured 20 (.recvFrom 9) (measuredAt 2)).1 ≠ .panic ∧
    (List.range 6).map (fun i => (measuredAt i).s.congTimeout) = [1000, 1000, 1000, 2000, 60000, 60000] :=
  ⟨measured_reach 2 (by simp), by decide +kernel, by decide +kernel⟩

end

/-! ### C11 -/

/-- The largest possible measurement: a 32-bit number of microseconds, in milliseconds. -/
def maxRtt : Int := 4294967

/-- `i32` range. -/
def InI32 (x : Int) : Prop := -2 ^ 31 ≤ x ∧ x < 2 ^ 31

theorem tdiv_between {x n : Int} (hn : 0 < n) : (0 ≤ x → 0 ≤ x.tdiv n ∧ x.tdiv n ≤ x) ∧ (x ≤ 0 → x ≤ x.tdiv n ∧ x.tdiv n ≤ 0) := by
  have key : ∀ y : Int, 0 ≤ y → 0 ≤ y.tdiv n ∧ y.tdiv n ≤ y := by
    intro y hy
    rw [Int.tdiv_eq_ediv_of_nonneg hy]
    exact ⟨Int.ediv_nonneg hy (by omega), Int.ediv_le_self _ hy⟩
  refine ⟨key x, fun hx => ?_⟩
  have := key (-x) (by omega)
  rw [Int.neg_tdiv] at this
  omega

/-- One measurement keeps both estimates in range, and no intermediate result of the 32-bit signed arithmetic
(src/socket.rs:733-736) leaves the `i32` range. -/
theorem C11_step (s : Socket) (d : Int) (hr : 0 ≤ s.rtt ∧ s.rtt ≤ maxRtt) (hv : 0 ≤ s.rttVar ∧ s.rttVar ≤ maxRtt)
    (hd : 0 ≤ d ∧ d ≤ maxRtt) :
    let s' := s.updateCongestionTimeout d
    (0 ≤ s'.rtt ∧ s'.rtt ≤ maxRtt) ∧ (0 ≤ s'.rttVar ∧ s'.rttVar ≤ maxRtt) ∧
    InI32 (s.rtt - d) ∧ InI32 ((s.rtt - d).natAbs) ∧ InI32 ((s.rtt - d).natAbs - s.rttVar) ∧
    InI32 (d - s.rtt) ∧ InI32 (s'.rttVar * 4) ∧ InI32 (s'.rtt + s'.rttVar * 4) := by
  simp only [Socket.updateCongestionTimeout, InI32, maxRtt] at *
  have h1 := tdiv_between (x := ((s.rtt - d).natAbs : Int) - s.rttVar) (n := 4) (by omega)
  have h2 := tdiv_between (x := d - s.rtt) (n := 8) (by omega)
  generalize (((s.rtt - d).natAbs : Int) - s.rttVar).tdiv 4 = a at *
  generalize (d - s.rtt).tdiv 8 = b at *
  omega

/-- Both estimates are in range. -/
def RttInRange (w : World) : Prop := (0 ≤ w.s.rtt ∧ w.s.rtt ≤ maxRtt) ∧ (0 ≤ w.s.rttVar ∧ w.s.rttVar ≤ maxRtt)

theorem start_rtt {w : World} (h : Start E w) : RttInRange w := by
  cases h with
  | bound => simp [freshWorld, Socket.fromRawParts, maxRtt, RttInRange]
  | connecting la a0 a st _ hs _ _ _ => simp [hs, Socket.fromRawParts, maxRtt, RttInRange]
  | accepted => simp [acceptSocket, Socket.fromRawParts, maxRtt, RttInRange]

theorem step_rtt {V : Ctx} {a b : World} (h : Step E V a b) (hi : RttInRange a) : RttInRange b := by
  unfold RttInRange at *
  cases h with
  | measure pkt src i p t s' hg ht _ _ hf hp hm =>
    obtain ⟨s2, h1, h2, rfl⟩ := onNewAck_last hm
    have hm : ∀ x : U32, 0 ≤ ((x.toNat : Int) / 1000) ∧ ((x.toNat : Int) / 1000) ≤ maxRtt := by
      intro x; have := x.isLt; simp only [maxRtt]; omega
    have := C11_step s2 _ (h1 ▸ hi.1) (h2 ▸ hi.2) (hm (delayToU32 (tsSub t p.timestamp - s2.queuingDelay E)))
    exact ⟨this.1, this.2.1⟩
  | advance s' _ hm => simpa [advanceSendWindow_rtt hm, advanceSendWindow_rttVar hm] using hi
  | _ => simpa [enqueue, Socket.insertIntoBuffer, Socket.halveWindow] using hi

/-- In every reachable state both estimates are between 0 and the largest possible measurement; with
`C11_step` the arithmetic on them never overflows. -/
theorem C11_range {w : World} (hw : Reach E w) :
    (0 ≤ w.s.rtt ∧ w.s.rtt ≤ maxRtt) ∧ (0 ≤ w.s.rttVar ∧ w.s.rttVar ≤ maxRtt) :=
  reach_inv (I := RttInRange) (fun _ => start_rtt) (fun _ _ h _ => step_rtt h) hw

/-- The estimates of the execution above. -/
example : Reach measured (measuredAt 5) ∧ (List.range 6).map (fun i => ((measuredAt i).s.rtt, (measuredAt i).s.rttVar)) =
    [(0, 0), (0, 0), (0, 0), (0, 0), (30000, 60000), (76250, 137500)] := ⟨measured_reach 5 (by simp), by decide +kernel⟩

/-! ### C12 -/

/-- The ways in which the base-delay history may change: not at all; a sample opens a new minute: it is appended
and only the oldest of ten entries is dropped; a smaller sample within the minute replaces the newest
entry. -/
def BaseRule (a b : World) : Prop :=
  b.s.baseDelays = a.s.baseDelays ∨
  (∃ d, b.s.baseDelays = (if a.s.baseDelays.length = 10 then a.s.baseDelays.drop 1 else a.s.baseDelays) ++ [d] ∧
    (a.s.baseDelays = [] ∨ tsSub b.s.lastRollover a.s.lastRollover > 60000000)) ∨
  (∃ l last d, a.s.baseDelays = l ++ [last] ∧ b.s.baseDelays = l ++ [d] ∧ d < last ∧
    b.s.lastRollover = a.s.lastRollover)

theorem updateBaseDelay_rule {s s1 : Socket} {d : Int} {t : U32} (h : s.updateBaseDelay d t = some s1) :
    s1.baseDelays = s.baseDelays ∨
    (s1.baseDelays = (if s.baseDelays.length = 10 then s.baseDelays.drop 1 else s.baseDelays) ++ [d] ∧
      (s.baseDelays = [] ∨ tsSub s1.lastRollover s.lastRollover > 60000000)) ∨
    (∃ l last, s.baseDelays = l ++ [last] ∧ s1.baseDelays = l ++ [d] ∧ d < last ∧ s1.lastRollover = s.lastRollover) := by
  unfold Socket.updateBaseDelay at h
  split at h
  · rename_i hc
    simp only [Option.some.injEq] at h
    rw [← h]
    refine .inr (.inl ⟨rfl, ?_⟩)
    simpa [List.isEmpty_iff, MAX_BASE_DELAY_AGE] using hc
  · split at h
    · simp at h
    · rename_i last hl
      have hlast : s.baseDelays = s.baseDelays.dropLast ++ [last] := by
        have hne : s.baseDelays ≠ [] := by intro e; simp [e] at hl
        have := List.dropLast_concat_getLast hne
        rw [List.getLast?_eq_some_getLast hne] at hl
        simp only [Option.some.injEq] at hl
        rw [hl] at this; exact this.symm
      split at h
      · rename_i hlt
        simp at h
        rw [← h]
        exact .inr (.inr ⟨_, last, hlast, rfl, hlt, rfl⟩)
      · simp at h
        exact .inl (by rw [← h])

theorem onNewAck_base {s s' : Socket} {i : Nat} {p : Packet} {t : U32} (h : s.onNewAck E i p t = some s') :
    ∃ s1, s.updateBaseDelay (tsSub t p.timestamp) t = some s1 ∧ s'.baseDelays = s1.baseDelays ∧
      s'.lastRollover = s1.lastRollover := by
  unfold Socket.onNewAck at h
  simp only at h
  split at h
  · simp at h
  · rename_i s1 h1
    split at h
    · simp at h
    · rename_i s2 h2
      unfold Socket.updateCongestionWindow at h2
      split at h2
      · simp at h2
      · simp only [Option.some.injEq] at h h2
        refine ⟨s1, h1, ?_⟩
        rw [← h, ← h2]
        exact ⟨rfl, rfl⟩

theorem step_base {V : Ctx} {a b : World} (h : Step E V a b) : BaseRule a b := by
  cases h with
  | measure pkt src i p t s' hg ht _ _ hf hp hm =>
    obtain ⟨s1, h1, h2, h3⟩ := onNewAck_base hm
    rcases updateBaseDelay_rule h1 with h | ⟨h, h'⟩ | ⟨l, last, h, h', h'', h'''⟩
    · exact .inl (h2.trans h)
    · refine .inr (.inl ⟨_, h2.trans h, ?_⟩)
      simpa [h3] using h'
    · exact .inr (.inr ⟨l, last, _, h, h2.trans h', h'', h3.trans h'''⟩)
  | advance s' _ hm => exact .inl (advanceSendWindow_baseDelays hm)
  | _ => exact .inl (by simp [enqueue, Socket.insertIntoBuffer, Socket.halveWindow])

theorem C12_changes {w : World} (hw : Reach E w) (fuel : Nat) (op : Op) (hp : (runOp E fuel op w).1 ≠ .panic) :
    Traced E BaseRule w (runOp E fuel op w).2 := op_path (fun _ _ => step_base) hw fuel op hp

theorem start_base {w : World} (h : Start E w) : w.s.baseDelays = [] ∧ w.s.currDelays = [] := by
  cases h with
  | bound => simp [freshWorld, Socket.fromRawParts]
  | connecting la a0 a st _ hs _ _ _ => simp [hs, Socket.fromRawParts]
  | accepted => simp [acceptSocket, Socket.fromRawParts]

theorem step_baseLength {V : Ctx} {a b : World} (h : Step E V a b) (hi : a.s.baseDelays.length ≤ 10) : b.s.baseDelays.length ≤ 10 := by
  rcases step_base h with h | ⟨d, h, _⟩ | ⟨l, last, d, h1, h2, _⟩
  · rw [h]; exact hi
  · rw [h]
    split
    · simp; omega
    · simp; omega
  · rw [h1] at hi; rw [h2]; simpa using hi

/-- In every reachable state the history has at most ten entries. -/
theorem C12_bound {w : World} (hw : Reach E w) : w.s.baseDelays.length ≤ 10 :=
  reach_inv (I := fun w => w.s.baseDelays.length ≤ 10) (fun _ h => by simp [(start_base h).1]) (fun _ _ h _ => step_baseLength h) hw

/-- The samples of the execution above: the second opens a new minute. -/
example : Reach measured (measuredAt 4) ∧ (runOp measured 20 .flush (measuredAt 4)).1 ≠ .panic ∧
    (List.range 6).map (fun i => (measuredAt i).s.baseDelays) = [[], [], [], [], [120000000], [120000000, 280000000]] ∧ (measuredAt 5).s.minBaseDelay = 120000000 :=
  ⟨measured_reach 4 (by simp), by decide +kernel, by decide +kernel, by decide +kernel⟩

/-- The history is never read while empty: recording a sample cannot panic. -/
theorem C12_no_panic (s : Socket) (d : Int) (t : U32) : s.updateBaseDelay d t ≠ none := by
  obtain ⟨s', h⟩ := updateBaseDelay_some s d t
  simp [h]

/-- The base delay used is the minimum of the entries (0 if there is none). -/
theorem C12_min (s : Socket) :
    (s.baseDelays = [] → s.minBaseDelay = 0) ∧
    (s.baseDelays ≠ [] → s.minBaseDelay ∈ s.baseDelays ∧ ∀ d ∈ s.baseDelays, s.minBaseDelay ≤ d) := by
  unfold Socket.minBaseDelay
  have key : ∀ (l : List Int) (d : Int),
      (l.foldl (fun a b => if b < a then b else a) d = d ∨ l.foldl (fun a b => if b < a then b else a) d ∈ l) ∧
      l.foldl (fun a b => if b < a then b else a) d ≤ d ∧
      ∀ x ∈ l, l.foldl (fun a b => if b < a then b else a) d ≤ x := by
    intro l
    induction l with
    | nil => intro d; simp
    | cons x r ih =>
      intro d
      simp only [List.foldl_cons, List.mem_cons]
      obtain ⟨h1, h2, h3⟩ := ih (if x < d then x else d)
      refine ⟨?_, ?_, ?_⟩
      · rcases h1 with h | h
        · rw [h]; split <;> simp
        · exact .inr (.inr h)
      · split at h2 <;> split <;> omega
      · rintro y (rfl | hy)
        · split at h2 <;> split <;> omega
        · exact h3 y hy
  cases h : s.baseDelays with
  | nil => simp
  | cons d r =>
    obtain ⟨h1, h2, h3⟩ := key r d
    simp only [List.mem_cons, reduceCtorEq, false_implies, true_and]
    refine fun _ => ⟨h1, ?_⟩
    rintro y (rfl | hy)
    · exact h2
    · exact h3 y hy

end Utp
