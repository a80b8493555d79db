import Verif.Spec.Turn
import Verif.Props.Sending
import Verif.Props.Liveness
/-!
# C79: a packet waits half a second for room in the window
-/

namespace Utp
open M Packet Sample

variable {E : Env}

theorem andThen_left {α β : Type} {m m' : M α} {w : World} (h : m w = m' w) (f : α → M β) : M.andThen m f w = M.andThen m' f w := by
  unfold M.andThen; rw [h]

theorem waitLoop_congr {rec rec' : M (Bytes × Addr)} {w : World} (h : ∀ w1, MayWait E w w1 → rec w1 = rec' w1) :
    ∀ n v, whileM n (waitMore E (limitOf w.s) (E.now w.nNow)) (andThen rec fun _ => ret ()) v =
      whileM n (waitMore E (limitOf w.s) (E.now w.nNow)) (andThen rec' fun _ => ret ()) v
  | 0, _ => rfl
  | n + 1, v => by
    unfold whileM waitMore
    msimp
    by_cases hl : limitOf w.s ≤ v.s.currWindow
    · simp only [hl, if_true]
      by_cases ht : tsSub (E.now v.nNow) (E.now w.nNow) < PRE_SEND_TIMEOUT
      · simp only [ht, decide_true, if_true]
        have e : rec { v with nNow := v.nNow + 1 } = rec' { v with nNow := v.nNow + 1 } := by
          refine h _ ⟨?_, fun T hT => ?_⟩
          · rw [← limitOf_toNat]; exact hl
          · show T v.nNow < _ ∨ _ < T v.nNow / _
            unfold tsSub PRE_SEND_TIMEOUT at ht
            rw [hT.reads, hT.reads] at ht
            rcases Nat.lt_or_ge v.nNow w.nNow with hk | hk
            · exact .inl (Nat.lt_of_le_of_lt (hT.mono _ _ (Nat.le_of_lt hk)) (by omega))
            · have := hT.mono _ _ hk
              omega
        have ih := waitLoop_congr h n
        unfold waitMore at ih
        unfold M.andThen at ih ⊢
        rw [e]
        rcases rec' { v with nNow := v.nNow + 1 } with ⟨_ | _ | _ | _, u⟩
        · exact ih u
        · rfl
        · rfl
        · rfl
      · simp only [ht, decide_false, if_false, Bool.false_eq_true]
    · simp only [hl, if_false]
      rfl

/-- **C79.**  `send_packet` receives datagrams (`rec`), before it sends, only while there is no room in the window and, when it last read the clock, less than half a second
had passed since the packet's turn came; what a receive would do in any other state does not matter.

Partial: unless the 32 bits of the clock, which last 71 minutes, wrapped around since the packet's turn came (`C79_counterexample`). -/
theorem C79_partial {rec rec' : M (Bytes × Addr)} {w : World} (h : ∀ w1, MayWait E w w1 → rec w1 = rec' w1) (fuel : Nat) (p : Packet) :
    sendPacket E fuel rec p w = sendPacket E fuel rec' p w := by
  rw [sendPacket_eq, sendPacket_eq]
  exact andThen_left (waitLoop_congr h _ _) _

/-- **C79.**  When the receive that a packet waits for ends half a second after its turn came, or later, the packet is sent at once, whatever the window. -/
theorem C79_sent {rec : M (Bytes × Addr)} {w w2 : World} {x : Bytes × Addr} {T : Nat → Nat} (hT : RealTime E T) (hfull : sendLimit w.s ≤ w.s.currWindow.toNat)
    (h1 : T (w.nNow + 1) < T w.nNow + 500000) (hw : T w.nNow / 2 ^ 32 = T w2.nNow / 2 ^ 32) (hrec : rec { w with nNow := w.nNow + 2 } = (.ok x, w2))
    (h2 : T w.nNow + 500000 ≤ T w2.nNow) (hs : E.snd w2.nSnd = .ok) {p : Packet} (hp : ¬ TooFar w2.s p.seqNr) (fuel : Nat) :
    ∃ q w', sendPacket E (fuel + 2) rec p w = (.ok q, w') ∧ w'.log = w2.log ++ [.send w2.s.connectedTo q.bytes true] ∧
      ∃ t d, q = (p.setTimestamp t).setTimestampDifference d := by
  have ht1 : tsSub (E.now (w.nNow + 1)) (E.now w.nNow) < PRE_SEND_TIMEOUT := by
    have := hT.mono w.nNow (w.nNow + 1) (by omega)
    unfold tsSub PRE_SEND_TIMEOUT
    rw [hT.reads, hT.reads]
    omega
  have ht2 : ¬ tsSub (E.now w2.nNow) (E.now w.nNow) < PRE_SEND_TIMEOUT := by
    unfold tsSub PRE_SEND_TIMEOUT
    rw [hT.reads, hT.reads]
    omega
  have hl : limitOf w.s ≤ w.s.currWindow := by rw [BitVec.le_def, limitOf_toNat]; exact hfull
  have hloop : ∃ v, whileM (fuel + 2) (waitMore E (limitOf w.s) (E.now w.nNow)) (andThen rec fun _ => ret ()) { w with nNow := w.nNow + 1 } = (.ok (), v) ∧
      v.s = w2.s ∧ v.log = w2.log ∧ v.nSnd = w2.nSnd := by
    unfold whileM waitMore
    msimp
    simp only [hl, if_true, ht1, decide_true]
    rw [andThen_eq hrec]
    msimp
    unfold whileM
    msimp
    by_cases hf : limitOf w.s ≤ w2.s.currWindow
    · simp only [hf, if_true, ht2, decide_false, Bool.false_eq_true, if_false]
      exact ⟨_, rfl, rfl, rfl, rfl⟩
    · simp only [hf, if_false]
      exact ⟨_, rfl, rfl, rfl, rfl⟩
  obtain ⟨v, e1, e2, e3, e4⟩ := hloop
  refine ⟨stamped E v p, { v with nNow := v.nNow + 1, nSnd := v.nSnd + 1, log := v.log ++ [.send v.s.connectedTo (stamped E v p).bytes true] }, ?_, ?_, _, _, rfl⟩
  · rw [sendPacket_eq, andThen_eq e1]
    msimp
    rw [if_neg (fun hc => hp (e2 ▸ (tooFar_iff _ _).mp hc)), andThen_eq (udpSend_ok (by rw [← hs, ← e4]))]
    rfl
  · rw [e3, e2]

theorem waitLoop_stuck {start : U32} (hclock : 2 ^ 32 ≤ start.toNat + 500000) {limit : U32} (fuel : Nat) {v : World} (hf : Flooded E v.nNet) (hr : 0 < v.s.maxRetries.toNat)
    (hfull : limit ≤ v.s.currWindow) : ∀ n, ∃ v', whileM n (waitMore E limit start) (andThen (recv E fuel BUF_SIZE) fun _ => ret ()) v = (.pending, v') ∧
      Sample.sent v' = Sample.sent v ∧ (2 ≤ fuel → v'.nNet = v.nNet + n) := by
  intro n
  induction n generalizing v with
  | zero => exact ⟨v, rfl, rfl, fun _ => rfl⟩
  | succ n ih =>
    have ht : tsSub (E.now v.nNow) start < PRE_SEND_TIMEOUT := by
      have := (E.now v.nNow).isLt
      unfold tsSub PRE_SEND_TIMEOUT
      omega
    unfold whileM waitMore
    msimp
    simp only [hfull, if_true, ht, decide_true]
    match fuel with
    | 0 => exact ⟨_, rfl, rfl, fun h => by omega⟩
    | 1 => exact ⟨_, rfl, rfl, fun h => by omega⟩
    | f + 2 =>
      obtain ⟨b, src, e, h1, h2⟩ := hf v.nNet (Nat.le_refl _)
      rw [andThen_eq (recv_bad (w := { v with nNow := v.nNow + 1 }) h1 hr h2)]
      msimp
      obtain ⟨v', k1, k2, k3⟩ := ih (v := ({ v with nNow := v.nNow + 1 } : World).waited v.s.patience) (fun k hk => hf k (Nat.le_of_succ_le hk)) hr hfull
      refine ⟨v', ?_, ?_, fun h => ?_⟩
      · rw [← k1]; rfl
      · rw [k2]; simp [Sample.sent, World.waited]
      · rw [k3 h]; simp [World.waited]; omega

/-- The clock is in the last half second before it wraps around when the packet's turn comes: then no time is too long, and as long as datagrams arrive that do not make room
(here: invalid ones) the packet is not sent and `send_to` does not return. -/
theorem C79_stuck {w : World} (hf : Flooded E w.nNet) (hr : 0 < w.s.maxRetries.toNat) (hst : w.s.state ≠ .closed) (hfull : sendLimit w.s ≤ w.s.currWindow.toNat)
    (hclock : 2 ^ 32 ≤ (E.now w.nNow).toNat + 500000) {buf : Bytes} (hb : buf ≠ []) (fuel : Nat) :
    (runOp E fuel (.sendTo buf) w).1 = .pending ∧ Sample.sent (runOp E fuel (.sendTo buf) w).2 = Sample.sent w ∧
      (2 ≤ fuel → (runOp E fuel (.sendTo buf) w).2.nNet = w.nNet + fuel) := by
  obtain ⟨p, rest, hp⟩ : ∃ p rest, (queued w buf).s.unsent = p :: rest := by
    have hc : chunks buf.length buf ≠ [] := by
      cases buf with
      | nil => exact absurd rfl hb
      | cons x xs => simp [chunks]
    rcases hl : (queued w buf).s.unsent with _ | ⟨p, rest⟩
    · simp only [queued, World.setS, fold_enqueue] at hl
      have := congrArg List.length hl
      simp only [List.length_append, framed_length, List.length_nil] at this
      exact absurd (List.length_eq_zero_iff.mp (by omega)) hc
    · exact ⟨p, rest, rfl⟩
  have hq : queued w buf = w.setS { w.s with unsent := (queued w buf).s.unsent, seqNr := (queued w buf).s.seqNr } := by
    unfold queued
    rw [fold_enqueue]
    rfl
  cases fuel with
  | zero =>
    refine ⟨?_, ?_, fun h => by omega⟩
    · simp only [runOp, bind_def]
      rw [andThen_pending (w' := queued w buf) (by rw [sendTo_eq _ _ hst]; rfl)]
    · simp only [runOp, bind_def]
      rw [andThen_pending (w' := queued w buf) (by rw [sendTo_eq _ _ hst]; rfl)]
      rfl
  | succ fuel =>
    let v : World := w.setS { w.s with unsent := rest, seqNr := (queued w buf).s.seqNr }
    obtain ⟨v', k1, k2, k3⟩ := waitLoop_stuck (E := E) (start := E.now w.nNow) hclock (limit := limitOf w.s) (fuel + 1) (v := { v with nNow := w.nNow + 1 }) hf hr
      (by rw [BitVec.le_def, limitOf_toNat]; exact hfull) (fuel + 1)
    have e1 : sendPacket E (fuel + 1) (recv E (fuel + 1) BUF_SIZE) p v = (.pending, v') := by
      rw [sendPacket_eq]
      exact andThen_pending k1
    have e2 : sendQueue E (fuel + 1) (fuel + 1) (queued w buf) = (.pending, v') := by
      unfold sendQueue
      msimp
      rw [hp]
      have : (queued w buf).setS { (queued w buf).s with unsent := rest } = v := by
        rw [hq]; rfl
      show M.andThen (sendPacket E (fuel + 1) (recv E (fuel + 1) BUF_SIZE) p) _ ((queued w buf).setS { (queued w buf).s with unsent := rest }) = _
      rw [this]
      exact andThen_pending e1
    have e3 : runOp E (fuel + 1) (.sendTo buf) w = (.pending, v') := by
      simp only [runOp, bind_def]
      exact andThen_pending (by rw [sendTo_eq _ _ hst]; exact andThen_pending e2)
    rw [e3]
    exact ⟨rfl, k2, k3⟩

/-! ### Examples -/

/-- Microseconds at each reading of the clock: it stands still until the turn of the third packet comes, 0.07 s before the clock wraps around, and then goes on by a second
per reading. -/
def wrapTime (k : Nat) : Nat := if k < 7 then 4294900000 else 4294900000 + (k - 7) * 1000000
/-- Invalid datagrams keep arriving while the clock wraps around. -/
def wrapSpam : Env := { env [] (now := fun k => BitVec.ofNat 32 (wrapTime k)) with net := fun _ => .dgram [] other }

/-- **C79 is false of the code**: the window is full when the turn of a third packet comes, a moment before the clock wraps around.  Then `send_to` waits for ever, although
after each wait another second has passed: it returns for no bound on the number of waits, and sends nothing. -/
theorem C79_counterexample :
    let w := runs wrapSpam 10 [.sendTo (List.replicate 2760 7)] (server wrapSpam)
    Reach wrapSpam w ∧ w.s.state = .connected ∧ RealTime wrapSpam wrapTime ∧ (∀ n, wrapTime (w.nNow + 1 + n) = wrapTime w.nNow + n * 1000000) ∧
    ∀ fuel, (runOp wrapSpam fuel (.sendTo [1]) w).1 = .pending ∧ Sample.sent (runOp wrapSpam fuel (.sendTo [1]) w).2 = Sample.sent w ∧
      (2 ≤ fuel → (runOp wrapSpam fuel (.sendTo [1]) w).2.nNet = w.nNet + fuel) := by
  intro w
  have h1 : w.s.state = .connected ∧ 0 < w.s.maxRetries.toNat ∧ sendLimit w.s ≤ w.s.currWindow.toNat ∧ w.nNow = 6 := by decide +kernel
  obtain ⟨a1, a2, a3, a4⟩ := h1
  have hw : Reach wrapSpam w := reach_server 10 [.sendTo (List.replicate 2760 7)] (by decide +kernel) (by decide +kernel)
  refine ⟨hw, a1, ⟨fun i j hij => ?_, fun k => ?_⟩, fun n => ?_, fun fuel => ?_⟩
  · unfold wrapTime; split <;> split <;> omega
  · show (BitVec.ofNat 32 (wrapTime k)).toNat = _
    rw [BitVec.toNat_ofNat]
  · rw [a4]; unfold wrapTime; rw [if_neg (by omega), if_pos (by omega)]; omega
  · exact C79_stuck (fun k _ => ⟨[], other, .invalidPacketLength, rfl, rfl⟩) a2 (by simp [a1]) a3 (by rw [a4]; decide +kernel) (by simp) fuel

/-- A clock that shows another 0.3 s at each reading, and invalid datagrams keep arriving. -/
def tickSpam : Env := { env [] (now := fun k => BitVec.ofNat 32 (k * 300000)) with net := fun _ => .dgram [] other }

/-- **C79**: the window is full when the turn of a third packet comes; `send_to` waits for one datagram (and reads 0.3 s, then 0.6 s), and sends the packet. -/
example : let w := runs tickSpam 10 [.sendTo (List.replicate 2760 7)] (server tickSpam)
    sendLimit w.s ≤ w.s.currWindow.toNat ∧ (runOp tickSpam 10 (.sendTo [1]) w).1 = .ok (.count 1) ∧ (runOp tickSpam 10 (.sendTo [1]) w).2.nNet = w.nNet + 1 ∧
    (Sample.sent (runOp tickSpam 10 (.sendTo [1]) w).2).length = (Sample.sent w).length + 1 := by decide +kernel

end Utp
