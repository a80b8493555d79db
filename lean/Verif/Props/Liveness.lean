import Verif.Lemmas.Ends
import Verif.Props.Timeout
/-!
# Every call returns: C57
-/

namespace Utp
open M Packet Sample

variable {E : Env}

/-- **C57.**  If sending never blocks, every wait ends, and the peer (and everyone else) eventually falls silent, then every
operation on every socket returns.

Partial: as long as datagrams keep arriving a call may wait forever (`C57_counterexample`). -/
theorem C57_partial {N : Nat} (hq : FallsSilent E N) (op : Op) (w : World) :
    ∃ r w', r ≠ .pending ∧ ∃ F, ∀ fuel, F ≤ fuel → runOp E fuel op w = (r, w') := runOp_ends hq op w

/-- The fuel of the model is adequate: an operation that ends with some fuel ends in the same way with more. -/
theorem C57_fuel {fuel fuel' : Nat} (hf : fuel ≤ fuel') (op : Op) {w : World} (h : (runOp E fuel op w).1 ≠ .pending) :
    runOp E fuel' op w = runOp E fuel op w := runOp_fuel hf op h

/-- Every single wait of a socket that was used before (not just bound) has a time limit. -/
theorem C57_timed {w : World} (hw : Reach E w) (hs : w.s.state ≠ .new) (fuel : Nat) (op : Op) (hp : (runOp E fuel op w).1 ≠ .panic) :
    ∃ acts, (runOp E fuel op w).2.log = w.log ++ acts ∧ .wait none ∉ acts := by
  have h := run_steps .any ⟨trivial, trivial⟩ trivial trivial dataPacket_any (Run.op fuel op .refl hp) (reach_any hw)
  generalize (runOp E fuel op w).2 = w' at h
  have key : w'.s.state ≠ .new ∧ ∃ acts, w'.log = w.log ++ acts ∧ .wait none ∉ acts := by
    induction h with
    | refl => exact ⟨hs, [], by simp, by simp⟩
    | @tail b c _ hst ih =>
      obtain ⟨h1, acts, h2, h3⟩ := ih
      refine ⟨(established_step hst).1 h1, ?_⟩
      cases hst with
      | wait => exact ⟨acts ++ [.wait (some b.s.congTimeout)], by simp [h2, h1], by simp [h3]⟩
      | send dst p ok he => exact ⟨acts ++ [.send dst p.bytes ok], by simp [h2], by simp [h3]⟩
      | _ => exact ⟨acts, by simpa using h2, h3⟩
  exact key.2

/-! ### Calls that never return -/

/-- Every wait from now on ends with a datagram that is not a valid packet. -/
def Flooded (E : Env) (n : Nat) : Prop :=
  ∀ k, n ≤ k → ∃ b src e, E.net k = .dgram b src ∧ Packet.tryFrom (b.take 1520) = some (.error e)

theorem recv_flooded {w : World} (hf : Flooded E w.nNet) (hr : 0 < w.s.maxRetries.toNat) (fuel len : Nat) :
    (recv E fuel len w).1 = .pending ∨ recv E fuel len w = (.ok ([], w.s.connectedTo), w.waited w.s.patience) := by
  match fuel with
  | 0 => exact .inl rfl
  | 1 => exact .inl rfl
  | n + 2 =>
    obtain ⟨b, src, e, h1, h2⟩ := hf w.nNet (Nat.le_refl _)
    exact .inr (recv_bad h1 hr h2)

theorem while_flooded {P : Socket → Bool} (fuel : Nat) {w : World} (hf : Flooded E w.nNet) (hr : 0 < w.s.maxRetries.toNat) (hP : P w.s = true) :
    ∀ n, (whileM n (M.andThen getS fun s => M.ret (P s)) (scratchRecv E fuel) w).1 = .pending := by
  intro n
  induction n generalizing w with
  | zero => rfl
  | succ n ih =>
    unfold whileM
    msimp
    rw [hP]
    simp only [if_true]
    unfold scratchRecv
    msimp
    rcases recv_flooded hf hr fuel BUF_SIZE with h | h
    · rcases hx : recv E fuel BUF_SIZE w with ⟨r, w'⟩
      rw [hx] at h
      simp only at h
      subst h
      rw [andThen_pending hx]
    · rw [andThen_eq h]
      exact ih (w := w.waited w.s.patience) (fun k hk => hf k (Nat.le_of_succ_le hk)) hr hP

theorem loop_flooded (fuel len : Nat) {w : World} (hf : Flooded E w.nNet) (hr : 0 < w.s.maxRetries.toNat) (hs : w.s.state ≠ .closed) :
    ∀ n, (recvFromLoop E fuel len n w).1 = .pending := by
  intro n
  induction n generalizing w with
  | zero => rfl
  | succ n ih =>
    unfold recvFromLoop
    msimp
    rw [if_neg hs]
    rcases recv_flooded hf hr fuel len with h | h
    · rcases hx : recv E fuel len w with ⟨r, w'⟩
      rw [hx] at h
      simp only at h
      subst h
      rw [andThen_pending hx]
    · rw [andThen_eq h]
      simp only [if_true]
      exact ih (w := w.waited w.s.patience) (fun k hk => hf k (Nat.le_of_succ_le hk)) hr hs

/-- If invalid datagrams keep arriving, from anywhere, then `flush` with data outstanding and `close` with data outstanding
never return, nor does `recv_from` on an open socket with nothing to deliver; nothing is retransmitted meanwhile, since no
wait times out. -/
theorem C57_flooded {w : World} (hw : Reach E w) (hf : Flooded E w.nNet) (hr : w.s.maxRetries ≠ 0) (fuel : Nat) :
    (w.s.sendWindow ≠ [] → (runOp E fuel .flush w).1 = .pending) ∧
    (w.s.sendWindow ≠ [] → w.s.state = .connected → (runOp E fuel .close w).1 = .pending) ∧
    (w.s.deliverable = [] → w.s.NoEmpty → (E.checks = true → w.s.ackNr ≠ 65535) → w.s.state = .connected →
      ∀ len, (runOp E fuel (.recvFrom len) w).1 = .pending) := by
  have hr' : 0 < w.s.maxRetries.toNat := by
    rcases Nat.eq_zero_or_pos w.s.maxRetries.toNat with h | h
    · exact absurd (BitVec.eq_of_toNat_eq h) hr
    · exact h
  have hfl : w.s.sendWindow ≠ [] → (flush E fuel w).1 = .pending := fun h =>
    while_flooded (P := fun s => decide (s.sendWindow ≠ [])) fuel hf hr' (by simpa using h) fuel
  refine ⟨fun h => ?_, fun h hs => ?_, fun h1 h2 h3 h4 len => ?_⟩
  · have := hfl h
    rcases hx : flush E fuel w with ⟨r, w'⟩
    rw [hx] at this
    simp only at this
    subst this
    show (M.andThen (flush E fuel) _ w).1 = _
    rw [andThen_pending hx]
  · have := hfl h
    rcases hx : flush E fuel w with ⟨r, w'⟩
    rw [hx] at this
    simp only at this
    subst this
    show (M.andThen (close E fuel) _ w).1 = _
    have : close E fuel w = (.pending, w') := by
      unfold close
      msimp
      rw [if_neg (by simp [hs]), andThen_pending hx]
    rw [andThen_pending this]
  · have hq := flush_quiet (E := E) (reach_any hw).inc h1 h2 h3 len
    have : (recvFrom E fuel len w).1 = .pending := by
      rw [recvFrom_quiet hq (by simp [h4])]
      exact loop_flooded fuel len hf hr' (by simp [h4]) fuel
    rcases hx : recvFrom E fuel len w with ⟨r, w'⟩
    rw [hx] at this
    simp only at this
    subst this
    show (M.andThen (recvFrom E fuel len) _ w).1 = _
    rw [andThen_pending hx]

/-- Empty datagrams arrive from a third party. -/
def spam : Env := { env [] with net := fun _ => .dgram [] other }

/-- The connection is open and one byte is outstanding: neither `flush` nor `close` nor `recv_from` ever returns. -/
theorem C57_counterexample :
    let w := runs spam 10 [.sendTo [1]] (server spam)
    Reach spam w ∧ w.s.state = .connected ∧ w.s.sendWindow ≠ [] ∧
    ∀ fuel, (runOp spam fuel .flush w).1 = .pending ∧ (runOp spam fuel .close w).1 = .pending ∧
      (runOp spam fuel (.recvFrom 9) w).1 = .pending := by
  intro w
  have h1 : w.s.state = .connected ∧ w.s.sendWindow ≠ [] ∧ w.s.maxRetries ≠ 0 ∧ w.s.incoming = [] ∧ w.s.deliverable = [] ∧ w.s.ackNr = 1 := by
    decide +kernel
  obtain ⟨a1, a2, a3, a4, a5, a6⟩ := h1
  have hw : Reach spam w := reach_server 10 [.sendTo [1]] (by decide +kernel) (by decide +kernel)
  refine ⟨hw, a1, a2, fun fuel => ?_⟩
  obtain ⟨h1, h2, h3⟩ := C57_flooded hw (fun k _ => ⟨[], other, .invalidPacketLength, rfl, rfl⟩) a3 fuel
  exact ⟨h1 a2, h2 a2 a1, h3 a5 (by simp [Socket.NoEmpty, a4]) (by simp [spam, env]) a1 9⟩

/-- The peer sends two packets and falls silent. -/
def fallsSilentNet (k : Nat) : NetEvent :=
  if k = 0 then arr (dg .state 6 2 100)
  else if k = 1 then arr (dg .data 6 2 100 [7])
  else .fail .timedOut
/-- The environment. -/
def fallsSilent : Env := { env [] with net := fallsSilentNet }

/-- `C57_partial` applies. -/
example : FallsSilent fallsSilent 2 where
  snd n := by simp [fallsSilent, env]
  net n := by
    simp only [fallsSilent, fallsSilentNet, arr]
    split
    · simp
    · split <;> simp
  quiet n hn := ⟨.timedOut, by simp only [fallsSilent, fallsSilentNet]; rw [if_neg (by omega), if_neg (by omega)]⟩

/-- Reading twice: the data, then a timeout; then everything returns at once. -/
example : results fallsSilent 20 [.sendTo [1], .recvFrom 9, .recvFrom 9, .recvFrom 9, .sendTo [1]] (server fallsSilent) =
    [.ok (.count 1), .ok (.bytes [7] peer), .err (.sock .connectionTimedOut), .ok (.bytes [] peer), .err (.sock .connectionClosed)] := by
  decide +kernel

end Utp
