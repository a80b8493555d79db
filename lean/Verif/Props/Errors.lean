import Verif.Lemmas.Errors
import Verif.Spec.Run
import Verif.Samples
import Verif.Lemmas.Deliver
/-!
# C64: errors have causes
-/

namespace Utp
open M

variable {E : Env} {w0 : World}

theorem blames_recv : ∀ (fuel len : Nat), BlamesAll E w0 (recv E fuel len)
  | 0, _, _ => .never
  | fuel + 1, len, w => by
    unfold recv recvBody
    intro h1 h2
    refine Blames.bind (blames_recvWait fuel 0 w (by omega) (Nat.zero_le _) ⟨w.nNet, rfl, fun j _ _ => by omega⟩) (fun x w1 hx => ?_) h1 h2
    obtain ⟨b, src⟩ := x
    refine .bind .orPanic fun y w2 hy => ?_
    have e : Packet.tryFrom b = some y ∧ w2 = w1 := by
      cases hp : Packet.tryFrom b with
      | none => simp [hp, M.orPanic, M.panic] at hy
      | some t => simp [hp, M.orPanic, M.ret] at hy; exact ⟨by rw [hy.1], hy.2.symm⟩
    obtain ⟨hp, rfl⟩ := e
    cases y with
    | error _ => exact .seq .getS fun _ _ => .pure
    | ok pkt =>
      refine blames_recvPacket (blames_recv fuel BUF_SIZE) fuel len pkt src w2 ?_
      obtain ⟨k, b0, g1, g2, g3, g4⟩ := (recvWait_frame (E := E) fuel 0 w).got (b, src) (by rw [hx])
      rw [hx] at g1
      simp only at g3 g4
      exact ⟨k, b0, src, by omega, g1, g3, g4 ▸ hp⟩

theorem blames_recvFromLoop (fuel len : Nat) : ∀ n w, Blames E w0 (recvFromLoop E fuel len n) w
  | 0, _ => .never
  | n + 1, w => .seq .getS fun s _ => .ite (fun _ => .pure) fun _ => .seq (blames_recv fuel len _) fun _ w =>
      .ite (fun _ => blames_recvFromLoop fuel len n w) fun _ => .pure

theorem blames_sendQueue (fuel : Nat) : ∀ n w, Blames E w0 (sendQueue E fuel n) w
  | 0, _ => .never
  | n + 1, w => by
    unfold sendQueue
    refine .seq .getS fun s _ => ?_
    split
    · exact .pure
    · exact .seq .modS fun _ _ => .seq (blames_sendPacket (blames_recv fuel BUF_SIZE) fuel _ _) fun _ _ => .seq .getS fun _ _ =>
        .seq .overflowIf fun _ _ => .seq .modS fun _ w => blames_sendQueue fuel n w

theorem blames_scratchRecv (fuel : Nat) (w : World) : Blames E w0 (scratchRecv E fuel) w :=
  .seq (blames_recv fuel BUF_SIZE w) fun _ _ => .pure

theorem blames_flush (fuel : Nat) (w : World) : Blames E w0 (flush E fuel) w :=
  .whileM (fun _ => .seq .getS fun _ _ => .pure) (blames_scratchRecv fuel) fuel w

theorem blames_close (fuel : Nat) (w : World) : Blames E w0 (close E fuel) w :=
  .seq .getS fun _ _ => .ite (fun _ => .pure) fun _ => .seq (blames_flush fuel _) fun _ _ => .seq .getS fun _ _ => .seq .now fun _ _ =>
    .seq .udpSend fun _ _ => .seq .modS fun _ _ => .whileM (fun _ => .seq .getS fun _ _ => .pure) (blames_scratchRecv fuel) fuel _

theorem Blames.err {α : Type} {m : M α} {w w' : World} {e : IoErr} (h : Blames E w m w) (he : m w = (.err e, w')) : Cause E w w' e := by
  have := (h (Nat.le_refl _) (Nat.le_refl _)).2.2 e (by rw [he])
  rwa [he] at this

theorem andThen_err_inv {α β : Type} {m : M α} {f : α → M β} {w w'' : World} {e : IoErr} (h : M.andThen m f w = (.err e, w'')) :
    m w = (.err e, w'') ∨ ∃ a w', m w = (.ok a, w') ∧ f a w' = (.err e, w'') := by
  unfold M.andThen at h
  rcases hm : m w with ⟨r, w'⟩
  rw [hm] at h
  cases r with
  | ok a => exact .inr ⟨a, w', rfl, h⟩
  | err e => simp at h; left; rw [h.1, h.2]
  | panic => simp at h
  | pending => simp at h

theorem flushIncoming_effect (len : Nat) (w : World) : (flushIncoming E len w).2.log = w.log ∧ (flushIncoming E len w).2.nNet = w.nNet ∧
    (flushIncoming E len w).2.nSnd = w.nSnd ∧ (flushIncoming E len w).2.s.state = w.s.state := by
  obtain ⟨inc, pend, ack, ld, h⟩ := flushIncoming_frame (E := E) len w
  rw [h]
  exact ⟨rfl, rfl, rfl, rfl⟩

/-- **C64.**  Every error has a cause. -/
theorem C64_causes {fuel : Nat} {op : Op} {w w' : World} {e : IoErr} (h : runOp E fuel op w = (.err e, w')) : OpCause E op w w' e := by
  cases op with
  | recvFrom len =>
    unfold runOp recvFrom at h
    simp only [bind_def] at h
    rcases andThen_err_inv h with h | ⟨_, _, _, h⟩
    · rcases andThen_err_inv h with h | ⟨out, w1, h1, h⟩
      · exact .during ((blames_flushIncoming len).err h) (by simp)
      · obtain ⟨f1, f2, f3, f4⟩ := flushIncoming_effect (E := E) len w
        rw [h1] at f1 f2 f3 f4
        simp only at f1 f2 f3 f4
        rw [andThen_getS] at h
        split at h
        · simp [pure_def, M.ret] at h
        · split at h
          · rename_i hs
            simp only [M.throw, Prod.mk.injEq, Res.err.injEq] at h
            obtain ⟨rfl, rfl⟩ := h
            exact .wasReset len rfl (f4 ▸ hs) hs f2 f1 rfl
          · have := (blames_recvFromLoop (E := E) (w0 := w) fuel len fuel w1 (by omega) (by omega)).2.2 e (by rw [h])
            rw [h] at this
            exact .during this (by simp)
    · simp [pure_def, M.ret] at h
  | sendTo buf =>
    unfold runOp sendTo at h
    simp only [bind_def] at h
    rcases andThen_err_inv h with h | ⟨_, _, _, h⟩
    · rw [andThen_getS] at h
      split at h
      · rename_i hs
        simp only [M.throw, Prod.mk.injEq, Res.err.injEq] at h
        obtain ⟨rfl, rfl⟩ := h
        exact .wasClosed buf rfl hs rfl rfl
      · refine .during (Blames.err (m := M.andThen (modS fun s => (chunks buf.length buf).foldl enqueue s) _) ?_ h) (by simp)
        exact .seq .modS fun _ _ => .seq (blames_sendQueue fuel fuel _) fun _ _ => .pure
    · simp [pure_def, M.ret] at h
  | flush => exact .during (Blames.err (m := runOp E fuel .flush) (.seq (blames_flush fuel w) fun _ _ => .pure) h) (by simp)
  | close => exact .during (Blames.err (m := runOp E fuel .close) (.seq (blames_close fuel w) fun _ _ => .pure) h) (by simp)
  | setMaxRetries n => simp [runOp, bind_def, pure_def, M.andThen, M.modS, M.ret] at h

/-- **C64.**  No operation ever reports a malformed packet, and none of the other errors of the library. -/
theorem C64_never {fuel : Nat} {op : Op} {w w' : World} {e : IoErr} (h : runOp E fuel op w = (.err e, w')) :
    (∃ k, e = .os k) ∨ e = .sock .connectionReset ∨ e = .sock .connectionTimedOut ∨ e = .sock .connectionClosed ∨
      e = .sock .invalidReply ∨ e = .sock .other := by
  cases C64_causes h with
  | during hc _ => cases hc <;> simp
  | wasReset _ _ _ _ _ _ h => simp [h]
  | wasClosed _ _ _ _ h => simp [h]

/-- A UDP receive that fails, not with a timeout, ends the wait at once with that error; the socket is as before. -/
theorem recv_fails {w : World} {k : ErrorKind} (hn : E.net w.nNet = .fail k) (hk : ¬ (NetEvent.fail k).isTimeout)
    (hm : w.s.maxRetries ≠ 0) (fuel len : Nat) : ∃ w', recv E (fuel + 2) len w = (.err (.os k), w') ∧ w'.s = w.s := by
  have hm' : ¬ w.s.maxRetries.toNat ≤ 0 := by
    intro h
    exact hm (by apply BitVec.eq_of_toNat_eq; simp; omega)
  have hk' : isTimeout k = false := by
    simp [NetEvent.isTimeout] at hk
    simp [isTimeout, hk]
  refine ⟨w.waited w.s.patience, ?_, rfl⟩
  unfold recv recvBody
  rw [bind_def]
  refine andThen_err ?_
  unfold recvWait
  msimp
  rw [if_neg hm', andThen_eq (udpRecv_fail hn _ _)]
  simp only [hk']
  rfl

/-- **C64.**  The other direction: a failed receive is reported by the operation that waits, and the socket remains as it is. -/
theorem C64_reported {w : World} {k : ErrorKind} (hn : E.net w.nNet = .fail k) (hk : ¬ (NetEvent.fail k).isTimeout)
    (hm : w.s.maxRetries ≠ 0) (fuel : Nat) :
    (∀ len, w.s.incoming = [] → w.s.pending = [] → w.s.state ≠ .closed → w.s.state ≠ .resetReceived →
      ∃ w', runOp E (fuel + 2) (.recvFrom len) w = (.err (.os k), w') ∧ w'.s = w.s) ∧
    (w.s.sendWindow ≠ [] → ∃ w', runOp E (fuel + 2) .flush w = (.err (.os k), w') ∧ w'.s = w.s) ∧
    (w.s.sendWindow ≠ [] → w.s.state = .connected ∨ w.s.state = .finSent ∨ w.s.state = .resetReceived →
      ∃ w', runOp E (fuel + 2) .close w = (.err (.os k), w') ∧ w'.s = w.s) := by
  have hflush : w.s.sendWindow ≠ [] → ∃ w', flush E (fuel + 2) w = (.err (.os k), w') ∧ w'.s = w.s := by
    intro hs
    obtain ⟨w', h1, h2⟩ := recv_fails hn hk hm fuel BUF_SIZE
    refine ⟨w', ?_, h2⟩
    unfold flush M.whileM
    rw [bind_def, andThen_eq (a := true) (w' := w) (by simp [getS, M.andThen, pure_def, M.ret, hs])]
    refine andThen_err ?_
    unfold scratchRecv
    rw [bind_def]
    exact andThen_err h1
  refine ⟨fun len hi hp h1 h2 => ?_, fun hs => ?_, fun hs hst => ?_⟩
  · obtain ⟨w', g1, g2⟩ := recv_fails hn hk hm fuel len
    refine ⟨w', ?_, g2⟩
    unfold runOp recvFrom
    have hf : flushIncoming E len w = (.ok [], w) := by
      unfold flushIncoming
      msimp
      simp [hi, hp, M.ret]
    simp only [bind_def]
    refine andThen_err ?_
    rw [andThen_eq hf, andThen_getS]
    simp only [ne_eq, not_true_eq_false, ↓reduceIte, h2]
    unfold recvFromLoop
    simp only [bind_def, andThen_getS, h1, ↓reduceIte]
    exact andThen_err g1
  · obtain ⟨w', g1, g2⟩ := hflush hs
    exact ⟨w', andThen_err g1, g2⟩
  · obtain ⟨w', g1, g2⟩ := hflush hs
    refine ⟨w', andThen_err ?_, g2⟩
    unfold close
    simp only [bind_def, andThen_getS]
    rw [if_neg (by rcases hst with h | h | h <;> simp [h])]
    exact andThen_err g1

/-! Each error occurs: a refused receive, a failed send, a Reset, two timeouts, writing
after the end, a Data packet on a fresh socket, and one after our SYN was answered with a SYN. -/

open Sample in
example :
    results (env [.fail .connectionRefused]) 9 [.recvFrom 5] (server (env [.fail .connectionRefused])) = [.err (.os .connectionRefused)] ∧
    results (env [] false [.ok, .fail .other]) 9 [.sendTo [1]] (server (env [] false [.ok, .fail .other])) = [.err (.os .other)] ∧
    results (env [arr (dg .reset 5 2 100)]) 9 [.recvFrom 5] (server (env [arr (dg .reset 5 2 100)])) = [.err (.sock .connectionReset)] ∧
    results (env [.fail .timedOut, .fail .timedOut]) 9 [.setMaxRetries 2, .recvFrom 5, .sendTo [1]] (server (env [.fail .timedOut, .fail .timedOut])) =
      [.ok .unit, .err (.sock .connectionTimedOut), .err (.sock .connectionClosed)] ∧
    results (env [arr (dg .data 7 2 100 [1])]) 9 [.recvFrom 5] (bound (env [arr (dg .data 7 2 100 [1])])) = [.err (.sock .other)] ∧
    results (env [arr (dg .syn 7 2 1), arr (dg .data 7 2 1 [1])]) 9 [.recvFrom 5] (client (env [arr (dg .syn 7 2 1), arr (dg .data 7 2 1 [1])])) =
      [.err (.sock .invalidReply)] := by
  decide +kernel

/-! The hypotheses of `C64_reported` for all three operations: a byte was sent and is not acknowledged. -/
open Sample in
example : let E := env [.fail .connectionRefused]
    let w := runs E 9 [.sendTo [1]] (server E)
    E.net w.nNet = .fail .connectionRefused ∧ w.s.maxRetries ≠ 0 ∧ w.s.incoming = [] ∧ w.s.pending = [] ∧ w.s.sendWindow ≠ [] ∧
      w.s.state = .connected := by decide +kernel

end Utp
