import Verif.Spec.Errors
import Verif.Lemmas.Recv
/-!
# Where errors come from: a logic for causes
-/

namespace Utp
open M

variable {E : Env} {α β : Type} {w0 w : World}

/-- Run from `w`, which is not before `w0`, the computation does not turn the counters back, and an error has a
cause after `w0`. -/
def Blames (E : Env) (w0 : World) (m : M α) (w : World) : Prop :=
  w0.nNet ≤ w.nNet → w0.nSnd ≤ w.nSnd →
    w.nNet ≤ (m w).2.nNet ∧ w.nSnd ≤ (m w).2.nSnd ∧ ∀ e, (m w).1 = .err e → Cause E w0 (m w).2 e

theorem Blames.andThen {m : M α} {f : α → M β} (h : Blames E w0 m w)
    (hf : ∀ a w', m w = (.ok a, w') → Blames E w0 (f a) w') : Blames E w0 (M.andThen m f) w := by
  intro h1 h2
  obtain ⟨g1, g2, g3⟩ := h h1 h2
  rcases hm : m w with ⟨r, w'⟩
  rw [hm] at g1 g2 g3
  cases r with
  | ok a =>
    rw [andThen_eq hm]
    obtain ⟨k1, k2, k3⟩ := hf a w' hm (Nat.le_trans h1 g1) (Nat.le_trans h2 g2)
    exact ⟨Nat.le_trans g1 k1, Nat.le_trans g2 k2, k3⟩
  | err e => rw [andThen_err hm]; exact ⟨g1, g2, fun e' h => by injection h with h; subst h; exact g3 _ rfl⟩
  | panic => rw [andThen_eq_panic hm]; exact ⟨g1, g2, by simp⟩
  | pending => rw [andThen_pending hm]; exact ⟨g1, g2, by simp⟩

theorem Blames.bind {m : M α} {f : α → M β} (h : Blames E w0 m w)
    (hf : ∀ a w', m w = (.ok a, w') → Blames E w0 (f a) w') : Blames E w0 (m >>= f) w := Blames.andThen h hf

theorem Blames.seq {m : M α} {f : α → M β} (h : Blames E w0 m w)
    (hf : ∀ a w', Blames E w0 (f a) w') : Blames E w0 (m >>= f) w := Blames.andThen h fun a w' _ => hf a w'

theorem Blames.ret {a : α} : Blames E w0 (M.ret a) w := fun _ _ => ⟨Nat.le_refl _, Nat.le_refl _, by simp [M.ret]⟩
theorem Blames.pure {a : α} : Blames E w0 (Pure.pure a : M α) w := Blames.ret
theorem Blames.never : Blames E w0 (M.never : M α) w := fun _ _ => ⟨Nat.le_refl _, Nat.le_refl _, by simp [M.never]⟩
theorem Blames.getS : Blames E w0 M.getS w := fun _ _ => ⟨Nat.le_refl _, Nat.le_refl _, by simp [M.getS]⟩
theorem Blames.modS {f : Socket → Socket} : Blames E w0 (M.modS f) w := fun _ _ => ⟨Nat.le_refl _, Nat.le_refl _, by simp [M.modS]⟩
theorem Blames.now : Blames E w0 (M.now E) w := fun _ _ => ⟨Nat.le_refl _, Nat.le_refl _, by simp [M.now]⟩
theorem Blames.rand : Blames E w0 (M.rand E) w := fun _ _ => ⟨Nat.le_refl _, Nat.le_refl _, by simp [M.rand]⟩
theorem Blames.orPanic {o : Option α} : Blames E w0 (M.orPanic o) w := by
  cases o
  · exact fun _ _ => ⟨Nat.le_refl _, Nat.le_refl _, by simp [M.orPanic, M.panic]⟩
  · exact Blames.ret
theorem Blames.overflowIf {b : Bool} : Blames E w0 (M.overflowIf E b) w := by
  intro _ _
  rw [overflowIf_run]
  refine ⟨Nat.le_refl _, Nat.le_refl _, fun e h => ?_⟩
  simp only at h
  split at h <;> simp at h
theorem Blames.throw {e : IoErr} (h : w0.nNet ≤ w.nNet → w0.nSnd ≤ w.nSnd → Cause E w0 w e) : Blames E w0 (M.throw e : M α) w :=
  fun h1 h2 => ⟨Nat.le_refl _, Nat.le_refl _, fun e' h' => by simp [M.throw] at h'; subst h'; exact h h1 h2⟩

theorem Blames.ite {c : Prop} [Decidable c] {m m' : M α} (h : c → Blames E w0 m w) (h' : ¬ c → Blames E w0 m' w) :
    Blames E w0 (if c then m else m') w := by
  split
  · exact h ‹_›
  · exact h' ‹_›

theorem Blames.udpSend {dst : Addr} {b : Bytes} : Blames E w0 (M.udpSend E dst b) w := by
  intro h1 h2
  obtain ⟨r, ok, e, h⟩ := udpSend_cases (E := E) dst b w
  rw [e]
  refine ⟨Nat.le_refl _, Nat.le_succ _, fun e' he => ?_⟩
  simp only at he
  subst he
  rcases h with h | ⟨k, h, hk⟩ | h
  · simp at h
  · injection h with h; subst h
    exact .sending h2 rfl hk
  · simp at h

theorem Blames.ignoreErr {m : M α} (h : Blames E w0 m w) : Blames E w0 (M.ignoreErr m) w := by
  intro h1 h2
  obtain ⟨g1, g2, _⟩ := h h1 h2
  unfold M.ignoreErr
  rcases hm : m w with ⟨r, w'⟩
  rw [hm] at g1 g2
  cases r <;> exact ⟨g1, g2, by simp⟩

theorem Blames.whileM {c : M Bool} {b : M Unit} (hc : ∀ w, Blames E w0 c w) (hb : ∀ w, Blames E w0 b w) :
    ∀ n w, Blames E w0 (M.whileM n c b) w
  | 0, _ => .never
  | n + 1, w => .andThen (hc w) fun go w' _ => by
      cases go
      · exact .ret
      · exact .andThen (hb w') fun _ w'' _ => Blames.whileM hc hb n w''

theorem blames_flushIncoming (len : Nat) : Blames E w0 (flushIncoming E len) w := by
  unfold flushIncoming
  refine .seq .getS fun s _ => .ite (fun _ => .seq .modS fun _ _ => .pure) fun _ => ?_
  split
  · exact .pure
  · exact .seq .overflowIf fun _ _ => .ite (fun _ => .seq .orPanic fun _ _ => .seq .modS fun _ _ => .pure) fun _ => .pure

theorem blames_fastResendOne (w : World) : Blames E w0 (fastResendOne E) w :=
  .seq .getS fun _ _ => .seq .now fun _ _ => .ignoreErr .udpSend

theorem blames_handleReceiveTimeout (w : World) : Blames E w0 (handleReceiveTimeout E) w := by
  refine .seq .getS fun s _ => .seq .overflowIf fun _ _ => .seq .modS fun _ _ => ?_
  split
  · exact .ite (fun _ => .seq .now fun _ _ => .udpSend) fun _ => .ite (fun _ =>
      .seq (blames_fastResendOne _) fun _ w => .seq (blames_fastResendOne w) fun _ w => blames_fastResendOne w) fun _ => .pure
  · exact .seq .now fun _ _ => .seq .modS fun _ _ => .udpSend

/-- The wait: it is entered with `retries` timeouts in a row behind it. -/
theorem blames_recvWait : ∀ (fuel retries : Nat) (w : World), w0.nNet + retries ≤ w.nNet → retries ≤ w.s.maxRetries.toNat →
    TimedOut E w retries → Blames E w0 (recvWait E fuel retries) w
  | 0, _, _, _, _, _ => .never
  | fuel + 1, retries, w, hr, hm, ht => by
    unfold recvWait
    refine .bind .getS fun s w' hs => ?_
    obtain ⟨rfl, rfl⟩ : s = w.s ∧ w = w' := by simp [M.getS] at hs; exact ⟨hs.1.symm, hs.2⟩
    refine .ite (fun hle => .bind .modS fun _ w1 h1 => .throw fun _ _ => ?_) fun hlt => ?_
    · have : w1 = w.setS { w.s with state := .closed } := by simp [M.modS] at h1; exact h1.symm
      subst this
      have he : w.s.maxRetries.toNat = retries := by omega
      exact .gaveUp (by simpa [TimedOut, World.setS, he] using ht) (by simpa [World.setS, he] using hr) rfl
    · intro hn hsn
      simp only [bind_def, M.andThen, udpRecv]
      cases hev : E.net w.nNet with
      | dgram b src => exact ⟨Nat.le_succ _, Nat.le_refl _, by simp [pure_def, M.ret]⟩
      | never => exact ⟨Nat.le_succ _, Nat.le_refl _, by simp⟩
      | fail k =>
        dsimp only
        split
        · rename_i hk
          generalize hw1 : ({ w with nNet := w.nNet + 1, log := w.log ++ [.wait (if w.s.state ≠ .new then some w.s.congTimeout else none)] } : World) = w1
          have hn1 : w1.nNet = w.nNet + 1 := by rw [← hw1]
          have hs1 : w1.nSnd = w.nSnd := by rw [← hw1]
          have hw : w1.s = w.s := by rw [← hw1]
          have := Blames.andThen (f := fun _ => recvWait E fuel (retries + 1)) (blames_handleReceiveTimeout (E := E) (w0 := w0) w1) (fun _ w2 h2 => ?_)
            (by omega) (by omega)
          · rw [hn1, hs1] at this
            exact ⟨Nat.le_trans (Nat.le_succ _) this.1, this.2⟩
          · obtain ⟨⟨hf1, _, sw, ct, cw, hf2, _⟩, _⟩ := handleReceiveTimeout_frame (E := E) w1
            rw [h2] at hf1 hf2
            dsimp only at hf1 hf2
            refine blames_recvWait fuel (retries + 1) w2 (by omega) (by rw [hf2, hw]; simp only; omega) ?_
            obtain ⟨i, hi, hj⟩ := ht
            refine ⟨i, by omega, fun j h1 h2 => ?_⟩
            rcases Nat.lt_or_ge j w.nNet with hlt | hge
            · exact hj j h1 hlt
            · have : j = w.nNet := by omega
              subst this
              refine ⟨k, hev, ?_⟩
              simp [isTimeout] at hk
              exact hk.symm
        · rename_i hk
          refine ⟨Nat.le_succ _, Nat.le_refl _, fun e he => ?_⟩
          simp only [M.throw, Res.err.injEq] at he
          subst he
          refine .received hn rfl hev ?_
          simp [isTimeout] at hk
          simp [NetEvent.isTimeout, hk]

/-- The nested receive has causes. -/
def BlamesAll (E : Env) (w0 : World) (rec : M α) : Prop := ∀ w, Blames E w0 rec w

theorem blames_sendPacket {rec : M (Bytes × Addr)} (hr : BlamesAll E w0 rec) (fuel : Nat) (p : Packet) (w : World) :
    Blames E w0 (sendPacket E fuel rec p) w := by
  unfold sendPacket
  refine .seq .getS fun s _ => .seq .now fun _ _ => .seq (.whileM (fun w => ?_) (fun w => .andThen (hr w) fun _ _ _ => .ret) fuel _) fun _ _ => .seq .getS fun s _ =>
    .ite (fun _ => .pure) fun _ => .seq .now fun _ _ => .seq .udpSend fun _ _ => .pure
  exact .seq .getS fun _ _ => .ite (fun _ => .seq .now fun _ _ => .pure) fun _ => .pure

theorem blames_resendLost {rec : M (Bytes × Addr)} (hr : BlamesAll E w0 rec) (fuel : Nat) (nr : U16) (w : World) :
    Blames E w0 (resendLost E fuel rec nr) w := by
  unfold resendLost
  refine .seq .getS fun s _ => ?_
  split
  · exact .pure
  · exact .ignoreErr (blames_sendPacket hr fuel _ _)

theorem blames_resendMissing {rec : M (Bytes × Addr)} (hr : BlamesAll E w0 rec) (fuel : Nat) (ack last : U16) :
    ∀ l loss w, Blames E w0 (resendMissing E fuel rec ack last l loss) w
  | [], _, _ => .pure
  | (idx, received) :: rest, loss, w => by
    unfold resendMissing
    exact .ite (fun _ => blames_resendMissing hr fuel ack last rest loss w) fun _ => .seq .overflowIf fun _ _ => .ite
      (fun _ => .seq (blames_resendLost hr fuel _ _) fun _ w => blames_resendMissing hr fuel ack last rest true w) fun _ => .pure

theorem blames_resendFirst {rec : M (Bytes × Addr)} (hr : BlamesAll E w0 rec) (fuel : Nat) (ack : U16) (data : Bytes) (loss : Bool) (w : World) :
    Blames E w0 (resendFirst E fuel rec ack data loss) w :=
  .ite (fun _ => .seq .overflowIf fun _ _ => .seq (blames_resendLost hr fuel _ _) fun _ _ => .pure) fun _ => .pure

theorem blames_processExtensions {rec : M (Bytes × Addr)} (hr : BlamesAll E w0 rec) (fuel : Nat) (ack : U16) :
    ∀ l loss w, Blames E w0 (processExtensions E fuel rec ack l loss) w
  | [], _, _ => .pure
  | e :: rest, loss, w => by
    unfold processExtensions
    refine .ite (fun _ => .seq (blames_resendFirst hr fuel ack _ _ _) fun _ _ => .seq .getS fun s w => ?_) fun _ =>
      blames_processExtensions hr fuel ack rest loss w
    split
    · exact blames_processExtensions hr fuel ack rest _ w
    · exact .seq .orPanic fun _ _ => .seq (blames_resendMissing hr fuel ack _ _ _ _) fun _ w => blames_processExtensions hr fuel ack rest _ w

theorem blames_handleState {rec : M (Bytes × Addr)} (hr : BlamesAll E w0 rec) (fuel : Nat) (pkt : Packet) (w : World) :
    Blames E w0 (handleState E fuel rec pkt) w := by
  unfold handleState
  refine .seq ?_ fun _ _ => .seq ?_ fun _ _ => .seq .getS fun s _ => .seq .orPanic fun _ _ =>
    .seq (blames_processExtensions hr fuel _ _ _ _) fun _ _ => .seq ?_ fun _ _ => .seq .modS fun _ _ => .seq .getS fun _ _ =>
    .seq .orPanic fun _ _ => .modS
  · exact .seq .getS fun _ _ => .ite (fun _ => .seq .overflowIf fun _ _ => .modS) fun _ => .seq .now fun _ _ => .modS
  · refine .seq .getS fun s _ => ?_
    split
    · exact .pure
    · exact .seq .now fun _ _ => .seq .orPanic fun _ _ => .seq .orPanic fun _ _ => .modS
  · exact .seq .getS fun s _ => .ite (fun _ => .seq .overflowIf fun _ _ => blames_resendLost hr fuel _ _) fun _ => .pure

theorem blames_withSack (s : Socket) (pkt reply : Packet) (w : World) : Blames E w0 (withSack E s pkt reply) w :=
  .ite (fun _ => .seq .orPanic fun _ _ => .ite (fun _ => .orPanic) fun _ => .pure) fun _ => .pure

theorem blames_replyWith (pkt : Packet) (t : PacketType) (w : World) : Blames E w0 (replyWith E pkt t) w :=
  .seq .getS fun _ _ => .seq .now fun _ _ => .pure

/-- The match on state and type: the three errors it gives name their packet. -/
theorem blames_dispatch {rec : M (Bytes × Addr)} (hr : BlamesAll E w0 rec) (fuel : Nat) {pkt : Packet} {src : Addr} {ty : PacketType}
    (hty : pkt.getType = some ty) (w : World) (hg : JustGot E w0 w pkt)
    (hid : ty = .syn ∨ w.s.state = .synSent ∨ pkt.connectionId = w.s.senderId ∨ pkt.connectionId = w.s.receiverId) :
    Blames E w0 (dispatch E fuel rec pkt src w.s.state ty) w := by
  have hreset (hs : w.s.state ≠ .synSent) (ht : ty = .reset) : Blames E w0 onReset w := by
    refine .bind .modS fun _ w1 h1 => .throw fun _ _ => ?_
    have : w1 = w.setS { w.s with state := .resetReceived } := by simp [M.modS] at h1; exact h1.symm
    subst this ht
    exact .reset hg hty (by simpa [hs] using hid) rfl
  have hdata : Blames E w0 (handleData E pkt >>= fun reply => (Pure.pure (some reply) : M (Option Packet))) w :=
    .seq (.seq .getS fun _ _ => .seq .now fun _ _ => blames_withSack _ _ _ _) fun _ _ => .pure
  have hfin : Blames E w0 (onFin E pkt) w :=
    .seq .getS fun _ _ => .seq .now fun _ _ => .seq (blames_withSack _ _ _ _) fun _ _ => .seq .modS fun _ _ => .pure
  cases ty with
  | syn =>
    cases hs : w.s.state with
    | new => exact .seq .rand fun _ _ => .seq .overflowIf fun _ _ => .seq .modS fun _ _ => .seq .getS fun _ _ => .seq .now fun _ _ => .pure
    | _ => exact blames_replyWith pkt .reset w
  | state =>
    cases hs : w.s.state with
    | synSent => exact .seq .getS fun _ _ => .seq .overflowIf fun _ _ => .seq .now fun _ _ => .seq .modS fun _ _ => .pure
    | connected => exact .seq (blames_handleState hr fuel pkt w) fun _ _ => .pure
    | finSent => exact .seq .modS fun _ _ => .pure
    | _ => exact .throw fun _ _ => .unexpected hg hty (by simp) (by simp [hs])
  | data =>
    cases hs : w.s.state with
    | synSent => exact .throw fun _ _ => .badReply hg hty (by simp) (by simp) hs
    | connected => exact hdata
    | finSent => exact hdata
    | _ => exact .throw fun _ _ => .unexpected hg hty (by simp) (by simp [hs])
  | fin =>
    cases hs : w.s.state with
    | synSent => exact .throw fun _ _ => .badReply hg hty (by simp) (by simp) hs
    | connected => exact hfin
    | finSent => exact hfin
    | closed => exact blames_replyWith pkt .state w
    | _ => exact .throw fun _ _ => .unexpected hg hty (by simp) (by simp [hs])
  | reset =>
    cases hs : w.s.state with
    | synSent => exact .throw fun _ _ => .badReply hg hty (by simp) (by simp) hs
    | _ => exact hreset (by simp [hs]) rfl

theorem bumpAck_ids (s : Socket) (pkt : Packet) : (s.bumpAck pkt).senderId = s.senderId ∧ (s.bumpAck pkt).receiverId = s.receiverId ∧
    (s.bumpAck pkt).state = s.state := by
  unfold Socket.bumpAck; split <;> exact ⟨rfl, rfl, rfl⟩

theorem blames_handlePacket {rec : M (Bytes × Addr)} (hr : BlamesAll E w0 rec) (fuel : Nat) (pkt : Packet) (src : Addr) (w : World)
    (hg : JustGot E w0 w pkt) : Blames E w0 (handlePacket E fuel rec pkt src) w := by
  unfold handlePacket
  refine .bind .modS fun _ w1 h1 => .bind .getS fun s w1' h1' => .bind .orPanic fun ty w2 h2 => ?_
  have e1 : w1 = w.setS (w.s.bumpAck pkt) := by simp [M.modS] at h1; exact h1.symm
  have e2 : s = w1.s ∧ w1' = w1 := by simp [M.getS] at h1'; exact ⟨h1'.1.symm, h1'.2.symm⟩
  obtain ⟨rfl, rfl⟩ := e2
  have e3 : pkt.getType = some ty ∧ w2 = w1' := by
    cases hp : pkt.getType with
    | none => simp [hp, M.orPanic, M.panic] at h2
    | some t => simp [hp, M.orPanic, M.ret] at h2; exact ⟨by rw [h2.1], h2.2.symm⟩
  obtain ⟨hty, rfl⟩ := e3
  refine .ite (fun _ => blames_replyWith _ _ _) fun hc => .bind .now fun t w3 h3 => .bind .modS fun _ w4 h4 => ?_
  have e4 : w3 = { w2 with nNow := w2.nNow + 1 } := by simp [M.now] at h3; exact h3.2.symm
  have e5 : w4 = w3.setS { w3.s with remoteWnd := pkt.wndSize, theirDelay := absDiff t pkt.timestamp } := by simp [M.modS] at h4; exact h4.symm
  subst e4 e5
  refine blames_dispatch hr fuel hty _ (by subst e1; exact hg) ?_
  by_cases ht : ty = .syn
  · exact .inl ht
  · by_cases hs : w2.s.state = .synSent
    · exact .inr (.inl hs)
    · refine .inr (.inr ?_)
      simp only [ne_eq, ht, not_false_eq_true, hs, true_and, Classical.not_not] at hc
      exact hc

theorem blames_recvPacket {rec : M (Bytes × Addr)} (hr : BlamesAll E w0 rec) (fuel len : Nat) (pkt : Packet) (src : Addr) (w : World)
    (hg : JustGot E w0 w pkt) : Blames E w0 (recvPacket E fuel rec len pkt src) w := by
  unfold recvPacket
  refine .seq (blames_handlePacket hr fuel pkt src w hg) fun r _ => .seq ?_ fun _ _ => .seq .orPanic fun _ _ => .seq .modS fun _ _ =>
    .seq (blames_flushIncoming len) fun _ _ => .pure
  cases r with
  | none => exact .pure
  | some r => exact .udpSend

end Utp
