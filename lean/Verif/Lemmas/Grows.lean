import Verif.Lemmas.Eval
/-!
# The log of effects only grows
-/

namespace Utp
open M

variable {E : Env} {α β : Type}

/-- Whatever the outcome, the effects so far stay at the front of the log. -/
def Grows (m : M α) : Prop := ∀ w, w.log <+: (m w).2.log

namespace Grows

theorem andThen {m : M α} {f : α → M β} (h : Grows m) (hf : ∀ a, Grows (f a)) : Grows (M.andThen m f) := by
  intro w
  have h := h w
  unfold M.andThen
  rcases hm : m w with ⟨r, w'⟩
  rw [hm] at h
  cases r with
  | ok a => exact h.trans (hf a w')
  | err e => exact h
  | panic => exact h
  | pending => exact h

theorem bind {m : M α} {f : α → M β} (h : Grows m) (hf : ∀ a, Grows (f a)) : Grows (m >>= f) := andThen h hf

theorem ignoreErr {m : M α} (h : Grows m) : Grows (M.ignoreErr m) := by
  intro w
  have h := h w
  unfold M.ignoreErr
  rcases hm : m w with ⟨r, w'⟩
  rw [hm] at h
  cases r <;> exact h

theorem ret {a : α} : Grows (M.ret a) := fun w => List.prefix_refl w.log
theorem pure {a : α} : Grows (Pure.pure a : M α) := ret
theorem throw {e : IoErr} : Grows (M.throw e : M α) := fun w => List.prefix_refl w.log
theorem panic : Grows (M.panic : M α) := fun w => List.prefix_refl w.log
theorem never : Grows (M.never : M α) := fun w => List.prefix_refl w.log
theorem getS : Grows M.getS := fun w => List.prefix_refl w.log
theorem modS {f : Socket → Socket} : Grows (M.modS f) := fun w => List.prefix_refl w.log
theorem now : Grows (M.now E) := fun w => List.prefix_refl w.log
theorem rand : Grows (M.rand E) := fun w => List.prefix_refl w.log
theorem orPanic {o : Option α} : Grows (M.orPanic o) := by cases o <;> exact fun w => List.prefix_refl w.log
theorem overflowIf {b : Bool} : Grows (M.overflowIf E b) := by
  unfold M.overflowIf
  split
  · exact panic
  · exact ret
theorem ite {c : Prop} [Decidable c] {a b : M α} (h : Grows a) (h' : Grows b) : Grows (if c then a else b) := by split <;> assumption
theorem udpSend {dst : Addr} {b : Bytes} : Grows (M.udpSend E dst b) := by
  intro w
  unfold M.udpSend
  split <;> exact List.prefix_append _ _
theorem udpRecv {t : Option U64} {n : Nat} : Grows (M.udpRecv E t n) := by
  intro w
  unfold M.udpRecv
  simp only
  split <;> exact List.prefix_append _ _
theorem whileM {c : M Bool} {b : M Unit} (hc : Grows c) (hb : Grows b) : ∀ n, Grows (M.whileM n c b)
  | 0 => never
  | n + 1 => andThen hc fun _ => ite (andThen hb fun _ => whileM hc hb n) ret

end Grows

open Grows

/-- One step of a proof of `Grows`. -/
macro "grow" : tactic => `(tactic| repeat' first
  | assumption
  | exact Grows.ret | exact Grows.pure | exact Grows.throw | exact Grows.panic | exact Grows.never | exact Grows.getS | exact Grows.modS | exact Grows.now
  | exact Grows.rand | exact Grows.orPanic | exact Grows.overflowIf | exact Grows.udpSend | exact Grows.udpRecv
  | apply Grows.bind | apply Grows.andThen | apply Grows.ignoreErr | apply Grows.whileM | apply Grows.ite | split | (intro _; skip))

theorem grows_flushIncoming (len : Nat) : Grows (flushIncoming E len) := by unfold flushIncoming; grow
theorem grows_fastResendOne : Grows (fastResendOne E) := by unfold fastResendOne; grow
theorem grows_fastResendRequest : Grows (fastResendRequest E) := by
  unfold fastResendRequest
  exact .bind grows_fastResendOne fun _ => .bind grows_fastResendOne fun _ => grows_fastResendOne
theorem grows_handleReceiveTimeout : Grows (handleReceiveTimeout E) := by
  have := grows_fastResendRequest (E := E)
  unfold handleReceiveTimeout
  grow
theorem grows_recvWait : ∀ fuel r, Grows (recvWait E fuel r)
  | 0, _ => never
  | fuel + 1, r => by
    have h1 := grows_handleReceiveTimeout (E := E)
    have h2 := grows_recvWait fuel (r + 1)
    unfold recvWait
    grow

variable {rec : M (Bytes × Addr)}

theorem grows_sendPacket (hr : Grows rec) (fuel : Nat) (p : Packet) : Grows (sendPacket E fuel rec p) := by
  unfold sendPacket
  exact .bind .getS fun _ => .bind .now fun _ => .bind (.whileM (.bind .getS fun _ => .ite (.bind .now fun _ => .ret) .ret) (.andThen hr fun _ => .ret) fuel)
    fun _ => .bind .getS fun _ => .ite .ret (.bind .now fun _ => .bind .udpSend fun _ => .ret)
theorem grows_resendLost (hr : Grows rec) (fuel : Nat) (nr : U16) : Grows (resendLost E fuel rec nr) := by
  unfold resendLost
  have := grows_sendPacket (E := E) hr fuel
  refine .bind .getS fun _ => ?_
  split
  · exact .ret
  · exact .ignoreErr (this _)
theorem grows_resendMissing (hr : Grows rec) (fuel : Nat) (ack last : U16) : ∀ l loss, Grows (resendMissing E fuel rec ack last l loss)
  | [], _ => .ret
  | (_, _) :: rest, _ => by
    have ih := grows_resendMissing hr fuel ack last rest
    unfold resendMissing
    exact .ite (ih _) (.bind .overflowIf fun _ => .ite (.bind (grows_resendLost hr fuel _) fun _ => ih _) .ret)
theorem grows_resendFirst (hr : Grows rec) (fuel : Nat) (ack : U16) (d : Bytes) (loss : Bool) : Grows (resendFirst E fuel rec ack d loss) := by
  unfold resendFirst
  exact .ite (.bind .overflowIf fun _ => .bind (grows_resendLost hr fuel _) fun _ => .ret) .ret
theorem grows_processExtensions (hr : Grows rec) (fuel : Nat) (ack : U16) : ∀ l loss, Grows (processExtensions E fuel rec ack l loss)
  | [], _ => .ret
  | e :: rest, _ => by
    have ih := grows_processExtensions hr fuel ack rest
    unfold processExtensions
    refine .ite (.bind (grows_resendFirst hr fuel _ _ _) fun _ => .bind .getS fun _ => ?_) (ih _)
    split
    · exact ih _
    · exact .bind .orPanic fun _ => .bind (grows_resendMissing hr fuel _ _ _ _) fun _ => ih _
theorem grows_handleState (hr : Grows rec) (fuel : Nat) (pkt : Packet) : Grows (handleState E fuel rec pkt) := by
  have h1 : Grows (countAck E pkt) := by unfold countAck; grow
  have h2 : Grows (measureAck E pkt) := by unfold measureAck; grow
  have h3 : ∀ exts, Grows (fastRetransmit E fuel rec pkt exts) := fun exts => by
    unfold fastRetransmit
    exact .bind .getS fun _ => .ite (.bind .overflowIf fun _ => grows_resendLost hr fuel _) .ret
  exact .bind h1 fun _ => .bind h2 fun _ => .bind .getS fun _ => .bind .orPanic fun _ => .bind (grows_processExtensions hr fuel _ _ _) fun _ =>
    .bind (h3 _) fun _ => .bind .modS fun _ => .bind .getS fun _ => .bind .orPanic fun _ => .modS
theorem grows_withSack (s : Socket) (pkt reply : Packet) : Grows (withSack E s pkt reply) := by unfold withSack; grow
theorem grows_handleData (pkt : Packet) : Grows (handleData E pkt) := by
  unfold handleData
  exact .bind .getS fun _ => .bind .now fun _ => grows_withSack _ _ _
theorem grows_dispatch (hr : Grows rec) (fuel : Nat) (pkt : Packet) (src : Addr) (st : SocketState) (ty : PacketType) :
    Grows (dispatch E fuel rec pkt src st ty) := by
  have h1 := grows_handleState (E := E) hr fuel pkt
  have h2 := grows_handleData (E := E) pkt
  have h3 : ∀ s reply, Grows (withSack E s pkt reply) := fun s reply => grows_withSack s pkt reply
  have h4 : Grows (onFin E pkt) := by unfold onFin; exact .bind .getS fun _ => .bind .now fun _ => .bind (h3 _ _) fun _ => .bind .modS fun _ => .ret
  have h5 : ∀ t, Grows (replyWith E pkt t) := fun t => .bind .getS fun _ => .bind .now fun _ => .ret
  have h6 : Grows (onSyn E pkt src) := .bind .rand fun _ => .bind .overflowIf fun _ => .bind .modS fun _ => .bind .getS fun _ => .bind .now fun _ => .ret
  have h7 : Grows (onSynAck E pkt src) := .bind .getS fun _ => .bind .overflowIf fun _ => .bind .now fun _ => .bind .modS fun _ => .ret
  unfold dispatch
  split
  · exact h6
  · exact h5 _
  · exact h7
  · exact .throw
  · exact .bind h2 fun _ => .ret
  · exact .bind h2 fun _ => .ret
  · exact .bind h1 fun _ => .ret
  · exact h4
  · exact h4
  · exact h5 _
  · exact .bind .modS fun _ => .ret
  · exact .bind .modS fun _ => .throw
  · exact .throw
theorem grows_handlePacket (hr : Grows rec) (fuel : Nat) (pkt : Packet) (src : Addr) : Grows (handlePacket E fuel rec pkt src) := by
  unfold handlePacket replyWith
  exact .bind .modS fun _ => .bind .getS fun _ => .bind .orPanic fun _ => .ite (.bind .getS fun _ => .bind .now fun _ => .ret)
    (.bind .now fun _ => .bind .modS fun _ => grows_dispatch hr fuel pkt src _ _)
theorem grows_recvPacket (hr : Grows rec) (fuel len : Nat) (pkt : Packet) (src : Addr) : Grows (recvPacket E fuel rec len pkt src) := by
  have h1 : ∀ r, Grows (sendReply E src r) := fun r => by unfold sendReply; grow
  exact .bind (grows_handlePacket hr fuel pkt src) fun _ => .bind (h1 _) fun _ => .bind .orPanic fun _ => .bind .modS fun _ =>
    .bind (grows_flushIncoming len) fun _ => .ret
theorem grows_recv : ∀ fuel len, Grows (recv E fuel len)
  | 0, _ => never
  | fuel + 1, len => by
    have hr := grows_recv fuel BUF_SIZE
    unfold recv recvBody
    refine .bind (grows_recvWait fuel 0) fun x => ?_
    refine .bind .orPanic fun o => ?_
    split
    · exact .bind .getS fun _ => .ret
    · exact grows_recvPacket hr fuel len _ _
theorem grows_recvFromLoop (fuel len : Nat) : ∀ n, Grows (recvFromLoop E fuel len n)
  | 0 => never
  | n + 1 => by
    have h1 := grows_recv (E := E) fuel len
    have h2 := grows_recvFromLoop fuel len n
    unfold recvFromLoop
    refine .bind .getS fun _ => .ite .ret (.bind h1 fun _ => .ite h2 .ret)
theorem grows_recvFrom (fuel len : Nat) : Grows (recvFrom E fuel len) := by
  unfold recvFrom
  exact .bind (grows_flushIncoming len) fun _ => .bind .getS fun _ => .ite .ret (.ite .throw (grows_recvFromLoop fuel len fuel))
theorem grows_sendQueue (fuel : Nat) : ∀ n, Grows (sendQueue E fuel n)
  | 0 => never
  | n + 1 => by
    have ih := grows_sendQueue fuel n
    unfold sendQueue
    refine .bind .getS fun _ => ?_
    split
    · exact .ret
    · exact .bind .modS fun _ => .bind (grows_sendPacket (grows_recv fuel _) fuel _) fun _ => .bind .getS fun _ => .bind .overflowIf fun _ =>
        .bind .modS fun _ => ih
theorem grows_sendTo (fuel : Nat) (buf : Bytes) : Grows (sendTo E fuel buf) := by
  unfold sendTo
  exact .bind .getS fun _ => .ite .throw (.bind .modS fun _ => .bind (grows_sendQueue fuel fuel) fun _ => .ret)
theorem grows_flush (fuel : Nat) : Grows (flush E fuel) := by
  unfold flush scratchRecv
  exact .whileM (.bind .getS fun _ => .ret) (.bind (grows_recv fuel _) fun _ => .ret) fuel

end Utp
