import Verif.Spec.Run
import Verif.Lemmas.Logic
/-!
# Builds with and without overflow checks agree until the first panic
-/

namespace Utp
open M

/-- The same environment for a build without overflow checks. -/
def Env.release (E : Env) : Env := { E with checks := false }

/-- `m'` does what `m` does whenever `m` does not panic. -/
def Agrees {α : Type} (m m' : M α) : Prop := ∀ w, (m w).1 ≠ .panic → m' w = m w

variable {E : Env} {α β : Type}

namespace Agrees

theorem refl (m : M α) : Agrees m m := fun _ _ => rfl

theorem andThen {m m' : M α} {f f' : α → M β} (h : Agrees m m') (hf : ∀ a, Agrees (f a) (f' a)) :
    Agrees (M.andThen m f) (M.andThen m' f') := by
  intro w hp
  unfold M.andThen at hp ⊢
  have hm := h w
  rcases hw : m w with ⟨r, w'⟩
  rw [hw] at hm hp
  cases r with
  | ok a => rw [hm (by simp)]; exact hf a w' hp
  | err e => rw [hm (by simp)]
  | panic => exact absurd rfl hp
  | pending => rw [hm (by simp)]

theorem seq {m m' : M α} {f f' : α → M β} (h : Agrees m m') (hf : ∀ a, Agrees (f a) (f' a)) : Agrees (m >>= f) (m' >>= f') :=
  andThen h hf

theorem seqR {m : M α} {f f' : α → M β} (hf : ∀ a, Agrees (f a) (f' a)) : Agrees (m >>= f) (m >>= f') := seq (refl _) hf

theorem ignoreErr {m m' : M α} (h : Agrees m m') : Agrees (M.ignoreErr m) (M.ignoreErr m') := by
  intro w hp
  unfold M.ignoreErr at hp ⊢
  have hm := h w
  rcases hw : m w with ⟨r, w'⟩
  rw [hw] at hm hp
  cases r with
  | panic => exact absurd rfl hp
  | _ => rw [hm (by simp)]

theorem overflowIf {b : Bool} : Agrees (M.overflowIf E b) (M.overflowIf E.release b) := by
  intro w hp
  unfold M.overflowIf at hp ⊢
  split at hp
  · exact absurd rfl hp
  · rename_i h; simp [Env.release, h]

theorem orPanic {o o' : Option α} (h : ∀ a, o = some a → o' = some a) : Agrees (M.orPanic o) (M.orPanic o') := by
  intro w hp
  cases o with
  | none => exact absurd rfl hp
  | some a => rw [h a rfl]

theorem whileM {c c' : M Bool} {b b' : M Unit} (hc : Agrees c c') (hb : Agrees b b') : ∀ n, Agrees (M.whileM n c b) (M.whileM n c' b')
  | 0 => refl _
  | n + 1 => by
    refine andThen hc fun go => ?_
    cases go with
    | true => exact andThen hb fun _ => whileM hc hb n
    | false => exact refl _

end Agrees


theorem agrees_subLens : ∀ (l : List Packet) (c : U32) {r : U32}, Socket.subLens E c l = some r → Socket.subLens E.release c l = some r := by
  intro l
  induction l with
  | nil => intro c r h; exact h
  | cons p l ih =>
    intro c r h
    unfold Socket.subLens at h ⊢
    simp only at h ⊢
    split at h
    · simp at h
    · rw [if_neg (by simp [Env.release])]; exact ih _ h

theorem agrees_advance {s s' : Socket} (h : s.advanceSendWindow E = some s') : s.advanceSendWindow E.release = some s' := by
  unfold Socket.advanceSendWindow at h ⊢
  split at h
  · exact h
  · split at h
    · simp at h
    · rename_i hs; simp only [agrees_subLens _ _ hs]; exact h

theorem agrees_buildSack {s : Socket} {b : Bytes} (h : s.buildSack E = some b) : s.buildSack E.release = some b := by
  unfold Socket.buildSack at h ⊢
  split at h
  · simp at h
  · rw [if_neg (by simp [Env.release])]; exact h

theorem agrees_cwnd {s s' : Socket} {n : U32} (h : s.updateCongestionWindow E n = some s') :
    s.updateCongestionWindow E.release n = some s' := by
  unfold Socket.updateCongestionWindow at h ⊢
  split at h
  · simp at h
  · rw [if_neg (by simp [Env.release])]; exact h

theorem agrees_onNewAck {s s' : Socket} {i : Nat} {p : Packet} {t : U32} (h : s.onNewAck E i p t = some s') :
    s.onNewAck E.release i p t = some s' := by
  unfold Socket.onNewAck at h ⊢
  simp only at h ⊢
  split at h
  · simp at h
  · rename_i s1 hs1
    split at h
    · simp at h
    · rename_i s2 hs2
      simp only [agrees_cwnd hs2]
      exact h

theorem agrees_flushIncoming (len : Nat) : Agrees (flushIncoming E len) (flushIncoming E.release len) := by
  unfold flushIncoming
  refine Agrees.seqR fun s => ?_
  split
  · exact .refl _
  · split
    · exact .refl _
    · exact Agrees.seq .overflowIf fun _ => .refl _

theorem agrees_timeout : Agrees (handleReceiveTimeout E) (handleReceiveTimeout E.release) := by
  unfold handleReceiveTimeout
  exact Agrees.seqR fun s => Agrees.seq .overflowIf fun _ => .refl _

theorem agrees_recvWait : ∀ fuel retries, Agrees (recvWait E fuel retries) (recvWait E.release fuel retries)
  | 0, _ => .refl _
  | fuel + 1, retries => by
    unfold recvWait
    refine Agrees.seqR fun s => ?_
    split
    · exact .refl _
    · refine Agrees.seqR fun r => ?_
      split
      · exact .refl _
      · split
        · exact Agrees.seq agrees_timeout fun _ => agrees_recvWait fuel _
        · exact .refl _

theorem agrees_sendPacket {rec rec' : M (Bytes × Addr)} (hr : Agrees rec rec') (fuel : Nat) (p : Packet) :
    Agrees (sendPacket E fuel rec p) (sendPacket E.release fuel rec' p) := by
  unfold sendPacket
  exact Agrees.seqR fun s => Agrees.seqR fun t => Agrees.seq (.whileM (.refl _) (Agrees.andThen hr fun _ => .refl _) _) fun _ => .refl _

theorem agrees_resendLost {rec rec' : M (Bytes × Addr)} (hr : Agrees rec rec') (fuel : Nat) (nr : U16) :
    Agrees (resendLost E fuel rec nr) (resendLost E.release fuel rec' nr) := by
  unfold resendLost
  refine Agrees.seqR fun s => ?_
  split
  · exact .refl _
  · exact .ignoreErr (agrees_sendPacket hr _ _)

theorem agrees_resendMissing {rec rec' : M (Bytes × Addr)} (hr : Agrees rec rec') (fuel : Nat) (ack last : U16) :
    ∀ bits loss, Agrees (resendMissing E fuel rec ack last bits loss) (resendMissing E.release fuel rec' ack last bits loss) := by
  intro bits
  induction bits with
  | nil => intro loss; exact .refl _
  | cons x rest ih =>
    intro loss
    obtain ⟨idx, received⟩ := x
    unfold resendMissing
    split
    · exact ih _
    · refine Agrees.seq .overflowIf fun _ => ?_
      simp only
      split
      · exact Agrees.seq (agrees_resendLost hr _ _) fun _ => ih _
      · exact .refl _

theorem agrees_processExtensions {rec rec' : M (Bytes × Addr)} (hr : Agrees rec rec') (fuel : Nat) (ack : U16) :
    ∀ exts loss, Agrees (processExtensions E fuel rec ack exts loss) (processExtensions E.release fuel rec' ack exts loss) := by
  intro exts
  induction exts with
  | nil => intro loss; exact .refl _
  | cons e rest ih =>
    intro loss
    unfold processExtensions
    split
    · refine Agrees.seq ?_ fun loss1 => Agrees.seqR fun s => ?_
      · unfold resendFirst
        split
        · exact Agrees.seq .overflowIf fun _ => Agrees.seq (agrees_resendLost hr _ _) fun _ => .refl _
        · exact .refl _
      · split
        · exact ih _
        · exact Agrees.seqR fun bits => Agrees.seq (agrees_resendMissing hr _ _ _ _ _) fun _ => ih _
    · exact ih _

theorem agrees_handleState {rec rec' : M (Bytes × Addr)} (hr : Agrees rec rec') (fuel : Nat) (pkt : Packet) :
    Agrees (handleState E fuel rec pkt) (handleState E.release fuel rec' pkt) := by
  unfold handleState
  refine Agrees.seq ?_ fun _ => Agrees.seq ?_ fun _ => Agrees.seqR fun s => Agrees.seqR fun exts => Agrees.seq (agrees_processExtensions hr _ _ _ _) fun loss =>
    Agrees.seq ?_ fun _ => Agrees.seqR fun _ => Agrees.seqR fun s => Agrees.seq (.orPanic fun _ => agrees_advance) fun _ => .refl _
  · unfold countAck
    refine Agrees.seqR fun s => ?_
    split
    · exact Agrees.seq .overflowIf fun _ => .refl _
    · exact .refl _
  · unfold measureAck
    refine Agrees.seqR fun s => ?_
    split
    · exact .refl _
    · exact Agrees.seqR fun t => Agrees.seqR fun p => Agrees.seq (.orPanic fun _ => agrees_onNewAck) fun _ => .refl _
  · unfold fastRetransmit
    refine Agrees.seqR fun s => ?_
    split
    · exact Agrees.seq .overflowIf fun _ => agrees_resendLost hr _ _
    · exact .refl _

theorem agrees_withSack (s : Socket) (pkt reply : Packet) : Agrees (withSack E s pkt reply) (withSack E.release s pkt reply) := by
  unfold withSack
  split
  · exact Agrees.seq (.orPanic fun _ => agrees_buildSack) fun _ => .refl _
  · exact .refl _

theorem agrees_dispatch {rec rec' : M (Bytes × Addr)} (hr : Agrees rec rec') (fuel : Nat) (pkt : Packet) (src : Addr)
    (st : SocketState) (ty : PacketType) :
    Agrees (dispatch E fuel rec pkt src st ty) (dispatch E.release fuel rec' pkt src st ty) := by
  have hd : Agrees (handleData E pkt) (handleData E.release pkt) := Agrees.seqR fun s => Agrees.seqR fun t => agrees_withSack _ _ _
  have hf : Agrees (onFin E pkt) (onFin E.release pkt) := Agrees.seqR fun s => Agrees.seqR fun t => Agrees.seq (agrees_withSack _ _ _) fun _ => .refl _
  have hs : Agrees (onSyn E pkt src) (onSyn E.release pkt src) := Agrees.seqR fun r => Agrees.seq .overflowIf fun _ => .refl _
  have ha : Agrees (onSynAck E pkt src) (onSynAck E.release pkt src) := Agrees.seqR fun s => Agrees.seq .overflowIf fun _ => .refl _
  have hst := agrees_handleState (E := E) hr fuel pkt
  cases st <;> cases ty <;> simp only [dispatch] <;>
    first
    | with_reducible exact hs
    | with_reducible exact ha
    | with_reducible exact hf
    | with_reducible exact Agrees.seq hd fun _ => .refl _
    | with_reducible exact Agrees.seq hst fun _ => .refl _
    | exact .refl _

theorem agrees_handlePacket {rec rec' : M (Bytes × Addr)} (hr : Agrees rec rec') (fuel : Nat) (pkt : Packet) (src : Addr) :
    Agrees (handlePacket E fuel rec pkt src) (handlePacket E.release fuel rec' pkt src) := by
  unfold handlePacket
  refine Agrees.seqR fun _ => Agrees.seqR fun s => Agrees.seqR fun ty => ?_
  split
  · exact .refl _
  · exact Agrees.seqR fun t => Agrees.seqR fun _ => agrees_dispatch hr _ _ _ _ _

theorem agrees_recv : ∀ fuel len, Agrees (recv E fuel len) (recv E.release fuel len)
  | 0, _ => .refl _
  | fuel + 1, len => by
    unfold recv recvBody
    refine Agrees.seq (agrees_recvWait _ _) fun x => Agrees.seqR fun r => ?_
    split
    · exact .refl _
    · unfold recvPacket
      exact Agrees.seq (agrees_handlePacket (agrees_recv fuel _) _ _ _) fun reply => Agrees.seqR fun _ => Agrees.seqR fun ty => Agrees.seqR fun _ =>
        Agrees.seq (agrees_flushIncoming _) fun _ => .refl _

theorem agrees_recvFromLoop (fuel len : Nat) : ∀ n, Agrees (recvFromLoop E fuel len n) (recvFromLoop E.release fuel len n)
  | 0 => .refl _
  | n + 1 => by
    unfold recvFromLoop
    refine Agrees.seqR fun s => ?_
    split
    · exact .refl _
    · refine Agrees.seq (agrees_recv _ _) fun x => ?_
      obtain ⟨out, src⟩ := x
      simp only
      split
      · exact agrees_recvFromLoop fuel len n
      · exact .refl _

theorem agrees_sendQueue (fuel : Nat) : ∀ n, Agrees (sendQueue E fuel n) (sendQueue E.release fuel n)
  | 0 => .refl _
  | n + 1 => by
    unfold sendQueue
    refine Agrees.seqR fun s => ?_
    split
    · exact .refl _
    · exact Agrees.seqR fun _ => Agrees.seq (agrees_sendPacket (agrees_recv _ _) _ _) fun p => Agrees.seqR fun s => Agrees.seq .overflowIf fun _ =>
        Agrees.seqR fun _ => agrees_sendQueue fuel n

theorem agrees_flush (fuel : Nat) : Agrees (flush E fuel) (flush E.release fuel) :=
  .whileM (.refl _) (Agrees.seq (agrees_recv _ _) fun _ => .refl _) _

theorem agrees_close (fuel : Nat) : Agrees (close E fuel) (close E.release fuel) := by
  unfold close
  refine Agrees.seqR fun s => ?_
  split
  · exact .refl _
  · exact Agrees.seq (agrees_flush _) fun _ => Agrees.seqR fun s => Agrees.seqR fun t => Agrees.seqR fun _ => Agrees.seqR fun _ =>
      .whileM (.refl _) (Agrees.seq (agrees_recv _ _) fun _ => .refl _) _

theorem agrees_recvFrom (fuel len : Nat) : Agrees (recvFrom E fuel len) (recvFrom E.release fuel len) := by
  unfold recvFrom
  refine Agrees.seq (agrees_flushIncoming _) fun out => Agrees.seqR fun s => ?_
  split
  · exact .refl _
  · split
    · exact .refl _
    · exact agrees_recvFromLoop _ _ _

theorem agrees_sendTo (fuel : Nat) (buf : Bytes) : Agrees (sendTo E fuel buf) (sendTo E.release fuel buf) := by
  unfold sendTo
  refine Agrees.seqR fun s => ?_
  split
  · exact .refl _
  · exact Agrees.seqR fun _ => Agrees.seq (agrees_sendQueue _ _) fun _ => .refl _

theorem agrees_runOp (fuel : Nat) (op : Op) : Agrees (runOp E fuel op) (runOp E.release fuel op) := by
  cases op with
  | recvFrom len => exact Agrees.seq (agrees_recvFrom _ _) fun _ => .refl _
  | sendTo buf => exact Agrees.seq (agrees_sendTo _ _) fun _ => .refl _
  | flush => exact Agrees.seq (agrees_flush _) fun _ => .refl _
  | close => exact Agrees.seq (agrees_close _) fun _ => .refl _
  | setMaxRetries n => exact .refl _

theorem agrees_synLoop : ∀ n t, Agrees (synLoop E n t) (synLoop E.release n t)
  | 0, _ => .refl _
  | n + 1, t => by
    unfold synLoop
    refine Agrees.seqR fun s => Agrees.seqR fun t' => Agrees.seqR fun _ => Agrees.seqR fun _ => Agrees.seqR fun r => ?_
    split
    · exact .refl _
    · split
      · exact agrees_synLoop n _
      · exact .refl _

theorem agrees_connectM (fuel : Nat) (addr : Addr) : Agrees (connectM E fuel addr) (connectM E.release fuel addr) := by
  unfold connectM
  refine Agrees.seqR fun _ => Agrees.seqR fun s => Agrees.seq (agrees_synLoop _ _) fun b => Agrees.seqR fun s => Agrees.seqR fun r => ?_
  split
  · exact .refl _
  · exact Agrees.seq (agrees_handlePacket (agrees_recv _ _) _ _ _) fun _ => .refl _

theorem agrees_acceptM (fuel : Nat) (pkt : Packet) (src : Addr) : Agrees (acceptM E fuel pkt src) (acceptM E.release fuel pkt src) := by
  intro w hp
  unfold acceptM at hp ⊢
  have hm := agrees_handlePacket (E := E) (agrees_recv (E := E) fuel BUF_SIZE) fuel pkt src w
  rcases hw : handlePacket E fuel (recv E fuel BUF_SIZE) pkt src w with ⟨r, w'⟩
  rw [hw] at hm hp
  cases r with
  | panic => exact absurd rfl hp
  | ok a => rw [hm (by simp)]; cases a <;> rfl
  | _ => rw [hm (by simp)]

end Utp
