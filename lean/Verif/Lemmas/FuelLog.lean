import Verif.Lemmas.Fuel
import Verif.Lemmas.Lossless
/-!
# Fuel and the log

More fuel lets a run that was cut off go on: it does what it did with less fuel, and then more.
-/

namespace Utp
open M

variable {E : Env} {α β : Type}

/-- `m'` does what `m` does, except that it goes on where `m` is pending. -/
def Ext (m m' : M α) : Prop := ∀ w, m' w = m w ∨ (m w).1 = .pending ∧ (m w).2.log <+: (m' w).2.log

namespace Ext

theorem refl (m : M α) : Ext m m := fun _ => .inl rfl

theorem never {m : M α} (h : Grows m) : Ext M.never m := fun w => .inr ⟨rfl, h w⟩

theorem log {m m' : M α} (h : Ext m m') (w : World) : (m w).2.log <+: (m' w).2.log := by
  rcases h w with h | h
  · rw [h]; exact List.prefix_refl _
  · exact h.2

theorem andThen {m m' : M α} {f f' : α → M β} (h : Ext m m') (hg : ∀ a, Grows (f' a)) (hf : ∀ a, Ext (f a) (f' a)) :
    Ext (M.andThen m f) (M.andThen m' f') := by
  intro w
  unfold M.andThen
  rcases h w with h | ⟨h1, h2⟩
  · rw [h]
    rcases hm : m w with ⟨r, w'⟩
    cases r with
    | ok a => exact hf a w'
    | err e => exact .inl rfl
    | panic => exact .inl rfl
    | pending => exact .inl rfl
  · rcases hm : m w with ⟨r, w1⟩
    rcases hm' : m' w with ⟨r', w2⟩
    rw [hm] at h1 h2
    rw [hm'] at h2
    subst h1
    refine .inr ⟨rfl, ?_⟩
    cases r' with
    | ok a => exact h2.trans (hg a w2)
    | err e => exact h2
    | panic => exact h2
    | pending => exact h2

theorem bind {m m' : M α} {f f' : α → M β} (h : Ext m m') (hg : ∀ a, Grows (f' a)) (hf : ∀ a, Ext (f a) (f' a)) :
    Ext (m >>= f) (m' >>= f') := andThen h hg hf

/-- The first part is the same. -/
theorem after {m : M α} {f f' : α → M β} (hf : ∀ a, Ext (f a) (f' a)) : Ext (m >>= f) (m >>= f') := by
  intro w
  rw [bind_def, bind_def]
  unfold M.andThen
  rcases hm : m w with ⟨r, w'⟩
  cases r with
  | ok a => exact hf a w'
  | err e => exact .inl rfl
  | panic => exact .inl rfl
  | pending => exact .inl rfl

theorem ignoreErr {m m' : M α} (h : Ext m m') : Ext (M.ignoreErr m) (M.ignoreErr m') := by
  intro w
  unfold M.ignoreErr
  rcases h w with h | ⟨h1, h2⟩
  · rw [h]; exact .inl rfl
  · rcases hm : m w with ⟨r, w1⟩
    rcases hm' : m' w with ⟨r', w2⟩
    rw [hm] at h1 h2
    rw [hm'] at h2
    subst h1
    refine .inr ⟨rfl, ?_⟩
    cases r' <;> exact h2

theorem ite {c : Prop} [Decidable c] {a a' b b' : M α} (h : Ext a a') (h' : Ext b b') :
    Ext (if c then a else b) (if c then a' else b') := by
  split
  · exact h
  · exact h'

theorem whileM {c : M Bool} {b b' : M Unit} (hc : Grows c) (hg : Grows b') (hb : Ext b b') : ∀ {n n' : Nat}, n ≤ n' → Ext (M.whileM n c b) (M.whileM n' c b')
  | 0, _, _ => .never (.whileM hc hg _)
  | n + 1, 0, h => absurd h (by omega)
  | n + 1, n' + 1, h => by
    unfold M.whileM
    refine after (m := c) fun go => ?_
    split
    · exact andThen hb (fun _ => .whileM hc hg _) fun _ => whileM hc hg hb (by omega)
    · exact refl _

end Ext

section
variable {f f' : Nat} {rec rec' : M (Bytes × Addr)}

theorem ext_recvWait : ∀ {n n' : Nat} (r : Nat), n ≤ n' → Ext (recvWait E n r) (recvWait E n' r)
  | 0, _, _, _ => .never (grows_recvWait _ _)
  | n + 1, 0, _, h => absurd h (by omega)
  | n + 1, n' + 1, r, h => by
    have := ext_recvWait (n := n) (n' := n') (r + 1) (by omega)
    unfold recvWait
    refine .after fun s => .ite (.refl _) (.after fun x => ?_)
    split
    · exact .refl _
    · exact .ite (.after fun _ => this) (.refl _)

theorem ext_sendPacket (hf : f ≤ f') (hg : Grows rec') (hr : Ext rec rec') (p : Packet) :
    Ext (sendPacket E f rec p) (sendPacket E f' rec' p) := by
  unfold sendPacket
  refine .after fun s => .after fun t => .bind (.whileM ?_ (.andThen hg fun _ => .ret) (.andThen hr (fun _ => .ret) fun _ => .refl _) hf) ?_ fun _ => .refl _
  · exact .bind .getS fun _ => .ite (.bind .now fun _ => .ret) .ret
  · exact fun _ => .bind .getS fun _ => .ite .ret (.bind .now fun _ => .bind .udpSend fun _ => .ret)

theorem ext_resendLost (hf : f ≤ f') (hg : Grows rec') (hr : Ext rec rec') (nr : U16) : Ext (resendLost E f rec nr) (resendLost E f' rec' nr) := by
  unfold resendLost
  refine .after fun s => ?_
  split
  · exact .refl _
  · exact .ignoreErr (ext_sendPacket hf hg hr _)

theorem ext_resendMissing (hf : f ≤ f') (hg : Grows rec') (hr : Ext rec rec') (ack last : U16) : ∀ l loss,
    Ext (resendMissing E f rec ack last l loss) (resendMissing E f' rec' ack last l loss)
  | [], _ => .refl _
  | (idx, received) :: rest, loss => by
    have ih := ext_resendMissing hf hg hr ack last rest
    unfold resendMissing
    exact .ite (ih _) (.after fun _ => .ite (.bind (ext_resendLost hf hg hr _) (fun _ => grows_resendMissing hg _ _ _ _ _) fun _ => ih _) (.refl _))

theorem ext_resendFirst (hf : f ≤ f') (hg : Grows rec') (hr : Ext rec rec') (ack : U16) (data : Bytes) (loss : Bool) :
    Ext (resendFirst E f rec ack data loss) (resendFirst E f' rec' ack data loss) := by
  unfold resendFirst
  exact .ite (.after fun _ => .bind (ext_resendLost hf hg hr _) (fun _ => .ret) fun _ => .refl _) (.refl _)

theorem ext_processExtensions (hf : f ≤ f') (hg : Grows rec') (hr : Ext rec rec') (ack : U16) : ∀ l loss,
    Ext (processExtensions E f rec ack l loss) (processExtensions E f' rec' ack l loss)
  | [], _ => .refl _
  | e :: rest, loss => by
    have ih := ext_processExtensions hf hg hr ack rest
    have hgr := fun l => grows_processExtensions (E := E) hg f' ack rest l
    unfold processExtensions
    refine .ite (.bind (ext_resendFirst hf hg hr _ _ _) (fun _ => .bind .getS fun s => ?_) fun _ => .after fun s => ?_) (ih _)
    · split
      · exact hgr _
      · exact .bind .orPanic fun _ => .bind (grows_resendMissing hg _ _ _ _ _) fun _ => hgr _
    · split
      · exact ih _
      · exact .after fun _ => .bind (ext_resendMissing hf hg hr _ _ _ _) (fun _ => hgr _) fun _ => ih _

theorem ext_fastRetransmit (hf : f ≤ f') (hg : Grows rec') (hr : Ext rec rec') (pkt : Packet) (exts : List Extension) :
    Ext (fastRetransmit E f rec pkt exts) (fastRetransmit E f' rec' pkt exts) := by
  unfold fastRetransmit
  exact .after fun s => .ite (.after fun _ => ext_resendLost hf hg hr _) (.refl _)

theorem ext_handleState (hf : f ≤ f') (hg : Grows rec') (hr : Ext rec rec') (pkt : Packet) :
    Ext (handleState E f rec pkt) (handleState E f' rec' pkt) := by
  have h3 : ∀ exts, Grows (fastRetransmit E f' rec' pkt exts) := fun exts => by
    unfold fastRetransmit
    exact .bind .getS fun _ => .ite (.bind .overflowIf fun _ => grows_resendLost hg _ _) .ret
  unfold handleState
  exact .after fun _ => .after fun _ => .after fun s => .after fun exts =>
    .bind (ext_processExtensions hf hg hr _ _ _) (fun _ => .bind (h3 _) fun _ => .bind .modS fun _ => .bind .getS fun _ => .bind .orPanic fun _ => .modS)
      fun loss => .bind (ext_fastRetransmit hf hg hr _ _) (fun _ => .bind .modS fun _ => .bind .getS fun _ => .bind .orPanic fun _ => .modS) fun _ => .refl _

theorem ext_dispatch (hf : f ≤ f') (hg : Grows rec') (hr : Ext rec rec') (pkt : Packet) (src : Addr) (st : SocketState) (ty : PacketType) :
    Ext (dispatch E f rec pkt src st ty) (dispatch E f' rec' pkt src st ty) := by
  cases st <;> cases ty <;> first
    | exact .refl _
    | exact .bind (ext_handleState hf hg hr _) (fun _ => .ret) fun _ => .refl _

theorem ext_handlePacket (hf : f ≤ f') (hg : Grows rec') (hr : Ext rec rec') (pkt : Packet) (src : Addr) :
    Ext (handlePacket E f rec pkt src) (handlePacket E f' rec' pkt src) := by
  unfold handlePacket
  exact .after fun _ => .after fun s => .after fun ty => .ite (.refl _)
    (.after fun _ => .after fun _ => ext_dispatch hf hg hr _ _ _ _)

theorem ext_recvPacket (hf : f ≤ f') (hg : Grows rec') (hr : Ext rec rec') (len : Nat) (pkt : Packet) (src : Addr) :
    Ext (recvPacket E f rec len pkt src) (recvPacket E f' rec' len pkt src) := by
  have h1 : ∀ r, Grows (sendReply E src r) := fun r => by unfold sendReply; grow
  unfold recvPacket
  exact .bind (ext_handlePacket hf hg hr _ _) (fun _ => .bind (h1 _) fun _ => .bind .orPanic fun _ => .bind .modS fun _ =>
    .bind (grows_flushIncoming len) fun _ => .ret) fun _ => .refl _

theorem ext_recvBody (hf : f ≤ f') (hg : Grows rec') (hr : Ext rec rec') (len : Nat) :
    Ext (recvBody E f rec len) (recvBody E f' rec' len) := by
  unfold recvBody
  refine .bind (ext_recvWait 0 hf) (fun x => .bind .orPanic fun y => ?_) fun x => .after fun y => ?_
  · split
    · exact .bind .getS fun _ => .ret
    · exact grows_recvPacket hg _ _ _ _
  · split
    · exact .refl _
    · exact ext_recvPacket hf hg hr _ _ _

end

theorem ext_recv : ∀ {f f' : Nat} (len : Nat), f ≤ f' → Ext (recv E f len) (recv E f' len)
  | 0, _, _, _ => .never (grows_recv _ _)
  | f + 1, 0, _, h => absurd h (by omega)
  | f + 1, f' + 1, len, h => ext_recvBody (by omega) (grows_recv _ _) (ext_recv BUF_SIZE (by omega)) len

theorem ext_recvFromLoop {f f' : Nat} (hf : f ≤ f') (len : Nat) : ∀ {n n' : Nat}, n ≤ n' →
    Ext (recvFromLoop E f len n) (recvFromLoop E f' len n')
  | 0, _, _ => .never (grows_recvFromLoop _ _ _)
  | n + 1, 0, h => absurd h (by omega)
  | n + 1, n' + 1, h => by
    unfold recvFromLoop
    exact .after fun s => .ite (.refl _) (.bind (ext_recv len hf) (fun _ => .ite (grows_recvFromLoop _ _ _) .ret) fun x =>
      .ite (ext_recvFromLoop hf len (by omega)) (.refl _))

theorem ext_recvFrom {f f' : Nat} (hf : f ≤ f') (len : Nat) : Ext (recvFrom E f len) (recvFrom E f' len) := by
  unfold recvFrom
  exact .after fun _ => .after fun s => .ite (.refl _) (.ite (.refl _) (ext_recvFromLoop hf len hf))

theorem ext_sendQueue {f f' : Nat} (hf : f ≤ f') : ∀ {n n' : Nat}, n ≤ n' → Ext (sendQueue E f n) (sendQueue E f' n')
  | 0, _, _ => .never (grows_sendQueue _ _)
  | n + 1, 0, h => absurd h (by omega)
  | n + 1, n' + 1, h => by
    unfold sendQueue
    refine .after fun s => ?_
    split
    · exact .refl _
    · exact .after fun _ => .bind (ext_sendPacket hf (grows_recv _ _) (ext_recv BUF_SIZE hf) _) (fun _ => .bind .getS fun _ => .bind .overflowIf fun _ =>
        .bind .modS fun _ => grows_sendQueue _ _) fun _ => .after fun _ => .after fun _ => .after fun _ => ext_sendQueue hf (by omega)

theorem ext_sendTo {f f' : Nat} (hf : f ≤ f') (buf : Bytes) : Ext (sendTo E f buf) (sendTo E f' buf) := by
  unfold sendTo
  exact .after fun s => .ite (.refl _) (.after fun _ => .bind (ext_sendQueue hf hf) (fun _ => .ret) fun _ => .refl _)

theorem ext_scratchRecv {f f' : Nat} (hf : f ≤ f') : Ext (scratchRecv E f) (scratchRecv E f') := by
  unfold scratchRecv
  exact .bind (ext_recv BUF_SIZE hf) (fun _ => .ret) fun _ => .refl _

theorem grows_scratchRecv (f : Nat) : Grows (scratchRecv E f) := by
  unfold scratchRecv
  exact .bind (grows_recv _ _) fun _ => .ret

theorem ext_flush {f f' : Nat} (hf : f ≤ f') : Ext (flush E f) (flush E f') := by
  unfold flush
  exact .whileM (.bind .getS fun _ => .ret) (grows_scratchRecv _) (ext_scratchRecv hf) hf

theorem ext_close {f f' : Nat} (hf : f ≤ f') : Ext (close E f) (close E f') := by
  have hb : ∀ c : M Bool, Grows c → Grows (M.whileM f' c (scratchRecv E f')) := fun c hc => .whileM hc (grows_scratchRecv _) _
  unfold close
  exact .after fun s => .ite (.refl _) (.bind (ext_flush hf) (fun _ => .bind .getS fun _ => .bind .now fun _ => .bind .udpSend fun _ => .bind .modS fun _ =>
    hb _ (.bind .getS fun _ => .ret)) fun _ => .after fun _ => .after fun _ =>
    .after fun _ => .after fun _ => .whileM (.bind .getS fun _ => .ret) (grows_scratchRecv _) (ext_scratchRecv hf) hf)

theorem ext_runOp {f f' : Nat} (hf : f ≤ f') (op : Op) : Ext (runOp E f op) (runOp E f' op) := by
  cases op with
  | recvFrom len => exact .bind (ext_recvFrom hf len) (fun _ => .ret) fun _ => .refl _
  | sendTo buf => exact .bind (ext_sendTo hf buf) (fun _ => .ret) fun _ => .refl _
  | flush => exact .bind (ext_flush hf) (fun _ => .ret) fun _ => .refl _
  | close => exact .bind (ext_close hf) (fun _ => .ret) fun _ => .refl _
  | setMaxRetries n => exact .refl _

theorem ext_sendAll {f f' : Nat} (hf : f ≤ f') : ∀ bufs, Ext (sendAll E f bufs) (sendAll E f' bufs)
  | [] => .refl _
  | buf :: rest => .andThen (ext_sendTo hf buf) (fun _ => grows_sendAll _ _) fun _ => ext_sendAll hf rest

theorem ext_transfer {f f' : Nat} (hf : f ≤ f') : ∀ batches, Ext (transfer E f batches) (transfer E f' batches)
  | [] => .refl _
  | batch :: rest => .andThen (ext_sendAll hf batch) (fun _ => .andThen (grows_flush _) fun _ => grows_transfer _ _) fun _ =>
      .andThen (ext_flush hf) (fun _ => grows_transfer _ _) fun _ => ext_transfer hf rest

theorem ext_readLoop {f f' : Nat} (hf : f ≤ f') (len total : Nat) : ∀ {n n' : Nat} (got : Bytes), n ≤ n' → Ext (readLoop E f len total n got) (readLoop E f' len total n' got)
  | 0, _, _, _ => .never (grows_readLoop _ _ _ _ _)
  | n + 1, 0, _, h => absurd h (by omega)
  | n + 1, n' + 1, got, h => by
    unfold readLoop
    exact .ite (.refl _) (.andThen (ext_recvFrom hf len) (fun _ => grows_readLoop _ _ _ _ _) fun x => ext_readLoop hf len total _ (by omega))

theorem ext_readUntil {f f' : Nat} (hf : f ≤ f') (len total : Nat) : Ext (readUntil E len total f) (readUntil E len total f') := ext_readLoop hf len total [] hf

end Utp
