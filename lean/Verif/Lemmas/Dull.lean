import Verif.Spec.Dull
import Verif.Lemmas.Recv
/-!
# Two runs that differ only in the own address and the time of the last acknowledgement
-/

namespace Utp
open M

variable {E : Env} {a : Addr} {α β : Type}

/-- The second computation does from the world with the own address `a` what the first does from the world itself. -/
def Dull (a : Addr) (m m' : M α) : Prop := ∀ w t, ∃ t', m' (w.other a t) = ((m w).1, (m w).2.other a t')

namespace Dull

theorem ret (x : α) : Dull a (M.ret x) (M.ret x) := fun _ t => ⟨t, rfl⟩
theorem pure (x : α) : Dull a (Pure.pure x) (Pure.pure x) := ret x
theorem throw (e : IoErr) : Dull a (M.throw e : M α) (M.throw e) := fun _ t => ⟨t, rfl⟩
theorem never : Dull a (M.never : M α) M.never := fun _ t => ⟨t, rfl⟩

theorem andThen {m m' : M α} {f f' : α → M β} (h : Dull a m m') (hf : ∀ x, Dull a (f x) (f' x)) :
    Dull a (M.andThen m f) (M.andThen m' f') := by
  intro w t
  obtain ⟨t', h1⟩ := h w t
  unfold M.andThen
  rw [h1]
  rcases e : m w with ⟨r, v⟩
  cases r with
  | ok x => exact hf x v t'
  | err x => exact ⟨t', rfl⟩
  | panic => exact ⟨t', rfl⟩
  | pending => exact ⟨t', rfl⟩

theorem seq {m m' : M α} {f f' : α → M β} (h : Dull a m m') (hf : ∀ x, Dull a (f x) (f' x)) : Dull a (m >>= f) (m' >>= f') := andThen h hf

theorem get {f f' : Socket → M β} (hf : ∀ s t, Dull a (f s) (f' (s.other a t))) : Dull a (getS >>= f) (getS >>= f') :=
  fun w t => hf w.s t w t

theorem modS {f f' : Socket → Socket} (hf : ∀ s t, ∃ t', f' (s.other a t) = (f s).other a t') : Dull a (M.modS f) (M.modS f') := by
  intro w t
  obtain ⟨t', h⟩ := hf w.s t
  refine ⟨t', ?_⟩
  show ((.ok (), { (w.other a t) with s := f' (w.s.other a t) }) : Res Unit × World) = _
  rw [h]
  rfl

theorem orPanic (o : Option α) : Dull a (M.orPanic o) (M.orPanic o) := by
  cases o with
  | none => exact fun _ t => ⟨t, rfl⟩
  | some x => exact ret x

/-- Unwrap and store. -/
theorem store {o o' : Option Socket} {t : U32} (h : o' = o.map fun s => s.other a t) :
    Dull a (M.orPanic o >>= fun s => M.modS fun _ => s) (M.orPanic o' >>= fun s => M.modS fun _ => s) := by
  subst h
  cases o with
  | none => exact fun _ t => ⟨t, rfl⟩
  | some s => exact fun _ _ => ⟨t, rfl⟩

theorem overflowIf (b : Bool) : Dull a (M.overflowIf E b) (M.overflowIf E b) := by
  unfold M.overflowIf
  split
  · exact fun _ t => ⟨t, rfl⟩
  · exact ret _

theorem now : Dull a (M.now E) (M.now E) := fun _ t => ⟨t, rfl⟩
theorem rand : Dull a (M.rand E) (M.rand E) := fun _ t => ⟨t, rfl⟩

theorem ignoreErr {m m' : M α} (h : Dull a m m') : Dull a (M.ignoreErr m) (M.ignoreErr m') := by
  intro w t
  obtain ⟨t', h1⟩ := h w t
  unfold M.ignoreErr
  rw [h1]
  rcases e : m w with ⟨r, v⟩
  cases r <;> exact ⟨t', rfl⟩

theorem udpSend (dst : Addr) (b : Bytes) : Dull a (M.udpSend E dst b) (M.udpSend E dst b) := by
  intro w t
  unfold M.udpSend
  simp only [show (w.other a t).nSnd = w.nSnd from rfl]
  cases E.snd w.nSnd <;> exact ⟨t, rfl⟩

theorem udpRecv (o : Option U64) (len : Nat) : Dull a (M.udpRecv E o len) (M.udpRecv E o len) := by
  intro w t
  unfold M.udpRecv
  simp only [show (w.other a t).nNet = w.nNet from rfl]
  cases E.net w.nNet <;> exact ⟨t, rfl⟩

theorem whileM {c c' : M Bool} {b b' : M Unit} (hc : Dull a c c') (hb : Dull a b b') : ∀ k, Dull a (M.whileM k c b) (M.whileM k c' b')
  | 0 => never
  | k + 1 => by
    unfold M.whileM
    refine andThen hc fun go => ?_
    cases go with
    | true => exact andThen hb fun _ => whileM hc hb k
    | false => exact ret _

theorem ite {c : Prop} [Decidable c] {m k m' k' : M α} (h1 : Dull a m m') (h2 : Dull a k k') : Dull a (if c then m else k) (if c then m' else k') := by
  split
  · exact h1
  · exact h2

end Dull
open Dull

/-! ### Changes of the socket -/

theorem advanceIncoming_other (s : Socket) (t : U32) : (s.other a t).advanceIncoming = s.advanceIncoming.other a t := by
  unfold Socket.advanceIncoming
  simp only [show (s.other a t).incoming = s.incoming from rfl]
  split <;> rfl

theorem takePending_other (s : Socket) (t : U32) (len : Nat) : (s.other a t).takePending len = ((s.takePending len).1, (s.takePending len).2.other a t) := by
  unfold Socket.takePending
  simp only [show (s.other a t).pending = s.pending from rfl]
  split
  · exact Prod.ext rfl (advanceIncoming_other { s with pending := [] } t)
  · rfl

theorem takeHead_other (s : Socket) (t : U32) (pl : Bytes) (len : Nat) : (s.other a t).takeHead pl len = (s.takeHead pl len).other a t := by
  unfold Socket.takeHead
  split
  · exact advanceIncoming_other s t
  · rfl

theorem advanceSendWindow_other (s : Socket) (t : U32) : (s.other a t).advanceSendWindow E = (s.advanceSendWindow E).map (fun s => s.other a t) := by
  unfold Socket.advanceSendWindow
  simp only [show (s.other a t).sendWindow = s.sendWindow from rfl, show (s.other a t).lastAcked = s.lastAcked from rfl,
    show (s.other a t).currWindow = s.currWindow from rfl]
  split
  · rfl
  · split <;> rfl

theorem updateBaseDelay_other (s : Socket) (t : U32) (d : Int) (c : U32) : (s.other a t).updateBaseDelay d c = (s.updateBaseDelay d c).map (fun s => s.other a t) := by
  unfold Socket.updateBaseDelay
  simp only [show (s.other a t).baseDelays = s.baseDelays from rfl, show (s.other a t).lastRollover = s.lastRollover from rfl]
  by_cases h : s.baseDelays.isEmpty ∨ tsSub c s.lastRollover > MAX_BASE_DELAY_AGE
  · rw [if_pos h, if_pos h]; rfl
  · rw [if_neg h, if_neg h]
    cases s.baseDelays.getLast? with
    | none => rfl
    | some l =>
      simp only
      by_cases h : d < l
      · rw [if_pos h, if_pos h]; rfl
      · rw [if_neg h, if_neg h]; rfl

theorem updateCongestionWindow_other (s : Socket) (t : U32) (k : U32) :
    (s.other a t).updateCongestionWindow E k = (s.updateCongestionWindow E k).map (fun s => s.other a t) := by
  unfold Socket.updateCongestionWindow
  by_cases h : E.checks ∧ s.currWindow.toNat + 1400 ≥ 2 ^ 32
  · rw [if_pos h, if_pos (show E.checks ∧ (s.other a t).currWindow.toNat + 1400 ≥ 2 ^ 32 from h)]; rfl
  · rw [if_neg h, if_neg (show ¬ (E.checks ∧ (s.other a t).currWindow.toNat + 1400 ≥ 2 ^ 32) from h)]; rfl

theorem onNewAck_other (s : Socket) (t : U32) (idx : Nat) (p : Packet) (c : U32) :
    (s.other a t).onNewAck E idx p c = (s.onNewAck E idx p c).map (fun s => s.other a t) := by
  unfold Socket.onNewAck
  simp only
  rw [updateBaseDelay_other, show (s.other a t).sendWindow = s.sendWindow from rfl]
  rcases e : s.updateBaseDelay (tsSub c p.timestamp) c with _ | s1
  · rfl
  · simp only [Option.map_some]
    have e3 : (s1.other a t).updateCurrentDelay (tsSub c p.timestamp) c = (s1.updateCurrentDelay (tsSub c p.timestamp) c).other a t := rfl
    rw [e3, updateCongestionWindow_other]
    rcases e4 : (s1.updateCurrentDelay (tsSub c p.timestamp) c).updateCongestionWindow E _ with _ | s2 <;> rfl

theorem enqueues_other (l : List Bytes) (t : U32) : ∀ s : Socket, l.foldl enqueue (s.other a t) = (l.foldl enqueue s).other a t := by
  induction l with
  | nil => exact fun _ => rfl
  | cons c l ih => exact fun s => ih (enqueue s c)

/-! ### Receiving -/

theorem dull_flushIncoming (len : Nat) : Dull a (flushIncoming E len) (flushIncoming E len) := by
  unfold flushIncoming
  refine get fun s t => ite ?_ ?_
  · rw [takePending_other]
    exact seq (modS fun s t => ⟨t, by rw [takePending_other]⟩) fun _ => pure _
  · simp only [show (s.other a t).incoming = s.incoming from rfl]
    cases s.incoming with
    | nil => exact pure _
    | cons p l =>
      exact seq (overflowIf _) fun _ => ite (seq (orPanic _) fun pl => seq (modS fun s t => ⟨t, takeHead_other s t pl len⟩) fun _ => pure _) (pure _)

theorem dull_fastResendOne : Dull a (fastResendOne E) (fastResendOne E) :=
  get fun _ _ => seq now fun _ => ignoreErr (udpSend _ _)

theorem dull_timeout : Dull a (handleReceiveTimeout E) (handleReceiveTimeout E) := by
  unfold handleReceiveTimeout
  refine get fun s t => seq (overflowIf _) fun _ => seq (modS fun _ t => ⟨t, rfl⟩) fun _ => ?_
  simp only [show (s.other a t).sendWindow = s.sendWindow from rfl]
  cases s.sendWindow with
  | nil =>
    exact ite (seq now fun _ => udpSend _ _) (ite (seq dull_fastResendOne fun _ => seq dull_fastResendOne fun _ => dull_fastResendOne) (pure _))
  | cons p rest => exact seq now fun _ => seq (modS fun _ t => ⟨t, rfl⟩) fun _ => udpSend _ _

theorem dull_wait : ∀ (fuel r : Nat), Dull a (recvWait E fuel r) (recvWait E fuel r)
  | 0, _ => never
  | fuel + 1, r => by
    unfold recvWait
    refine get fun s t => ite (seq (modS fun _ t => ⟨t, rfl⟩) fun _ => throw _) (seq (udpRecv _ _) fun x => ?_)
    cases x with
    | ok y => exact pure _
    | error k => exact ite (seq dull_timeout fun _ => dull_wait fuel (r + 1)) (throw _)

/-! ### Packets -/

section
variable {rec : M (Bytes × Addr)} (hr : Dull a rec rec)
include hr

theorem dull_sendPacket (fuel : Nat) (p : Packet) : Dull a (sendPacket E fuel rec p) (sendPacket E fuel rec p) := by
  unfold sendPacket
  refine get fun s t => seq now fun t => seq (whileM (get fun s t => ite (seq now fun _ => pure _) (pure _)) (andThen hr fun _ => ret _) _) fun _ => get fun s t => ?_
  exact ite (pure _) (seq now fun t => seq (udpSend _ _) fun _ => pure _)

theorem dull_resendLost (fuel : Nat) (nr : U16) : Dull a (resendLost E fuel rec nr) (resendLost E fuel rec nr) := by
  unfold resendLost
  refine get fun s t => ?_
  simp only [show (s.other a t).sendWindow = s.sendWindow from rfl]
  split
  · exact pure _
  · exact ignoreErr (dull_sendPacket hr _ _)

theorem dull_resendMissing (fuel : Nat) (ack last : U16) : ∀ l loss, Dull a (resendMissing E fuel rec ack last l loss) (resendMissing E fuel rec ack last l loss)
  | [], _ => pure _
  | (i, b) :: l, loss => by
    unfold resendMissing
    refine ite (dull_resendMissing fuel ack last l loss) (seq (overflowIf _) fun _ => ?_)
    exact ite (seq (dull_resendLost hr _ _) fun _ => dull_resendMissing fuel ack last l true) (pure _)

theorem dull_resendFirst (fuel : Nat) (ack : U16) (data : Bytes) (loss : Bool) : Dull a (resendFirst E fuel rec ack data loss) (resendFirst E fuel rec ack data loss) := by
  unfold resendFirst
  exact ite (seq (overflowIf _) fun _ => seq (dull_resendLost hr _ _) fun _ => pure _) (pure _)

theorem dull_processExtensions (fuel : Nat) (ack : U16) : ∀ l loss, Dull a (processExtensions E fuel rec ack l loss) (processExtensions E fuel rec ack l loss)
  | [], _ => pure _
  | e :: l, loss => by
    unfold processExtensions
    refine ite (seq (dull_resendFirst hr _ _ _ _) fun loss => get fun s t => ?_) (dull_processExtensions fuel ack l loss)
    simp only [show (s.other a t).sendWindow = s.sendWindow from rfl]
    split
    · exact dull_processExtensions fuel ack l loss
    · exact seq (orPanic _) fun bits => seq (dull_resendMissing hr _ _ _ _ _) fun loss => dull_processExtensions fuel ack l loss

omit hr in
theorem dull_countAck (pkt : Packet) : Dull a (countAck E pkt) (countAck E pkt) :=
  get fun _ _ => ite (seq (overflowIf _) fun _ => modS fun _ t => ⟨t, rfl⟩) (seq now fun c => modS fun _ _ => ⟨c, rfl⟩)

omit hr in
theorem dull_measureAck (pkt : Packet) : Dull a (measureAck E pkt) (measureAck E pkt) := by
  unfold measureAck
  refine get fun s t => ?_
  simp only [show (s.other a t).sendWindow = s.sendWindow from rfl]
  split
  · exact pure _
  · exact seq now fun c => seq (orPanic _) fun p => store (onNewAck_other s t _ p c)

theorem dull_handleState (fuel : Nat) (pkt : Packet) : Dull a (handleState E fuel rec pkt) (handleState E fuel rec pkt) := by
  unfold handleState
  refine seq (dull_countAck _) fun _ => seq (dull_measureAck _) fun _ => get fun s t => seq (orPanic _) fun exts => seq (dull_processExtensions hr _ _ _ _) fun loss => ?_
  refine seq ?_ fun _ => seq (modS fun s t => ?_) fun _ => get fun s t => store (advanceSendWindow_other s t)
  · exact get fun s t => ite (seq (overflowIf _) fun _ => dull_resendLost hr _ _) (pure _)
  · cases loss <;> exact ⟨t, rfl⟩

omit hr in
theorem dull_withSack (s : Socket) (pkt reply : Packet) : Dull a (withSack E s pkt reply) (withSack E (s.other a t) pkt reply) := by
  unfold withSack
  rw [show (s.other a t).buildSack E = s.buildSack E from rfl]
  exact ite (seq (orPanic _) fun b => ite (orPanic _) (pure _)) (pure _)

omit hr in
theorem dull_replyWith (pkt : Packet) (ty : PacketType) : Dull a (replyWith E pkt ty) (replyWith E pkt ty) := get fun _ _ => seq now fun _ => pure _

omit hr in
theorem dull_handleData (pkt : Packet) : Dull a (handleData E pkt) (handleData E pkt) := get fun s _ => seq now fun _ => dull_withSack s _ _

theorem dull_dispatch (fuel : Nat) (pkt : Packet) (src : Addr) (st : SocketState) (ty : PacketType) :
    Dull a (dispatch E fuel rec pkt src st ty) (dispatch E fuel rec pkt src st ty) := by
  have hf : Dull a (onFin E pkt) (onFin E pkt) := get fun s t => seq now fun _ => seq (dull_withSack s _ _) fun _ => seq (modS fun _ t => ⟨t, rfl⟩) fun _ => pure _
  have hd : Dull a (handleData E pkt >>= fun r => Pure.pure (some r)) (handleData E pkt >>= fun r => Pure.pure (some r)) := seq (dull_handleData _) fun _ => pure _
  unfold dispatch
  split
  · exact seq rand fun _ => seq (overflowIf _) fun _ => seq (modS fun _ t => ⟨t, rfl⟩) fun _ => get fun _ _ => seq now fun _ => pure _
  · exact dull_replyWith _ _
  · exact get fun _ _ => seq (overflowIf _) fun _ => seq now fun c => seq (modS fun _ _ => ⟨c, rfl⟩) fun _ => pure _
  · exact throw _
  · exact hd
  · exact hd
  · exact seq (dull_handleState hr _ _) fun _ => pure _
  · exact hf
  · exact hf
  · exact dull_replyWith _ _
  · refine seq (modS fun s t => ?_) fun _ => pure _
    by_cases h : pkt.ackNr = s.seqNr
    · rw [if_pos h, if_pos (show pkt.ackNr = (s.other a t).seqNr from h)]; exact ⟨t, rfl⟩
    · rw [if_neg h, if_neg (show ¬ pkt.ackNr = (s.other a t).seqNr from h)]; exact ⟨t, rfl⟩
  · exact seq (modS fun _ t => ⟨t, rfl⟩) fun _ => throw _
  · exact throw _

theorem dull_handlePacket (fuel : Nat) (pkt : Packet) (src : Addr) : Dull a (handlePacket E fuel rec pkt src) (handlePacket E fuel rec pkt src) := by
  unfold handlePacket
  refine seq (modS fun s t => ?_) fun _ => get fun s t => seq (orPanic _) fun ty => ite (dull_replyWith _ _) (seq now fun t => seq (modS fun _ t => ⟨t, rfl⟩) fun _ => dull_dispatch hr _ _ _ _ _)
  unfold Socket.bumpAck
  by_cases h : pkt.seqNr - s.ackNr = 1
  · rw [if_pos h, if_pos (show pkt.seqNr - (s.other a t).ackNr = 1 from h)]; exact ⟨t, rfl⟩
  · rw [if_neg h, if_neg (show ¬ pkt.seqNr - (s.other a t).ackNr = 1 from h)]; exact ⟨t, rfl⟩

theorem dull_recvPacket (fuel len : Nat) (pkt : Packet) (src : Addr) : Dull a (recvPacket E fuel rec len pkt src) (recvPacket E fuel rec len pkt src) := by
  unfold recvPacket
  refine seq (dull_handlePacket hr _ _ _) fun reply => seq ?_ fun _ => seq (orPanic _) fun ty => seq (modS fun s t => ?_) fun _ => seq (dull_flushIncoming _) fun _ => pure _
  · cases reply with
    | none => exact pure _
    | some p => exact udpSend _ _
  · by_cases h : ty = .data ∧ 0 < (pkt.seqNr - s.lastDropped).toNat
    · rw [if_pos h, if_pos (show ty = .data ∧ 0 < (pkt.seqNr - (s.other a t).lastDropped).toNat from h)]; exact ⟨t, rfl⟩
    · rw [if_neg h, if_neg (show ¬ (ty = .data ∧ 0 < (pkt.seqNr - (s.other a t).lastDropped).toNat) from h)]; exact ⟨t, rfl⟩

end

/-! ### Operations -/

section

theorem dull_recv : ∀ fuel len, Dull a (recv E fuel len) (recv E fuel len)
  | 0, _ => never
  | fuel + 1, len => by
    unfold recv recvBody
    refine seq (dull_wait _ _) fun x => seq (orPanic _) fun r => ?_
    cases r with
    | error e => exact get fun _ _ => pure _
    | ok p => exact dull_recvPacket (dull_recv fuel _) _ _ _ _

theorem dull_recvFromLoop (fuel len : Nat) : ∀ k, Dull a (recvFromLoop E fuel len k) (recvFromLoop E fuel len k)
  | 0 => never
  | k + 1 => by
    unfold recvFromLoop
    exact get fun s t => ite (pure _) (seq (dull_recv _ _) fun x => ite (dull_recvFromLoop fuel len k) (pure _))

theorem dull_sendQueue (fuel : Nat) : ∀ k, Dull a (sendQueue E fuel k) (sendQueue E fuel k)
  | 0 => never
  | k + 1 => by
    unfold sendQueue
    refine get fun s t => ?_
    simp only [show (s.other a t).unsent = s.unsent from rfl]
    split
    · exact pure _
    · exact seq (modS fun _ t => ⟨t, rfl⟩) fun _ => seq (dull_sendPacket (dull_recv _ _) _ _) fun p => get fun _ _ => seq (overflowIf _) fun _ =>
        seq (modS fun _ t => ⟨t, rfl⟩) fun _ => dull_sendQueue fuel k

theorem dull_flush (fuel : Nat) : Dull a (flush E fuel) (flush E fuel) :=
  Dull.whileM (Dull.get fun _ _ => Dull.pure _) (seq (dull_recv _ _) fun _ => Dull.pure _) _

theorem dull_runOp (fuel : Nat) (op : Op) : Dull a (runOp E fuel op) (runOp E fuel op) := by
  cases op with
  | recvFrom len =>
    refine seq ?_ fun x => pure _
    unfold recvFrom
    exact seq (dull_flushIncoming _) fun out => get fun s t => ite (pure _) (ite (throw _) (dull_recvFromLoop _ _ _))
  | sendTo b =>
    refine seq ?_ fun _ => pure _
    unfold sendTo
    exact get fun s t => ite (throw _) (seq (modS fun s t => ⟨t, enqueues_other _ t s⟩) fun _ => seq (dull_sendQueue _ _) fun _ => pure _)
  | flush => exact seq (dull_flush _) fun _ => pure _
  | close =>
    refine seq ?_ fun _ => pure _
    unfold close
    exact get fun s t => ite (pure _) (seq (dull_flush _) fun _ => get fun s t => seq now fun t => seq (udpSend _ _) fun _ => seq (modS fun _ t => ⟨t, rfl⟩) fun _ =>
      Dull.whileM (Dull.get fun _ _ => Dull.pure _) (seq (dull_recv _ _) fun _ => Dull.pure _) _)
  | setMaxRetries k => exact fun _ t => ⟨t, rfl⟩

end

end Utp
