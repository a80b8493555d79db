import Verif.Spec.OtherLimit
import Verif.Lemmas.Recv
/-!
# Two runs that differ only in the limit of retries
-/

namespace Utp
open M

variable {E : Env} {g : Nat} {n : U32} {α β : Type}

/-- The second computation does from the world with the limit `n` what the first does from the world itself. -/
def Lim (g : Nat) (n : U32) (m m' : M α) : Prop :=
  ∀ w, g < w.s.maxRetries.toNat → m' (w.withLimit n) = ((m w).1, (m w).2.withLimit n) ∧ g < (m w).2.s.maxRetries.toNat

namespace Lim

theorem ret (a : α) : Lim g n (M.ret a) (M.ret a) := fun _ hw => ⟨rfl, hw⟩
theorem pure (a : α) : Lim g n (Pure.pure a) (Pure.pure a) := ret a
theorem throw (e : IoErr) : Lim g n (M.throw e : M α) (M.throw e) := fun _ hw => ⟨rfl, hw⟩
theorem never : Lim g n (M.never : M α) M.never := fun _ hw => ⟨rfl, hw⟩

theorem andThen {m m' : M α} {f f' : α → M β} (h : Lim g n m m') (hf : ∀ a, Lim g n (f a) (f' a)) :
    Lim g n (M.andThen m f) (M.andThen m' f') := by
  intro w hw
  obtain ⟨h1, h2⟩ := h w hw
  unfold M.andThen
  rw [h1]
  rcases e : m w with ⟨r, v⟩
  rw [e] at h2
  cases r with
  | ok a => exact hf a v h2
  | err x => exact ⟨rfl, h2⟩
  | panic => exact ⟨rfl, h2⟩
  | pending => exact ⟨rfl, h2⟩

theorem seq {m m' : M α} {f f' : α → M β} (h : Lim g n m m') (hf : ∀ a, Lim g n (f a) (f' a)) : Lim g n (m >>= f) (m' >>= f') := andThen h hf

theorem get {f f' : Socket → M β} (hf : ∀ s, g < s.maxRetries.toNat → Lim g n (f s) (f' (s.withLimit n))) : Lim g n (getS >>= f) (getS >>= f') :=
  fun w hw => hf w.s hw w hw

theorem modS {f f' : Socket → Socket} (hf : ∀ s, f' (s.withLimit n) = (f s).withLimit n ∧ (f s).maxRetries = s.maxRetries) : Lim g n (M.modS f) (M.modS f') := by
  intro w hw
  obtain ⟨h1, h2⟩ := hf w.s
  refine ⟨?_, show g < (f w.s).maxRetries.toNat by rw [h2]; exact hw⟩
  show ((.ok (), { (w.withLimit n) with s := f' (w.s.withLimit n) }) : Res Unit × World) = _
  rw [h1]
  rfl

theorem orPanic (o : Option α) : Lim g n (M.orPanic o) (M.orPanic o) := by
  cases o with
  | none => exact fun _ hw => ⟨rfl, hw⟩
  | some a => exact ret a

/-- Unwrap and store. -/
theorem store {o o' : Option Socket} (h : o' = o.map fun s => s.withLimit n) (hk : ∀ s, o = some s → g < s.maxRetries.toNat) :
    Lim g n (M.orPanic o >>= fun s => M.modS fun _ => s) (M.orPanic o' >>= fun s => M.modS fun _ => s) := by
  subst h
  cases o with
  | none => exact fun _ hw => ⟨rfl, hw⟩
  | some s => exact fun _ _ => ⟨rfl, hk s rfl⟩

theorem overflowIf (b : Bool) : Lim g n (M.overflowIf E b) (M.overflowIf E b) := by
  unfold M.overflowIf
  split
  · exact fun _ hw => ⟨rfl, hw⟩
  · exact ret _

theorem now : Lim g n (M.now E) (M.now E) := fun _ h => ⟨rfl, h⟩
theorem rand : Lim g n (M.rand E) (M.rand E) := fun _ h => ⟨rfl, h⟩

theorem ignoreErr {m m' : M α} (h : Lim g n m m') : Lim g n (M.ignoreErr m) (M.ignoreErr m') := by
  intro w hw
  obtain ⟨h1, h2⟩ := h w hw
  unfold M.ignoreErr
  rw [h1]
  rcases e : m w with ⟨r, v⟩
  rw [e] at h2
  cases r <;> exact ⟨rfl, h2⟩

theorem udpSend (a : Addr) (b : Bytes) : Lim g n (M.udpSend E a b) (M.udpSend E a b) := by
  intro w hw
  unfold M.udpSend
  simp only [show (w.withLimit n).nSnd = w.nSnd from rfl]
  cases E.snd w.nSnd <;> exact ⟨rfl, hw⟩

theorem whileM {c c' : M Bool} {b b' : M Unit} (hc : Lim g n c c') (hb : Lim g n b b') : ∀ k, Lim g n (M.whileM k c b) (M.whileM k c' b')
  | 0 => never
  | k + 1 => by
    unfold M.whileM
    refine andThen hc fun go => ?_
    cases go with
    | true => exact andThen hb fun _ => whileM hc hb k
    | false => exact ret _

theorem ite {c : Prop} [Decidable c] {m k m' k' : M α} (h1 : Lim g n m m') (h2 : Lim g n k k') : Lim g n (if c then m else k) (if c then m' else k') := by
  split
  · exact h1
  · exact h2

end Lim
open Lim

/-! ### Changes of the socket -/

theorem advanceIncoming_limit (s : Socket) : (s.withLimit n).advanceIncoming = s.advanceIncoming.withLimit n ∧ s.advanceIncoming.maxRetries = s.maxRetries := by
  unfold Socket.advanceIncoming
  simp only [show (s.withLimit n).incoming = s.incoming from rfl]
  split <;> exact ⟨rfl, rfl⟩

theorem takePending_limit (s : Socket) (len : Nat) : (s.withLimit n).takePending len = ((s.takePending len).1, (s.takePending len).2.withLimit n) ∧
    (s.takePending len).2.maxRetries = s.maxRetries := by
  unfold Socket.takePending
  simp only [show (s.withLimit n).pending = s.pending from rfl]
  split
  · obtain ⟨h1, h2⟩ := advanceIncoming_limit (n := n) { s with pending := [] }
    exact ⟨Prod.ext rfl h1, h2⟩
  · exact ⟨rfl, rfl⟩

theorem takeHead_limit (s : Socket) (pl : Bytes) (len : Nat) : (s.withLimit n).takeHead pl len = (s.takeHead pl len).withLimit n ∧
    (s.takeHead pl len).maxRetries = s.maxRetries := by
  unfold Socket.takeHead
  split
  · exact advanceIncoming_limit s
  · exact ⟨rfl, rfl⟩

theorem advanceSendWindow_limit (s : Socket) : (s.withLimit n).advanceSendWindow E = (s.advanceSendWindow E).map (fun s => s.withLimit n) ∧
    ∀ t, s.advanceSendWindow E = some t → t.maxRetries = s.maxRetries := by
  unfold Socket.advanceSendWindow
  simp only [show (s.withLimit n).sendWindow = s.sendWindow from rfl, show (s.withLimit n).lastAcked = s.lastAcked from rfl,
    show (s.withLimit n).currWindow = s.currWindow from rfl]
  split
  · exact ⟨rfl, by rintro _ ⟨⟩; rfl⟩
  · split
    · exact ⟨rfl, by rintro _ ⟨⟩⟩
    · exact ⟨rfl, by rintro _ ⟨⟩; rfl⟩

theorem updateBaseDelay_limit (s : Socket) (d : Int) (t : U32) : (s.withLimit n).updateBaseDelay d t = (s.updateBaseDelay d t).map (fun s => s.withLimit n) ∧
    ∀ u, s.updateBaseDelay d t = some u → u.maxRetries = s.maxRetries := by
  unfold Socket.updateBaseDelay
  simp only [show (s.withLimit n).baseDelays = s.baseDelays from rfl, show (s.withLimit n).lastRollover = s.lastRollover from rfl]
  by_cases h : s.baseDelays.isEmpty ∨ tsSub t s.lastRollover > MAX_BASE_DELAY_AGE
  · rw [if_pos h, if_pos h]; exact ⟨rfl, by rintro _ ⟨⟩; rfl⟩
  · rw [if_neg h, if_neg h]
    cases s.baseDelays.getLast? with
    | none => exact ⟨rfl, by rintro _ ⟨⟩⟩
    | some l =>
      simp only
      by_cases h : d < l
      · rw [if_pos h, if_pos h]; exact ⟨rfl, by rintro _ ⟨⟩; rfl⟩
      · rw [if_neg h, if_neg h]; exact ⟨rfl, by rintro _ ⟨⟩; rfl⟩

theorem updateCongestionWindow_limit (s : Socket) (k : U32) :
    (s.withLimit n).updateCongestionWindow E k = (s.updateCongestionWindow E k).map (fun s => s.withLimit n) ∧
    ∀ u, s.updateCongestionWindow E k = some u → u.maxRetries = s.maxRetries := by
  unfold Socket.updateCongestionWindow
  by_cases h : E.checks ∧ s.currWindow.toNat + 1400 ≥ 2 ^ 32
  · rw [if_pos h, if_pos (show E.checks ∧ (s.withLimit n).currWindow.toNat + 1400 ≥ 2 ^ 32 from h)]; exact ⟨rfl, by rintro _ ⟨⟩⟩
  · rw [if_neg h, if_neg (show ¬ (E.checks ∧ (s.withLimit n).currWindow.toNat + 1400 ≥ 2 ^ 32) from h)]; exact ⟨rfl, by rintro _ ⟨⟩; rfl⟩

theorem onNewAck_limit (s : Socket) (idx : Nat) (p : Packet) (t : U32) :
    (s.withLimit n).onNewAck E idx p t = (s.onNewAck E idx p t).map (fun s => s.withLimit n) ∧
    ∀ u, s.onNewAck E idx p t = some u → u.maxRetries = s.maxRetries := by
  unfold Socket.onNewAck
  simp only
  obtain ⟨h1, h2⟩ := updateBaseDelay_limit (n := n) s (tsSub t p.timestamp) t
  rw [h1, show (s.withLimit n).sendWindow = s.sendWindow from rfl]
  rcases e : s.updateBaseDelay (tsSub t p.timestamp) t with _ | s1
  · exact ⟨rfl, by rintro _ ⟨⟩⟩
  · have e1 := h2 _ e
    simp only [Option.map_some]
    have e3 : (s1.withLimit n).updateCurrentDelay (tsSub t p.timestamp) t = (s1.updateCurrentDelay (tsSub t p.timestamp) t).withLimit n := rfl
    obtain ⟨h3, h4⟩ := updateCongestionWindow_limit (E := E) (n := n) (s1.updateCurrentDelay (tsSub t p.timestamp) t)
      (BitVec.ofNat 32 ((s.sendWindow.take (idx + 1)).map Packet.len).sum)
    rw [e3, h3]
    rcases e4 : (s1.updateCurrentDelay (tsSub t p.timestamp) t).updateCongestionWindow E _ with _ | s2
    · exact ⟨rfl, by rintro _ ⟨⟩⟩
    · exact ⟨rfl, by rintro _ ⟨⟩; exact (h4 _ e4).trans e1⟩

theorem enqueues_limit (l : List Bytes) : ∀ s : Socket, l.foldl enqueue (s.withLimit n) = (l.foldl enqueue s).withLimit n ∧ (l.foldl enqueue s).maxRetries = s.maxRetries := by
  induction l with
  | nil => exact fun _ => ⟨rfl, rfl⟩
  | cons c l ih => exact fun s => ih (enqueue s c)

/-! ### Receiving -/

theorem lim_flushIncoming (len : Nat) : Lim g n (flushIncoming E len) (flushIncoming E len) := by
  unfold flushIncoming
  refine get fun s _ => ite ?_ ?_
  · rw [(takePending_limit s len).1]
    exact seq (modS fun s => by rw [(takePending_limit s len).1]; exact ⟨rfl, (takePending_limit (n := n) s len).2⟩) fun _ => pure _
  · simp only [show (s.withLimit n).incoming = s.incoming from rfl]
    cases s.incoming with
    | nil => exact pure _
    | cons p l =>
      exact seq (overflowIf _) fun _ => ite (seq (orPanic _) fun pl => seq (modS fun s => takeHead_limit s pl len) fun _ => pure _) (pure _)

theorem lim_fastResendOne : Lim g n (fastResendOne E) (fastResendOne E) :=
  get fun _ _ => seq now fun _ => ignoreErr (udpSend _ _)

theorem lim_timeout : Lim g n (handleReceiveTimeout E) (handleReceiveTimeout E) := by
  unfold handleReceiveTimeout
  refine get fun s _ => seq (overflowIf _) fun _ => seq (modS fun _ => ⟨rfl, rfl⟩) fun _ => ?_
  simp only [show (s.withLimit n).sendWindow = s.sendWindow from rfl]
  cases s.sendWindow with
  | nil =>
    exact ite (seq now fun _ => udpSend _ _) (ite (seq lim_fastResendOne fun _ => seq lim_fastResendOne fun _ => lim_fastResendOne) (pure _))
  | cons p rest => exact seq now fun _ => seq (modS fun _ => ⟨rfl, rfl⟩) fun _ => udpSend _ _

/-- Waiting for a datagram: one arrives before either limit is reached. -/
theorem lim_recvWait (hn : g < n.toNat) : ∀ (fuel r : Nat) (w : World), (∃ j, r + j ≤ g ∧ ¬ (E.net (w.nNet + j)).silent) → g < w.s.maxRetries.toNat →
    recvWait E fuel r (w.withLimit n) = ((recvWait E fuel r w).1, (recvWait E fuel r w).2.withLimit n) ∧ g < (recvWait E fuel r w).2.s.maxRetries.toNat
  | 0, _, _, _, hw => ⟨rfl, hw⟩
  | fuel + 1, r, w, ⟨j, hj, hs⟩, hw => by
    have h1 : ¬ w.s.maxRetries.toNat ≤ r := by omega
    have h2 : ¬ (w.s.withLimit n).maxRetries.toNat ≤ r := show ¬ n.toNat ≤ r by omega
    unfold recvWait
    msimp
    simp only [show (w.withLimit n).s = w.s.withLimit n from rfl, if_neg h1, if_neg h2]
    cases e : E.net w.nNet with
    | dgram b src =>
      rw [andThen_eq (udpRecv_dgram e _ _), andThen_eq (udpRecv_dgram (w := w.withLimit n) e _ _)]
      exact ⟨rfl, hw⟩
    | never =>
      rw [andThen_pending (udpRecv_never e _ _), andThen_pending (udpRecv_never (w := w.withLimit n) e _ _)]
      exact ⟨rfl, hw⟩
    | fail k =>
      rw [andThen_eq (udpRecv_fail e _ _), andThen_eq (udpRecv_fail (w := w.withLimit n) e _ _)]
      simp only
      by_cases hk : isTimeout k = true
      · rw [if_pos hk]
        obtain ⟨j, rfl⟩ : ∃ i, j = i + 1 := by
          refine Nat.exists_eq_succ_of_ne_zero ?_
          rintro rfl
          apply hs
          rw [Nat.add_zero, e]
          simpa [NetEvent.silent, isTimeout] using hk
        have hf := (handleReceiveTimeout_frame (E := E) (w.waited (if w.s.state ≠ .new then some w.s.congTimeout else none))).1.1
        obtain ⟨h3, h4⟩ := lim_timeout (E := E) (n := n) (g := g) (w.waited (if w.s.state ≠ .new then some w.s.congTimeout else none)) hw
        unfold M.andThen
        rw [show (w.withLimit n).waited (if (w.s.withLimit n).state ≠ .new then some (w.s.withLimit n).congTimeout else none) =
          (w.waited (if w.s.state ≠ .new then some w.s.congTimeout else none)).withLimit n from rfl, h3]
        rcases e5 : handleReceiveTimeout E (w.waited (if w.s.state ≠ .new then some w.s.congTimeout else none)) with ⟨r1, v⟩
        rw [e5] at h4 hf
        cases r1 with
        | ok _ =>
          refine lim_recvWait hn fuel (r + 1) v ⟨j, by omega, ?_⟩ h4
          rw [hf, show (w.waited (if w.s.state ≠ .new then some w.s.congTimeout else none)).nNet + j = w.nNet + (j + 1) from by simp only [World.waited]; omega]
          exact hs
        | err x => exact ⟨rfl, h4⟩
        | panic => exact ⟨rfl, h4⟩
        | pending => exact ⟨rfl, h4⟩
      · rw [if_neg hk]
        exact ⟨rfl, hw⟩

theorem lim_wait (hg : HeardWithin g E.net) (hn : g < n.toNat) (fuel : Nat) : Lim g n (recvWait E fuel 0) (recvWait E fuel 0) := by
  intro w hw
  obtain ⟨j, h1, h2⟩ := hg w.nNet
  exact lim_recvWait hn fuel 0 w ⟨j, by omega, h2⟩ hw

/-! ### Packets -/

section
variable {rec : M (Bytes × Addr)} (hr : Lim g n rec rec)
include hr

theorem lim_sendPacket (fuel : Nat) (p : Packet) : Lim g n (sendPacket E fuel rec p) (sendPacket E fuel rec p) := by
  unfold sendPacket
  refine get fun s _ => seq now fun t => seq (whileM (get fun s _ => ite (seq now fun _ => pure _) (pure _)) (andThen hr fun _ => ret _) _) fun _ => get fun s _ => ?_
  exact ite (pure _) (seq now fun t => seq (udpSend _ _) fun _ => pure _)

theorem lim_resendLost (fuel : Nat) (nr : U16) : Lim g n (resendLost E fuel rec nr) (resendLost E fuel rec nr) := by
  unfold resendLost
  refine get fun s _ => ?_
  simp only [show (s.withLimit n).sendWindow = s.sendWindow from rfl]
  split
  · exact pure _
  · exact ignoreErr (lim_sendPacket hr _ _)

theorem lim_resendMissing (fuel : Nat) (ack last : U16) : ∀ l loss, Lim g n (resendMissing E fuel rec ack last l loss) (resendMissing E fuel rec ack last l loss)
  | [], _ => pure _
  | (i, b) :: l, loss => by
    unfold resendMissing
    refine ite (lim_resendMissing fuel ack last l loss) (seq (overflowIf _) fun _ => ?_)
    exact ite (seq (lim_resendLost hr _ _) fun _ => lim_resendMissing fuel ack last l true) (pure _)

theorem lim_resendFirst (fuel : Nat) (ack : U16) (data : Bytes) (loss : Bool) : Lim g n (resendFirst E fuel rec ack data loss) (resendFirst E fuel rec ack data loss) := by
  unfold resendFirst
  exact ite (seq (overflowIf _) fun _ => seq (lim_resendLost hr _ _) fun _ => pure _) (pure _)

theorem lim_processExtensions (fuel : Nat) (ack : U16) : ∀ l loss, Lim g n (processExtensions E fuel rec ack l loss) (processExtensions E fuel rec ack l loss)
  | [], _ => pure _
  | e :: l, loss => by
    unfold processExtensions
    refine ite (seq (lim_resendFirst hr _ _ _ _) fun loss => get fun s _ => ?_) (lim_processExtensions fuel ack l loss)
    simp only [show (s.withLimit n).sendWindow = s.sendWindow from rfl]
    split
    · exact lim_processExtensions fuel ack l loss
    · exact seq (orPanic _) fun bits => seq (lim_resendMissing hr _ _ _ _ _) fun loss => lim_processExtensions fuel ack l loss

omit hr in
theorem lim_countAck (pkt : Packet) : Lim g n (countAck E pkt) (countAck E pkt) :=
  get fun _ _ => ite (seq (overflowIf _) fun _ => modS fun _ => ⟨rfl, rfl⟩) (seq now fun _ => modS fun _ => ⟨rfl, rfl⟩)

omit hr in
theorem lim_measureAck (pkt : Packet) : Lim g n (measureAck E pkt) (measureAck E pkt) := by
  unfold measureAck
  refine get fun s hs => ?_
  simp only [show (s.withLimit n).sendWindow = s.sendWindow from rfl]
  split
  · exact pure _
  · refine seq now fun t => seq (orPanic _) fun p => store (onNewAck_limit s _ p t).1 fun u hu => ?_
    rw [(onNewAck_limit (n := n) s _ p t).2 u hu]
    exact hs

theorem lim_handleState (fuel : Nat) (pkt : Packet) : Lim g n (handleState E fuel rec pkt) (handleState E fuel rec pkt) := by
  unfold handleState
  refine seq (lim_countAck _) fun _ => seq (lim_measureAck _) fun _ => get fun s _ => seq (orPanic _) fun exts => seq (lim_processExtensions hr _ _ _ _) fun loss => ?_
  refine seq ?_ fun _ => seq (modS fun s => ?_) fun _ => get fun s hs => store (advanceSendWindow_limit s).1 fun u hu => ?_
  · exact get fun s _ => ite (seq (overflowIf _) fun _ => lim_resendLost hr _ _) (pure _)
  · cases loss <;> exact ⟨rfl, rfl⟩
  · rw [(advanceSendWindow_limit (n := n) s).2 u hu]
    exact hs

omit hr in
theorem lim_withSack (s : Socket) (pkt reply : Packet) : Lim g n (withSack E s pkt reply) (withSack E (s.withLimit n) pkt reply) := by
  unfold withSack
  rw [show (s.withLimit n).buildSack E = s.buildSack E from rfl]
  exact ite (seq (orPanic _) fun b => ite (orPanic _) (pure _)) (pure _)

omit hr in
theorem lim_replyWith (pkt : Packet) (ty : PacketType) : Lim g n (replyWith E pkt ty) (replyWith E pkt ty) := get fun _ _ => seq now fun _ => pure _

omit hr in
theorem lim_handleData (pkt : Packet) : Lim g n (handleData E pkt) (handleData E pkt) := get fun s _ => seq now fun _ => lim_withSack s _ _

theorem lim_dispatch (fuel : Nat) (pkt : Packet) (src : Addr) (st : SocketState) (ty : PacketType) :
    Lim g n (dispatch E fuel rec pkt src st ty) (dispatch E fuel rec pkt src st ty) := by
  have hf : Lim g n (onFin E pkt) (onFin E pkt) := get fun s _ => seq now fun _ => seq (lim_withSack s _ _) fun _ => seq (modS fun _ => ⟨rfl, rfl⟩) fun _ => pure _
  have hd : Lim g n (handleData E pkt >>= fun r => Pure.pure (some r)) (handleData E pkt >>= fun r => Pure.pure (some r)) := seq (lim_handleData _) fun _ => pure _
  unfold dispatch
  split
  · exact seq rand fun _ => seq (overflowIf _) fun _ => seq (modS fun _ => ⟨rfl, rfl⟩) fun _ => get fun _ _ => seq now fun _ => pure _
  · exact lim_replyWith _ _
  · exact get fun _ _ => seq (overflowIf _) fun _ => seq now fun _ => seq (modS fun _ => ⟨rfl, rfl⟩) fun _ => pure _
  · exact throw _
  · exact hd
  · exact hd
  · exact seq (lim_handleState hr _ _) fun _ => pure _
  · exact hf
  · exact hf
  · exact lim_replyWith _ _
  · refine seq (modS fun s => ?_) fun _ => pure _
    by_cases h : pkt.ackNr = s.seqNr
    · rw [if_pos h, if_pos (show pkt.ackNr = (s.withLimit n).seqNr from h)]; exact ⟨rfl, rfl⟩
    · rw [if_neg h, if_neg (show ¬ pkt.ackNr = (s.withLimit n).seqNr from h)]; exact ⟨rfl, rfl⟩
  · exact seq (modS fun _ => ⟨rfl, rfl⟩) fun _ => throw _
  · exact throw _

theorem lim_handlePacket (fuel : Nat) (pkt : Packet) (src : Addr) : Lim g n (handlePacket E fuel rec pkt src) (handlePacket E fuel rec pkt src) := by
  unfold handlePacket
  refine seq (modS fun s => ?_) fun _ => get fun s _ => seq (orPanic _) fun ty => ite (lim_replyWith _ _) (seq now fun t => seq (modS fun _ => ⟨rfl, rfl⟩) fun _ => lim_dispatch hr _ _ _ _ _)
  unfold Socket.bumpAck
  by_cases h : pkt.seqNr - s.ackNr = 1
  · rw [if_pos h, if_pos (show pkt.seqNr - (s.withLimit n).ackNr = 1 from h)]; exact ⟨rfl, rfl⟩
  · rw [if_neg h, if_neg (show ¬ pkt.seqNr - (s.withLimit n).ackNr = 1 from h)]; exact ⟨rfl, rfl⟩

theorem lim_recvPacket (fuel len : Nat) (pkt : Packet) (src : Addr) : Lim g n (recvPacket E fuel rec len pkt src) (recvPacket E fuel rec len pkt src) := by
  unfold recvPacket
  refine seq (lim_handlePacket hr _ _ _) fun reply => seq ?_ fun _ => seq (orPanic _) fun ty => seq (modS fun s => ?_) fun _ => seq (lim_flushIncoming _) fun _ => pure _
  · cases reply with
    | none => exact pure _
    | some p => exact udpSend _ _
  · by_cases h : ty = .data ∧ 0 < (pkt.seqNr - s.lastDropped).toNat
    · rw [if_pos h, if_pos (show ty = .data ∧ 0 < (pkt.seqNr - (s.withLimit n).lastDropped).toNat from h)]; exact ⟨rfl, rfl⟩
    · rw [if_neg h, if_neg (show ¬ (ty = .data ∧ 0 < (pkt.seqNr - (s.withLimit n).lastDropped).toNat) from h)]; exact ⟨rfl, rfl⟩

end

/-! ### Operations -/

section
variable (hg : HeardWithin g E.net) (hn : g < n.toNat)
include hg hn

theorem lim_recv : ∀ fuel len, Lim g n (recv E fuel len) (recv E fuel len)
  | 0, _ => never
  | fuel + 1, len => by
    unfold recv recvBody
    refine seq (lim_wait hg hn _) fun x => seq (orPanic _) fun r => ?_
    cases r with
    | error e => exact get fun _ _ => pure _
    | ok p => exact lim_recvPacket (lim_recv fuel _) _ _ _ _

theorem lim_recvFromLoop (fuel len : Nat) : ∀ k, Lim g n (recvFromLoop E fuel len k) (recvFromLoop E fuel len k)
  | 0 => never
  | k + 1 => by
    unfold recvFromLoop
    exact get fun s _ => ite (pure _) (seq (lim_recv hg hn _ _) fun x => ite (lim_recvFromLoop fuel len k) (pure _))

theorem lim_sendQueue (fuel : Nat) : ∀ k, Lim g n (sendQueue E fuel k) (sendQueue E fuel k)
  | 0 => never
  | k + 1 => by
    unfold sendQueue
    refine get fun s _ => ?_
    simp only [show (s.withLimit n).unsent = s.unsent from rfl]
    split
    · exact pure _
    · exact seq (modS fun _ => ⟨rfl, rfl⟩) fun _ => seq (lim_sendPacket (lim_recv hg hn _ _) _ _) fun p => get fun _ _ => seq (overflowIf _) fun _ =>
        seq (modS fun _ => ⟨rfl, rfl⟩) fun _ => lim_sendQueue fuel k

theorem lim_flush (fuel : Nat) : Lim g n (flush E fuel) (flush E fuel) :=
  Lim.whileM (Lim.get fun _ _ => Lim.pure _) (seq (lim_recv hg hn _ _) fun _ => Lim.pure _) _

theorem lim_runOp (fuel : Nat) {op : Op} (h : ∀ k, op ≠ .setMaxRetries k) : Lim g n (runOp E fuel op) (runOp E fuel op) := by
  cases op with
  | recvFrom len =>
    refine seq ?_ fun x => pure _
    unfold recvFrom
    exact seq (lim_flushIncoming _) fun out => get fun s _ => ite (pure _) (ite (throw _) (lim_recvFromLoop hg hn _ _ _))
  | sendTo b =>
    refine seq ?_ fun _ => pure _
    unfold sendTo
    exact get fun s _ => ite (throw _) (seq (modS fun s => enqueues_limit _ s) fun _ => seq (lim_sendQueue hg hn _ _) fun _ => pure _)
  | flush => exact seq (lim_flush hg hn _) fun _ => pure _
  | close =>
    refine seq ?_ fun _ => pure _
    unfold close
    exact get fun s _ => ite (pure _) (seq (lim_flush hg hn _) fun _ => get fun s _ => seq now fun t => seq (udpSend _ _) fun _ => seq (modS fun _ => ⟨rfl, rfl⟩) fun _ =>
      Lim.whileM (Lim.get fun _ _ => Lim.pure _) (seq (lim_recv hg hn _ _) fun _ => Lim.pure _) _)
  | setMaxRetries k => exact absurd rfl (h k)

end

end Utp
