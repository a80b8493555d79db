import Verif.Lemmas.Fuel
import Verif.Spec.Liveness
/-!
# Every operation ends when the network falls silent
-/

namespace Utp
open M

variable {E : Env} {N k : Nat}

/-- The nested receive ends in every world at or after the `k`-th wait, and succeeds only with a datagram. -/
def RecEnds (N k : Nat) {α : Type} (rec : Nat → M α) : Prop :=
  ∀ w, k ≤ w.nNet → Ends rec w fun _ w' => w.nNet < N ∧ w.nNet < w'.nNet

theorem ends_fastResendOne (hq : FallsSilent E N) (w : World) : Ends (fun _ => fastResendOne E) w fun _ _ => True :=
  .seq (.getS trivial) fun _ _ _ => .seq (.now fun _ => trivial) fun _ _ _ =>
    .ignoreErr (.udpSend hq.snd fun _ _ => trivial) fun _ _ => trivial

theorem ends_fastResendRequest (hq : FallsSilent E N) (w : World) : Ends (fun _ => fastResendRequest E) w fun _ _ => True :=
  .seq (ends_fastResendOne hq w) fun _ w _ => .seq (ends_fastResendOne hq w) fun _ w _ => ends_fastResendOne hq w

theorem ends_handleReceiveTimeout (hq : FallsSilent E N) (w : World) : Ends (fun _ => handleReceiveTimeout E) w fun _ _ => True := by
  refine .bind (.getS (Q := fun s w' => s = w'.s) rfl) fun s w1 _ hs => .bind (.overflowIf (Q := fun _ w' => s = w'.s) hs) fun _ w2 _ hs =>
    .bind (.modS (Q := fun _ w' => s.sendWindow = w'.s.sendWindow ∧ s.unsent = w'.s.unsent) rfl ⟨by rw [hs]; rfl, by rw [hs]; rfl⟩) fun _ w3 _ hs => ?_
  split
  · refine .ite (fun _ => .seq (.now fun _ => trivial) fun _ _ _ => .udpSend hq.snd fun _ _ => trivial) fun _ =>
      .ite (fun _ => ends_fastResendRequest hq _) fun _ => .ret trivial
  · exact .seq (.now fun _ => trivial) fun _ _ _ => .seq (.modS rfl trivial) fun _ _ _ => .udpSend hq.snd fun _ _ => trivial

theorem fastResendOne_s (w : World) : (fastResendOne E w).2.s = w.s := by
  unfold fastResendOne
  msimp
  unfold M.ignoreErr
  obtain ⟨r, ok, e, h⟩ := udpSend_cases (E := E) w.s.connectedTo (resendRequest w.s (E.now w.nNow)).bytes { w with nNow := w.nNow + 1 }
  simp only [e]
  cases r <;> rfl

theorem andThen_s {α β : Type} {m : M α} {f : α → M β} {w : World} {P : Socket → Prop} (h : P (m w).2.s)
    (hf : ∀ a w', P w'.s → P (f a w').2.s) : P (M.andThen m f w).2.s := by
  unfold M.andThen
  rcases hm : m w with ⟨r, w'⟩
  rw [hm] at h
  cases r with
  | ok a => exact hf a w' h
  | _ => exact h

theorem handleReceiveTimeout_maxRetries (w : World) : (handleReceiveTimeout E w).2.s.maxRetries = w.s.maxRetries := by
  rcases hsw : w.s.sendWindow with _ | ⟨p, rest⟩
  · unfold handleReceiveTimeout
    simp only [bind_def, andThen_getS, hsw]
    refine andThen_s (P := fun s => s.maxRetries = w.s.maxRetries) (by rw [overflowIf_run]) fun _ w1 h1 => ?_
    msimp
    split
    · rw [udpSend_snd]; exact h1
    · split
      · unfold fastResendRequest
        refine andThen_s (P := fun s => s.maxRetries = w.s.maxRetries) (by rw [fastResendOne_s]; exact h1) fun _ w2 h2 => ?_
        refine andThen_s (P := fun s => s.maxRetries = w.s.maxRetries) (by rw [fastResendOne_s]; exact h2) fun _ w3 h3 => ?_
        rw [fastResendOne_s]; exact h3
      · exact h1
  · unfold handleReceiveTimeout
    simp only [bind_def, andThen_getS, hsw]
    refine andThen_s (P := fun s => s.maxRetries = w.s.maxRetries) (by rw [overflowIf_run]) fun _ w1 h1 => ?_
    msimp
    rw [udpSend_snd]; exact h1

theorem ends_recvWait (hq : FallsSilent E N) : ∀ j r (w : World), w.s.maxRetries.toNat - r = j →
    Ends (fun n => recvWait E n r) w fun _ w' => w.nNet < N ∧ w.nNet < w'.nNet := by
  intro j
  induction j with
  | zero =>
    intro r w hj
    refine .succ (.congr (m := fun _ => M.andThen (modS fun s => { s with state := .closed }) fun _ => M.throw (.sock .connectionTimedOut)) ?_ ?_)
    · exact .andThen (Q := fun _ _ => True) (.modS rfl trivial) fun _ _ _ _ => .throw
    · intro n
      unfold recvWait
      msimp
      rw [if_pos (by omega)]
  | succ j ih =>
    intro r w hj
    obtain ⟨t, ht⟩ : ∃ t, t = (if w.s.state ≠ .new then some w.s.congTimeout else none) := ⟨_, rfl⟩
    have unf : ∀ n, recvWait E (n + 1) r w = M.andThen (udpRecv E t (BUF_SIZE + HEADER_SIZE)) (fun x =>
        match x with
        | .ok x => M.ret x
        | .error k => if isTimeout k then M.andThen (handleReceiveTimeout E) fun _ => recvWait E n (r + 1) else M.throw (.os k)) w := by
      intro n
      rw [recvWait]
      msimp
      rw [if_neg (by omega), ← ht]
      rfl
    rcases hn : E.net w.nNet with ⟨b, src⟩ | k | _
    · have hlt : w.nNet < N := by
        rcases Nat.lt_or_ge w.nNet N with h | h
        · exact h
        · obtain ⟨k, hk⟩ := hq.quiet _ h
          rw [hn] at hk; simp at hk
      refine ⟨.ok (b.take (BUF_SIZE + HEADER_SIZE), src), w.waited t, by simp, ⟨Nat.le_succ _, rfl⟩, fun _ _ => ⟨hlt, Nat.lt_succ_self _⟩, 1, fun n hn' => ?_⟩
      obtain ⟨n, rfl⟩ : ∃ k, n = k + 1 := ⟨n - 1, by omega⟩
      refine (unf n).trans ?_
      rw [andThen_eq (udpRecv_dgram hn _ _)]
      rfl
    · obtain ⟨R, w', h1, h2, h3, F, h4⟩ : Ends (fun n => if isTimeout k then M.andThen (handleReceiveTimeout E) fun _ => recvWait E n (r + 1) else M.throw (.os k))
          (w.waited t) fun _ w' => w.nNet + 1 < N ∧ w.nNet < w'.nNet := by
        refine .ite (fun _ => ?_) fun _ => .throw
        obtain ⟨r', w1, g1, g2, -, G, g3⟩ := ends_handleReceiveTimeout hq (w.waited t)
        have hm := handleReceiveTimeout_maxRetries (E := E) (w.waited t)
        have g3 : handleReceiveTimeout E (w.waited t) = (r', w1) := g3 G (Nat.le_refl _)
        rw [g3] at hm
        refine .andThen (Q := fun _ w' => w'.s.maxRetries = w.s.maxRetries) ⟨r', w1, g1, g2, fun _ _ => hm, 0, fun _ _ => g3⟩ fun _ w2 hk hm => ?_
        have := hk.1
        refine (ih (r + 1) w2 (by rw [hm]; omega)).mono fun _ w3 hk h => ?_
        simp only [World.waited] at this
        omega
      refine ⟨R, w', h1, ⟨Nat.le_trans (Nat.le_succ _) h2.1, h2.2⟩, fun a ha => ⟨by have := (h3 a ha).1; omega, (h3 a ha).2⟩, F + 1, fun n hn' => ?_⟩
      obtain ⟨n, rfl⟩ : ∃ k, n = k + 1 := ⟨n - 1, by omega⟩
      refine (unf n).trans ?_
      rw [andThen_eq (udpRecv_fail hn _ _)]
      exact h4 n (by omega)
    · exact absurd hn (hq.net _)

section
variable {rec : Nat → M (Bytes × Addr)}

theorem ends_sendPacket (hq : FallsSilent E N) (hr : RecEnds N k rec) (p : Packet) {w : World} (hw : k ≤ w.nNet) :
    Ends (fun n => sendPacket E n (rec n) p) w fun _ _ => True := by
  refine .seq (.getS trivial) fun s w1 k1 => .seq (.now fun _ => trivial) fun t w2 k2 => ?_
  refine .seq (.whileM (N := N) (X := fun w => k ≤ w.nNet) (b := fun n => M.andThen (rec n) fun _ => M.ret ()) (fun h h' => Nat.le_trans h' h.1)
      (by have := k1.1; have := k2.1; omega) ?_ ?_) fun _ w3 k3 => ?_
  · intro w _
    refine .bind (.getS (Q := fun _ w' => w' = w) rfl) fun s w' _ e => .ite (fun _ => ?_) fun _ => .ret (by rw [e])
    exact .bind (.now (Q := fun _ w' => w'.nNet = w.nNet) fun _ => by rw [e]) fun _ _ _ e => .ret e
  · intro w hw
    exact .andThen (hr w hw) fun _ _ _ h => .ret h
  · refine .seq (.getS trivial) fun s w1 k1 => .ite (fun _ => .ret trivial) fun _ => .seq (.now fun _ => trivial) fun t w2 k2 =>
      .seq (.udpSend hq.snd fun _ _ => trivial) fun _ _ _ => .ret trivial

theorem ends_resendLost (hq : FallsSilent E N) (hr : RecEnds N k rec) (nr : U16) {w : World} (hw : k ≤ w.nNet) :
    Ends (fun n => resendLost E n (rec n) nr) w fun _ _ => True := by
  refine .seq (.getS trivial) fun s w1 k1 => ?_
  split
  · exact .ret trivial
  · exact .ignoreErr (ends_sendPacket hq hr _ (Nat.le_trans hw k1.1)) fun _ _ => trivial

theorem ends_resendMissing (hq : FallsSilent E N) (hr : RecEnds N k rec) (ack last : U16) : ∀ l loss {w : World}, k ≤ w.nNet →
    Ends (fun n => resendMissing E n (rec n) ack last l loss) w fun _ _ => True
  | [], _, _, _ => .ret trivial
  | (idx, received) :: rest, loss, w, hw => by
    have ih := @ends_resendMissing hq hr ack last rest
    unfold resendMissing
    refine .ite (fun _ => ih _ hw) fun _ => .seq (.overflowIf trivial) fun _ w1 k1 => .ite (fun _ => ?_) fun _ => .ret trivial
    have h1 := Nat.le_trans hw k1.1
    exact .seq (ends_resendLost hq hr _ h1) fun _ w2 k2 => ih _ (Nat.le_trans h1 k2.1)

theorem ends_resendFirst (hq : FallsSilent E N) (hr : RecEnds N k rec) (ack : U16) (data : Bytes) (loss : Bool) {w : World} (hw : k ≤ w.nNet) :
    Ends (fun n => resendFirst E n (rec n) ack data loss) w fun _ _ => True := by
  unfold resendFirst
  refine .ite (fun _ => .seq (.overflowIf trivial) fun _ w1 k1 => ?_) fun _ => .ret trivial
  exact .seq (ends_resendLost hq hr _ (Nat.le_trans hw k1.1)) fun _ _ _ => .ret trivial

theorem ends_processExtensions (hq : FallsSilent E N) (hr : RecEnds N k rec) (ack : U16) : ∀ l loss {w : World}, k ≤ w.nNet →
    Ends (fun n => processExtensions E n (rec n) ack l loss) w fun _ _ => True
  | [], _, _, _ => .ret trivial
  | e :: rest, loss, w, hw => by
    have ih := @ends_processExtensions hq hr ack rest
    unfold processExtensions
    refine .ite (fun _ => .seq (ends_resendFirst hq hr _ _ _ hw) fun _ w1 k1 => .seq (.getS trivial) fun s w2 k2 => ?_) fun _ => ih _ hw
    have h2 := Nat.le_trans hw (k1.trans k2).1
    split
    · exact ih _ h2
    · refine .seq (.orPanic fun _ _ => trivial) fun bits w3 k3 => ?_
      have h3 := Nat.le_trans h2 k3.1
      exact .seq (ends_resendMissing hq hr _ _ _ _ h3) fun _ w4 k4 => ih _ (Nat.le_trans h3 k4.1)

theorem ends_fastRetransmit (hq : FallsSilent E N) (hr : RecEnds N k rec) (pkt : Packet) (exts : List Extension) {w : World} (hw : k ≤ w.nNet) :
    Ends (fun n => fastRetransmit E n (rec n) pkt exts) w fun _ _ => True := by
  refine .seq (.getS trivial) fun s w1 k1 => .ite (fun _ => .seq (.overflowIf trivial) fun _ w2 k2 => ?_) fun _ => .ret trivial
  exact ends_resendLost hq hr _ (Nat.le_trans hw (k1.trans k2).1)

theorem ends_countAck (pkt : Packet) (w : World) : Ends (fun _ => countAck E pkt) w fun _ _ => True := by
  refine .seq (.getS trivial) fun s w1 k1 => .ite (fun _ => .seq (.overflowIf trivial) fun _ _ _ => .modS rfl trivial)
    fun _ => .seq (.now fun _ => trivial) fun _ _ _ => .modS rfl trivial

theorem ends_measureAck (pkt : Packet) (w : World) : Ends (fun _ => measureAck E pkt) w fun _ _ => True := by
  refine .bind (.getS (Q := fun s w => s = w.s) rfl) fun s w1 k1 hs => ?_
  split
  · exact .ret trivial
  · refine .bind (.now (Q := fun _ w => s = w.s) fun _ => hs) fun t w2 _ hs => .bind (.orPanic (Q := fun _ w => s = w.s) fun _ _ => hs) fun p w3 _ hs =>
      .bind (.orPanic (Q := fun s' w => s'.unsent = w.s.unsent) fun s' h => by rw [← hs]; exact onNewAck_unsent h) fun s' w4 _ hs => .modS hs trivial

theorem ends_handleState (hq : FallsSilent E N) (hr : RecEnds N k rec) (pkt : Packet) {w : World} (hw : k ≤ w.nNet) :
    Ends (fun n => handleState E n (rec n) pkt) w fun _ _ => True := by
  refine .seq (ends_countAck pkt w) fun _ w1 k1 => .seq (ends_measureAck pkt w1) fun _ w2 k2 => .seq (.getS trivial) fun s w3 k3 =>
    .seq (.orPanic fun _ _ => trivial) fun exts w4 k4 => ?_
  have h4 := Nat.le_trans hw (((k1.trans k2).trans k3).trans k4).1
  refine .seq (ends_processExtensions hq hr _ _ _ h4) fun loss w5 k5 => ?_
  have h5 := Nat.le_trans h4 k5.1
  refine .seq (ends_fastRetransmit hq hr _ _ h5) fun _ w6 k6 => .seq (.modS ?_ trivial) fun _ w7 _ => ?_
  · split <;> simp [Socket.halveWindow]
  · refine .bind (.getS (Q := fun s w => s = w.s) rfl) fun s w8 _ hs => .bind (.orPanic (Q := fun s' w => s'.unsent = w.s.unsent) fun s' h => ?_)
      fun s' w9 _ hs => .modS hs trivial
    rw [← hs]; exact advanceSendWindow_unsent h

theorem ends_withSack (s : Socket) (pkt reply : Packet) (w : World) : Ends (fun _ => withSack E s pkt reply) w fun _ _ => True := by
  unfold withSack
  exact .ite (fun _ => .seq (.orPanic fun _ _ => trivial) fun _ _ _ => .ite (fun _ => .orPanic fun _ _ => trivial) fun _ => .ret trivial)
    fun _ => .ret trivial

theorem ends_replyWith (pkt : Packet) (t : PacketType) (w : World) : Ends (fun _ => replyWith E pkt t) w fun _ _ => True :=
  .seq (.getS trivial) fun _ _ _ => .seq (.now fun _ => trivial) fun _ _ _ => .ret trivial

theorem ends_dispatch (hq : FallsSilent E N) (hr : RecEnds N k rec) (pkt : Packet) (src : Addr) (st : SocketState) (ty : PacketType) {w : World}
    (hw : k ≤ w.nNet) : Ends (fun n => dispatch E n (rec n) pkt src st ty) w fun _ _ => True := by
  have hd : Ends (fun _ => (do let reply ← handleData E pkt; return some reply : M (Option Packet))) w fun _ _ => True := by
    unfold handleData
    exact .seq (.seq (.getS trivial) fun _ _ _ => .seq (.now fun _ => trivial) fun _ w _ => ends_withSack _ _ _ w) fun _ _ _ => .ret trivial
  have hf : Ends (fun _ => onFin E pkt) w fun _ _ => True :=
    .seq (.getS trivial) fun _ _ _ => .seq (.now fun _ => trivial) fun _ _ _ => .seq (ends_withSack _ _ _ _) fun _ _ _ =>
      .seq (.modS rfl trivial) fun _ _ _ => .ret trivial
  have hy : Ends (fun _ => onSyn E pkt src) w fun _ _ => True :=
    .seq (.rand fun _ => trivial) fun _ _ _ => .seq (.overflowIf trivial) fun _ _ _ => .seq (.modS rfl trivial) fun _ _ _ =>
      .seq (.getS trivial) fun _ _ _ => .seq (.now fun _ => trivial) fun _ _ _ => .ret trivial
  have ha : Ends (fun _ => onSynAck E pkt src) w fun _ _ => True :=
    .seq (.getS trivial) fun _ _ _ => .seq (.overflowIf trivial) fun _ _ _ => .seq (.now fun _ => trivial) fun _ _ _ =>
      .seq (.modS rfl trivial) fun _ _ _ => .ret trivial
  have hfa : Ends (fun _ => onFinAck pkt) w fun _ _ => True :=
    .seq (.modS (by split <;> rfl) trivial) fun _ _ _ => .ret trivial
  have hre : Ends (fun _ => onReset) w fun _ _ => True := .seq (.modS rfl trivial) fun _ _ _ => .throw
  have hs : Ends (fun n => (do handleState E n (rec n) pkt; return none : M (Option Packet))) w fun _ _ => True :=
    .seq (ends_handleState hq hr pkt hw) fun _ _ _ => .ret trivial
  cases st <;> cases ty <;> simp only [dispatch] <;> with_reducible first
    | exact hd | exact hf | exact hy | exact ha | exact hfa | exact hre | exact hs | exact ends_replyWith _ _ _ | exact .throw

theorem ends_handlePacket (hq : FallsSilent E N) (hr : RecEnds N k rec) (pkt : Packet) (src : Addr) {w : World} (hw : k ≤ w.nNet) :
    Ends (fun n => handlePacket E n (rec n) pkt src) w fun _ _ => True := by
  refine .seq (.modS (by simp) trivial) fun _ w1 k1 => .seq (.getS trivial) fun s w2 k2 => .seq (.orPanic fun _ _ => trivial) fun ty w3 k3 =>
    .ite (fun _ => ends_replyWith _ _ _) fun _ => .seq (.now fun _ => trivial) fun t w4 k4 => .seq (.modS rfl trivial) fun _ w5 k5 => ?_
  exact ends_dispatch hq hr _ _ _ _ (Nat.le_trans hw ((((k1.trans k2).trans k3).trans k4).trans k5).1)

theorem ends_flushIncoming (len : Nat) (w : World) : Ends (fun _ => flushIncoming E len) w fun _ _ => True := by
  refine .seq (.getS trivial) fun s w1 k1 => .ite (fun _ => .seq (.modS (by simp) trivial) fun _ _ _ => .ret trivial) fun _ => ?_
  split
  · exact .ret trivial
  · refine .seq (.overflowIf trivial) fun _ _ _ => .ite (fun _ => .seq (.orPanic fun _ _ => trivial) fun _ _ _ =>
      .seq (.modS (by simp) trivial) fun _ _ _ => .ret trivial) fun _ => .ret trivial

theorem ends_recvPacket (hq : FallsSilent E N) (hr : RecEnds N k rec) (len : Nat) (pkt : Packet) (src : Addr) {w : World} (hw : k ≤ w.nNet) :
    Ends (fun n => recvPacket E n (rec n) len pkt src) w fun _ _ => True := by
  refine .seq (ends_handlePacket hq hr pkt src hw) fun reply w1 k1 => .seq ?_ fun _ w2 k2 => .seq (.orPanic fun _ _ => trivial) fun ty w3 _ =>
    .seq (.modS ?_ trivial) fun _ w4 _ => .seq (ends_flushIncoming len w4) fun _ _ _ => .ret trivial
  · cases reply with
    | none => exact .ret trivial
    | some r => exact .udpSend hq.snd fun _ _ => trivial
  · split <;> rfl

theorem ends_recvBody (hq : FallsSilent E N) {w : World} (hr : RecEnds N (w.nNet + 1) rec) (len : Nat) :
    Ends (fun n => recvBody E n (rec n) len) w fun _ w' => w.nNet < N ∧ w.nNet < w'.nNet := by
  refine .bind (ends_recvWait hq _ 0 w rfl) fun x w1 k1 h1 => .bind (.orPanic (Q := fun _ w' => w'.nNet = w1.nNet) fun _ _ => rfl) fun y w2 k2 h2 => ?_
  split
  · exact .bind (.getS (Q := fun _ w' => w'.nNet = w1.nNet) h2) fun _ w3 _ h3 => .ret ⟨h1.1, by omega⟩
  · exact (ends_recvPacket hq hr len _ _ (by omega)).mono fun _ w3 k3 _ => ⟨h1.1, by have := k3.1; omega⟩

end

theorem ends_recv (hq : FallsSilent E N) (len : Nat) (w : World) :
    Ends (fun n => recv E n len) w fun _ w' => w.nNet < N ∧ w.nNet < w'.nNet := by
  obtain ⟨j, hj⟩ : ∃ j, N - w.nNet = j := ⟨_, rfl⟩
  induction j using Nat.strongRecOn generalizing len w with
  | _ j ih =>
    refine .succ ?_
    simp only [recv]
    rcases Nat.lt_or_ge w.nNet N with h | h
    · exact ends_recvBody hq (fun w' hw' => ih (N - w'.nNet) (by omega) _ _ rfl) len
    · -- in the silent part nothing arrives, the nested receive is not reached
      obtain ⟨r, w', h1, h2, h3, F, h4⟩ := ends_recvWait hq _ 0 w rfl
      cases r with
      | ok a => exact absurd (h3 a rfl).1 (by omega)
      | err e' => exact ⟨.err e', w', by simp, h2, by simp, F, fun n hn => andThen_err (h4 n hn)⟩
      | panic => exact ⟨.panic, w', by simp, h2, by simp, F, fun n hn => andThen_eq_panic (h4 n hn)⟩
      | pending => exact absurd rfl h1

theorem ends_scratchRecv (hq : FallsSilent E N) (w : World) :
    Ends (fun n => scratchRecv E n) w fun _ w' => w.nNet < N ∧ w.nNet < w'.nNet :=
  .bind (ends_recv hq BUF_SIZE w) fun _ _ _ h => .ret h

theorem ends_loop (hq : FallsSilent E N) (g : Socket → Bool) (w : World) :
    Ends (fun n => whileM n (do let s ← getS; return g s) (scratchRecv E n)) w fun _ _ => True :=
  .whileM (N := N) (X := fun _ => True) (fun _ _ => trivial) trivial
    (fun w _ => .bind (.getS (Q := fun _ w' => w'.nNet = w.nNet) rfl) fun _ _ _ h => .ret h) fun w _ => ends_scratchRecv hq w

theorem ends_flush (hq : FallsSilent E N) (w : World) : Ends (fun n => flush E n) w fun _ _ => True := by
  unfold flush
  exact ends_loop hq (fun s => decide (s.sendWindow ≠ [])) w

theorem ends_close (hq : FallsSilent E N) (w : World) : Ends (fun n => close E n) w fun _ _ => True := by
  unfold close
  exact .seq (.getS trivial) fun s w1 _ => .ite (fun _ => .ret trivial) fun _ => .seq (ends_flush hq _) fun _ w2 _ => .seq (.getS trivial) fun _ _ _ =>
    .seq (.now fun _ => trivial) fun _ _ _ => .seq (.udpSend hq.snd fun _ _ => trivial) fun _ _ _ => .seq (.modS rfl trivial) fun _ _ _ =>
    ends_loop hq (fun s => decide (s.state ≠ .closed)) _

theorem ends_recvFromLoop (hq : FallsSilent E N) (len : Nat) (w : World) : ∃ r w', r ≠ .pending ∧ ∃ F, ∀ n f, F ≤ n → F ≤ f →
    recvFromLoop E f len n w = (r, w') := by
  obtain ⟨j, hj⟩ : ∃ j, N - w.nNet = j := ⟨_, rfl⟩
  induction j using Nat.strongRecOn generalizing w with
  | _ j ih =>
    by_cases hc : w.s.state = .closed
    · refine ⟨.ok ([], w.s.connectedTo), w, by simp, 1, fun n f hn hf => ?_⟩
      obtain ⟨n, rfl⟩ : ∃ k, n = k + 1 := ⟨n - 1, by omega⟩
      unfold recvFromLoop
      msimp
      rw [if_pos hc]
    · obtain ⟨r, w1, h1, h2, h3, F, h4⟩ := ends_recv hq len w
      have unf : ∀ n f, recvFromLoop E f len (n + 1) w = M.andThen (recv E f len) (fun x => if x.1 = [] then recvFromLoop E f len n else M.ret x) w := by
        intro n f
        rw [recvFromLoop]
        msimp
        rw [if_neg hc]
      cases r with
      | err e =>
        refine ⟨.err e, w1, by simp, F + 1, fun n f hn hf => ?_⟩
        obtain ⟨n, rfl⟩ : ∃ k, n = k + 1 := ⟨n - 1, by omega⟩
        rw [unf, andThen_err (h4 f (by omega))]
      | panic =>
        refine ⟨.panic, w1, by simp, F + 1, fun n f hn hf => ?_⟩
        obtain ⟨n, rfl⟩ : ∃ k, n = k + 1 := ⟨n - 1, by omega⟩
        rw [unf, andThen_eq_panic (h4 f (by omega))]
      | pending => exact absurd rfl h1
      | ok x =>
        obtain ⟨e1, e2⟩ := h3 x rfl
        by_cases hx : x.1 = []
        · obtain ⟨r, w2, g1, G, g2⟩ := ih (N - w1.nNet) (by omega) w1 rfl
          refine ⟨r, w2, g1, F + G + 1, fun n f hn hf => ?_⟩
          obtain ⟨n, rfl⟩ : ∃ k, n = k + 1 := ⟨n - 1, by omega⟩
          rw [unf, andThen_eq (h4 f (by omega)), if_pos hx]
          exact g2 n f (by omega) (by omega)
        · refine ⟨.ok x, w1, by simp, F + 1, fun n f hn hf => ?_⟩
          obtain ⟨n, rfl⟩ : ∃ k, n = k + 1 := ⟨n - 1, by omega⟩
          rw [unf, andThen_eq (h4 f (by omega)), if_neg hx]
          rfl

theorem ends_sendQueue (hq : FallsSilent E N) (w : World) : ∃ r w', r ≠ .pending ∧ ∃ F, ∀ n f, F ≤ n → F ≤ f →
    sendQueue E f n w = (r, w') := by
  obtain ⟨j, hj⟩ : ∃ j, w.s.unsent.length = j := ⟨_, rfl⟩
  induction j generalizing w with
  | zero =>
    refine ⟨.ok (), w, by simp, 1, fun n f hn hf => ?_⟩
    obtain ⟨n, rfl⟩ : ∃ k, n = k + 1 := ⟨n - 1, by omega⟩
    unfold sendQueue
    msimp
    rw [List.length_eq_zero_iff.mp hj]
    rfl
  | succ j ih =>
    obtain ⟨p, rest, hu⟩ : ∃ p rest, w.s.unsent = p :: rest := by
      cases hu : w.s.unsent with
      | nil => rw [hu] at hj; simp at hj
      | cons p rest => exact ⟨p, rest, rfl⟩
    obtain ⟨w0, hw0⟩ : ∃ w0, w0 = w.setS { w.s with unsent := rest } := ⟨_, rfl⟩
    have unf : ∀ n f, sendQueue E f (n + 1) w = M.andThen (sendPacket E f (recv E f BUF_SIZE) p) (fun p' => M.andThen getS fun s =>
        M.andThen (overflowIf E (s.currWindow.toNat + (BitVec.ofNat 32 p'.len : U32).toNat ≥ 2 ^ 32)) fun _ =>
        M.andThen (modS fun s => { s with currWindow := s.currWindow + BitVec.ofNat 32 p'.len, sendWindow := s.sendWindow ++ [p'] }) fun _ =>
        sendQueue E f n) w0 := by
      intro n f
      rw [sendQueue]
      simp only [bind_def, andThen_getS, hu]
      rw [andThen_modS, ← hw0]
    obtain ⟨r, w1, h1, h2, -, F, h4⟩ := ends_sendPacket (k := 0) (rec := fun n => recv E n BUF_SIZE) hq (fun w _ => ends_recv hq _ w) p (w := w0) (Nat.zero_le _)
    cases r with
    | err e =>
      refine ⟨.err e, w1, by simp, F + 1, fun n f hn hf => ?_⟩
      obtain ⟨n, rfl⟩ : ∃ k, n = k + 1 := ⟨n - 1, by omega⟩
      rw [unf, andThen_err (h4 f (by omega))]
    | panic =>
      refine ⟨.panic, w1, by simp, F + 1, fun n f hn hf => ?_⟩
      obtain ⟨n, rfl⟩ : ∃ k, n = k + 1 := ⟨n - 1, by omega⟩
      rw [unf, andThen_eq_panic (h4 f (by omega))]
    | pending => exact absurd rfl h1
    | ok p' =>
      have hl : w1.s.unsent.length = j := by
        rw [h2.2, hw0]
        rw [hu] at hj
        simpa [World.setS] using hj
      by_cases ho : (E.checks && decide (w1.s.currWindow.toNat + (BitVec.ofNat 32 p'.len : U32).toNat ≥ 2 ^ 32)) = true
      · refine ⟨.panic, w1, by simp, F + 1, fun n f hn hf => ?_⟩
        obtain ⟨n, rfl⟩ : ∃ k, n = k + 1 := ⟨n - 1, by omega⟩
        rw [unf, andThen_eq (h4 f (by omega)), andThen_getS, overflowIf, if_pos ho]
        rfl
      · obtain ⟨r, w2, g1, G, g2⟩ := ih (w1.setS { w1.s with currWindow := w1.s.currWindow + BitVec.ofNat 32 p'.len, sendWindow := w1.s.sendWindow ++ [p'] }) hl
        refine ⟨r, w2, g1, F + G + 1, fun n f hn hf => ?_⟩
        obtain ⟨n, rfl⟩ : ∃ k, n = k + 1 := ⟨n - 1, by omega⟩
        rw [unf, andThen_eq (h4 f (by omega)), andThen_getS, overflowIf, if_neg ho, andThen_ret, andThen_modS]
        exact g2 n f (by omega) (by omega)

/-- With enough fuel, every operation ends, always in the same way. -/
theorem runOp_ends (hq : FallsSilent E N) (op : Op) (w : World) : ∃ r w', r ≠ .pending ∧ ∃ F, ∀ n, F ≤ n → runOp E n op w = (r, w') := by
  have key : ∀ {α : Type} {m : Nat → M α} {g : α → Out}, (∃ r w', r ≠ .pending ∧ ∃ F, ∀ n, F ≤ n → m n w = (r, w')) →
      ∃ r w', r ≠ .pending ∧ ∃ F, ∀ n, F ≤ n → M.andThen (m n) (fun a => M.ret (g a)) w = (r, w') := by
    rintro α m g ⟨r, w', h1, F, h2⟩
    cases r with
    | ok a => exact ⟨.ok (g a), w', by simp, F, fun n hn => by rw [andThen_eq (h2 n hn)]; rfl⟩
    | err e => exact ⟨.err e, w', by simp, F, fun n hn => by rw [andThen_err (h2 n hn)]⟩
    | panic => exact ⟨.panic, w', by simp, F, fun n hn => by rw [andThen_eq_panic (h2 n hn)]⟩
    | pending => exact absurd rfl h1
  have ofEnds : ∀ {α : Type} {m : Nat → M α} {Q : α → World → Prop}, Ends m w Q → ∃ r w', r ≠ .pending ∧ ∃ F, ∀ n, F ≤ n → m n w = (r, w') := by
    rintro α m Q ⟨r, w', h1, -, -, F, h⟩
    exact ⟨r, w', h1, F, h⟩
  cases op with
  | recvFrom len =>
    refine key (α := Bytes × Addr) (g := fun x => .bytes x.1 x.2) ?_
    obtain ⟨r, w1, h1, h2, -, F, h4⟩ := ends_flushIncoming (E := E) len w
    have h4 : flushIncoming E len w = (r, w1) := h4 F (Nat.le_refl F)
    have unf : ∀ n, recvFrom E n len w = M.andThen (flushIncoming E len) (fun out => M.andThen getS fun s =>
        if out ≠ [] then M.ret (out, s.connectedTo) else if s.state = .resetReceived then M.throw (.sock .connectionReset) else recvFromLoop E n len n) w :=
      fun _ => rfl
    cases r with
    | err e => exact ⟨.err e, w1, by simp, 0, fun n _ => by rw [unf, andThen_err h4]⟩
    | panic => exact ⟨.panic, w1, by simp, 0, fun n _ => by rw [unf, andThen_eq_panic h4]⟩
    | pending => exact absurd rfl h1
    | ok out =>
      by_cases ho : out ≠ []
      · exact ⟨.ok (out, w1.s.connectedTo), w1, by simp, 0, fun n _ => by rw [unf, andThen_eq h4, andThen_getS, if_pos ho]; rfl⟩
      · by_cases hs : w1.s.state = .resetReceived
        · exact ⟨.err (.sock .connectionReset), w1, by simp, 0, fun n _ => by rw [unf, andThen_eq h4, andThen_getS, if_neg ho, if_pos hs]; rfl⟩
        · obtain ⟨r, w2, g1, G, g2⟩ := ends_recvFromLoop hq len w1
          exact ⟨r, w2, g1, G, fun n hn => by rw [unf, andThen_eq h4, andThen_getS, if_neg ho, if_neg hs]; exact g2 n n hn hn⟩
  | sendTo buf =>
    refine key (g := fun n => .count n) ?_
    have unf : ∀ n, sendTo E n buf w = M.andThen getS (fun s => if s.state = .closed then M.throw (.sock .connectionClosed) else
        M.andThen (modS fun s => (chunks buf.length buf).foldl enqueue s) fun _ => M.andThen (sendQueue E n n) fun _ => M.ret buf.length) w := fun _ => rfl
    by_cases hs : w.s.state = .closed
    · exact ⟨.err (.sock .connectionClosed), w, by simp, 0, fun n _ => by rw [unf, andThen_getS, if_pos hs]; rfl⟩
    · obtain ⟨r, w2, g1, G, g2⟩ := ends_sendQueue hq (w.setS ((chunks buf.length buf).foldl enqueue w.s))
      have unf : ∀ n, sendTo E n buf w = M.andThen (sendQueue E n n) (fun _ => M.ret buf.length) (w.setS ((chunks buf.length buf).foldl enqueue w.s)) :=
        fun n => by rw [unf, andThen_getS, if_neg hs, andThen_modS]
      cases r with
      | ok a => exact ⟨.ok buf.length, w2, by simp, G, fun n hn => by rw [unf, andThen_eq (g2 n n hn hn)]; rfl⟩
      | err e => exact ⟨.err e, w2, by simp, G, fun n hn => by rw [unf, andThen_err (g2 n n hn hn)]⟩
      | panic => exact ⟨.panic, w2, by simp, G, fun n hn => by rw [unf, andThen_eq_panic (g2 n n hn hn)]⟩
      | pending => exact absurd rfl g1
  | flush => exact key (g := fun _ => .unit) (ofEnds (ends_flush hq w))
  | close => exact key (g := fun _ => .unit) (ofEnds (ends_close hq w))
  | setMaxRetries n => exact ⟨.ok .unit, _, by simp, 0, fun _ _ => rfl⟩

end Utp
