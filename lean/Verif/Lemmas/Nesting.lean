import Verif.Spec.Nesting
import Verif.Lemmas.Recv
/-!
# When the outcome of a computation depends on the receive it is given
-/

namespace Utp
open M

variable {E : Env} {α β : Type} {k : Nat}

/-- Started after `k` receives, the two computations do the same, and receives are never undone. -/
def Same (k : Nat) (m m' : M α) : Prop := ∀ w : World, k ≤ w.nNet → m w = m' w ∧ k ≤ (m w).2.nNet

namespace Same

theorem andThen {m m' : M α} {f f' : α → M β} (h : Same k m m') (hf : ∀ a, Same k (f a) (f' a)) :
    Same k (M.andThen m f) (M.andThen m' f') := by
  intro w hw
  obtain ⟨h1, h2⟩ := h w hw
  unfold M.andThen
  rw [← h1]
  rcases hm : m w with ⟨r, w'⟩
  rw [hm] at h2
  cases r with
  | ok a => exact hf a w' h2
  | err e => exact ⟨rfl, h2⟩
  | panic => exact ⟨rfl, h2⟩
  | pending => exact ⟨rfl, h2⟩

theorem bind {m m' : M α} {f f' : α → M β} (h : Same k m m') (hf : ∀ a, Same k (f a) (f' a)) :
    Same k (m >>= f) (m' >>= f') := andThen h hf

theorem ignoreErr {m m' : M α} (h : Same k m m') : Same k (M.ignoreErr m) (M.ignoreErr m') := by
  intro w hw
  obtain ⟨h1, h2⟩ := h w hw
  unfold M.ignoreErr
  rw [← h1]
  rcases hm : m w with ⟨r, w'⟩
  rw [hm] at h2
  cases r <;> exact ⟨rfl, h2⟩

theorem ret {a : α} : Same k (M.ret a) (M.ret a) := fun _ h => ⟨rfl, h⟩
theorem pure {a : α} : Same k (Pure.pure a : M α) (Pure.pure a) := ret
theorem throw {e : IoErr} : Same k (M.throw e : M α) (M.throw e) := fun _ h => ⟨rfl, h⟩
theorem panic : Same k (M.panic : M α) M.panic := fun _ h => ⟨rfl, h⟩
theorem never : Same k (M.never : M α) M.never := fun _ h => ⟨rfl, h⟩
theorem getS : Same k M.getS M.getS := fun _ h => ⟨rfl, h⟩
theorem modS {f : Socket → Socket} : Same k (M.modS f) (M.modS f) := fun _ h => ⟨rfl, h⟩
theorem now : Same k (M.now E) (M.now E) := fun _ h => ⟨rfl, h⟩
theorem rand : Same k (M.rand E) (M.rand E) := fun _ h => ⟨rfl, h⟩
theorem orPanic {o : Option α} : Same k (M.orPanic o) (M.orPanic o) := by cases o <;> exact fun _ h => ⟨rfl, h⟩
theorem overflowIf {b : Bool} : Same k (M.overflowIf E b) (M.overflowIf E b) := by
  unfold M.overflowIf
  split
  · exact panic
  · exact ret
theorem ite {c : Prop} [Decidable c] {a b a' b' : M α} (h : Same k a a') (h' : Same k b b') :
    Same k (if c then a else b) (if c then a' else b') := by split <;> assumption
theorem udpSend {dst : Addr} {b : Bytes} : Same k (M.udpSend E dst b) (M.udpSend E dst b) := by
  intro w hw
  refine ⟨rfl, ?_⟩
  rw [udpSend_snd]
  exact hw

end Same

/-- One step of a proof of `Same`. -/
macro "sameness" : tactic => `(tactic| repeat' first
  | assumption
  | exact Same.ret | exact Same.pure | exact Same.throw | exact Same.panic | exact Same.never | exact Same.getS | exact Same.modS | exact Same.now
  | exact Same.rand | exact Same.orPanic | exact Same.overflowIf | exact Same.udpSend
  | apply Same.bind | apply Same.andThen | apply Same.ignoreErr | apply Same.ite | split | (intro _; skip))

theorem same_flushIncoming (len : Nat) : Same k (flushIncoming E len) (flushIncoming E len) := by unfold flushIncoming; sameness

/-- The two receives do the same when called after `k` receives with a full window. -/
def SameRec (k : Nat) (rec rec' : M (Bytes × Addr)) : Prop :=
  ∀ w : World, k ≤ w.nNet → 2800 ≤ w.s.currWindow.toNat → rec w = rec' w ∧ k ≤ (rec w).2.nNet

variable {rec rec' : M (Bytes × Addr)}

/-- The loop that waits for room in the window. -/
theorem same_room (h : SameRec k rec rec') {lim : U32} (hl : 2800 ≤ lim.toNat) (start : U32) : ∀ n,
    Same k
      (M.whileM n (do
        let s ← getS
        if lim ≤ s.currWindow then
          let t ← M.now E
          return decide (tsSub t start < PRE_SEND_TIMEOUT)
        else return false) (M.andThen rec fun _ => M.ret ()))
      (M.whileM n (do
        let s ← getS
        if lim ≤ s.currWindow then
          let t ← M.now E
          return decide (tsSub t start < PRE_SEND_TIMEOUT)
        else return false) (M.andThen rec' fun _ => M.ret ()))
  | 0 => .never
  | n + 1 => by
    have ih := same_room h hl start n
    intro w hw
    simp only [M.whileM]
    msimp
    by_cases hc : lim ≤ w.s.currWindow
    · rw [if_pos hc, if_pos hc]
      by_cases ht : tsSub (E.now w.nNow) start < PRE_SEND_TIMEOUT
      · simp only [ht, decide_true, if_true]
        have hc' : 2800 ≤ w.s.currWindow.toNat := Nat.le_trans hl (BitVec.le_def.mp hc)
        have h1 := h { w with nNow := w.nNow + 1 } hw hc'
        have h2 : Same ({ w with nNow := w.nNow + 1 } : World).nNet M.getS M.getS := .getS
        unfold M.andThen
        rw [← h1.1]
        rcases hm : rec { w with nNow := w.nNow + 1 } with ⟨r, w'⟩
        rw [hm] at h1
        cases r with
        | ok a => exact ih w' h1.2
        | err e => exact ⟨rfl, h1.2⟩
        | panic => exact ⟨rfl, h1.2⟩
        | pending => exact ⟨rfl, h1.2⟩
      · simp only [ht, decide_false, Bool.false_eq_true, if_false]
        exact ⟨trivial, hw⟩
    · rw [if_neg hc, if_neg hc]
      exact ⟨rfl, hw⟩

theorem room_le (m : U32) : 2800 ≤ (if m < MIN_WND then MIN_WND else m).toNat := by
  split
  · decide
  · rename_i hm
    exact Nat.le_of_not_lt fun hlt => hm (BitVec.lt_def.mpr hlt)

theorem same_sendPacket (h : SameRec k rec rec') (fuel : Nat) (p : Packet) :
    Same k (sendPacket E fuel rec p) (sendPacket E fuel rec' p) := by
  unfold sendPacket
  exact .bind .getS fun s => .bind .now fun t => .bind (same_room h (room_le _) t fuel) fun _ => .bind .getS fun _ =>
    .ite .ret (.bind .now fun _ => .bind .udpSend fun _ => .ret)

theorem same_resendLost (h : SameRec k rec rec') (fuel : Nat) (nr : U16) : Same k (resendLost E fuel rec nr) (resendLost E fuel rec' nr) := by
  unfold resendLost
  refine .bind .getS fun s => ?_
  cases s.sendWindow.find? fun p => p.seqNr == nr with
  | none => exact .ret
  | some p => exact .ignoreErr (same_sendPacket h fuel p)

theorem same_resendMissing (h : SameRec k rec rec') (fuel : Nat) (ack last : U16) :
    ∀ l loss, Same k (resendMissing E fuel rec ack last l loss) (resendMissing E fuel rec' ack last l loss)
  | [], _ => .ret
  | (_, _) :: rest, _ => by
    have ih := same_resendMissing h fuel ack last rest
    unfold resendMissing
    exact .ite (ih _) (.bind .overflowIf fun _ => .ite (.bind (same_resendLost h fuel _) fun _ => ih _) .ret)

theorem same_resendFirst (h : SameRec k rec rec') (fuel : Nat) (ack : U16) (d : Bytes) (loss : Bool) :
    Same k (resendFirst E fuel rec ack d loss) (resendFirst E fuel rec' ack d loss) := by
  unfold resendFirst
  exact .ite (.bind .overflowIf fun _ => .bind (same_resendLost h fuel _) fun _ => .ret) .ret

theorem same_processExtensions (h : SameRec k rec rec') (fuel : Nat) (ack : U16) :
    ∀ l loss, Same k (processExtensions E fuel rec ack l loss) (processExtensions E fuel rec' ack l loss)
  | [], _ => .ret
  | e :: rest, _ => by
    have ih := same_processExtensions h fuel ack rest
    unfold processExtensions
    refine .ite (.bind (same_resendFirst h fuel _ _ _) fun _ => .bind .getS fun s => ?_) (ih _)
    cases s.sendWindow.getLast? with
    | none => exact ih _
    | some l => exact .bind .orPanic fun _ => .bind (same_resendMissing h fuel _ _ _ _) fun _ => ih _

theorem same_countAck (pkt : Packet) : Same k (countAck E pkt) (countAck E pkt) := by unfold countAck; sameness
theorem same_measureAck (pkt : Packet) : Same k (measureAck E pkt) (measureAck E pkt) := by unfold measureAck; sameness

theorem same_handleState (h : SameRec k rec rec') (fuel : Nat) (pkt : Packet) :
    Same k (handleState E fuel rec pkt) (handleState E fuel rec' pkt) := by
  have h3 : ∀ exts, Same k (fastRetransmit E fuel rec pkt exts) (fastRetransmit E fuel rec' pkt exts) := fun exts => by
    unfold fastRetransmit
    exact .bind .getS fun _ => .ite (.bind .overflowIf fun _ => same_resendLost h fuel _) .ret
  exact .bind (same_countAck pkt) fun _ => .bind (same_measureAck pkt) fun _ => .bind .getS fun _ => .bind .orPanic fun _ =>
    .bind (same_processExtensions h fuel _ _ _) fun _ => .bind (h3 _) fun _ => .bind .modS fun _ => .bind .getS fun _ =>
      .bind .orPanic fun _ => .modS

theorem same_handleData (pkt : Packet) : Same k (handleData E pkt) (handleData E pkt) := by
  unfold handleData withSack; sameness
theorem same_replyWith (pkt : Packet) (t : PacketType) : Same k (replyWith E pkt t) (replyWith E pkt t) := by
  unfold replyWith; sameness

theorem same_dispatch (h : SameRec k rec rec') (fuel : Nat) (pkt : Packet) (src : Addr) (st : SocketState) (ty : PacketType) :
    Same k (dispatch E fuel rec pkt src st ty) (dispatch E fuel rec' pkt src st ty) := by
  have h1 := same_handleState (E := E) h fuel pkt
  have h2 := same_handleData (E := E) (k := k) pkt
  have h3 := same_replyWith (E := E) (k := k) pkt
  have h4 : Same k (onFin E pkt) (onFin E pkt) := by unfold onFin withSack; sameness
  have h5 : Same k (onFinAck pkt) (onFinAck pkt) := by unfold onFinAck; sameness
  have h6 : Same k onReset onReset := by unfold onReset; sameness
  have h7 : Same k (onSyn E pkt src) (onSyn E pkt src) := by unfold onSyn; sameness
  have h8 : Same k (onSynAck E pkt src) (onSynAck E pkt src) := by unfold onSynAck; sameness
  cases st <;> cases ty <;> simp only [dispatch] <;> with_reducible first
    | exact h7
    | exact h3 _
    | exact h8
    | exact h4
    | exact h5
    | exact h6
    | exact Same.throw
    | exact Same.bind h1 fun _ => .ret
    | exact Same.bind h2 fun _ => .ret

theorem same_recvPacket (h : SameRec k rec rec') (fuel len : Nat) (pkt : Packet) (src : Addr) :
    Same k (recvPacket E fuel rec len pkt src) (recvPacket E fuel rec' len pkt src) := by
  have h1 : Same k (handlePacket E fuel rec pkt src) (handlePacket E fuel rec' pkt src) := by
    unfold handlePacket
    exact .bind .modS fun _ => .bind .getS fun _ => .bind .orPanic fun _ => .ite (same_replyWith _ _)
      (.bind .now fun _ => .bind .modS fun _ => same_dispatch h fuel _ _ _ _)
  have h2 : ∀ r, Same k (sendReply E src r) (sendReply E src r) := fun r => by
    cases r with
    | none => exact .ret
    | some r => exact .udpSend
  exact .bind h1 fun _ => .bind (h2 _) fun _ => .bind .orPanic fun _ => .bind .modS fun _ => .bind (same_flushIncoming len) fun _ => .ret

/-- A call of `recv` depends only on nested calls made after it has received a datagram, with a full window. -/
theorem recvBody_same (h : SameRec (k + 1) rec rec') (fuel len : Nat) (w : World) (hw : k ≤ w.nNet) :
    recvBody E fuel rec len w = recvBody E fuel rec' len w ∧ k ≤ (recvBody E fuel rec len w).2.nNet := by
  unfold recvBody
  have hf := recvWait_frame (E := E) fuel 0 w
  simp only [bind_def]
  unfold M.andThen
  rcases hm : recvWait E fuel 0 w with ⟨r, w'⟩
  rw [hm] at hf
  have hn : k ≤ w'.nNet := Nat.le_trans hw hf.net
  cases r with
  | ok x =>
    obtain ⟨i, b, hi, hk, -, -⟩ := hf.got x rfl
    obtain ⟨b', src⟩ := x
    simp only
    rcases Packet.tryFrom b' with _ | ⟨e | pkt⟩
    · exact ⟨rfl, hn⟩
    · exact ⟨rfl, hn⟩
    · have := same_recvPacket (E := E) h fuel len pkt src w' (by simp only at hi; omega)
      exact ⟨this.1, Nat.le_of_succ_le this.2⟩
  | err e => exact ⟨rfl, hn⟩
  | panic => exact ⟨rfl, hn⟩
  | pending => exact ⟨rfl, hn⟩

theorem recv_nNet : ∀ (fuel len : Nat) (w : World), w.nNet ≤ (recv E fuel len w).2.nNet
  | 0, _, _ => Nat.le_refl _
  | fuel + 1, len, w => by
    have : SameRec (w.nNet + 1) (recv E fuel BUF_SIZE) (recv E fuel BUF_SIZE) := fun v h1 _ =>
      ⟨rfl, Nat.le_trans h1 (recv_nNet fuel BUF_SIZE v)⟩
    exact (recvBody_same this fuel len w (Nat.le_refl _)).2

theorem probe_same {fuel k : Nat} {v : World} (h : ¬ (k ≤ v.nNet ∧ 2800 ≤ v.s.currWindow.toNat)) (x y : World) :
    SameRec k (probe E fuel v x) (probe E fuel v y) := by
  intro u h1 h2
  have : u ≠ v := by rintro rfl; exact h ⟨h1, h2⟩
  simp only [probe, this, if_false, true_and]
  exact Nat.le_trans h1 (recv_nNet fuel BUF_SIZE u)

theorem world_two (w : World) : w ≠ { w with nNow := w.nNow + 1 } := by
  intro h
  have := congrArg World.nNow h
  simp at this

theorem recvPacket_congr {fuel len : Nat} {pkt : Packet} {src : Addr} {w : World} {rec rec' : M (Bytes × Addr)}
    (h : handlePacket E fuel rec pkt src w = handlePacket E fuel rec' pkt src w) :
    recvPacket E fuel rec len pkt src w = recvPacket E fuel rec' len pkt src w := by
  unfold recvPacket
  simp only [bind_def]
  unfold M.andThen
  rw [h]

/-- The packet that makes a call of `recv` call itself. -/
theorem calls_cause {fuel len : Nat} {w v : World} (h : Calls E fuel len w v) :
    2800 ≤ v.s.currWindow.toNat ∧ w.s.state = .connected ∧ ∃ k b src pkt, w.nNet ≤ k ∧ k < v.nNet ∧ E.net k = .dgram b src ∧
      Packet.tryFrom (b.take 1520) = some (.ok pkt) ∧ pkt.getType = some .state ∧
      (pkt.connectionId = w.s.senderId ∨ pkt.connectionId = w.s.receiverId) := by
  have h0 := h w
  have h1 := h { w with nNow := w.nNow + 1 }
  have hf := recvWait_frame (E := E) fuel 0 w
  unfold recvBody at h0 h1
  simp only [bind_def] at h0 h1
  rcases hm : recvWait E fuel 0 w with ⟨r, u⟩
  rw [hm] at hf
  cases r with
  | err e => rw [andThen_err hm] at h0; simp at h0
  | pending => rw [andThen_pending hm] at h0; simp at h0
  | panic =>
    rw [andThen_eq_panic hm] at h0 h1
    exact absurd ((Prod.ext_iff.mp h0).2.symm.trans (Prod.ext_iff.mp h1).2) (world_two w)
  | ok x =>
    obtain ⟨k, b, hk, hk', hn, hb⟩ := hf.got x rfl
    obtain ⟨sw, ct, cw, st, hs, -, -, hst⟩ := hf.socket
    have hst' : st = w.s.state := Classical.byContradiction fun hne => by simpa using (hst hne).2
    subst hst'
    simp only at hs hk
    rw [andThen_eq hm] at h0 h1
    obtain ⟨b', src⟩ := x
    simp only at h0 h1 hb hn
    rcases hp : Packet.tryFrom b' with _ | ⟨e | pkt⟩
    · rw [hp, andThen_none] at h0 h1
      exact absurd ((Prod.ext_iff.mp h0).2.symm.trans (Prod.ext_iff.mp h1).2) (world_two w)
    · rw [hp, andThen_some] at h0
      simp only [andThen_getS, pure_def, ret_run] at h0
      simp at h0
    · rw [hp] at h0 h1
      simp only [andThen_some] at h0 h1
      have hne : ∀ r r' : M (Bytes × Addr), recvPacket E fuel r len pkt src u = (.panic, w) →
        recvPacket E fuel r' len pkt src u = (.panic, { w with nNow := w.nNow + 1 }) →
        recvPacket E fuel r len pkt src u ≠ recvPacket E fuel r' len pkt src u := by
        intro r r' e1 e2 e3
        rw [e1, e2] at e3
        exact world_two w (Prod.ext_iff.mp e3).2
      have hd := hne _ _ h0 h1
      have hv : u.nNet ≤ v.nNet ∧ 2800 ≤ v.s.currWindow.toNat := Classical.byContradiction fun hc =>
        hd (same_recvPacket (probe_same hc _ _) fuel len pkt src u (Nat.le_refl _)).1
      have hh : ∃ ty, pkt.getType = some ty := by
        rcases ht : pkt.getType with _ | ty
        · exact absurd (recvPacket_congr (by unfold handlePacket; rw [ht]; msimp)) hd
        · exact ⟨ty, rfl⟩
      obtain ⟨ty, ht⟩ := hh
      have hid : u.s.takes pkt ty := Classical.byContradiction fun hc => by
        exact hd (recvPacket_congr (by rw [handlePacket_foreign ht hc, handlePacket_foreign ht hc]))
      have hst : u.s.state = .connected ∧ ty = .state := Classical.byContradiction fun hc => by
        refine hd (recvPacket_congr ?_)
        rw [handlePacket_takes ht hid, handlePacket_takes ht hid]
        have : ∀ rec rec', dispatch E fuel rec pkt src u.s.state ty = dispatch E fuel rec' pkt src u.s.state ty := by
          intro rec rec'
          cases hu : u.s.state <;> cases ty <;> first | rfl | exact absurd ⟨hu, rfl⟩ hc
        rw [this _ (probe E fuel v w)]
        exact congrFun (this _ _) _
      have hu : u.s.state = w.s.state ∧ u.s.senderId = w.s.senderId ∧ u.s.receiverId = w.s.receiverId := by rw [hs]; exact ⟨rfl, rfl, rfl⟩
      refine ⟨hv.2, hu.1 ▸ hst.1, k, b, src, pkt, hk', by omega, hn, hb ▸ hp, hst.2 ▸ ht, ?_⟩
      rcases hid with h | h | h
      · rw [hst.2] at h; cases h
      · rw [hst.1] at h; cases h
      · rw [← hu.2.1, ← hu.2.2]; exact h

theorem countAck_release (hc : E.checks = false) (pkt : Packet) (w : World) : ∃ v, countAck E pkt w = (.ok (), v) ∧ v.nNet = w.nNet ∧
    v.s = { w.s with lastAcked := v.s.lastAcked, lastAckedTs := v.s.lastAckedTs, dupAcks := v.s.dupAcks } := by
  unfold countAck
  simp only [overflowIf_release hc]
  msimp
  split
  · exact ⟨_, rfl, rfl, rfl⟩
  · exact ⟨_, rfl, rfl, rfl⟩

theorem measureAck_none {w : World} {pkt : Packet} (h : w.s.sendWindow.findIdx? (fun p => pkt.ackNr == p.seqNr) = none) :
    measureAck E pkt w = (.ok (), w) := by
  unfold measureAck
  msimp
  rw [h]
  rfl

/-- A panic or a computation that does not complete. -/
def halt {α : Type} (b : Bool) : Res α := if b then .panic else .pending

theorem andThen_halt {α β : Type} {m : M α} {f : α → M β} {w x : World} {b : Bool} (h : m w = (halt b, x)) : M.andThen m f w = (halt b, x) := by
  cases b
  · exact andThen_pending h
  · exact andThen_eq_panic h

theorem ignoreErr_halt {α : Type} {m : M α} {w x : World} {b : Bool} (h : m w = (halt b, x)) : M.ignoreErr m w = (halt b, x) := by
  unfold M.ignoreErr
  rw [h]
  cases b <;> rfl

theorem sendPacket_halts {fuel : Nat} {rec : M (Bytes × Addr)} {p : Packet} {w x : World} {c : Bool}
    (hroom : (if w.s.remoteWnd < w.s.cwnd then w.s.remoteWnd else w.s.cwnd).toNat ≤ w.s.currWindow.toNat) (hfull : 2800 ≤ w.s.currWindow.toNat)
    (ht : tsSub (E.now (w.nNow + 1)) (E.now w.nNow) < PRE_SEND_TIMEOUT)
    (hr : rec { w with nNow := w.nNow + 1 + 1 } = (halt c, x)) : sendPacket E (fuel + 1) rec p w = (halt c, x) := by
  unfold sendPacket
  simp only [M.whileM]
  msimp
  have hl : (if (if w.s.remoteWnd < w.s.cwnd then w.s.remoteWnd else w.s.cwnd) < MIN_WND then MIN_WND
      else (if w.s.remoteWnd < w.s.cwnd then w.s.remoteWnd else w.s.cwnd)) ≤ w.s.currWindow := by
    generalize (if w.s.remoteWnd < w.s.cwnd then w.s.remoteWnd else w.s.cwnd) = m at hroom
    rw [BitVec.le_def]
    split
    · exact hfull
    · exact hroom
  rw [if_pos hl]
  simp only [ht, decide_true, if_true]
  exact andThen_halt hr

theorem calls_step (hc : E.checks = false) {w : World} {b : Bytes} {src : Addr} {pkt : Packet} (hn : E.net w.nNet = .dgram b src)
    (hp : Packet.tryFrom (b.take 1520) = some (.ok pkt)) (hT : Trap w pkt)
    (ht : ∀ k, tsSub (E.now (k + 1)) (E.now k) < PRE_SEND_TIMEOUT) (fuel len : Nat) :
    ∃ v, v.nNet = w.nNet + 1 ∧ Trap v pkt ∧ ∀ rec c x, rec v = (halt c, x) → recvBody E (fuel + 1) rec len w = (halt c, x) := by
  have hb : ∀ u : World, (u.s.bumpAck pkt).state = u.s.state ∧ (u.s.bumpAck pkt).senderId = u.s.senderId ∧ (u.s.bumpAck pkt).receiverId = u.s.receiverId ∧
      (u.s.bumpAck pkt).maxRetries = u.s.maxRetries ∧ (u.s.bumpAck pkt).sendWindow = u.s.sendWindow ∧ (u.s.bumpAck pkt).currWindow = u.s.currWindow := by
    intro u
    unfold Socket.bumpAck
    split <;> exact ⟨rfl, rfl, rfl, rfl, rfl, rfl⟩
  obtain ⟨v0, h0, hv0, hs0⟩ := countAck_release hc pkt ((w.waited w.s.patience).heard E pkt)
  have hs : v0.s.state = w.s.state ∧ v0.s.senderId = w.s.senderId ∧ v0.s.receiverId = w.s.receiverId ∧ v0.s.maxRetries = w.s.maxRetries ∧
      v0.s.sendWindow = w.s.sendWindow ∧ v0.s.currWindow = w.s.currWindow ∧ v0.s.remoteWnd = pkt.wndSize := by
    rw [hs0]
    have := hb (w.waited w.s.patience)
    exact ⟨this.1, this.2.1, this.2.2.1, this.2.2.2.1, this.2.2.2.2.1, this.2.2.2.2.2, rfl⟩
  obtain ⟨e1, e2, e3, e4, e5, e6, e7⟩ := hs
  refine ⟨{ v0 with nNow := v0.nNow + 1 + 1 }, hv0, ⟨hT.ty, e1.trans hT.connected, ?_, ?_, ?_, hT.sack, ?_, ?_, ?_⟩, ?_⟩
  · simp only [e2, e3]; exact hT.ours
  · simp only [e4]; exact hT.patient
  · simp only [e5]; exact hT.old
  · simp only [e5]; exact hT.lost
  · simp only [e6]; exact hT.small
  · simp only [e6]; exact hT.full
  intro rec c x hx
  obtain ⟨e, rest, hext, he, h3⟩ := hT.sack
  obtain ⟨p, hf⟩ := Option.isSome_iff_exists.mp hT.lost
  rw [recvBody, bind_def, andThen_eq (recvWait_dgram hn hT.patient)]
  simp only [hp]
  msimp
  unfold recvPacket
  rw [bind_def]
  refine andThen_halt ?_
  rw [handlePacket_takes (w := w.waited w.s.patience) hT.ty (.inr (.inr hT.ours))]
  have hst : (w.waited w.s.patience).s.state = .connected := hT.connected
  rw [hst]
  simp only [dispatch, bind_def]
  refine andThen_halt ?_
  unfold handleState
  rw [bind_def, andThen_eq h0, bind_def, andThen_eq (measureAck_none (by rw [e5]; exact hT.old))]
  simp only [hext]
  msimp
  refine andThen_halt ?_
  unfold processExtensions
  rw [if_pos he, bind_def]
  refine andThen_halt ?_
  unfold resendFirst
  rw [if_pos h3, overflowIf_release hc]
  msimp
  refine andThen_halt ?_
  unfold resendLost
  msimp
  rw [e5, hf]
  refine ignoreErr_halt (sendPacket_halts ?_ (by rw [e6]; exact hT.full) (ht _) hx)
  rw [e6, e7]
  split
  · exact hT.small
  · rename_i hlt
    exact Nat.le_trans (Nat.le_of_not_lt fun h => hlt (BitVec.lt_def.mpr h)) hT.small

end Utp
