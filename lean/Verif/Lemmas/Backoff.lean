import Verif.Spec.Backoff
import Verif.Lemmas.Source
import Verif.Props.Congestion
/-!
# How the timeout grows
-/

namespace Utp
open M

variable {E : Env} {α β : Type}

theorem timeouts_self (n : Nat) : timeouts E n n = 0 := by simp [timeouts]

theorem timeouts_add {a b c : Nat} (h1 : a ≤ b) (h2 : b ≤ c) : timeouts E a c = timeouts E a b + timeouts E b c := by
  unfold timeouts
  rw [← List.length_append, ← List.filter_append]
  congr 2
  obtain ⟨x, rfl⟩ := Nat.exists_eq_add_of_le h1
  obtain ⟨y, rfl⟩ := Nat.exists_eq_add_of_le h2
  rw [show a + x + y - a = x + y by omega, show a + x - a = x by omega, show a + x + y - (a + x) = y by omega]
  have := List.range'_append (s := a) (m := x) (n := y) (step := 1)
  rw [Nat.one_mul] at this
  exact this.symm

/-- The bound on the timeout at `w'`, from that at `w`. -/
def backBound (E : Env) (w w' : World) : Nat := max 60000 w.s.congTimeout.toNat * 2 ^ timeouts E w.nNet w'.nNet

/-- What is known of the timeout at `w'`, from `w`; in a build without overflow checks exactly, if `q` holds and nothing is outstanding. -/
structure Backs (q : Prop) (E : Env) (w w' : World) : Prop where
  net : w.nNet ≤ w'.nNet
  bound : w'.s.congTimeout.toNat ≤ backBound E w w'
  waits : WaitsAtMost (backBound E w w') w w'
  exact : q → E.checks = false → w.s.sendWindow = [] → w'.s.sendWindow = [] ∧ w'.s.congTimeout = w.s.congTimeout * BitVec.ofNat 64 (2 ^ timeouts E w.nNet w'.nNet)

variable {q : Prop}

theorem Backs.trans {a b c : World} (h : Backs q E a b) (h' : Backs q E b c) : Backs q E a c := by
  obtain ⟨n1, b1, ⟨l1, e1, w1⟩, x1⟩ := h
  obtain ⟨n2, b2, ⟨l2, e2, w2⟩, x2⟩ := h'
  have ht := timeouts_add (E := E) n1 n2
  have hle : backBound E b c ≤ backBound E a c := by
    unfold backBound at *
    rw [ht, Nat.pow_add, ← Nat.mul_assoc]
    refine Nat.mul_le_mul_right _ (Nat.max_le.mpr ⟨?_, b1⟩)
    exact Nat.le_trans (Nat.le_max_left _ _) (Nat.le_mul_of_pos_right _ (Nat.two_pow_pos _))
  have hle' : backBound E a b ≤ backBound E a c := by
    unfold backBound
    rw [ht]
    exact Nat.mul_le_mul_left _ (Nat.pow_le_pow_right (by omega) (by omega))
  refine ⟨Nat.le_trans n1 n2, Nat.le_trans b2 hle, ⟨l1 ++ l2, by rw [e2, e1, List.append_assoc], fun t ht => ?_⟩, fun hq hc h0 => ?_⟩
  · rcases List.mem_append.mp ht with h | h
    · exact Nat.le_trans (w1 t h) hle'
    · exact Nat.le_trans (w2 t h) hle
  · obtain ⟨g1, g2⟩ := x1 hq hc h0
    obtain ⟨g3, g4⟩ := x2 hq hc g1
    refine ⟨g3, ?_⟩
    rw [g4, g2, ht, Nat.pow_add, BitVec.ofNat_mul, BitVec.mul_assoc]

/-- A change that neither touches the timeout nor waits. -/
theorem Backs.quiet {w w' : World} (h1 : w'.nNet = w.nNet) (h2 : w'.s.congTimeout = w.s.congTimeout) (h3 : ∃ l, w'.log = w.log ++ l ∧ ∀ t, .wait t ∉ l)
    (h4 : q → w.s.sendWindow = [] → w'.s.sendWindow = []) : Backs q E w w' := by
  obtain ⟨l, e, hl⟩ := h3
  have hT : timeouts E w.nNet w'.nNet = 0 := by rw [h1, timeouts_self]
  refine ⟨by omega, ?_, ⟨l, e, fun t ht => absurd ht (hl _)⟩, fun hq _ h0 => ⟨h4 hq h0, ?_⟩⟩
  · unfold backBound; rw [hT, h2]; simp; omega
  · rw [hT, h2]; exact (BitVec.mul_one _).symm

theorem Backs.refl (w : World) : Backs q E w w := .quiet rfl rfl ⟨[], by simp, by simp⟩ (fun _ h => h)

/-- Every run of `m` keeps to the bound. -/
def BacksAll (q : Prop) (E : Env) (m : M α) : Prop := ∀ w, Backs q E w (m w).2

namespace BacksAll

theorem «at» {m : M α} (h : BacksAll q E m) (w : World) : Backs q E w (m w).2 := h w

theorem andThen {m : M α} {f : α → M β} (h : BacksAll q E m) (hf : ∀ a, BacksAll q E (f a)) : BacksAll q E (M.andThen m f) := by
  intro w
  have h1 := h w
  unfold M.andThen
  rcases e : m w with ⟨r, v⟩
  rw [e] at h1
  cases r with
  | ok a => exact h1.trans (hf a v)
  | _ => exact h1

theorem seq {m : M α} {f : α → M β} (h : BacksAll q E m) (hf : ∀ a, BacksAll q E (f a)) : BacksAll q E (m >>= f) := andThen h hf

theorem ret (a : α) : BacksAll q E (M.ret a) := fun w => .refl w
theorem pure (a : α) : BacksAll q E (Pure.pure a : M α) := fun w => .refl w
theorem throw (e : IoErr) : BacksAll q E (M.throw e : M α) := fun w => .refl w
theorem never : BacksAll q E (M.never : M α) := fun w => .refl w
theorem getS : BacksAll q E M.getS := fun w => .refl w

/-- Reading the socket. -/
theorem get {f : Socket → M β} (hf : ∀ w, Backs q E w (f w.s w).2) : BacksAll q E (M.getS >>= f) := fun w => hf w

theorem orPanic (o : Option α) : BacksAll q E (M.orPanic o) := by
  cases o with
  | none => exact fun w => .refl w
  | some a => exact ret a

theorem overflowIf (b : Bool) : BacksAll q E (M.overflowIf E b) := by
  unfold M.overflowIf
  split
  · exact fun w => .refl w
  · exact ret _

theorem modS {f : Socket → Socket} (h : ∀ s, (f s).congTimeout = s.congTimeout) (h' : q → ∀ s, s.sendWindow = [] → (f s).sendWindow = []) :
    BacksAll q E (M.modS f) := fun _ => .quiet rfl (h _) ⟨[], by simp [M.modS], by simp⟩ fun hq => h' hq _

theorem now : BacksAll q E (M.now E) := fun _ => .quiet rfl rfl ⟨[], by simp [M.now], by simp⟩ fun _ h => h
theorem rand : BacksAll q E (M.rand E) := fun _ => .quiet rfl rfl ⟨[], by simp [M.rand], by simp⟩ fun _ h => h

theorem udpSend (dst : Addr) (b : Bytes) : BacksAll q E (M.udpSend E dst b) := by
  intro w
  unfold M.udpSend
  simp only
  split <;> exact .quiet rfl rfl ⟨_, rfl, by simp⟩ fun _ h => h

theorem ignoreErr {m : M α} (h : BacksAll q E m) : BacksAll q E (M.ignoreErr m) := by
  intro w
  have h1 := h w
  unfold M.ignoreErr
  rcases e : m w with ⟨r, v⟩
  rw [e] at h1
  cases r <;> exact h1

theorem whileM {c : M Bool} {b : M Unit} (hc : BacksAll q E c) (hb : BacksAll q E b) : ∀ n, BacksAll q E (M.whileM n c b)
  | 0 => never
  | n + 1 => andThen hc fun go => by
    cases go with
    | true => exact andThen hb fun _ => whileM hc hb n
    | false => exact ret _

end BacksAll

open BacksAll in
theorem backs_flushIncoming (len : Nat) : BacksAll q E (flushIncoming E len) := by
  unfold flushIncoming
  refine seq getS fun s => ?_
  split
  · refine seq (modS (fun s => ?_) (fun _ s h => ?_)) fun _ => pure _
    · unfold Socket.takePending Socket.advanceIncoming; dsimp only; split
      · split <;> rfl
      · rfl
    · unfold Socket.takePending Socket.advanceIncoming; dsimp only; split
      · split <;> exact h
      · exact h
  · split
    · exact pure _
    · refine seq (overflowIf _) fun _ => ?_
      split
      · refine seq (orPanic _) fun pl => seq (modS (fun s => ?_) (fun _ s h => ?_)) fun _ => pure _
        · unfold Socket.takeHead Socket.advanceIncoming; split
          · split <;> rfl
          · rfl
        · unfold Socket.takeHead Socket.advanceIncoming; split
          · split <;> exact h
          · exact h
      · exact pure _

open BacksAll in
theorem backs_fastResendRequest : BacksAll q E (fastResendRequest E) := by
  have hf : BacksAll q E (fastResendOne E) := seq getS fun s => seq now fun t => ignoreErr (udpSend _ _)
  exact seq hf fun _ => seq hf fun _ => hf

theorem Backs.outstanding {w w' : World} (h : Backs False E w w') (hs : w.s.sendWindow ≠ []) : Backs q E w w' :=
  ⟨h.net, h.bound, h.waits, fun _ _ h0 => absurd h0 hs⟩

open BacksAll in
theorem backs_afterTimeout {v : World} {s : Socket} (hs : v.s.sendWindow = s.sendWindow) : Backs q E v
    ((match s.sendWindow with
      | [] =>
        if s.state = .finSent then do
          let t ← M.now E
          M.udpSend E s.connectedTo (finPacket s t).bytes
        else if s.state ≠ .new then
          fastResendRequest E
        else return ()
      | p :: rest => do
        let t ← M.now E
        let p' := p.setTimestamp t
        M.modS fun s => { s with sendWindow := p' :: rest }
        M.udpSend E s.connectedTo p'.bytes : M Unit) v).2 := by
  rcases e : s.sendWindow with _ | ⟨p, rest⟩
  · dsimp only
    split
    · exact seq now (fun t => udpSend _ _) v
    · split
      · exact backs_fastResendRequest v
      · exact pure _ v
  · refine Backs.outstanding ?_ (by rw [hs, e]; simp)
    refine BacksAll.at ?_ v
    exact seq now (fun t => seq (modS (fun _ => rfl) (fun h => False.elim h)) fun _ => udpSend _ _)

/-- What a timeout does to the timeout, and after it. -/
theorem backs_timeout (w : World) :
    (E.checks = true ∧ (handleReceiveTimeout E w).2 = w ∧ (handleReceiveTimeout E w).1 = .panic) ∨
    Backs q E (w.setS { w.s with congTimeout := w.s.congTimeout * 2, cwnd := MSS }) (handleReceiveTimeout E w).2 := by
  unfold handleReceiveTimeout
  rw [bind_def, andThen_getS]
  rw [bind_def]
  unfold overflowIf
  split
  · rename_i h
    simp only [Bool.and_eq_true] at h
    exact .inl ⟨h.1, rfl, rfl⟩
  · right
    exact backs_afterTimeout (v := w.setS { w.s with congTimeout := w.s.congTimeout * 2, cwnd := MSS }) (s := w.s) rfl

theorem timeouts_one (n : Nat) : timeouts E n (n + 1) = if timedOutAt E n then 1 else 0 := by
  unfold timeouts
  rw [show n + 1 - n = 1 by omega]
  simp only [List.range'_one, List.filter_cons, List.filter_nil]
  split <;> simp_all

/-- After a wait for a datagram that did not time out. -/
theorem backs_wait {w w1 : World} (h1 : w1.s = w.s) (h2 : w1.nNet = w.nNet + 1)
    (h3 : w1.log = w.log ++ [.wait (if w.s.state ≠ .new then some w.s.congTimeout else none)]) (h4 : timedOutAt E w.nNet = false) : Backs q E w w1 := by
  have hT : timeouts E w.nNet w1.nNet = 0 := by rw [h2, timeouts_one, h4]; rfl
  refine ⟨by omega, ?_, ⟨_, h3, fun t ht => ?_⟩, fun _ _ h0 => ⟨by rw [h1]; exact h0, ?_⟩⟩
  · unfold backBound; rw [hT, h1]; simp; omega
  · unfold backBound; rw [hT]
    simp only [List.mem_singleton, Act.wait.injEq] at ht
    split at ht
    · cases ht; simp; omega
    · cases ht
  · rw [hT, h1]; exact (BitVec.mul_one _).symm

/-- After a wait for a datagram that timed out, and the doubling. -/
theorem backs_waited {w w1 : World} (h1 : w1.s = w.s) (h2 : w1.nNet = w.nNet + 1)
    (h3 : w1.log = w.log ++ [.wait (if w.s.state ≠ .new then some w.s.congTimeout else none)]) (h4 : timedOutAt E w.nNet = true) :
    Backs q E w (w1.setS { w1.s with congTimeout := w1.s.congTimeout * 2, cwnd := MSS }) ∧ (E.checks = true → Backs q E w w1) := by
  have hT : timeouts E w.nNet w1.nNet = 1 := by rw [h2, timeouts_one, h4]; rfl
  have hw : ∀ t : U64, Act.wait (some t) ∈ [Act.wait (if w.s.state ≠ .new then some w.s.congTimeout else none)] → t.toNat ≤ backBound E w w1 := by
    intro t ht
    unfold backBound; rw [hT]
    simp only [List.mem_singleton, Act.wait.injEq] at ht
    split at ht
    · cases ht; simp; omega
    · cases ht
  refine ⟨⟨by show _ ≤ w1.nNet; omega, ?_, ⟨_, h3, hw⟩, fun _ _ h0 => ⟨by show w1.s.sendWindow = []; rw [h1]; exact h0, ?_⟩⟩,
    fun hc => ⟨by omega, ?_, ⟨_, h3, hw⟩, fun _ hc' => by rw [hc] at hc'; cases hc'⟩⟩
  · show (w1.s.congTimeout * 2).toNat ≤ _
    unfold backBound
    rw [show timeouts E w.nNet (w1.setS { w1.s with congTimeout := w1.s.congTimeout * 2, cwnd := MSS }).nNet = 1 from hT, h1, BitVec.toNat_mul]
    have : (2 : U64).toNat = 2 := rfl
    rw [this]
    have := Nat.mod_le (w.s.congTimeout.toNat * 2) (2 ^ 64)
    omega
  · show w1.s.congTimeout * 2 = _ * BitVec.ofNat 64 (2 ^ timeouts E w.nNet w1.nNet)
    rw [hT, h1]
    rfl
  · unfold backBound; rw [hT, h1]; omega

open BacksAll in
theorem backs_recvWait : ∀ fuel retries, BacksAll q E (recvWait E fuel retries)
  | 0, _ => never
  | fuel + 1, retries => by
    unfold recvWait
    refine get fun w => ?_
    by_cases hm : w.s.maxRetries.toNat ≤ retries
    · rw [if_pos hm]
      refine BacksAll.at ?_ w
      exact seq (modS (fun _ => rfl) (fun _ _ h => h)) (fun _ => throw _)
    · rw [if_neg hm, bind_def]
      unfold M.andThen M.udpRecv
      simp only
      have hk : ∀ k, isTimeout k = true → E.net w.nNet = .fail k → timedOutAt E w.nNet = true := by
        intro k h1 h2
        unfold isTimeout at h1
        unfold timedOutAt
        rw [h2]
        cases k <;> simp_all
      have hk' : (∀ k, isTimeout k = true → E.net w.nNet ≠ .fail k) → timedOutAt E w.nNet = false := by
        intro h
        unfold timedOutAt
        rw [Bool.or_eq_false_iff]
        constructor
        · simpa using h .timedOut rfl
        · simpa using h .wouldBlock rfl
      rcases hn : E.net w.nNet with ⟨b, src⟩ | k | _
      · exact backs_wait rfl rfl rfl (hk' fun k _ => by rw [hn]; simp)
      · simp only
        by_cases ht : isTimeout k = true
        · rw [if_pos ht]
          obtain ⟨g1, g2⟩ := backs_waited (q := q) (E := E) (w := w)
            (w1 := { w with nNet := w.nNet + 1, log := w.log ++ [.wait (if w.s.state ≠ .new then some w.s.congTimeout else none)] }) rfl rfl rfl (hk k ht hn)
          rcases backs_timeout (q := q) (E := E)
            { w with nNet := w.nNet + 1, log := w.log ++ [.wait (if w.s.state ≠ .new then some w.s.congTimeout else none)] } with ⟨c, h1, h2⟩ | h1
          · rw [bind_def]
            unfold M.andThen
            rcases e : handleReceiveTimeout E { w with nNet := w.nNet + 1, log := w.log ++ [.wait (if w.s.state ≠ .new then some w.s.congTimeout else none)] } with ⟨r, v⟩
            rw [e] at h1 h2
            simp only at h1 h2
            subst h1 h2
            exact g2 c
          · rw [bind_def]
            have g3 := g1.trans h1
            unfold M.andThen
            rcases e : handleReceiveTimeout E { w with nNet := w.nNet + 1, log := w.log ++ [.wait (if w.s.state ≠ .new then some w.s.congTimeout else none)] } with ⟨r, v⟩
            rw [e] at g3
            cases r with
            | ok a => exact g3.trans (backs_recvWait fuel (retries + 1) v)
            | _ => exact g3
        · rw [if_neg ht]
          exact backs_wait rfl rfl rfl (hk' fun k' h' => by rw [hn]; intro h; cases h; exact ht h')
      · exact backs_wait rfl rfl rfl (hk' fun k _ => by rw [hn]; simp)

section
variable {rec : M (Bytes × Addr)} (hr : BacksAll q E rec)
include hr
open BacksAll

theorem backs_sendPacket (fuel : Nat) (p : Packet) : BacksAll q E (sendPacket E fuel rec p) := by
  unfold sendPacket
  refine seq getS fun s => seq now fun t => seq (whileM ?_ (andThen hr fun _ => ret _) _) fun _ => seq getS fun s => ?_
  · refine seq getS fun s1 => ?_
    generalize (if (if s.remoteWnd < s.cwnd then s.remoteWnd else s.cwnd) < MIN_WND then MIN_WND
      else (if s.remoteWnd < s.cwnd then s.remoteWnd else s.cwnd)) = m
    by_cases h : m ≤ s1.currWindow
    · rw [if_pos h]; exact seq now fun t => pure _
    · rw [if_neg h]; exact pure _
  · split
    · exact pure _
    · exact seq now fun t => seq (udpSend _ _) fun _ => pure _

theorem backs_resendLost (fuel : Nat) (nr : U16) : BacksAll q E (resendLost E fuel rec nr) := by
  unfold resendLost
  refine seq getS fun s => ?_
  split
  · exact pure _
  · exact ignoreErr (backs_sendPacket hr _ _)

theorem backs_resendMissing (fuel : Nat) (ack last : U16) : ∀ bits loss, BacksAll q E (resendMissing E fuel rec ack last bits loss) := by
  intro bits
  induction bits with
  | nil => intro loss; exact pure _
  | cons x rest ih =>
    intro loss
    obtain ⟨idx, received⟩ := x
    unfold resendMissing
    split
    · exact ih _
    · refine seq (overflowIf _) fun _ => ?_
      dsimp only
      split
      · exact seq (backs_resendLost hr _ _) fun _ => ih _
      · exact pure _

theorem backs_processExtensions (fuel : Nat) (ack : U16) : ∀ exts loss, BacksAll q E (processExtensions E fuel rec ack exts loss) := by
  intro exts
  induction exts with
  | nil => intro loss; exact pure _
  | cons e rest ih =>
    intro loss
    unfold processExtensions
    split
    · refine seq ?_ fun loss1 => seq getS fun s => ?_
      · unfold resendFirst
        split
        · exact seq (overflowIf _) fun _ => seq (backs_resendLost hr _ _) fun _ => pure _
        · exact pure _
      · split
        · exact ih _
        · exact seq (orPanic _) fun bits => seq (backs_resendMissing hr _ _ _ _ _) fun _ => ih _
    · exact ih _

omit hr in
theorem backs_measureAck (pkt : Packet) : BacksAll q E (measureAck E pkt) := by
  unfold measureAck
  refine get fun w => ?_
  rcases hi : w.s.sendWindow.findIdx? fun p => pkt.ackNr == p.seqNr with _ | i
  · simp only [hi]
    exact pure _ w
  · simp only [hi]
    rw [bind_def]
    refine Backs.trans (now w) ?_
    show Backs q E _ (M.andThen (M.orPanic w.s.sendWindow[i]?) _ _).2
    rcases w.s.sendWindow[i]? with _ | p
    · exact .refl _
    · show Backs q E _ (M.andThen (M.orPanic (w.s.onNewAck E i p (E.now w.nNow))) _ _).2
      rcases hm : w.s.onNewAck E i p (E.now w.nNow) with _ | s'
      · exact .refl _
      · obtain ⟨s2, _, _, rfl⟩ := onNewAck_last hm
        refine ⟨Nat.le_refl _, ?_, ⟨[], by simp [M.andThen, M.orPanic, M.ret, M.modS, M.now], by simp⟩, fun _ _ h0 => ?_⟩
        · refine Nat.le_trans (congestionTimeout_clamped _ _).2 ?_
          unfold backBound
          exact Nat.le_trans (Nat.le_max_left _ _) (Nat.le_mul_of_pos_right _ (Nat.two_pow_pos _))
        · have h0 : w.s.sendWindow = [] := h0
          rw [h0] at hi
          cases hi

theorem backs_handleState (fuel : Nat) (pkt : Packet) : BacksAll q E (handleState E fuel rec pkt) := by
  unfold handleState
  refine seq ?_ fun _ => seq (backs_measureAck pkt) fun _ => seq getS fun s => seq (orPanic _) fun exts => seq (backs_processExtensions hr _ _ _ _) fun loss =>
    seq ?_ fun _ => seq (modS (fun s => ?_) (fun _ s h => ?_)) fun _ => get fun w => ?_
  · unfold countAck
    refine seq getS fun s => ?_
    split
    · exact seq (overflowIf _) fun _ => modS (fun _ => rfl) (fun _ _ h => h)
    · exact seq now fun t => modS (fun _ => rfl) (fun _ _ h => h)
  · unfold fastRetransmit
    refine seq getS fun s => ?_
    split
    · exact seq (overflowIf _) fun _ => backs_resendLost hr _ _
    · exact pure _
  · split <;> rfl
  · split <;> exact h
  · rw [bind_def]
    rcases hm : w.s.advanceSendWindow E with _ | s'
    · exact .refl _
    · refine .quiet rfl (advanceSendWindow_congTimeout hm) ⟨[], by simp [M.andThen, M.orPanic, M.ret, M.modS], by simp⟩ fun _ h0 => ?_
      show s'.sendWindow = []
      unfold Socket.advanceSendWindow at hm
      rw [h0] at hm
      simp only [List.findIdx?_nil, Option.some.injEq] at hm
      rw [← hm]; exact h0

omit hr in
theorem backs_withSack (s : Socket) (pkt reply : Packet) : BacksAll q E (withSack E s pkt reply) := by
  unfold withSack
  split
  · refine seq (orPanic _) fun sack => ?_
    split
    · exact orPanic _
    · exact pure _
  · exact pure _

theorem backs_dispatch (fuel : Nat) (pkt : Packet) (src : Addr) (st : SocketState) (ty : PacketType) : BacksAll q E (dispatch E fuel rec pkt src st ty) := by
  have hw : ∀ ty, BacksAll q E (replyWith E pkt ty) := fun ty => seq getS fun _ => seq now fun _ => pure _
  have hd : BacksAll q E (handleData E pkt) := seq getS fun _ => seq now fun _ => backs_withSack _ _ _
  have hf : BacksAll q E (onFin E pkt) :=
    seq getS fun _ => seq now fun _ => seq (backs_withSack _ _ _) fun _ => seq (modS (fun _ => rfl) (fun _ _ h => h)) fun _ => pure _
  unfold dispatch
  split
  · exact seq rand fun _ => seq (overflowIf _) fun _ => seq (modS (fun _ => rfl) (fun _ _ h => h)) fun _ => seq getS fun _ => seq now fun _ => pure _
  · exact hw _
  · exact seq getS fun _ => seq (overflowIf _) fun _ => seq now fun _ => seq (modS (fun _ => rfl) (fun _ _ h => h)) fun _ => pure _
  · exact throw _
  · exact seq hd fun _ => pure _
  · exact seq hd fun _ => pure _
  · exact seq (backs_handleState hr _ _) fun _ => pure _
  · exact hf
  · exact hf
  · exact hw _
  · exact seq (modS (fun s => by split <;> rfl) (fun _ s h => by split <;> exact h)) fun _ => pure _
  · exact seq (modS (fun _ => rfl) (fun _ _ h => h)) fun _ => throw _
  · exact throw _

theorem backs_handlePacket (fuel : Nat) (pkt : Packet) (src : Addr) : BacksAll q E (handlePacket E fuel rec pkt src) := by
  unfold handlePacket
  refine seq (modS (fun s => by unfold Socket.bumpAck; split <;> rfl) (fun _ s h => by unfold Socket.bumpAck; split <;> exact h)) fun _ => seq getS fun s =>
    seq (orPanic _) fun ty => ?_
  split
  · exact seq getS fun _ => seq now fun _ => pure _
  · exact seq now fun t => seq (modS (fun _ => rfl) (fun _ _ h => h)) fun _ => backs_dispatch hr _ _ _ _ _

end

open BacksAll

theorem backs_recv : ∀ fuel len, BacksAll q E (recv E fuel len)
  | 0, _ => never
  | fuel + 1, len => by
    unfold recv recvBody
    refine seq (backs_recvWait _ _) fun x => seq (orPanic _) fun r => ?_
    split
    · exact seq getS fun s => pure _
    · unfold recvPacket
      refine seq (backs_handlePacket (backs_recv fuel _) _ _ _) fun reply => seq ?_ fun _ => seq (orPanic _) fun ty =>
        seq (modS (fun s => by split <;> rfl) (fun _ s h => by split <;> exact h)) fun _ => seq (backs_flushIncoming _) fun out => pure _
      cases reply with
      | none => exact pure _
      | some p => exact udpSend _ _

theorem backs_recvFromLoop (fuel len : Nat) : ∀ n, BacksAll q E (recvFromLoop E fuel len n)
  | 0 => never
  | n + 1 => by
    unfold recvFromLoop
    refine seq getS fun s => ?_
    split
    · exact pure _
    · refine seq (backs_recv _ _) fun x => ?_
      obtain ⟨b, src⟩ := x
      dsimp only
      split
      · exact backs_recvFromLoop fuel len n
      · exact pure _

theorem backs_recvFrom (fuel len : Nat) : BacksAll q E (recvFrom E fuel len) := by
  unfold recvFrom
  refine seq (backs_flushIncoming _) fun out => seq getS fun s => ?_
  split
  · exact pure _
  · split
    · exact throw _
    · exact backs_recvFromLoop _ _ _

theorem backs_scratchRecv (fuel : Nat) : BacksAll q E (scratchRecv E fuel) := seq (backs_recv _ _) fun _ => pure _

theorem backs_flush (fuel : Nat) : BacksAll q E (flush E fuel) := whileM (seq getS fun _ => pure _) (backs_scratchRecv fuel) _

theorem backs_close (fuel : Nat) : BacksAll q E (close E fuel) := by
  unfold close
  refine seq getS fun s => ?_
  split
  · exact pure _
  · exact seq (backs_flush _) fun _ => seq getS fun s => seq now fun t => seq (udpSend _ _) fun _ =>
      seq (modS (fun _ => rfl) (fun _ _ h => h)) fun _ => whileM (seq getS fun _ => pure _) (backs_scratchRecv fuel) _

theorem backs_sendQueue (fuel : Nat) : ∀ n, BacksAll False E (sendQueue E fuel n)
  | 0 => never
  | n + 1 => by
    unfold sendQueue
    refine seq getS fun s => ?_
    split
    · exact pure _
    · exact seq (modS (fun _ => rfl) (fun h => h.elim)) fun _ => seq (backs_sendPacket (backs_recv _ _) _ _) fun p => seq getS fun s => seq (overflowIf _) fun _ =>
        seq (modS (fun _ => rfl) (fun h => h.elim)) fun _ => backs_sendQueue fuel n

theorem enqueue_congTimeout (l : List Bytes) : ∀ s : Socket, (l.foldl enqueue s).congTimeout = s.congTimeout := by
  induction l with
  | nil => intro s; rfl
  | cons c l ih => intro s; rw [List.foldl_cons, ih]; rfl

theorem backs_runOp (fuel : Nat) (op : Op) (hq : q → ∀ buf, op ≠ .sendTo buf) : BacksAll q E (runOp E fuel op) := by
  cases op with
  | recvFrom len => exact seq (backs_recvFrom _ _) fun _ => pure _
  | sendTo buf =>
    have : BacksAll False E (runOp E fuel (.sendTo buf)) := by
      refine seq ?_ fun _ => pure _
      unfold sendTo
      refine seq getS fun s => ?_
      split
      · exact throw _
      · exact seq (modS (enqueue_congTimeout _) (fun h => h.elim)) fun _ => seq (backs_sendQueue _ _) fun _ => pure _
    exact fun w => ⟨(this w).net, (this w).bound, (this w).waits, fun h => absurd rfl (hq h buf)⟩
  | flush => exact seq (backs_flush _) fun _ => pure _
  | close => exact seq (backs_close _) fun _ => pure _
  | setMaxRetries n => exact seq (modS (fun _ => rfl) (fun _ _ h => h)) fun _ => pure _

end Utp
