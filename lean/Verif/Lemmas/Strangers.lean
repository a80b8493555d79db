import Verif.Spec.Strangers
import Verif.Lemmas.Recv
import Verif.Lemmas.Log
/-!
# A logic for what is sent to strangers
-/

namespace Utp
open M

variable {E F : Env} {a : Addr} {α β : Type} {w w' w'' : World}

/-- The connection of the socket: peer and identifiers. -/
def SameEnds (s s' : Socket) : Prop := s'.connectedTo = s.connectedTo ∧ s'.senderId = s.senderId ∧ s'.receiverId = s.receiverId

/-- What holds between the worlds before and after any part of an operation. -/
structure Frugal (F : Env) (a : Addr) (w w' : World) : Prop where
  est : w.s.Established → w'.s.Established ∧ SameEnds w.s w'.s
  chg : SameEnds w.s w'.s ∨ w'.s.Established
  net : w.nNet ≤ w'.nNet
  log : w.s.connectedTo ≠ a → w'.s.connectedTo ≠ a → OnlyAnswers F a w w'

theorem SameEnds.trans {s s' s'' : Socket} (h : SameEnds s s') (h' : SameEnds s' s'') : SameEnds s s'' :=
  ⟨h'.1.trans h.1, h'.2.1.trans h.2.1, h'.2.2.trans h.2.2⟩

theorem sendsTo_append (l l' : List Act) : sendsTo a (l ++ l') = sendsTo a l ++ sendsTo a l' := by simp [sendsTo]

theorem Forall₂.append' {γ δ : Type} {R : γ → δ → Prop} {l1 l2 : List γ} {m1 m2 : List δ} (h : List.Forall₂ R l1 m1) (h' : List.Forall₂ R l2 m2) :
    List.Forall₂ R (l1 ++ l2) (m1 ++ m2) := by
  induction h with
  | nil => exact h'
  | cons h _ ih => exact .cons h ih

theorem Forall₂.imp' {γ δ : Type} {R R' : γ → δ → Prop} {l : List γ} {m : List δ} (hr : ∀ a b, R a b → R' a b) (h : List.Forall₂ R l m) :
    List.Forall₂ R' l m := by
  induction h with
  | nil => exact .nil
  | cons h _ ih => exact .cons (hr _ _ h) ih

theorem Answers.mono {s s' : Socket} (h : s.Established → s'.Established ∧ SameEnds s s') {k : Nat} {r : Bytes}
    (ha : Answers F a s k r) : Answers F a s' k r := by
  obtain ⟨b, pkt, h1, h2, h3⟩ := ha
  refine ⟨b, pkt, h1, h2, ?_⟩
  rcases h3 with h3 | ⟨he, ht, hid⟩
  · exact .inl h3
  · obtain ⟨he', -, hs, hr⟩ := h he
    exact .inr ⟨he', ht, by rw [hs, hr]; exact hid⟩

theorem OnlyAnswers.nothing (h1 : w'.log = w.log) : OnlyAnswers F a w w' :=
  ⟨[], [], by simp [h1], List.nodup_nil, by simp, by simp [sendsTo]⟩

theorem Frugal.refl (w : World) : Frugal F a w w :=
  ⟨fun h => ⟨h, rfl, rfl, rfl⟩, .inl ⟨rfl, rfl, rfl⟩, Nat.le_refl _, fun _ _ => .nothing rfl⟩

theorem Frugal.trans (h : Frugal F a w w') (h' : Frugal F a w' w'') : Frugal F a w w'' := by
  refine ⟨fun he => ⟨(h'.est (h.est he).1).1, (h.est he).2.trans (h'.est (h.est he).1).2⟩, ?_, Nat.le_trans h.net h'.net, fun h1 h2 => ?_⟩
  · rcases h'.chg with hc | hc
    · rcases h.chg with hd | hd
      · exact .inl (hd.trans hc)
      · exact .inr (h'.est hd).1
    · exact .inr hc
  · have hm : w'.s.connectedTo ≠ a := by
      intro hm
      rcases h.chg with hd | hd
      · exact h1 (hd.1 ▸ hm)
      · exact h2 ((h'.est hd).2.1.trans hm)
    obtain ⟨l, ks, g1, g2, g3, g4⟩ := h.log h1 hm
    obtain ⟨l', ks', k1, k2, k3, k4⟩ := h'.log hm h2
    have n1 := h.net
    have n2 := h'.net
    refine ⟨l ++ l', ks ++ ks', by rw [k1, g1, List.append_assoc], ?_, fun k hk => ?_, ?_⟩
    · refine List.nodup_append.mpr ⟨g2, k2, fun x hx y hy e => ?_⟩
      have := g3 x hx; have := k3 y hy
      omega
    · rcases List.mem_append.mp hk with hk | hk
      · have := g3 k hk; omega
      · have := k3 k hk; omega
    · rw [sendsTo_append]
      exact Forall₂.append' (Forall₂.imp' (fun _ _ => Answers.mono h'.est) g4) k4

/-- Nothing of the connection changes, nothing is sent. -/
theorem Frugal.quiet (hs : w.s.Established → w'.s.Established) (hc : SameEnds w.s w'.s) (hn : w.nNet ≤ w'.nNet) (hl : w'.log = w.log) :
    Frugal F a w w' := ⟨fun h => ⟨hs h, hc⟩, .inl hc, hn, fun _ _ => .nothing hl⟩

/-- Something is sent to the peer. -/
theorem Frugal.toPeer (hs : w'.s = w.s) (hn : w'.nNet = w.nNet) {b : Bytes} {ok : Bool}
    (hl : w'.log = w.log ++ [.send w.s.connectedTo b ok]) : Frugal F a w w' :=
  ⟨fun h => ⟨hs ▸ h, by rw [hs]; exact ⟨rfl, rfl, rfl⟩⟩, .inl (by rw [hs]; exact ⟨rfl, rfl, rfl⟩), by omega, fun h1 _ =>
    ⟨_, [], hl, List.nodup_nil, by simp, by simp [sendsTo, h1]⟩⟩

/-- Run from `w`, the computation is frugal. -/
def Fr (F : Env) (a : Addr) (m : M α) (w : World) : Prop := Frugal F a w (m w).2

theorem Fr.andThen {m : M α} {f : α → M β} (h : Fr F a m w)
    (hf : ∀ x w', m w = (.ok x, w') → Fr F a (f x) w') : Fr F a (M.andThen m f) w := by
  unfold Fr at *
  rcases hm : m w with ⟨r, w'⟩
  rw [hm] at h
  cases r with
  | ok x => rw [andThen_eq hm]; exact h.trans (hf x w' hm)
  | err e => rw [andThen_err hm]; exact h
  | panic => rw [andThen_eq_panic hm]; exact h
  | pending => rw [andThen_pending hm]; exact h

theorem Fr.bind {m : M α} {f : α → M β} (h : Fr F a m w)
    (hf : ∀ x w', m w = (.ok x, w') → Fr F a (f x) w') : Fr F a (m >>= f) w := Fr.andThen h hf
theorem Fr.seq {m : M α} {f : α → M β} (h : Fr F a m w) (hf : ∀ x w', Fr F a (f x) w') : Fr F a (m >>= f) w :=
  Fr.andThen h fun x w' _ => hf x w'

theorem Fr.ret {x : α} : Fr F a (M.ret x) w := Frugal.refl w
theorem Fr.pure {x : α} : Fr F a (Pure.pure x : M α) w := Frugal.refl w
theorem Fr.throw {e : IoErr} : Fr F a (M.throw e : M α) w := Frugal.refl w
theorem Fr.never : Fr F a (M.never : M α) w := Frugal.refl w
theorem Fr.getS : Fr F a M.getS w := Frugal.refl w
theorem Fr.orPanic {o : Option α} : Fr F a (M.orPanic o) w := by cases o <;> exact Frugal.refl w
theorem Fr.overflowIf {b : Bool} : Fr F a (M.overflowIf E b) w := by unfold Fr; rw [overflowIf_run]; exact Frugal.refl w
theorem Fr.now : Fr F a (M.now E) w := Frugal.quiet id ⟨rfl, rfl, rfl⟩ (Nat.le_refl _) rfl
theorem Fr.rand : Fr F a (M.rand E) w := Frugal.quiet id ⟨rfl, rfl, rfl⟩ (Nat.le_refl _) rfl
theorem Fr.modS {f : Socket → Socket} (hs : w.s.Established → (f w.s).Established) (hc : SameEnds w.s (f w.s)) : Fr F a (M.modS f) w :=
  Frugal.quiet hs hc (Nat.le_refl _) rfl
theorem Fr.ite {c : Prop} [Decidable c] {m m' : M α} (h : c → Fr F a m w) (h' : ¬ c → Fr F a m' w) : Fr F a (if c then m else m') w := by
  split
  · exact h ‹_›
  · exact h' ‹_›
theorem Fr.udpSend {dst : Addr} {b : Bytes} (hd : dst = w.s.connectedTo) : Fr F a (M.udpSend E dst b) w := by
  unfold Fr
  rw [udpSend_snd, hd]
  exact Frugal.toPeer rfl rfl rfl
theorem Fr.ignoreErr {m : M α} (h : Fr F a m w) : Fr F a (M.ignoreErr m) w := by
  unfold Fr M.ignoreErr at *
  rcases hm : m w with ⟨r, w'⟩
  rw [hm] at h
  cases r <;> exact h

/-- Whatever the computation is run from. -/
def FrAll (F : Env) (a : Addr) (m : M α) : Prop := ∀ w, Fr F a m w

theorem Fr.whileM {c : M Bool} {b : M Unit} (hc : FrAll F a c) (hb : FrAll F a b) : ∀ n, FrAll F a (M.whileM n c b)
  | 0, _ => .never
  | n + 1, w => .andThen (hc w) fun go w' _ => by
      cases go
      · exact .ret
      · exact .andThen (hb w') fun _ w'' _ => Fr.whileM hc hb n w''

theorem getS_eq {s : Socket} {w w' : World} (h : M.getS w = (.ok s, w')) : s = w.s ∧ w = w' := by
  simp [M.getS] at h; exact ⟨h.1.symm, h.2⟩
theorem now_eq {t : U32} {w w' : World} (h : M.now E w = (.ok t, w')) : w'.s = w.s ∧ w'.log = w.log := by
  simp [M.now] at h; rw [← h.2]; exact ⟨rfl, rfl⟩
theorem overflowIf_eq {x : Unit} {b : Bool} {w w' : World} (h : M.overflowIf E b w = (.ok x, w')) : w = w' := by
  rw [overflowIf_run] at h; simp only [Prod.mk.injEq] at h; exact h.2

theorem fr_sendNow {dst : Addr} {f : U32 → Bytes} (hd : dst = w.s.connectedTo) : Fr F a (M.andThen (M.now E) fun t => M.udpSend E dst (f t)) w :=
  .andThen .now fun _ _ h => .udpSend (by rw [(now_eq h).1]; exact hd)

theorem fr_fastResendOne : FrAll F a (fastResendOne E) := fun _ =>
  .bind .getS fun s w h => by
    obtain ⟨rfl, rfl⟩ := getS_eq h
    exact .bind .now fun _ _ h => .ignoreErr (.udpSend (by rw [(now_eq h).1]))

theorem fr_handleReceiveTimeout : FrAll F a (handleReceiveTimeout E) := fun w =>
  .bind .getS fun s w h => by
    obtain ⟨rfl, rfl⟩ := getS_eq h
    refine .bind .overflowIf fun _ w1 h1 => ?_
    obtain rfl := overflowIf_eq h1
    refine .bind (.modS (fun h => h) ⟨rfl, rfl, rfl⟩) fun _ w2 h2 => ?_
    have hw2 : w2.s.connectedTo = w.s.connectedTo := by simp only [M.modS, Prod.mk.injEq] at h2; rw [← h2.2]
    split
    · refine .ite (fun _ => fr_sendNow hw2.symm) fun _ => .ite (fun _ => ?_) fun _ => .pure
      exact .seq (fr_fastResendOne _) fun _ w => .seq (fr_fastResendOne w) fun _ w => fr_fastResendOne w
    · refine .bind .now fun _ w3 h3 => .bind (.modS (fun h => h) ⟨rfl, rfl, rfl⟩) fun _ w4 h4 => .udpSend ?_
      have hw4 : w4.s.connectedTo = w3.s.connectedTo := by simp only [M.modS, Prod.mk.injEq] at h4; rw [← h4.2]
      rw [hw4, (now_eq h3).1, hw2]

theorem fr_recvWait : ∀ fuel retries, FrAll F a (recvWait E fuel retries)
  | 0, _, _ => .never
  | fuel + 1, retries, w => by
    unfold recvWait
    refine .seq .getS fun s w => .ite (fun _ => .seq (.modS (fun _ => ⟨by simp, by simp⟩) ⟨rfl, rfl, rfl⟩) fun _ _ => .throw) fun _ => .seq ?_ fun r w => ?_
    · unfold Fr M.udpRecv
      have : ∀ t, Frugal F a w { w with nNet := w.nNet + 1, log := w.log ++ [.wait t] } := fun t =>
        ⟨fun h => ⟨h, rfl, rfl, rfl⟩, .inl ⟨rfl, rfl, rfl⟩, Nat.le_succ _, fun _ _ => ⟨[.wait t], [], rfl, List.nodup_nil, by simp, by simp [sendsTo]⟩⟩
      dsimp only
      cases E.net w.nNet <;> exact this _
    · cases r with
      | ok x => exact .pure
      | error k => exact .ite (fun _ => .seq (fr_handleReceiveTimeout w) fun _ w => fr_recvWait fuel (retries + 1) w) fun _ => .throw

theorem fr_sendPacket {rec : M (Bytes × Addr)} (hr : FrAll F a rec) (fuel : Nat) (p : Packet) : FrAll F a (sendPacket E fuel rec p) := by
  intro w
  unfold sendPacket
  refine .seq .getS fun s _ => .seq .now fun _ _ => .seq (Fr.whileM (fun w => ?_) (fun w => .andThen (hr w) fun _ _ _ => .ret) fuel _) fun _ _ => .bind .getS fun s w h => ?_
  · exact .seq .getS fun _ _ => .ite (fun _ => .seq .now fun _ _ => .pure) fun _ => .pure
  · obtain ⟨rfl, rfl⟩ := getS_eq h
    exact .ite (fun _ => .pure) fun _ => .bind .now fun _ _ h => .seq (.udpSend (by rw [(now_eq h).1])) fun _ _ => .pure

theorem fr_resendLost {rec : M (Bytes × Addr)} (hr : FrAll F a rec) (fuel : Nat) (nr : U16) : FrAll F a (resendLost E fuel rec nr) := by
  intro w
  unfold resendLost
  refine .seq .getS fun s _ => ?_
  split
  · exact .pure
  · exact .ignoreErr (fr_sendPacket hr fuel _ _)

theorem fr_resendMissing {rec : M (Bytes × Addr)} (hr : FrAll F a rec) (fuel : Nat) (ack last : U16) :
    ∀ l loss, FrAll F a (resendMissing E fuel rec ack last l loss)
  | [], _, _ => .pure
  | (idx, received) :: rest, loss, w => by
    unfold resendMissing
    exact .ite (fun _ => fr_resendMissing hr fuel ack last rest loss w) fun _ => .seq .overflowIf fun _ _ => .ite
      (fun _ => .seq (fr_resendLost hr fuel _ _) fun _ w => fr_resendMissing hr fuel ack last rest true w) fun _ => .pure

theorem fr_resendFirst {rec : M (Bytes × Addr)} (hr : FrAll F a rec) (fuel : Nat) (ack : U16) (data : Bytes) (loss : Bool) :
    FrAll F a (resendFirst E fuel rec ack data loss) := fun _ =>
  .ite (fun _ => .seq .overflowIf fun _ _ => .seq (fr_resendLost hr fuel _ _) fun _ _ => .pure) fun _ => .pure

theorem fr_processExtensions {rec : M (Bytes × Addr)} (hr : FrAll F a rec) (fuel : Nat) (ack : U16) :
    ∀ l loss, FrAll F a (processExtensions E fuel rec ack l loss)
  | [], _, _ => .pure
  | e :: rest, loss, w => by
    unfold processExtensions
    refine .ite (fun _ => .seq (fr_resendFirst hr fuel ack _ _ _) fun _ _ => .seq .getS fun s w => ?_) fun _ =>
      fr_processExtensions hr fuel ack rest loss w
    split
    · exact fr_processExtensions hr fuel ack rest _ w
    · exact .seq .orPanic fun _ _ => .seq (fr_resendMissing hr fuel ack _ _ _ _) fun _ w => fr_processExtensions hr fuel ack rest _ w

/-- The parts of the socket that the calculations for an acknowledgement do not touch. -/
theorem onNewAck_conn {s s' : Socket} {i : Nat} {p : Packet} {t : U32} (h : s.onNewAck E i p t = some s') :
    s'.state = s.state ∧ SameEnds s s' := by
  unfold Socket.onNewAck at h
  simp only at h
  split at h
  · simp at h
  · rename_i s1 h1
    split at h
    · simp at h
    · rename_i s2 h2
      have e1 : s1.state = s.state ∧ SameEnds s s1 := by
        unfold Socket.updateBaseDelay at h1
        split at h1
        · simp only [Option.some.injEq] at h1; rw [← h1]; exact ⟨rfl, rfl, rfl, rfl⟩
        · split at h1
          · simp at h1
          · split at h1 <;> (simp only [Option.some.injEq] at h1; rw [← h1]; exact ⟨rfl, rfl, rfl, rfl⟩)
      have e2 : s2.state = s1.state ∧ SameEnds s1 s2 := by
        unfold Socket.updateCongestionWindow at h2
        split at h2
        · simp at h2
        · simp only [Option.some.injEq] at h2; rw [← h2]; exact ⟨rfl, rfl, rfl, rfl⟩
      simp only [Option.some.injEq] at h
      rw [← h]
      exact ⟨e2.1.trans e1.1, e1.2.trans e2.2⟩

theorem advanceSendWindow_conn {s s' : Socket} (h : s.advanceSendWindow E = some s') : s'.state = s.state ∧ SameEnds s s' := by
  unfold Socket.advanceSendWindow at h
  split at h
  · simp only [Option.some.injEq] at h; rw [← h]; exact ⟨rfl, rfl, rfl, rfl⟩
  · split at h
    · simp at h
    · simp only [Option.some.injEq] at h; rw [← h]; exact ⟨rfl, rfl, rfl, rfl⟩

theorem orPanic_eq {o : Option α} {x : α} {w w' : World} (h : M.orPanic o w = (.ok x, w')) : o = some x ∧ w = w' := by
  cases o with
  | none => simp [M.orPanic, M.panic] at h
  | some y => simp [M.orPanic, M.ret] at h; exact ⟨by rw [h.1], h.2⟩

theorem established_state {s s' : Socket} (h : s'.state = s.state) (he : s.Established) : s'.Established := by
  unfold Socket.Established at *; rw [h]; exact he

theorem fr_handleState {rec : M (Bytes × Addr)} (hr : FrAll F a rec) (fuel : Nat) (pkt : Packet) :
    FrAll F a (handleState E fuel rec pkt) := by
  intro w
  unfold handleState
  refine .seq ?_ fun _ _ => .seq ?_ fun _ _ => .seq .getS fun s _ => .seq .orPanic fun _ _ =>
    .seq (fr_processExtensions hr fuel _ _ _ _) fun _ _ => .seq ?_ fun _ _ => .seq (.modS ?_ ?_) fun _ _ => .bind .getS fun s w h =>
    .bind .orPanic fun s' w' h' => .modS ?_ ?_
  · exact .seq .getS fun _ _ => .ite (fun _ => .seq .overflowIf fun _ _ => .modS (fun h => h) ⟨rfl, rfl, rfl⟩) fun _ => .seq .now fun _ _ => .modS (fun h => h) ⟨rfl, rfl, rfl⟩
  · refine .bind .getS fun s w h => ?_
    obtain ⟨rfl, rfl⟩ := getS_eq h
    split
    · exact .pure
    · refine .bind .now fun _ w1 h1 => .bind .orPanic fun _ w2 h2 => .bind .orPanic fun s' w3 h3 => ?_
      obtain ⟨-, rfl⟩ := orPanic_eq h2
      obtain ⟨h3', rfl⟩ := orPanic_eq h3
      obtain ⟨g1, g2⟩ := onNewAck_conn h3'
      rw [← (now_eq h1).1] at g1 g2
      exact .modS (established_state g1) g2
  · exact .seq .getS fun s _ => .ite (fun _ => .seq .overflowIf fun _ _ => fr_resendLost hr fuel _ _) fun _ => .pure
  · split
    · exact fun h => h
    · exact fun h => h
  · split <;> exact ⟨rfl, rfl, rfl⟩
  · obtain ⟨rfl, rfl⟩ := getS_eq h
    obtain ⟨g, rfl⟩ := orPanic_eq h'
    exact established_state (advanceSendWindow_conn g).1
  · obtain ⟨rfl, rfl⟩ := getS_eq h
    obtain ⟨g, rfl⟩ := orPanic_eq h'
    exact (advanceSendWindow_conn g).2

theorem fr_withSack (s : Socket) (pkt reply : Packet) : FrAll F a (withSack E s pkt reply) := fun _ =>
  .ite (fun _ => .seq .orPanic fun _ _ => .ite (fun _ => .orPanic) fun _ => .pure) fun _ => .pure

theorem fr_replyWith (pkt : Packet) (t : PacketType) : FrAll F a (replyWith E pkt t) := fun _ =>
  .seq .getS fun _ _ => .seq .now fun _ _ => .pure

theorem fr_onSyn (pkt : Packet) (src : Addr) (hs : w.s.state = .new) : Fr F a (onSyn E pkt src) w := by
  refine .bind .rand fun _ w1 h1 => .bind .overflowIf fun _ w2 h2 => .seq ?_ fun _ _ => .seq .getS fun _ _ => .seq .now fun _ _ => .pure
  obtain rfl := overflowIf_eq h2
  have hw : w1.s = w.s := by simp [M.rand] at h1; rw [← h1.2]
  exact ⟨fun h => absurd (hw ▸ hs) h.1, .inr ⟨by simp [M.modS], by simp [M.modS]⟩, Nat.le_refl _, fun _ _ => .nothing rfl⟩

theorem fr_onSynAck (pkt : Packet) (src : Addr) (hs : w.s.state = .synSent) : Fr F a (onSynAck E pkt src) w := by
  refine .bind .getS fun s w1 h1 => ?_
  obtain ⟨rfl, rfl⟩ := getS_eq h1
  refine .bind .overflowIf fun _ w2 h2 => .bind .now fun _ w3 h3 => .seq ?_ fun _ _ => .pure
  obtain rfl := overflowIf_eq h2
  have hw := (now_eq h3).1
  exact ⟨fun h => absurd (hw ▸ hs) h.2, .inr ⟨by simp [M.modS], by simp [M.modS]⟩, Nat.le_refl _, fun _ _ => .nothing rfl⟩

theorem fr_dispatch {rec : M (Bytes × Addr)} (hr : FrAll F a rec) (fuel : Nat) (pkt : Packet) (src : Addr) (ty : PacketType) (w : World) :
    Fr F a (dispatch E fuel rec pkt src w.s.state ty) w := by
  have hreset : Fr F a onReset w := .seq (.modS (fun _ => ⟨by simp, by simp⟩) ⟨rfl, rfl, rfl⟩) fun _ _ => .throw
  have hdata : Fr F a (handleData E pkt >>= fun reply => (Pure.pure (some reply) : M (Option Packet))) w :=
    .seq (.seq .getS fun _ _ => .seq .now fun _ _ => fr_withSack _ _ _ _) fun _ _ => .pure
  have hfin : Fr F a (onFin E pkt) w :=
    .seq .getS fun _ _ => .seq .now fun _ _ => .seq (fr_withSack _ _ _ _) fun _ _ => .seq (.modS (fun _ => ⟨by simp, by simp⟩) ⟨rfl, rfl, rfl⟩) fun _ _ => .pure
  cases ty with
  | syn =>
    cases hs : w.s.state with
    | new => exact fr_onSyn pkt src hs
    | _ => exact fr_replyWith pkt .reset w
  | state =>
    cases hs : w.s.state with
    | synSent => exact fr_onSynAck pkt src hs
    | connected => exact .seq (fr_handleState hr fuel pkt w) fun _ _ => .pure
    | finSent =>
      refine .seq (.modS (fun h => ?_) ?_) fun _ _ => .pure
      · split
        · exact ⟨by simp, by simp⟩
        · exact h
      · split <;> exact ⟨rfl, rfl, rfl⟩
    | _ => exact .throw
  | data =>
    cases hs : w.s.state with
    | connected => exact hdata
    | finSent => exact hdata
    | _ => exact .throw
  | fin =>
    cases hs : w.s.state with
    | connected => exact hfin
    | finSent => exact hfin
    | closed => exact fr_replyWith pkt .state w
    | _ => exact .throw
  | reset =>
    cases hs : w.s.state with
    | synSent => exact .throw
    | _ => exact hreset

theorem bumpAck_conn (s : Socket) (pkt : Packet) : (s.bumpAck pkt).state = s.state ∧ SameEnds s (s.bumpAck pkt) := by
  unfold Socket.bumpAck; split <;> exact ⟨rfl, rfl, rfl, rfl⟩

theorem fr_handlePacket {rec : M (Bytes × Addr)} (hr : FrAll F a rec) (fuel : Nat) (pkt : Packet) (src : Addr) :
    FrAll F a (handlePacket E fuel rec pkt src) := by
  intro w
  unfold handlePacket
  refine .seq (.modS (established_state (bumpAck_conn _ _).1) (bumpAck_conn _ _).2) fun _ w1 => .bind .getS fun s w2 h2 => .bind .orPanic fun ty w3 h3 => ?_
  obtain ⟨rfl, rfl⟩ := getS_eq h2
  obtain ⟨-, rfl⟩ := orPanic_eq h3
  refine .ite (fun _ => fr_replyWith _ _ _) fun hc => .bind .now fun t w4 h4 => .bind (.modS (fun h => h) ⟨rfl, rfl, rfl⟩) fun _ w5 h5 => ?_
  have : w1.s.state = w5.s.state := by simp only [M.modS, Prod.mk.injEq] at h5; rw [← h5.2, ← (now_eq h4).1]
  rw [this]
  exact fr_dispatch hr fuel pkt src ty w5

theorem fr_flushIncoming (len : Nat) : FrAll F a (flushIncoming E len) := by
  intro w
  obtain ⟨inc, pend, ack, ld, h⟩ := flushIncoming_frame (E := E) len w
  unfold Fr
  rw [h]
  exact Frugal.quiet (fun h => h) ⟨rfl, rfl, rfl⟩ (Nat.le_refl _) rfl

end Utp
