import Verif.Spec.Sending
import Verif.Props.Window
import Verif.Lemmas.Eval
/-!
# How queued packets are sent
-/

namespace Utp
open M Packet

variable {E : Env} {V : Ctx}

theorem step_nNow {a b : World} (h : Step E V a b) : a.nNow ≤ b.nNow := by
  cases h <;> simp [World.setS]

theorem Steps.nNow {a b : World} (h : Steps E V a b) : a.nNow ≤ b.nNow :=
  h.lift (R := fun a b => a.nNow ≤ b.nNow) (fun _ => Nat.le_refl _) (fun _ _ _ => Nat.le_trans) (fun _ _ => step_nNow)

theorem realTime_passed {T : Nat → Nat} (hT : RealTime E T) {i k : Nat} (hik : i ≤ k)
    (h : 500000 ≤ tsSub (E.now k) (E.now i)) : T i + 500000 ≤ T k := by
  have h1 := hT.mono i k hik
  unfold tsSub at h
  rw [hT.reads, hT.reads] at h
  omega

/-- The condition under which `send_packet` goes on waiting. -/
def waitMore (E : Env) (limit start : U32) : M Bool := do
  let s ← getS
  if limit ≤ s.currWindow then
    let t ← now E
    return decide (tsSub t start < PRE_SEND_TIMEOUT)
  else return false

theorem waitLoop (hV : VOk V) (hrq : V.req) {rec : M (Bytes × Addr)} (hr : RecOk E V rec) (limit start : U32) :
    ∀ n (w w' : World) (r : Res Unit), Inv V w → whileM n (waitMore E limit start) (andThen rec fun _ => ret ()) w = (r, w') →
      r ≠ .panic → Steps E V w w' ∧
        (r = .ok () → w'.s.currWindow < limit ∨ ∃ k, w.nNow ≤ k ∧ k < w'.nNow ∧ 500000 ≤ tsSub (E.now k) start) := by
  intro n
  induction n with
  | zero => intro w w' r _ h _; simp only [whileM, never_run, Prod.mk.injEq] at h; obtain ⟨rfl, rfl⟩ := h; exact ⟨.refl _, by simp⟩
  | succ n ih =>
    intro w w' r hi h hp
    rw [whileM] at h
    unfold waitMore at h
    msimp at h
    split at h
    · split at h
      · rw [← andThen_assoc] at h
        have hi1 : Inv V { w with nNow := w.nNow + 1 } := ⟨hi.win, hi.uns, hi.inc, hi.fly⟩
        obtain ⟨a1, _, _⟩ := hr _ hi1 (.inl hrq)
        rcases hm : rec { w with nNow := w.nNow + 1 } with ⟨r1, w1⟩
        rw [hm] at a1
        cases r1 with
        | ok x =>
          rw [andThen_assoc, andThen_eq hm, andThen_ret] at h
          have s1 : Steps E V w w1 := (Steps.single (.tick w)).trans (a1 (by simp))
          obtain ⟨s2, o2⟩ := ih w1 w' r (hi.steps hV s1) h hp
          refine ⟨s1.trans s2, fun hr => ?_⟩
          rcases o2 hr with o | ⟨k, k1, k2, k3⟩
          · exact .inl o
          · exact .inr ⟨k, by have := s1.nNow; omega, k2, k3⟩
        | err e =>
          rw [andThen_assoc, andThen_err hm] at h
          simp only [Prod.mk.injEq] at h
          obtain ⟨rfl, rfl⟩ := h
          exact ⟨(Steps.single (.tick w)).trans (a1 (by simp)), by simp⟩
        | pending =>
          rw [andThen_assoc, andThen_pending hm] at h
          simp only [Prod.mk.injEq] at h
          obtain ⟨rfl, rfl⟩ := h
          exact ⟨(Steps.single (.tick w)).trans (a1 (by simp)), by simp⟩
        | panic =>
          rw [andThen_assoc, andThen_eq_panic hm] at h
          simp only [Prod.mk.injEq] at h
          exact absurd h.1.symm hp
      · rename_i hlt
        simp only [Prod.mk.injEq] at h
        obtain ⟨rfl, rfl⟩ := h
        refine ⟨.single (.tick w), fun _ => .inr ⟨w.nNow, Nat.le_refl _, by simp, ?_⟩⟩
        have hlt' : ¬ tsSub (E.now w.nNow) start < 500000 := by
          intro hh; exact hlt (decide_eq_true hh)
        omega
    · rename_i hle
      simp only [Bool.false_eq_true, if_false, Prod.mk.injEq] at h
      obtain ⟨rfl, rfl⟩ := h
      exact ⟨.refl _, fun _ => .inl (BitVec.not_le.mp hle)⟩

/-- The limit as the code computes it. -/
def limitOf (s : Socket) : U32 :=
  if (if s.remoteWnd < s.cwnd then s.remoteWnd else s.cwnd) < MIN_WND then MIN_WND
  else if s.remoteWnd < s.cwnd then s.remoteWnd else s.cwnd

theorem limitOf_toNat (s : Socket) : (limitOf s).toNat = sendLimit s := by
  unfold limitOf sendLimit
  have h0 : (MIN_WND : U32).toNat = 2800 := rfl
  split <;> split <;> simp_all only [BitVec.lt_def] <;> omega

theorem tooFar_iff (s : Socket) (n : U16) : s.lastAcked - n < n - s.lastAcked ↔ TooFar s n := by
  unfold TooFar
  rw [BitVec.lt_def]
  have h1 := n.isLt
  have h2 := s.lastAcked.isLt
  simp only [BitVec.toNat_sub]
  omega

/-- The packet as it is transmitted. -/
def stamped (E : Env) (w : World) (p : Packet) : Packet := (p.setTimestamp (E.now w.nNow)).setTimestampDifference w.s.theirDelay

theorem sendPacket_eq (fuel : Nat) (rec : M (Bytes × Addr)) (p : Packet) (w : World) :
    sendPacket E fuel rec p w =
      M.andThen (whileM fuel (waitMore E (limitOf w.s) (E.now w.nNow)) (andThen rec fun _ => ret ()))
        (fun _ => M.andThen getS fun s => if s.lastAcked - p.seqNr < p.seqNr - s.lastAcked then ret p
          else M.andThen (now E) fun t => M.andThen
            (udpSend E s.connectedTo ((p.setTimestamp t).setTimestampDifference s.theirDelay).bytes)
            fun _ => ret ((p.setTimestamp t).setTimestampDifference s.theirDelay))
        { w with nNow := w.nNow + 1 } := rfl

/-- Everything `send_packet` does. -/
theorem sendPacket_inv (hV : VOk V) (hrq : V.req) {rec : M (Bytes × Addr)} (hr : RecOk E V rec) {fuel : Nat} {p : Packet} {w w' : World}
    {r : Res Packet} (hi : Inv V w) (h : sendPacket E fuel rec p w = (r, w')) (hp : r ≠ .panic) :
    ∃ w1, Steps E V w w1 ∧ w.nNow < w1.nNow ∧
      (w' = w1 ∧ (∀ q, r ≠ .ok q) ∨
       MaySend E w w1 ∧ (TooFar w1.s p.seqNr ∧ r = .ok p ∧ w' = w1 ∨
        ¬ TooFar w1.s p.seqNr ∧ ∃ ok, w' = { w1 with nNow := w1.nNow + 1, nSnd := w1.nSnd + 1, log := w1.log ++ [.send w1.s.connectedTo (stamped E w1 p).bytes ok] } ∧
          (r = .ok (stamped E w1 p) ∧ ok = true ∨ (∀ q, r ≠ .ok q) ∧ ok = false))) := by
  rw [sendPacket_eq] at h
  have hi0 : Inv V { w with nNow := w.nNow + 1 } := ⟨hi.win, hi.uns, hi.inc, hi.fly⟩
  have s0 : Steps E V w { w with nNow := w.nNow + 1 } := .single (.tick w)
  rcases hm : whileM fuel (waitMore E (limitOf w.s) (E.now w.nNow)) (andThen rec fun _ => ret ()) { w with nNow := w.nNow + 1 } with ⟨r1, w1⟩
  have hl := waitLoop hV hrq hr _ _ fuel _ _ _ hi0 hm
  cases r1 with
  | ok u =>
    obtain ⟨s1, o1⟩ := hl (by simp)
    have hnow := s1.nNow
    simp only at hnow
    rw [andThen_eq hm] at h
    msimp at h
    refine ⟨w1, s0.trans s1, by omega, .inr ⟨?_, ?_⟩⟩
    · rcases o1 rfl with o | ⟨k, k1, k2, k3⟩
      · left
        rw [← limitOf_toNat]
        exact o
      · exact .inr ⟨k, k1, k2, fun T hT => realTime_passed hT (by simp only at k1; omega) k3⟩
    · split at h
      · rename_i hfar
        simp only [Prod.mk.injEq] at h
        exact .inl ⟨(tooFar_iff _ _).mp hfar, h.1.symm, h.2.symm⟩
      · rename_i hfar
        refine .inr ⟨fun h => hfar ((tooFar_iff _ _).mpr h), ?_⟩
        rcases hk : E.snd ({ w1 with nNow := w1.nNow + 1 } : World).nSnd with _ | k | _
        · rw [andThen_eq (udpSend_ok hk)] at h
          simp only [ret_run, Prod.mk.injEq] at h
          exact ⟨true, h.2.symm, .inl ⟨h.1.symm, rfl⟩⟩
        · rw [andThen_err (udpSend_fail hk)] at h
          simp only [Prod.mk.injEq] at h
          exact ⟨false, h.2.symm, .inr ⟨by simp [← h.1], rfl⟩⟩
        · rw [andThen_pending (udpSend_never hk)] at h
          simp only [Prod.mk.injEq] at h
          exact ⟨false, h.2.symm, .inr ⟨by simp [← h.1], rfl⟩⟩
  | err e =>
    obtain ⟨s1, o1⟩ := hl (by simp)
    have hnow := s1.nNow
    simp only at hnow
    rw [andThen_err hm] at h
    simp only [Prod.mk.injEq] at h
    exact ⟨w1, s0.trans s1, by omega, .inl ⟨h.2.symm, by simp [← h.1]⟩⟩
  | pending =>
    obtain ⟨s1, o1⟩ := hl (by simp)
    have hnow := s1.nNow
    simp only at hnow
    rw [andThen_pending hm] at h
    simp only [Prod.mk.injEq] at h
    exact ⟨w1, s0.trans s1, by omega, .inl ⟨h.2.symm, by simp [← h.1]⟩⟩
  | panic =>
    rw [andThen_eq_panic hm] at h
    simp only [Prod.mk.injEq] at h
    exact absurd h.1.symm hp

theorem MaySend.pop {w w1 : World} {rest : List Packet} (h : MaySend E (w.setS { w.s with unsent := rest }) w1) : MaySend E w w1 := h

/-- `send` does what the specification says, where the waiting is a sequence of receiving steps. -/
theorem sendQueue_trace (fuel : Nat) : ∀ n (w w' : World) (r : Res Unit), Inv .any w → sendQueue E fuel n w = (r, w') → r ≠ .panic →
    SendTrace E (Steps E .inner) w r w' := by
  intro n
  induction n with
  | zero =>
    intro w w' r _ h _
    simp only [sendQueue, never_run, Prod.mk.injEq] at h
    obtain ⟨rfl, rfl⟩ := h
    exact .fuel
  | succ n ih =>
    intro w w' r hi h hp
    unfold sendQueue at h
    rw [bind_def, andThen_getS] at h
    rcases hu : w.s.unsent with _ | ⟨p, rest⟩
    · simp only [hu, pure_def, ret_run, Prod.mk.injEq] at h
      obtain ⟨rfl, rfl⟩ := h
      exact .done hu
    · simp only [hu] at h
      rw [bind_def, andThen_modS, bind_def] at h
      have hi1 : Inv .any (w.setS { w.s with unsent := rest }) :=
        ⟨hi.win, fun q hq => hi.uns q (by rw [hu]; exact List.mem_cons_of_mem _ hq), hi.inc, .inl trivial⟩
      have hvp : Ctx.inner p := (hi.uns p (by rw [hu]; simp)).1
      rcases hm : sendPacket E fuel (recv E fuel BUF_SIZE) p (w.setS { w.s with unsent := rest }) with ⟨r1, w2⟩
      by_cases hr1 : r1 = .panic
      · subst hr1
        rw [andThen_eq_panic hm] at h
        simp only [Prod.mk.injEq] at h
        exact absurd h.1.symm hp
      have hpost := (at_sendPacket (E := E) .inner (recv_ok .inner fuel BUF_SIZE) fuel hvp hi1.inner)
      obtain ⟨w1, hs, hnow, hc⟩ := sendPacket_inv .inner trivial (recv_ok .inner fuel BUF_SIZE) hi1.inner hm hr1
      have push : ∀ q, sendPacket E fuel (recv E fuel BUF_SIZE) p (w.setS { w.s with unsent := rest }) = (.ok q, w2) →
          ∃ w3, w3 = w2.setS { w2.s with currWindow := w2.s.currWindow + BitVec.ofNat 32 q.bytes.length, sendWindow := w2.s.sendWindow ++ [q] } ∧
          SendTrace E (Steps E .inner) w3 r w' := by
        intro q hq
        rw [andThen_eq hq, bind_def, andThen_getS] at h
        simp only [bind_def, pure_def] at h
        by_cases ho : (E.checks && decide (w2.s.currWindow.toNat + (BitVec.ofNat 32 q.len : U32).toNat ≥ 2 ^ 32)) = true
        · rw [andThen_eq_panic (w' := w2) (by rw [overflowIf_run, if_pos ho])] at h
          simp only [Prod.mk.injEq] at h
          exact absurd h.1.symm hp
        rw [andThen_eq (w' := w2) (a := ()) (by rw [overflowIf_run, if_neg ho]), andThen_modS] at h
        refine ⟨_, rfl, ih _ _ _ ?_ h hp⟩
        unfold At at hpost
        rw [hq] at hpost
        have hst := hpost.1 (by simp)
        have hi2 := (hi1.inner.steps .inner hst).outer
        refine ⟨?_, hi2.uns, hi2.inc, .inl trivial⟩
        intro x hx
        simp only [setS_s, List.mem_append, List.mem_singleton] at hx
        rcases hx with hx | rfl
        · exact hi2.win x hx
        · exact (hpost.2.2 _ rfl).1
      have stop : (∀ q, r1 ≠ .ok q) → r ≠ .ok () ∧ w' = w2 := by
        intro hne
        cases r1 with
        | ok q => exact absurd rfl (hne q)
        | err e => rw [andThen_err hm] at h; simp only [Prod.mk.injEq] at h; exact ⟨by simp [← h.1], h.2.symm⟩
        | pending => rw [andThen_pending hm] at h; simp only [Prod.mk.injEq] at h; exact ⟨by simp [← h.1], h.2.symm⟩
        | panic => exact absurd rfl hr1
      rcases hc with ⟨rfl, hne⟩ | ⟨hmay, ⟨hfar, rfl, rfl⟩ | ⟨hfar, ok, rfl, ⟨rfl, rfl⟩ | ⟨hne, rfl⟩⟩⟩
      · obtain ⟨h1, rfl⟩ := stop hne
        exact .waiting hu hs h1
      · obtain ⟨w3, h3, ht⟩ := push p hm
        exact .skipped (w2 := w3) hu hs hfar (by rw [h3]; rfl) (by rw [h3]; rfl) (by rw [h3]; exact Nat.le_refl _) (by rw [h3]; rfl) ht
      · obtain ⟨w3, h3, ht⟩ := push _ hm
        exact .sent (w2 := w3) hu hs hmay.pop hfar ⟨_, _, rfl⟩ (by rw [h3]; rfl) (by rw [h3]; rfl) (by rw [h3]; simp [World.setS]) (by rw [h3]; rfl) ht
      · obtain ⟨h1, rfl⟩ := stop hne
        exact .refused hu hs hmay.pop ⟨_, _, rfl⟩ rfl rfl rfl h1

theorem SendTrace.mono {R R' : World → World → Prop} (hR : ∀ a b, R a b → R' a b) {w w' : World} {r : Res Unit}
    (h : SendTrace E R w r w') : SendTrace E R' w r w' := by
  induction h with
  | done h => exact .done h
  | sent h1 h2 h3 h4 h5 h6 h7 h8 h9 _ ih => exact .sent h1 (hR _ _ h2) h3 h4 h5 h6 h7 h8 h9 ih
  | skipped h1 h2 h3 h4 h5 h6 h7 _ ih => exact .skipped h1 (hR _ _ h2) h3 h4 h5 h6 h7 ih
  | waiting h1 h2 h3 => exact .waiting h1 (hR _ _ h2) h3
  | refused h1 h2 h3 h4 h5 h6 h7 h8 => exact .refused h1 (hR _ _ h2) h3 h4 h5 h6 h7 h8
  | fuel => exact .fuel

theorem step_acked {a b : World} (h : Step E V a b) : b.s.lastAcked = a.s.lastAcked ∨
    ∃ pkt src, Received E b pkt src ∧ pkt.getType = some .state ∧ pkt.ackNr = b.s.lastAcked := by
  cases h with
  | synAck pkt src t h1 h2 => exact .inr ⟨pkt, src, h1, h2, rfl⟩
  | newAck pkt src t h1 h2 => exact .inr ⟨pkt, src, h1, h2, rfl⟩
  | measure pkt src i p t s' _ _ _ _ _ _ hm => exact .inl (onNewAck_lastAcked hm)
  | advance s' _ hm => exact .inl (advanceSendWindow_lastAcked hm)
  | _ => exact .inl (by simp [enqueue, Socket.insertIntoBuffer, Socket.halveWindow])

theorem Steps.waiting (hq : ¬ V.que) (hn : ¬ V.enq) {a b : World} (h : Steps E V a b) : Awaiting E a b := by
  refine ⟨?_, h.nNet, fun he => ⟨(steps_fixed hn h he).2.2.2, Established.steps h he⟩, ?_, ?_⟩
  · obtain ⟨l, hl, _⟩ := h.log
    exact ⟨l, hl⟩
  · exact h.lift (R := fun a b => b.s.unsent = a.s.unsent) (fun _ => rfl) (fun _ _ _ h h' => h'.trans h) (fun _ _ => step_unsent hq hn)
  · induction h with
    | refl => exact .inl rfl
    | @tail b c h hs ih =>
      rcases step_acked hs with h1 | h1
      · rcases ih with h2 | ⟨pkt, src, h2, h3, h4⟩
        · exact .inl (h1.trans h2)
        · exact .inr ⟨pkt, src, h2.mono (step_nNet hs), h3, h4.trans h1.symm⟩
      · exact .inr h1

/-- A call of `send_to` on a socket that is not closed. -/
theorem sendTo_trace {w w' : World} {fuel : Nat} {buf : Bytes} {r : Res Out} (hi : Inv .any w) (hcl : w.s.state ≠ .closed)
    (h : runOp E fuel (.sendTo buf) w = (r, w')) (hp : r ≠ .panic) :
    ∃ r', SendTrace E (Steps E .inner) (queued w buf) r' w' ∧ (∀ o, r = .ok o → r' = .ok ()) ∧ (∀ e, r = .err e → r' = .err e) ∧
      (r = .pending → r' = .pending) := by
  have hrun : runOp E fuel (.sendTo buf) w = M.andThen (M.andThen (sendQueue E fuel fuel) (fun _ => M.ret buf.length))
      (fun n => M.ret (.count n)) (queued w buf) := by
    simp only [runOp, bind_def, pure_def]
    unfold M.andThen
    simp only [sendTo_eq (E := E) fuel buf hcl, M.andThen]
  rw [hrun, andThen_assoc] at h
  have hiq : Inv .any (queued w buf) := by
    refine ⟨by rw [queued, fold_enqueue]; exact hi.win, ?_, by rw [queued, fold_enqueue]; exact hi.inc, .inl trivial⟩
    intro p hpm
    rcases fold_enqueue_mem _ _ _ hpm with h | ⟨c, hc, n, rfl⟩
    · exact hi.uns p h
    · exact ⟨dataPacket_any _ _ (chunks_bounds _ _ c hc).1 (chunks_bounds _ _ c hc).2, dataPacket_fresh _ _⟩
  rcases hm : sendQueue E fuel fuel (queued w buf) with ⟨r1, w1⟩
  have ht := sendQueue_trace fuel fuel _ _ _ hiq hm
  cases r1 with
  | ok u =>
    rw [andThen_eq hm] at h
    msimp at h
    simp only [Prod.mk.injEq] at h
    obtain ⟨rfl, rfl⟩ := h
    exact ⟨_, ht (by simp), by simp, by simp, by simp⟩
  | err e =>
    rw [andThen_err hm] at h
    simp only [Prod.mk.injEq] at h
    obtain ⟨rfl, rfl⟩ := h
    exact ⟨_, ht (by simp), by simp, by simp, by simp⟩
  | pending =>
    rw [andThen_pending hm] at h
    simp only [Prod.mk.injEq] at h
    obtain ⟨rfl, rfl⟩ := h
    exact ⟨_, ht (by simp), by simp, by simp, by simp⟩
  | panic =>
    rw [andThen_eq_panic hm] at h
    simp only [Prod.mk.injEq] at h
    exact absurd h.1.symm hp

/-- The accounting of sequence numbers along `send`: at most one packet is lost, none if it succeeds, one if it fails. -/
theorem trace_acct {f : Prop} {w w' : World} {r : Res Unit} (h : SendTrace E (Steps E .inner) w r w') (he : Established w)
    (ha : Acct E f w.s.unsent w) :
    ∃ lost, lost.length ≤ 1 ∧ Acct E f (lost ++ w'.s.unsent) w' ∧ (∀ e, r = .err e → lost.length = 1) ∧ Established w' ∧
      w'.s.seqNr = w.s.seqNr ∧ lost.length + w'.s.unsent.length ≤ w.s.unsent.length := by
  induction h with
  | @done w h => exact ⟨[], by simp, by simpa using ha, by simp, he, rfl, by simp⟩
  | @sent w w1 w2 w' p q rest r h1 h2 h3 h4 h5 h6 h7 h8 h9 h10 ih =>
    have hnx : Acct E f (p :: rest) (w.setS { w.s with unsent := rest }) := by rw [h1] at ha; exact ⟨ha.num, ha.ack⟩
    obtain ⟨ha1, hu1⟩ := steps_acct (fun h => h) (fun h => h) h2 (show Established (w.setS _) from he) hnx
    have hs1 := (steps_fixed (fun h => h) h2 (show Established (w.setS _) from he)).1
    have he1 : Established w1 := Established.steps h2 (show Established (w.setS _) from he)
    obtain ⟨t, d, rfl⟩ := h5
    obtain ⟨lost, l1, l2, l3, l4, l5, l6⟩ := ih (by unfold Established; rw [h7]; exact he1) (by
      refine ⟨?_, fun _ hX => by rw [h7] at hX; simp at hX⟩
      rw [h7]
      simp only [hu1]
      refine ha1.num.congr ?_
      simp)
    exact ⟨lost, l1, l2, l3, l4, by rw [l5, h7]; exact hs1, by
      rw [h1]; rw [h7] at l6; simp only [hu1, setS_s] at l6; simp only [List.length_cons]; omega⟩
  | @skipped w w1 w2 w' p rest r h1 h2 h3 h4 h5 h6 h7 h8 ih =>
    have hnx : Acct E f (p :: rest) (w.setS { w.s with unsent := rest }) := by rw [h1] at ha; exact ⟨ha.num, ha.ack⟩
    obtain ⟨ha1, hu1⟩ := steps_acct (fun h => h) (fun h => h) h2 (show Established (w.setS _) from he) hnx
    have hs1 := (steps_fixed (fun h => h) h2 (show Established (w.setS _) from he)).1
    have he1 : Established w1 := Established.steps h2 (show Established (w.setS _) from he)
    obtain ⟨lost, l1, l2, l3, l4, l5, l6⟩ := ih (by unfold Established; rw [h5]; exact he1) (by
      refine ⟨?_, fun _ hX => by rw [h5] at hX; simp at hX⟩
      rw [h5]
      simp only [hu1]
      refine ha1.num.congr ?_
      simp)
    exact ⟨lost, l1, l2, l3, l4, by rw [l5, h5]; exact hs1, by
      rw [h1]; rw [h5] at l6; simp only [hu1, setS_s] at l6; simp only [List.length_cons]; omega⟩
  | @waiting w w' p rest r h1 h2 h3 =>
    have hnx : Acct E f (p :: rest) (w.setS { w.s with unsent := rest }) := by rw [h1] at ha; exact ⟨ha.num, ha.ack⟩
    obtain ⟨ha1, hu1⟩ := steps_acct (fun h => h) (fun h => h) h2 (show Established (w.setS _) from he) hnx
    have hs1 := (steps_fixed (fun h => h) h2 (show Established (w.setS _) from he)).1
    refine ⟨[p], by simp, ?_, by simp, Established.steps h2 (show Established (w.setS _) from he), hs1, by rw [h1, hu1]; simp [Nat.add_comm]⟩
    rw [hu1]
    exact ha1
  | @refused w w1 w' p q rest r h1 h2 h3 h4 h5 h6 h7 h8 =>
    have hnx : Acct E f (p :: rest) (w.setS { w.s with unsent := rest }) := by rw [h1] at ha; exact ⟨ha.num, ha.ack⟩
    obtain ⟨ha1, hu1⟩ := steps_acct (fun h => h) (fun h => h) h2 (show Established (w.setS _) from he) hnx
    have hs1 := (steps_fixed (fun h => h) h2 (show Established (w.setS _) from he)).1
    have he1 : Established w1 := Established.steps h2 (show Established (w.setS _) from he)
    refine ⟨[p], by simp, ?_, by simp, by unfold Established; rw [h6]; exact he1, by rw [h6]; exact hs1, by rw [h1, h6, hu1]; simp [Nat.add_comm]⟩
    rw [h6, hu1]
    refine ⟨by rw [h6]; exact ha1.num, fun _ hX => by rw [h6] at hX; simp at hX⟩
  | @fuel w => exact ⟨[], by simp, by simpa using ha, by simp, he, rfl, by simp⟩

/-- One operation: steps from the state in which the new pieces are queued. -/
theorem op_queue (hV : VOk V) (hq : V.que) (hc : V.ctl) {w : World} {new : List Bytes} (hi : Inv V w) (fuel : Nat) (op : Op)
    (hp : (runOp E fuel op w).1 ≠ .panic) (ha : Adds w op new) (hn : ∀ p ∈ framed w.s new, V p)
    (hrq : (∃ len, op = .recvFrom len) → V.req) :
    Steps E V (w.setS { w.s with unsent := w.s.unsent ++ framed w.s new, seqNr := w.s.seqNr + BitVec.ofNat 16 new.length })
      (runOp E fuel op w).2 := by
  by_cases hop : ∃ buf, op = .sendTo buf
  · obtain ⟨buf, rfl⟩ := hop
    simp only [Adds] at ha
    by_cases hcl : w.s.state = .closed
    · rw [if_pos hcl] at ha
      subst ha
      have : (runOp E fuel (.sendTo buf) w).2 = w := by
        simp [runOp, bind_def, M.andThen, sendTo_closed fuel buf hcl]
      rw [this]
      have e : w.setS { w.s with unsent := w.s.unsent ++ framed w.s [], seqNr := w.s.seqNr + BitVec.ofNat 16 ([] : List Bytes).length } = w := by
        simp [World.setS, framed]
      rw [e]; exact .refl _
    · rw [if_neg hcl] at ha
      have hnew : chunks buf.length buf = new := Framing.unique _ _ _ (chunks_framing _ _ (Nat.le_refl _)) ha
      have hq' : queued w buf = w.setS { w.s with unsent := w.s.unsent ++ framed w.s new, seqNr := w.s.seqNr + BitVec.ofNat 16 new.length } := by
        rw [queued, hnew, fold_enqueue]
      rw [← hq']
      have hiq : Inv V (queued w buf) := by
        rw [hq']
        refine ⟨hi.win, ?_, hi.inc, hi.fly⟩
        intro p hp
        simp only [setS_s, List.mem_append] at hp
        rcases hp with hp | hp
        · exact hi.uns p hp
        · exact ⟨hn p hp, framed_fresh _ _ p hp⟩
      have hat := at_sendQueue (E := E) hV hq fuel fuel hiq
      have hrun : runOp E fuel (.sendTo buf) w = M.andThen (M.andThen (sendQueue E fuel fuel) (fun _ => M.ret buf.length))
          (fun n => M.ret (.count n)) (queued w buf) := by
        simp only [runOp, bind_def, pure_def]
        unfold M.andThen
        simp only [sendTo_eq (E := E) fuel buf hcl, M.andThen]
      have hat2 := (hat.andThen (f := fun _ => M.ret buf.length) (Q' := fun _ _ => True) fun _ _ _ _ => .ret trivial).andThen
        (f := fun n => M.ret (Out.count n)) (Q' := fun _ _ => True) fun _ _ _ _ => .ret trivial
      rw [hrun] at hp ⊢
      exact hat2.1 hp
  · have hnew : new = [] := by
      cases op with
      | sendTo buf => exact absurd ⟨buf, rfl⟩ hop
      | _ => exact ha
    subst hnew
    have e : w.setS { w.s with unsent := w.s.unsent ++ framed w.s [], seqNr := w.s.seqNr + BitVec.ofNat 16 ([] : List Bytes).length } = w := by
      simp [World.setS, framed]
    rw [e]
    exact (at_runOp (E := E) hV fuel op (fun buf e => absurd ⟨buf, e⟩ hop) (fun _ => hc) hrq hi (fun buf e => absurd ⟨buf, e⟩ hop)).1 hp

end Utp
