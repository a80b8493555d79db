import Verif.Lemmas.Frame
import Verif.Spec.Run
/-!
# Reachable worlds
-/

namespace Utp
open M

variable {E : Env} {V : Ctx}

/-- The socket `accept` makes for the SYN `pkt`. -/
def acceptSocket (E : Env) (la src : Addr) (pkt : Packet) : Socket :=
  { Socket.fromRawParts la src (E.rand 0) with
    ackNr := pkt.seqNr, seqNr := E.rand 1, receiverId := pkt.connectionId + 1, senderId := pkt.connectionId
    state := .connected, lastDropped := pkt.seqNr, remoteWnd := pkt.wndSize
    theirDelay := absDiff (E.now 0) pkt.timestamp }

/-- The reply of `accept`. -/
def acceptReply (E : Env) (la src : Addr) (pkt : Packet) : Packet :=
  (acceptSocket E la src pkt).prepareReply (E.now 1) pkt .state

/-- Worlds from which the steps of an execution start. -/
inductive Start (E : Env) : World → Prop
  | bound (la src) : Start E (freshWorld E la src)
  | connecting (la a0 a st w) : w.s = { Socket.fromRawParts la a0 (E.rand 0) with connectedTo := a, state := st } →
      (st = .new ∨ st = .synSent) → w.nRand = 1 →
      (∀ act ∈ w.log, (∃ t, act = .wait (some t)) ∨
        ∃ dst t ok, act = .send dst (synPacket (Socket.fromRawParts la a0 (E.rand 0)) t).bytes ok) → Start E w
  | accepted (la src pkt ok n) : (∃ b, Packet.tryFrom b = some (.ok pkt)) → pkt.getType = some .syn →
      (E.checks = true → pkt.connectionId ≠ 65535) →
      Start E { s := acceptSocket E la src pkt, nNow := 2, nRand := 2, nNet := 0, nSnd := n
                log := [.send src (acceptReply E la src pkt).bytes ok] }

theorem handlePacket_syn_new (fuel : Nat) (rec : M (Bytes × Addr)) {pkt : Packet} (src : Addr) {w : World}
    (ht : pkt.getType = some .syn) (hst : w.s.state = .new) :
    handlePacket E fuel rec pkt src w =
      if E.checks ∧ pkt.connectionId = 65535 then
        (.panic, { (w.setS { w.s.bumpAck pkt with
          remoteWnd := pkt.wndSize, theirDelay := absDiff (E.now w.nNow) pkt.timestamp }) with
            nNow := w.nNow + 1, nRand := w.nRand + 1 })
      else
        let s := { w.s with
          connectedTo := src, ackNr := pkt.seqNr, seqNr := E.rand w.nRand, receiverId := pkt.connectionId + 1
          senderId := pkt.connectionId, state := .connected, lastDropped := pkt.seqNr
          remoteWnd := pkt.wndSize, theirDelay := absDiff (E.now w.nNow) pkt.timestamp }
        (.ok (some (s.prepareReply (E.now (w.nNow + 1)) pkt .state)),
          { (w.setS s) with nNow := w.nNow + 2, nRand := w.nRand + 1 }) := by
  have hst' : (w.s.bumpAck pkt).state = .new := by simp [hst]
  simp only [handlePacket, bind_def, M.andThen, modS, getS, ht, orPanic, M.ret, ne_eq, not_true_eq_false, false_and,
    if_false, M.now, hst', dispatch, onSyn, M.rand, overflowIf, pure_def]
  by_cases hc : E.checks = true ∧ pkt.connectionId = 65535
  · simp [hc, M.panic, World.setS]
  · have : (E.checks && decide (pkt.connectionId = 65535)) = false := by
      simpa [Bool.eq_false_iff] using hc
    rw [if_neg hc]
    simp only [this, Bool.false_eq_true, if_false, M.ret, World.setS, bumpAck_localAddr, bumpAck_incoming, bumpAck_sendWindow,
      bumpAck_unsent, bumpAck_dupAcks, bumpAck_lastAcked, bumpAck_lastAckedTs, bumpAck_rtt, bumpAck_rttVar, bumpAck_pending,
      bumpAck_currWindow, bumpAck_baseDelays, bumpAck_currDelays, bumpAck_lastRollover, bumpAck_congTimeout, bumpAck_cwnd,
      bumpAck_maxRetries]

theorem accept_inv {fuel : Nat} {ev : NetEvent} {bound : Except ErrorKind Addr} {r : Res Unit} {w : World} {src : Addr}
    (h : accept E fuel ev bound = .made r w src) (hp : r ≠ .panic) :
    ∃ b pkt la, ev = .dgram b src ∧ bound = .ok la ∧ Packet.tryFrom (b.take 1500) = some (.ok pkt) ∧ pkt.getType = some .syn ∧
      (E.checks = true → pkt.connectionId ≠ 65535) ∧
      r = (match E.snd 0 with | .ok => .ok () | .fail k => .err (.os k) | .never => .pending) ∧
      w = { s := acceptSocket E la src pkt, nNow := 2, nRand := 2, nNet := 0, nSnd := 1
            log := [.send src (acceptReply E la src pkt).bytes (decide (E.snd 0 = .ok))] } := by
  unfold accept at h
  split at h
  · simp at h
  · simp at h
  · rename_i b src'
    split at h
    · simp at h
    · simp at h
    · rename_i pkt hpkt
      split at h
      · simp at h
      · rename_i ty hty
        split at h
        · simp at h
        · rename_i hsyn
          simp only [ne_eq, Decidable.not_not] at hsyn
          subst hsyn
          split at h
          · simp at h
          · rename_i la
            simp only [AcceptRes.made.injEq] at h
            obtain ⟨h1, h2, rfl⟩ := h
            rw [acceptM, handlePacket_syn_new fuel _ _ hty rfl] at h1 h2
            by_cases hc : E.checks = true ∧ pkt.connectionId = 65535
            · simp only [hc, and_self, if_true] at h1
              exact absurd h1.symm hp
            · rw [if_neg hc] at h1 h2
              simp only [udpSend] at h1 h2
              refine ⟨b, pkt, la, rfl, rfl, hpkt, hty, fun h1 h2 => hc ⟨h1, h2⟩, ?_, ?_⟩
              · rw [← h1]
                cases hs : E.snd 0 <;> simp [World.setS, freshWorld, hs]
              · rw [← h2]
                cases hs : E.snd 0 <;> simp only [World.setS, freshWorld, hs] <;> rfl

theorem accept_start {fuel : Nat} {ev : NetEvent} {bound : Except ErrorKind Addr} {r : Res Unit} {w : World} {src : Addr}
    (h : accept E fuel ev bound = .made r w src) (hp : r ≠ .panic) : Start E w := by
  obtain ⟨b, pkt, la, _, _, h1, h2, h3, _, rfl⟩ := accept_inv h hp
  exact .accepted la src pkt _ 1 ⟨_, h1⟩ h2 h3

/-- The SYN loop keeps a connecting world. -/
theorem synLoop_start (la a0 : Addr) : ∀ n timeout w,
    (∃ a st, w.s = { Socket.fromRawParts la a0 (E.rand 0) with connectedTo := a, state := st } ∧
      (st = .new ∨ st = .synSent)) → w.nRand = 1 →
    (∀ act ∈ w.log, (∃ t, act = .wait (some t)) ∨
        ∃ dst t ok, act = .send dst (synPacket (Socket.fromRawParts la a0 (E.rand 0)) t).bytes ok) →
    let r := synLoop E n timeout w
    r.1 ≠ .panic ∧
    (∃ a st, r.2.s = { Socket.fromRawParts la a0 (E.rand 0) with connectedTo := a, state := st } ∧
      (st = .new ∨ st = .synSent)) ∧ r.2.nRand = 1 ∧
    (∀ act ∈ r.2.log, (∃ t, act = .wait (some t)) ∨
        ∃ dst t ok, act = .send dst (synPacket (Socket.fromRawParts la a0 (E.rand 0)) t).bytes ok) ∧
    (∀ b, r.1 = .ok b → b ≠ [] → ∃ k b0, k < r.2.nNet ∧ E.net k = .dgram b0 r.2.s.connectedTo ∧ b = b0.take 1500) := by
  intro n
  induction n with
  | zero =>
    intro timeout w hs hr hl
    exact ⟨by simp [synLoop, pure_def, M.ret], hs, hr, hl, by
      intro b hb; simp [synLoop, pure_def, M.ret] at hb; simp [← hb]⟩
  | succ n ih =>
    intro timeout w hs hr hl
    obtain ⟨a, st, hs, hst⟩ := hs
    have hsyn : ∀ t, synPacket w.s t = synPacket (Socket.fromRawParts la a0 (E.rand 0)) t := by
      intro t; rw [hs]; rfl
    have hlog : ∀ ok, ∀ act ∈ w.log ++ [Act.send w.s.connectedTo (synPacket w.s (E.now w.nNow)).bytes ok],
        (∃ t, act = .wait (some t)) ∨
        ∃ dst t ok, act = .send dst (synPacket (Socket.fromRawParts la a0 (E.rand 0)) t).bytes ok := by
      intro ok act hact
      simp only [List.mem_append, List.mem_singleton] at hact
      rcases hact with h | h
      · exact hl act h
      · exact .inr ⟨_, _, _, by rw [h, hsyn]⟩
    have hlog2 : ∀ ok, ∀ act ∈ w.log ++ [Act.send w.s.connectedTo (synPacket w.s (E.now w.nNow)).bytes ok] ++ [Act.wait (some timeout)],
        (∃ t, act = .wait (some t)) ∨
        ∃ dst t ok, act = .send dst (synPacket (Socket.fromRawParts la a0 (E.rand 0)) t).bytes ok := by
      intro ok act hact
      rw [List.mem_append] at hact
      rcases hact with h | h
      · exact hlog ok act h
      · simp only [List.mem_singleton] at h
        exact .inl ⟨_, h⟩
    simp only
    unfold synLoop
    simp only [bind_def, M.andThen, getS, M.now, udpSend]
    cases hsnd : E.snd w.nSnd with
    | fail k => exact ⟨by simp, ⟨a, st, hs, hst⟩, hr, hlog false, by simp⟩
    | never => exact ⟨by simp, ⟨a, st, hs, hst⟩, hr, hlog false, by simp⟩
    | ok =>
      simp only [modS, udpRecv]
      cases hnet : E.net w.nNet with
      | never =>
        exact ⟨by simp, ⟨a, .synSent, by simp [hs], .inr rfl⟩, hr, hlog2 true, by simp⟩
      | dgram b0 src =>
        simp only [bind_def, M.andThen, modS, pure_def, M.ret]
        refine ⟨by simp, ⟨src, .synSent, by simp [hs], .inr rfl⟩, hr, hlog2 true, ?_⟩
        intro b hb _
        simp only [Res.ok.injEq] at hb
        exact ⟨w.nNet, b0, by simp, hnet, hb.symm⟩
      | fail k =>
        simp only
        by_cases hk : isTimeout k = true
        · simp only [hk, if_true]
          exact ih (timeout * 2) _ ⟨a, .synSent, by simp [hs], .inr rfl⟩ hr (hlog2 true)
        · rw [if_neg hk]
          exact ⟨by simp [M.throw], ⟨a, .synSent, by simp [M.throw, hs], .inr rfl⟩, hr, hlog2 true, by simp [M.throw]⟩

theorem start_inv {w : World} (h : Start E w) : Inv V w := by
  cases h with
  | bound la src => exact ⟨by simp [freshWorld, Socket.fromRawParts], by simp [freshWorld, Socket.fromRawParts], by simp [freshWorld, Socket.fromRawParts],
      .inr (by simp [freshWorld, Socket.fromRawParts, totalSize])⟩
  | connecting la a0 a st _ hs _ _ _ => exact ⟨by simp [hs, Socket.fromRawParts], by simp [hs, Socket.fromRawParts], by simp [hs, Socket.fromRawParts],
      .inr (by simp [hs, Socket.fromRawParts, totalSize])⟩
  | accepted la src pkt ok n _ _ _ => exact ⟨by simp [acceptSocket, Socket.fromRawParts], by simp [acceptSocket, Socket.fromRawParts], by simp [acceptSocket, Socket.fromRawParts],
      .inr (by simp [acceptSocket, Socket.fromRawParts, totalSize])⟩

theorem connectM_start (hV : VOk V) (fuel : Nat) (la a0 addr : Addr) :
    ∃ w0, (Start E w0 ∧ (w0.s.state = .new ∨ w0.s.state = .synSent)) ∧ ((connectM E fuel addr (freshWorld E la a0)).1 ≠ .panic →
      Steps E V w0 (connectM E fuel addr (freshWorld E la a0)).2) ∧
      (E.checks = false → (connectM E fuel addr (freshWorld E la a0)).1 ≠ .panic) := by
  obtain ⟨w1, hw1⟩ : ∃ w1, w1 = (freshWorld E la a0).setS { (freshWorld E la a0).s with connectedTo := addr } := ⟨_, rfl⟩
  have hl := synLoop_start (E := E) la a0 MAX_SYN_RETRIES INITIAL_CONGESTION_TIMEOUT w1
    ⟨addr, .new, by rw [hw1]; rfl, .inl rfl⟩ (by rw [hw1]; rfl) (by rw [hw1]; simp [freshWorld])
  have e : connectM E fuel addr (freshWorld E la a0) =
      M.andThen (synLoop E MAX_SYN_RETRIES INITIAL_CONGESTION_TIMEOUT) (fun b => M.andThen getS fun s =>
        M.andThen (orPanic (Packet.tryFrom b)) fun x =>
          match x with
          | .error e => M.throw (.parse e)
          | .ok pkt => M.andThen (handlePacket E fuel (recv E fuel BUF_SIZE) pkt s.connectedTo) fun _ => M.ret ()) w1 := by
    rw [hw1]; rfl
  rw [e]
  clear e
  unfold M.andThen
  rcases hr : synLoop E MAX_SYN_RETRIES INITIAL_CONGESTION_TIMEOUT w1 with ⟨r, w0⟩
  rw [hr] at hl
  simp only at hl
  obtain ⟨hnp, ⟨a, st, hs, hst⟩, hnr, hlog, hrecv⟩ := hl
  refine ⟨w0, ⟨.connecting la a0 a st w0 hs hst hnr hlog, by rw [hs]; exact hst⟩, ?_⟩
  cases r with
  | err e => exact ⟨fun _ => .refl _, fun _ => by simp⟩
  | panic => exact absurd rfl hnp
  | pending => exact ⟨fun _ => .refl _, fun _ => by simp⟩
  | ok b =>
    simp only [getS]
    rcases hp : Packet.tryFrom b with _ | x
    · exact absurd hp (tryFrom_some b)
    · simp only [orPanic, M.ret]
      cases x with
      | error e => exact ⟨fun _ => .refl _, fun _ => by simp [M.throw]⟩
      | ok pkt =>
        have hne : b ≠ [] := by
          intro e
          have := accepted_len hp
          rw [C02_lossless hp, e] at this
          simp at this
        obtain ⟨k, b0, hk, hn, hb⟩ := hrecv b rfl hne
        have hg : Received E w0 pkt w0.s.connectedTo := ⟨k, b0, 1500, hk, .inr rfl, hn, by rw [← hb]; exact hp⟩
        have := At.andThen (f := fun _ => (M.ret () : M Unit)) (at_handlePacket hV (recv_ok hV fuel BUF_SIZE) fuel (start_inv (V := V)
          (.connecting (E := E) la a0 a st w0 hs hst hnr hlog)) hg) (Q' := fun _ _ => True) fun _ _ _ _ => .ret trivial
        exact ⟨this.1, this.safe⟩

theorem made_steps (hV : VOk V) {w : World} (h : Made E w) : ∃ w0, Start E w0 ∧ Steps E V w0 w := by
  cases h with
  | bind resolved bound h =>
    unfold Utp.bind at h
    split at h
    · simp at h
    · split at h
      · simp at h
      · simp only [Except.ok.injEq] at h
        exact ⟨w, h ▸ .bound _ _, .refl _⟩
  | connect fuel resolved wild h hp =>
    unfold Utp.connect at h
    split at h
    · simp at h
    · split at h
      · simp at h
      · rename_i addr _ _ la
        obtain ⟨w0, h0, h1, _⟩ := connectM_start (E := E) hV fuel la { v6 := addr.v6, id := 0 } addr
        simp only [Except.ok.injEq] at h
        rw [h] at h1
        exact ⟨w0, h0.1, h1 hp⟩
  | accept fuel ev bound h hp => exact ⟨w, accept_start h hp, .refl _⟩

theorem fold_enqueue_mem (l : List Bytes) : ∀ (s : Socket), ∀ p ∈ (l.foldl enqueue s).unsent,
    p ∈ s.unsent ∨ ∃ c ∈ l, ∃ n : U16, p = dataPacket { s with seqNr := n } c := by
  induction l with
  | nil => intro s p hp; exact .inl hp
  | cons c r ih =>
    intro s p hp
    rcases ih (enqueue s c) p hp with h | ⟨c', hc', n, h⟩
    · simp only [enqueue, List.mem_append, List.mem_singleton] at h
      rcases h with h | h
      · exact .inl h
      · exact .inr ⟨c, by simp, s.seqNr, h⟩
    · exact .inr ⟨c', by simp [hc'], n, h⟩

/-- If `V` holds of every packet `send_to` makes, an execution is a sequence of steps. -/
theorem run_steps (hV : VOk V) (hu : V.enq ∧ V.que) (hc : V.ctl) (hrq : V.req) (hd : ∀ s c, 0 < c.length → c.length ≤ CHUNK → V (dataPacket s c)) {w0 w : World}
    (h : Run E w0 w) (hi : Inv V w0) : Steps E V w0 w := by
  induction h with
  | refl => exact .refl _
  | op fuel op hr hp ih =>
    have hiw := hi.steps hV ih
    refine ih.trans ((at_runOp hV fuel op (fun _ _ => hu) (fun _ => hc) (fun _ => hrq) hiw ?_).1 hp)
    intro buf _ p hpm
    rcases fold_enqueue_mem _ _ _ hpm with h | ⟨c, hc, n, rfl⟩
    · exact (hiw.uns p h).1
    · exact hd _ _ (chunks_bounds _ _ c hc).1 (chunks_bounds _ _ c hc).2

theorem reach_steps (hV : VOk V) (hu : V.enq ∧ V.que) (hc : V.ctl) (hrq : V.req) (hd : ∀ s c, 0 < c.length → c.length ≤ CHUNK → V (dataPacket s c)) {w : World}
    (h : Reach E w) : ∃ w0, Start E w0 ∧ Steps E V w0 w := by
  obtain ⟨w1, hm, hr⟩ := h
  obtain ⟨w0, h0, h1⟩ := made_steps hV hm
  exact ⟨w0, h0, h1.trans (run_steps hV hu hc hrq hd hr ((start_inv h0).steps hV h1))⟩

theorem Steps.path {R : World → World → Prop} (hs : ∀ a b, Step E V a b → R a b) {a b : World}
    (h : Steps E V a b) : Path R a b := by
  induction h with
  | refl => exact .refl _
  | tail _ s ih => exact .tail ih (hs _ _ s)

end Utp
