import Verif.Drop
import Verif.Props.Handshake
import Verif.Props.Lifecycle
import Verif.Props.Window
import Verif.Props.Timeout
/-!
# Dropped sockets: C55, C56
-/

namespace Utp
open M Packet Sample

variable {E : Env}

/-- A socket that is not connected or already closed is dropped without any effect. -/
theorem C56_silent {w : World} (hs : w.s.state = .closed ∨ w.s.state = .new ∨ w.s.state = .synSent) (fuel : Nat) :
    dropSocket E fuel w = (.ok (), w) := by
  have : close E fuel w = (.ok (), w) := by
    unfold close
    msimp
    rw [if_pos hs]
  unfold dropSocket M.ignoreErr
  rw [this]

/-! ### C55 -/

theorem connectM_failed {fuel : Nat} {la a0 addr : Addr} (h : (connectM E fuel addr (freshWorld E la a0)).1 ≠ .ok ()) :
    (connectM E fuel addr (freshWorld E la a0)).2.s.state = .new ∨ (connectM E fuel addr (freshWorld E la a0)).2.s.state = .synSent := by
  obtain ⟨w1, hw1⟩ : ∃ w1, w1 = (freshWorld E la a0).setS { (freshWorld E la a0).s with connectedTo := addr } := ⟨_, rfl⟩
  have hl := synLoop_start (E := E) la a0 MAX_SYN_RETRIES INITIAL_CONGESTION_TIMEOUT w1
    ⟨addr, .new, by rw [hw1]; rfl, .inl rfl⟩ (by rw [hw1]; rfl) (by rw [hw1]; simp [freshWorld])
  have ht := synLoop_trace (E := E) MAX_SYN_RETRIES INITIAL_CONGESTION_TIMEOUT w1
  have e : connectM E fuel addr (freshWorld E la a0) =
      M.andThen (synLoop E MAX_SYN_RETRIES INITIAL_CONGESTION_TIMEOUT) (fun b => M.andThen getS fun s =>
        M.andThen (orPanic (Packet.tryFrom b)) fun x =>
          match x with
          | .error e => M.throw (.parse e)
          | .ok pkt => M.andThen (handlePacket E fuel (recv E fuel BUF_SIZE) pkt s.connectedTo) fun _ => M.ret ()) w1 := by
    rw [hw1]; rfl
  rw [e] at h ⊢
  clear e
  rcases hr : synLoop E MAX_SYN_RETRIES INITIAL_CONGESTION_TIMEOUT w1 with ⟨r, w0⟩
  rw [hr] at hl ht
  simp only at hl ht
  obtain ⟨hnp, ⟨a, st, hs, hst⟩, -, -, -⟩ := hl
  have h0 : w0.s.state = .new ∨ w0.s.state = .synSent := by rw [hs]; exact hst
  cases r with
  | err e => rw [andThen_err hr]; exact h0
  | panic => exact absurd rfl hnp
  | pending => rw [andThen_pending hr]; exact h0
  | ok b =>
    rw [andThen_eq hr] at h ⊢
    msimp at h ⊢
    rcases hp : Packet.tryFrom b with _ | x
    · exact absurd hp (tryFrom_some b)
    · rw [hp] at h
      msimp at h ⊢
      cases x with
      | error e => exact h0
      | ok pkt =>
        simp only at h ⊢
        obtain ⟨ty, hty, -⟩ := (C02_first_bytes hp).1
        have hss : w0.s.state = .synSent := by
          obtain ⟨blocks, tail, -, -, g⟩ := ht
          cases g with
          | noReply _ =>
            have : Packet.tryFrom [] = some (.error .invalidPacketLength) := rfl
            rw [this] at hp
            simp at hp
          | got _ _ _ h4 => rw [h4]
        obtain ⟨k1, k2, k3⟩ := handlePacket_synSent (E := E) fuel (recv E fuel BUF_SIZE) (pkt := pkt) w0.s.connectedTo (w := w0) hty hss
          (by rw [hs]; show (1 : U16) ≠ 65535; decide)
        by_cases c1 : ty = .state
        · obtain ⟨td, ts, k⟩ := k1 c1
          rw [andThen_eq k] at h
          exact absurd rfl h
        · by_cases c2 : ty = .syn
          · obtain ⟨reply, w', k, -, -⟩ := k2 c2
            rw [andThen_eq k] at h
            exact absurd rfl h
          · obtain ⟨w', k, -, k4⟩ := k3 c1 c2
            rw [andThen_err k]
            exact .inr k4

/-- **C55.**  A failed or cancelled `connect` has no further effect: dropping its socket does nothing. -/
theorem C55_connect (fuel : Nat) (resolved : Except ErrorKind (List Addr)) (wild : Except ErrorKind Addr) :
    connectCall E fuel resolved wild = connect E fuel resolved wild := by
  unfold connectCall
  rcases hc : connect E fuel resolved wild with e | ⟨r, w⟩
  · rfl
  · have key : r ≠ .ok () → dropSocket E fuel w = (.ok (), w) := by
      intro hr
      refine C56_silent (.inr ?_) fuel
      unfold connect at hc
      split at hc
      · simp at hc
      · split at hc
        · simp at hc
        · simp only [Except.ok.injEq] at hc
          have := connectM_failed (E := E) (fuel := fuel) (by rw [hc]; exact hr)
          rw [hc] at this
          exact this
    unfold leaveScope
    cases r with
    | ok _ => rfl
    | _ => simp only; rw [key (by simp)]

theorem accept_panic {fuel : Nat} {ev : NetEvent} {bound : Except ErrorKind Addr} {w : World} {src : Addr}
    (h : accept E fuel ev bound = .made .panic w src) : w.s.state = .new := by
  unfold accept at h
  split at h
  · simp at h
  · simp at h
  · split at h
    · simp at h
    · simp at h
    · split at h
      · simp at h
      · rename_i ty hty
        split at h
        · simp at h
        · rename_i hsyn
          simp only [ne_eq, Decidable.not_not] at hsyn
          subst hsyn
          split at h
          · simp at h
          · simp only [AcceptRes.made.injEq] at h
            obtain ⟨h1, h2, -⟩ := h
            rw [acceptM, handlePacket_syn_new fuel _ _ hty rfl] at h1 h2
            by_cases hc : E.checks = true ∧ (‹Packet› : Packet).connectionId = 65535
            · rw [if_pos hc] at h2
              rw [← h2]
              exact (bumpAck_state _ _)
            · rw [if_neg hc] at h1
              simp only [udpSend] at h1
              split at h1 <;> simp at h1

/-- **C55.**  A failed `accept` has no further effect either, unless the reply to the SYN could not be sent.

Partial: in that case the new socket is already connected (`C55_counterexample`). -/
theorem C55_accept_partial {fuel : Nat} {ev : NetEvent} {bound : Except ErrorKind Addr} (h : E.snd 0 = .ok) :
    acceptCall E fuel ev bound = accept E fuel ev bound := by
  unfold acceptCall
  split
  · rename_i r w src ha
    cases r with
    | ok _ => rw [ha]; rfl
    | err e =>
      obtain ⟨b, pkt, la, h1, h2, h3, h4, h5, h6, h7⟩ := accept_inv ha (by simp)
      rw [h] at h6
      simp at h6
    | pending =>
      obtain ⟨b, pkt, la, h1, h2, h3, h4, h5, h6, h7⟩ := accept_inv ha (by simp)
      rw [h] at h6
      simp at h6
    | panic =>
      have hs : w.s.state = .new := accept_panic ha
      unfold leaveScope
      rw [C56_silent (.inr (.inl hs)), ha]
  · rfl

/-- The operating system refuses to send the reply; then the peer is silent. -/
def replyLost : Env := env (List.replicate 20 (.fail .timedOut)) (snd := [.fail .other])

/-- `accept` returns an error, but before that its socket sends a FIN to the peer, waits 1, 2, 4, 8 and 16 seconds for an
answer, and repeats the FIN after each. -/
theorem C55_counterexample :
    ∃ w, acceptCall replyLost 10 (arr (dg .syn 5 1 0)) (.ok here) = .made (.err (.os .other)) w peer ∧
      (sent w).map (fun b => (Packet.mk b).getType) = [some .state, some .fin, some .fin, some .fin, some .fin, some .fin, some .fin] ∧
      (w.log.filterMap fun a => match a with | .wait (some t) => some t | _ => none) = [1000, 2000, 4000, 8000, 16000] :=
  ⟨acceptWorld (acceptCall replyLost 10 (arr (dg .syn 5 1 0)) (.ok here)), by decide +kernel⟩

/-- Nobody answers `connect`: five SYNs, then an error, and nothing more. -/
example :
    let E := env (List.replicate 20 (.fail .timedOut))
    connectCall E 20 (.ok [peer]) (.ok here) = .ok (.err (.parse .invalidPacketLength), client E) ∧
    (sent (client E)).map (fun b => (Packet.mk b).getType) = List.replicate 5 (some .syn) :=
  ⟨(C55_connect 20 _ _).trans (connect_client [] (by decide +kernel)), by decide +kernel⟩

/-! ### C56 -/

theorem close_fin {w w' : World} {fuel : Nat} (hi : Inv .any w) (hst : ¬ (w.s.state = .closed ∨ w.s.state = .new ∨ w.s.state = .synSent))
    (h : close E fuel w = (.ok (), w')) :
    ∃ v t rest, flush E fuel w = (.ok (), v) ∧ v.nNet ≤ w'.nNet ∧
      w'.log = v.log ++ .send v.s.connectedTo (finPacket v.s t).bytes true :: rest := by
  unfold close at h
  msimp at h
  rw [if_neg hst] at h
  obtain ⟨_, w1, g1, h⟩ := andThen_ok h
  msimp at h
  have hf := at_flush (E := E) .any fuel hi
  have hs1 := hf.1 (by rw [g1]; simp)
  have hw := hf.2.2 () (by rw [g1])
  rw [g1] at hs1 hw
  simp only at hs1 hw
  simp only [not_or] at hst
  have he1 := Established.steps hs1 ⟨hst.2.1, hst.2.2⟩
  have hi1 := hi.steps .any hs1
  obtain ⟨_, w2, g2, h⟩ := andThen_ok h
  msimp at h
  have g3 : w2 = { w1 with nNow := w1.nNow + 1, nSnd := w1.nSnd + 1
                           log := w1.log ++ [.send w1.s.connectedTo (finPacket w1.s (E.now w1.nNow)).bytes true] } := by
    unfold udpSend at g2
    split at g2 <;> simp at g2
    exact g2.symm
  have hsend : Steps E .any { w1 with nNow := w1.nNow + 1 } w2 := by
    rw [g3]
    exact .single (.send { w1 with nNow := w1.nNow + 1 } _ _ true (.fin (w := { w1 with nNow := w1.nNow + 1 }) _ (.inl trivial) hw he1.1 he1.2))
  have hi2 := hi1.steps .any (Steps.trans (.single (.tick _)) hsend)
  have hs2 : w2.s = w1.s := by rw [g3]
  have hs3 := Step.finSent (E := E) (V := .any) w2 trivial (hs2 ▸ hw) (hs2 ▸ he1.1) (hs2 ▸ he1.2)
  obtain ⟨v3, hv3⟩ : ∃ v, v = w2.setS { w2.s with state := .finSent } := ⟨_, rfl⟩
  have hwh := At.whileM (E := E) (V := .any) (J := fun w => Inv .any w ∧ (w.s.state = .finSent ∨ w.s.state = .closed)) (X := fun _ => True)
      (Y := fun w => w.s.state ≠ .closed) (c := M.andThen getS fun s => M.ret (decide (s.state ≠ .closed))) (b := scratchRecv E fuel)
      (fun w3 h3 => bind_getS (.pure ⟨h3, by simp, by simp⟩))
      (fun w3 h3 hne => (at_scratchRecv .any fuel h3.1 (.inr (.inr (h3.2.resolve_right hne)))).mono fun _ _ hs h =>
        ⟨h3.1.steps .any hs, h (h3.2.resolve_right hne)⟩) fuel v3 ⟨hv3 ▸ Inv.step .any hs3 hi2, .inl (by rw [hv3]; rfl)⟩
  rw [← hv3] at h
  have hs4 := hwh.1 (by rw [h]; simp)
  rw [h] at hs4
  obtain ⟨l, hl, -⟩ := hs4.log
  refine ⟨w1, E.now w1.nNow, l, g1, ?_, ?_⟩
  · have := hs4.nNet
    simp only [hv3, World.setS, g3] at this
    exact this
  · simp only at hl
    rw [hl, hv3, g3]
    simp [World.setS]

/-- **C56.**  If every `send_to` succeeded and `close` returns Ok on a connection that was open, then before the FIN was
sent the peer acknowledged the number of the last piece of data; the FIN has the number after it.

Partial: `close` may fail, which a dropped socket does not report (`C56_counterexample`), and pieces left over by a
`send_to` that failed or was cancelled are not sent (`C56_counterexample_unsent`). -/
theorem C56_close_partial {w0 w w' : World} {cs : List Bytes} {fuel : Nat} {o : Out} (h0 : Fresh w0) (h : Exec E SendsOk w0 cs w)
    (hst : w.s.state ≠ .closed) (hc : runOp E fuel .close w = (.ok o, w')) :
    ∃ pre dst fin rest, w'.log = pre ++ .send dst fin true :: rest ∧ w.log <+: pre ∧
      (∃ q, Packet.tryFrom fin = some (.ok q) ∧ q.getType = some .fin ∧ q.seqNr = w0.s.seqNr + BitVec.ofNat 16 cs.length) ∧
      (cs ≠ [] → ∃ v pkt src, v.log = pre ∧ v.nNet ≤ w'.nNet ∧ Received E v pkt src ∧ pkt.getType = some .state ∧
        pkt.ackNr = w0.s.seqNr + BitVec.ofNat 16 (cs.length - 1)) := by
  have hcl : close E fuel w = (.ok (), w') := by
    obtain ⟨_, w1, g1, g2⟩ := andThen_ok (show M.andThen (close E fuel) _ w = _ from hc)
    simp only [pure_def, M.ret, Prod.mk.injEq] at g2
    rw [g1, g2.2]
  have hi := exec_inv h0 h
  have he := (exec_stream h0 h).est
  obtain ⟨v, t, rest, g1, g2, g3⟩ := close_fin hi (by simp only [not_or]; exact ⟨hst, he.1, he.2⟩) hcl
  have hf : runOp E fuel .flush w = (.ok .unit, v) := by
    show M.andThen (flush E fuel) _ w = _
    rw [andThen_eq g1]; rfl
  have hx : Exec E SendsOk w0 (cs ++ []) (runOp E fuel .flush w).2 :=
    .op fuel .flush [] h (by rw [hf]; simp) (fun ⟨_, e⟩ => by simp at e) rfl
  rw [hf, List.append_nil] at hx
  have hs := ((at_flush (E := E) .any fuel hi).1 (by rw [g1]; simp)).log
  rw [g1] at hs
  obtain ⟨l, hl, -⟩ := hs
  obtain ⟨q, k1, k2, k3, -⟩ := (finPacket_control v.s t).valid
  refine ⟨v.log, v.s.connectedTo, _, rest, g3, ⟨l, hl.symm⟩, ⟨q, k1, k2, ?_⟩, fun hne => ?_⟩
  · rw [k3, (exec_stream h0 hx).seq]
  · obtain ⟨pkt, src, a⟩ := (C21_flush h0 h hf).2.2 hne
    exact ⟨v, pkt, src, rfl, g2, a⟩

/-- A case of `C56_close_partial`: one byte is sent and acknowledged, then the FIN. -/
example : Fresh (server closeOk) ∧ (∃ w, Exec closeOk SendsOk (server closeOk) [[1]] w ∧ w.s.state ≠ .closed ∧
    (runOp closeOk 9 .close w).1 = .ok .unit) := by
  refine ⟨⟨by unfold Established; decide +kernel, by decide +kernel, by decide +kernel, by decide +kernel⟩,
    runs closeOk 9 [.sendTo [1]] (server closeOk), ?_, by decide +kernel, by decide +kernel⟩
  refine Exec.op 9 (.sendTo [1]) [[1]] .refl (by decide +kernel) (fun _ => ⟨.count 1, by decide +kernel⟩) ?_
  have : (server closeOk).s.state ≠ .closed := by decide +kernel
  simp only [Adds, if_neg this]
  exact ⟨rfl, by simp, by simp, by simp⟩

/-- A dropped socket never reports an error. -/
theorem C56_never_fails (fuel : Nat) (w : World) (e : IoErr) : (dropSocket E fuel w).1 ≠ .err e := by
  unfold dropSocket M.ignoreErr
  split <;> simp

/-- The peer is silent: data was sent and never acknowledged, dropping the socket still ends normally, and no FIN was sent. -/
theorem C56_counterexample :
    let w := runs silence 10 [.sendTo [1]] (server silence)
    results silence 10 [.sendTo [1]] (server silence) = [.ok (.count 1)] ∧
    (dropSocket silence 10 w).1 = .ok () ∧
    (sent (dropSocket silence 10 w).2).map (fun b => (Packet.mk b).getType) =
      [some .state, some .data, some .data, some .data, some .data, some .data, some .data] := by
  decide +kernel

/-- The reply to the SYN is sent, the next datagram is refused; later the peer acknowledges the number of the FIN. -/
def oneLost : Env := env [arr (dg .state 6 2 102)] (snd := [.ok, .fail .other])

/-- `send_to` of two pieces fails at the first; `close` then sends its FIN and returns Ok, and neither piece was ever sent. -/
theorem C56_counterexample_unsent :
    let w := runs oneLost 10 [.sendTo (List.replicate 1381 0)] (server oneLost)
    results oneLost 10 [.sendTo (List.replicate 1381 0), .close] (server oneLost) = [.err (.os .other), .ok .unit] ∧
    w.s.unsent.length = 1 ∧
    (sent (runs oneLost 10 [.close] w)).map (fun b => ((Packet.mk b).getType, b.length)) =
      [(some .state, 20), (some .data, 1400), (some .fin, 20)] := by
  decide +kernel

end Utp
