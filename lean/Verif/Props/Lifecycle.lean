import Verif.Props.Safety
import Verif.Lemmas.Deliver
/-!
# C34–C38: closing, end of stream, reset, sending on a closed socket, the peer's address
-/

namespace Utp
open M

variable {E : Env}

/-! ### C35 -/

theorem recvFrom_closed {w : World} (hs : w.s.state = .closed) (fuel len : Nat) {out : Bytes} {w' : World}
    (hf : flushIncoming E len w = (.ok out, w')) (hb : OnlyBuffers w w') :
    recvFrom E (fuel + 1) len w = (.ok (out, w.s.connectedTo), w') := by
  obtain ⟨inc, pend, ack, ld, hw', _⟩ := hb
  have h1 : w'.s.connectedTo = w.s.connectedTo := by rw [hw']; rfl
  have h2 : w'.s.state = .closed := by rw [hw']; exact hs
  unfold recvFrom
  rw [bind_def, andThen_eq hf]
  msimp
  split
  · rw [h1]
  · rename_i ho
    simp only [ne_eq, Decidable.not_not] at ho
    rw [if_neg (by rw [h2]; simp)]
    unfold recvFromLoop
    msimp
    rw [if_pos h2, h1, ho]

/-- On a closed socket `recv_from` returns at once, touches nothing but the receive buffers (no network, no clock),
and returns the next bytes that are still deliverable. -/
theorem C35_read (hc : E.checks = false) {w : World} (hw : Reach E w) (hs : w.s.state = .closed) (fuel len : Nat) :
    ∃ out w', runOp E (fuel + 1) (.recvFrom len) w = (.ok (.bytes out w.s.connectedTo), w') ∧
      out ++ w'.s.deliverable = w.s.deliverable ∧ out.length ≤ len ∧ OnlyBuffers w w' := by
  obtain ⟨out, w', h1, h2, h3, h4, _, _⟩ :=
    flushIncoming_spec len w (flushIncoming_no_panic hc len w (reach_any hw).inc)
  refine ⟨out, w', ?_, h2, h3, h4⟩
  show M.andThen (recvFrom E (fuel + 1) len) _ w = _
  rw [andThen_eq (recvFrom_closed hs fuel len h1 h4)]
  rfl

/-- Once nothing is deliverable on a closed socket, every `recv_from` returns 0 bytes and changes nothing at
all, so this holds for ever.  (What is missing for C35: packets without payload, see the counterexample.) -/
theorem C35_sticky_partial (hc : E.checks = false) {w : World} (hw : Reach E w) (hs : w.s.state = .closed)
    (hd : w.s.deliverable = []) (hn : w.s.NoEmpty) (fuel len : Nat) :
    runOp E (fuel + 1) (.recvFrom len) w = (.ok (.bytes [] w.s.connectedTo), w) := by
  obtain ⟨out, w', h1, h2, h3, h4, _, h6⟩ :=
    flushIncoming_spec len w (flushIncoming_no_panic hc len w (reach_any hw).inc)
  have := h6 hd hn
  subst this
  have ho : out = [] := by
    rw [hd] at h2
    exact (List.append_eq_nil_iff.mp h2).1
  subst ho
  show M.andThen (recvFrom E (fuel + 1) len) _ w' = _
  rw [andThen_eq (recvFrom_closed hs fuel len h1 h4)]
  rfl

/-- The bytes returned by a `recv_from`. -/
def Res.got : Res Out → Bytes
  | .ok (.bytes b _) => b
  | _ => []

/-- `recv_from` with buffers of the given sizes, in a row: the bytes read, and the world at the end. -/
def reads (E : Env) (fuel : Nat) : List Nat → World → Bytes × World
  | [], w => ([], w)
  | len :: lens, w =>
    let r := runOp E fuel (.recvFrom len) w
    let rest := reads E fuel lens r.2
    (r.1.got ++ rest.1, rest.2)

/-- On a closed socket any sequence of reads returns a prefix of what is deliverable, and everything if there are
as many reads with non-empty buffers as deliverable bytes. -/
theorem C35_drain_partial (hc : E.checks = false) (fuel : Nat) : ∀ (lens : List Nat) {w : World}, Reach E w →
    w.s.state = .closed →
    (reads E (fuel + 1) lens w).1 ++ (reads E (fuel + 1) lens w).2.s.deliverable = w.s.deliverable ∧
    (reads E (fuel + 1) lens w).2.log = w.log ∧
    (w.s.NoEmpty → (∀ l ∈ lens, 0 < l) → w.s.deliverable.length ≤ lens.length →
      (reads E (fuel + 1) lens w).1 = w.s.deliverable)
  | [], w, _, _ => by simp [reads]
  | len :: lens, w, hw, hs => by
    obtain ⟨out, w', h1, h2, h3, h4, h5, h6⟩ :=
      flushIncoming_spec len w (flushIncoming_no_panic hc len w (reach_any hw).inc)
    have hr : runOp E (fuel + 1) (.recvFrom len) w = (.ok (.bytes out w.s.connectedTo), w') := by
      show M.andThen (recvFrom E (fuel + 1) len) _ w = _
      rw [andThen_eq (recvFrom_closed hs fuel len h1 h4)]
      rfl
    have hw' : Reach E w' := by
      have := Reach.run hw (.op (fuel + 1) (.recvFrom len) .refl (by rw [hr]; simp))
      rw [hr] at this; exact this
    have hs' : w'.s.state = .closed := by obtain ⟨_, _, _, _, rfl, _⟩ := h4; exact hs
    have hl' : w'.log = w.log := by obtain ⟨_, _, _, _, rfl, _⟩ := h4; rfl
    obtain ⟨g1, g2, g3⟩ := C35_drain_partial hc fuel lens hw' hs'
    simp only [reads, hr, Res.got]
    refine ⟨by rw [List.append_assoc, g1, h2], by rw [g2, hl'], ?_⟩
    intro hn hpos hle
    have hn' : w'.s.NoEmpty := by
      obtain ⟨_, _, _, _, rfl, hm⟩ := h4
      exact fun p hp => hn p (hm p hp)
    rw [g3 hn' (fun l hl => hpos l (List.mem_cons_of_mem _ hl)) ?_, h2]
    by_cases ho : out = []
    · have := (h5 ho (hpos len (by simp)) hn).2
      rw [this, ho] at h2
      simp at h2
      simp [h2]
    · have : 0 < out.length := List.length_pos_iff.mpr ho
      have := congrArg List.length h2
      simp only [List.length_append, List.length_cons] at this hle
      omega

section
open Sample

/-- Packets 3, 4 and 5 arrive early, then packet 2, a FIN and an I/O error, all while `flush` waits for an
acknowledgement. -/
def finAfterData : Env :=
  env [arr (dg .data 6 3 100 [3]), arr (dg .data 6 4 100 [4, 5]), arr (dg .data 6 5 100 [6]), arr (dg .data 6 2 100 [2]),
    arr (dg .fin 6 6 100), .fail .other]

/-- A closed socket with something to read, then nothing. -/
example : let w := runs finAfterData 10 [.sendTo [7], .flush] (server finAfterData)
    Reach finAfterData w ∧ w.s.state = .closed ∧ w.s.deliverable = [4, 5, 6] ∧
    results finAfterData 10 [.recvFrom 1, .recvFrom 9, .recvFrom 9, .recvFrom 9, .recvFrom 9] w
      = [.ok (.bytes [4] peer), .ok (.bytes [5] peer), .ok (.bytes [6] peer), .ok (.bytes [] peer), .ok (.bytes [] peer)] :=
  ⟨reach_server _ _ (by decide +kernel) (by decide +kernel), by decide +kernel⟩

/-- Two data packets without payload and one with payload arrive early, then the packet before them, then a FIN. -/
def emptyPackets : Env :=
  env [arr (dg .data 6 3 100), arr (dg .data 6 4 100), arr (dg .data 6 5 100 [9]), arr (dg .data 6 2 100 [2]), arr (dg .fin 6 6 100)]

/-- What is missing for C35: with packets without payload `recv_from` reports the end of the stream (0 bytes) before
the data that follows it. -/
theorem C35_counterexample :
    results emptyPackets 10 [.recvFrom 9, .recvFrom 9, .recvFrom 9] (server emptyPackets) =
      [.ok (.bytes [2] peer), .ok (.bytes [] peer), .ok (.bytes [9] peer)] ∧
    (runs emptyPackets 10 [.recvFrom 9, .recvFrom 9] (server emptyPackets)).s.state = .closed := by decide +kernel

end

/-! ### C36 -/

/-- After a reset `recv_from` returns at once, touches nothing but the receive buffers, and returns the next bytes that
are still deliverable or the error ConnectionReset. -/
theorem C36_read (hc : E.checks = false) {w : World} (hw : Reach E w) (hs : w.s.state = .resetReceived) (fuel len : Nat) :
    ∃ out w', out ++ w'.s.deliverable = w.s.deliverable ∧ out.length ≤ len ∧ OnlyBuffers w w' ∧
      runOp E fuel (.recvFrom len) w =
        (if out = [] then .err (.sock .connectionReset) else .ok (.bytes out w.s.connectedTo), w') := by
  obtain ⟨out, w', h1, h2, h3, h4, _, _⟩ :=
    flushIncoming_spec len w (flushIncoming_no_panic hc len w (reach_any hw).inc)
  refine ⟨out, w', h2, h3, h4, ?_⟩
  obtain ⟨inc, pend, ack, ld, hw', _⟩ := h4
  have e1 : w'.s.connectedTo = w.s.connectedTo := by rw [hw']; rfl
  have e2 : w'.s.state = .resetReceived := by rw [hw']; exact hs
  show M.andThen (recvFrom E fuel len) _ w = _
  unfold recvFrom
  rw [bind_def, andThen_assoc, andThen_eq h1]
  by_cases ho : out = []
  · msimp
    simp [ho, e2]
  · msimp
    simp [ho, e1]

/-- Once nothing is deliverable after a reset, every `recv_from` fails with ConnectionReset and changes nothing at all,
so this holds for ever.  (Missing: packets without payload, as for C35.) -/
theorem C36_sticky_partial (hc : E.checks = false) {w : World} (hw : Reach E w) (hs : w.s.state = .resetReceived)
    (hd : w.s.deliverable = []) (hn : w.s.NoEmpty) (fuel len : Nat) :
    runOp E fuel (.recvFrom len) w = (.err (.sock .connectionReset), w) := by
  obtain ⟨out, w', h1, h2, h3, h4, _, h6⟩ :=
    flushIncoming_spec len w (flushIncoming_no_panic hc len w (reach_any hw).inc)
  have := h6 hd hn
  subst this
  have ho : out = [] := by
    rw [hd] at h2
    exact (List.append_eq_nil_iff.mp h2).1
  subst ho
  show M.andThen (recvFrom E fuel len) _ w' = _
  unfold recvFrom
  rw [bind_def, andThen_assoc, andThen_eq h1]
  msimp
  simp [hs]

/-- `recv` on a Reset packet of this connection. -/
theorem recv_reset {w : World} {b : Bytes} {src : Addr} (hn : E.net w.nNet = .dgram b src) (hr : 0 < w.s.maxRetries.toNat)
    {pkt : Packet} (hp : Packet.tryFrom (b.take 1520) = some (.ok pkt)) (ht : pkt.getType = some .reset)
    (hid : pkt.connectionId = w.s.senderId ∨ pkt.connectionId = w.s.receiverId) (hs : w.s.state ≠ .synSent) (fuel len : Nat) :
    recv E (fuel + 2) len w = (.err (.sock .connectionReset),
      ((w.waited w.s.patience).heard E pkt).setS { ((w.waited w.s.patience).heard E pkt).s with state := .resetReceived }) := by
  rw [recv_dgram hn hr hp]
  unfold recvPacket
  rw [bind_def]
  refine andThen_err ?_
  rw [handlePacket_takes (w := w.waited w.s.patience) ht (.inr (.inr hid))]
  have e : (w.waited w.s.patience).s.state = w.s.state := rfl
  rw [e]
  rcases h : w.s.state <;> first | rfl | exact absurd h hs

/-- The receive call that gets a Reset of this connection fails with ConnectionReset, and the state is then the one
of C36_read and C36_sticky_partial.  (Missing: a Reset that arrives while a lost packet is being retransmitted inside a
receive, see the counterexample.) -/
theorem C36_reported_partial (hc : E.checks = false) {w : World} (hw : Reach E w)
    (hs : w.s.state = .connected ∨ w.s.state = .finSent) (hd : w.s.deliverable = []) (hne : w.s.NoEmpty)
    {b : Bytes} {src : Addr} (hn : E.net w.nNet = .dgram b src) (hr : 0 < w.s.maxRetries.toNat)
    {pkt : Packet} (hp : Packet.tryFrom (b.take 1520) = some (.ok pkt)) (ht : pkt.getType = some .reset)
    (hid : pkt.connectionId = w.s.senderId ∨ pkt.connectionId = w.s.receiverId) (fuel len : Nat) :
    (runOp E (fuel + 2) (.recvFrom len) w).1 = .err (.sock .connectionReset) ∧
    (runOp E (fuel + 2) (.recvFrom len) w).2.s.state = .resetReceived ∧
    (runOp E (fuel + 2) .flush w).1 = (if w.s.sendWindow = [] then .ok .unit else .err (.sock .connectionReset)) := by
  obtain ⟨out, w', h1, h2, h3, h4, _, h6⟩ :=
    flushIncoming_spec len w (flushIncoming_no_panic hc len w (reach_any hw).inc)
  have := h6 hd hne
  subst this
  have ho : out = [] := by
    rw [hd] at h2
    exact (List.append_eq_nil_iff.mp h2).1
  subst ho
  have hsyn : w'.s.state ≠ .synSent := by rcases hs with h | h <;> simp [h]
  have hrst : w'.s.state ≠ .resetReceived := by rcases hs with h | h <;> simp [h]
  have hcl : w'.s.state ≠ .closed := by rcases hs with h | h <;> simp [h]
  have hrun : runOp E (fuel + 2) (.recvFrom len) w' = (.err (.sock .connectionReset),
      ((w'.waited w'.s.patience).heard E pkt).setS { ((w'.waited w'.s.patience).heard E pkt).s with state := .resetReceived }) := by
    show M.andThen (recvFrom E (fuel + 2) len) _ w' = _
    refine andThen_err ?_
    unfold recvFrom
    rw [bind_def, andThen_eq h1]
    msimp
    rw [if_neg (by simp), if_neg hrst]
    unfold recvFromLoop
    msimp
    rw [if_neg hcl]
    exact andThen_err (recv_reset hn hr hp ht hid hsyn fuel len)
  refine ⟨by rw [hrun], by rw [hrun]; rfl, ?_⟩
  show (M.andThen (flush E (fuel + 2)) _ w').1 = _
  unfold flush whileM
  msimp
  by_cases he : w'.s.sendWindow = []
  · simp [he]
  · simp only [he, ne_eq, not_false_eq_true, decide_true, if_true, if_false]
    unfold scratchRecv
    msimp
    rw [andThen_err (recv_reset hn hr hp ht hid hsyn fuel BUF_SIZE)]

section
open Sample

/-- Two full packets are sent; three State packets report a loss, so that a `recv` inside the retransmission waits for
the window to open; it receives a Reset. -/
def resetInside : Env :=
  env [arr (dg .state 6 2 99), arr (dg .state 6 2 99), arr (dg .state 6 2 99), arr (dg .reset 6 2 99)]

/-- What is missing for C36: the error of the inner receive is ignored, and `recv_from` goes on waiting (pending)
although the Reset was received. -/
theorem C36_counterexample :
    let w := runs resetInside 20 [.sendTo (List.replicate 2760 1)] (server resetInside)
    Reach resetInside w ∧ (runOp resetInside 20 (.recvFrom 9) w).1 = .pending ∧
    (runOp resetInside 20 (.recvFrom 9) w).2.s.state = .resetReceived :=
  ⟨reach_server _ _ (by decide +kernel) (by decide +kernel), by decide +kernel⟩

/-- A Reset is received, reported, and stays. -/
example : results (env [arr (dg .reset 6 2 100)]) 9 [.recvFrom 5, .recvFrom 5, .recvFrom 5] (server (env [])) =
    [.err (.sock .connectionReset), .err (.sock .connectionReset), .err (.sock .connectionReset)] := by decide +kernel

end

/-! ### C37 -/

/-- `send_to` on a closed socket fails, with an error of kind NotConnected, and changes nothing. -/
theorem C37_send {w : World} (hs : w.s.state = .closed) (fuel : Nat) (buf : Bytes) :
    runOp E fuel (.sendTo buf) w = (.err (.sock .connectionClosed), w) ∧
    SocketError.connectionClosed.kind = .notConnected := by
  refine ⟨?_, rfl⟩
  show M.andThen (sendTo E fuel buf) _ w = _
  refine andThen_err ?_
  unfold sendTo
  msimp
  rw [if_pos hs]

theorem closed_recvFrom {w : World} (hs : w.s.state = .closed) (fuel len : Nat) :
    (runOp E fuel (.recvFrom len) w).1 ≠ .panic → OnlyBuffers w (runOp E fuel (.recvFrom len) w).2 := by
  intro hp
  have hp' : (flushIncoming E len w).1 ≠ .panic := by
    intro h
    apply hp
    rcases hf : flushIncoming E len w with ⟨r, w1⟩
    rw [hf] at h
    simp only at h
    subst h
    show (M.andThen (recvFrom E fuel len) _ w).1 = _
    unfold recvFrom
    rw [bind_def, andThen_assoc, andThen_eq_panic hf]
  obtain ⟨out, w', h1, _, _, h4, _, _⟩ := flushIncoming_spec len w hp'
  cases fuel with
  | succ f =>
    show OnlyBuffers w (M.andThen (recvFrom E (f + 1) len) _ w).2
    rw [andThen_eq (recvFrom_closed hs f len h1 h4)]
    exact h4
  | zero =>
    show OnlyBuffers w (M.andThen (recvFrom E 0 len) _ w).2
    have hs' : w'.s.state = .closed := by obtain ⟨_, _, _, _, rfl, _⟩ := h4; exact hs
    unfold recvFrom
    rw [bind_def, andThen_assoc, andThen_eq h1]
    msimp
    rw [hs']
    by_cases ho : out = []
    · simpa [ho, recvFromLoop, M.never, M.andThen] using h4
    · simpa [ho, M.ret, M.andThen] using h4

/-- A closed socket with nothing outstanding stays closed for ever, whatever is done with it and whatever arrives: it
does not touch the network any more.  (Missing for C37: a closed socket with outstanding data, see the
counterexample.) -/
theorem C37_stays_partial {w w' : World} (hs : w.s.state = .closed) (hw : w.s.sendWindow = []) (h : Run E w w') :
    w'.s.state = .closed ∧ w'.s.sendWindow = [] ∧ w'.nNet = w.nNet ∧ w'.nSnd = w.nSnd ∧ w'.log = w.log := by
  induction h with
  | refl => exact ⟨hs, hw, rfl, rfl, rfl⟩
  | @op v fuel op _ hp ih =>
    obtain ⟨h1, h2, h3, h4, h5⟩ := ih
    cases op with
    | recvFrom len =>
      obtain ⟨_, _, _, _, e, _⟩ := closed_recvFrom h1 fuel len hp
      rw [e]
      exact ⟨h1, h2, h3, h4, h5⟩
    | sendTo buf => rw [(C37_send h1 fuel buf).1]; exact ⟨h1, h2, h3, h4, h5⟩
    | flush =>
      have : (runOp E fuel .flush v).2 = v := by
        show (M.andThen (flush E fuel) _ v).2 = v
        unfold flush
        cases fuel with
        | zero => rfl
        | succ n =>
          unfold whileM
          msimp
          simp [h2]
      rw [this]; exact ⟨h1, h2, h3, h4, h5⟩
    | close =>
      have : (runOp E fuel .close v).2 = v := by
        show (M.andThen (close E fuel) _ v).2 = v
        unfold close
        msimp
        simp [h1]
      rw [this]; exact ⟨h1, h2, h3, h4, h5⟩
    | setMaxRetries n => exact ⟨h1, h2, h3, h4, h5⟩

section
open Sample

/-- A closed socket with nothing outstanding: the Reset that comes next is not even received. -/
example : let E := env [arr (dg .fin 6 2 99), arr (dg .reset 6 2 99)]
    let w := runs E 10 [.recvFrom 9] (server E)
    w.s.state = .closed ∧ w.s.sendWindow = [] ∧
    results E 10 [.sendTo [1], .recvFrom 9, .flush, .close] w = [.err (.sock .connectionClosed), .ok (.bytes [] peer), .ok .unit, .ok .unit] := by
  decide +kernel

/-- Data is outstanding when the peer's FIN arrives; then a Reset. -/
def resetAfterFin : Env := env [arr (dg .fin 6 2 99), arr (dg .reset 6 2 99)]

/-- What is missing for C37: with data outstanding a closed socket still receives in `flush`; a Reset takes it out of the
closed state, and `send_to` accepts data again. -/
theorem C37_counterexample :
    (runs resetAfterFin 10 [.sendTo [1], .recvFrom 9] (server resetAfterFin)).s.state = .closed ∧
    results resetAfterFin 10 [.sendTo [1], .recvFrom 9, .sendTo [2], .flush, .sendTo [3]] (server resetAfterFin) =
      [.ok (.count 1), .ok (.bytes [] peer), .err (.sock .connectionClosed), .err (.sock .connectionReset), .ok (.count 1)] := by
  decide +kernel

end

/-! ### C34 -/

/-- Closing a socket that is closed or was never connected returns Ok and does nothing. -/
theorem C34_idempotent {w : World} (hs : w.s.state = .closed ∨ w.s.state = .new ∨ w.s.state = .synSent) (fuel : Nat) :
    runOp E fuel .close w = (.ok .unit, w) := by
  show M.andThen (close E fuel) _ w = _
  unfold close
  msimp
  rw [if_pos hs]

/-- If one datagram is sent between the two worlds, and it is a FIN, and the socket is not yet closing, then nothing is
outstanding. -/
def FinRule (a b : World) : Prop :=
  ∀ dst bytes ok p, b.log = a.log ++ [.send dst bytes ok] → Decodes bytes p → p.getType = some .fin →
    a.s.state ≠ .finSent → a.s.sendWindow = []

theorem step_fin {a b : World} (h : Step E .any a b) : FinRule a b := by
  intro dst bytes ok p hl hd ht hs
  have hb : bytes = p.bytes := (C02_lossless hd).symm
  subst hb
  have same : b.log = a.log → False := by
    intro h
    rw [h] at hl
    have := congrArg List.length hl
    simp at this
  cases h with
  | wait => simp at hl
  | send dst' q ok' he =>
    simp only [List.append_cancel_left_eq, List.cons.injEq, Act.send.injEq, and_true] at hl
    obtain ⟨_, hq, _⟩ := hl
    have hqp : q = p := by cases q; cases p; simpa using hq
    subst hqp
    cases he with
    | data _ h => rw [h.1.ty] at ht; simp at ht
    | fin t _ h _ _ => exact h
    | request t _ h _ => exact h
    | reply _ pkt r _ h =>
      obtain ⟨⟨t, h1, h2⟩, _⟩ := h.facts
      rw [setWndSize_getType, h1] at ht
      simp only [Option.some.injEq] at ht
      rcases h2 with h2 | h2 | h2
      · simp [h2] at ht
      · simp [h2] at ht
      · exact absurd h2.2 hs
  | _ => exact (same rfl).elim

/-- No operation emits a FIN while data it sent is unacknowledged, until the socket is closing (its FIN was sent). -/
theorem C34_fin {w : World} (hw : Reach E w) (fuel : Nat) (op : Op) (hp : (runOp E fuel op w).1 ≠ .panic) :
    Traced E FinRule w (runOp E fuel op w).2 := op_path (fun _ _ => step_fin) hw fuel op hp

/-- If `close` returns Ok on an established connection then the socket is closed, and during the call a FIN of this
connection or a State packet acknowledging the number of our FIN was received. -/
theorem C34_ok {w w' : World} {fuel : Nat} (hw : Reach E w) (h1 : w.s.state ≠ .closed) (h2 : w.s.state ≠ .new) (h3 : w.s.state ≠ .synSent)
    (h : runOp E fuel .close w = (.ok .unit, w')) :
    w'.s.state = .closed ∧ ∃ k b src pkt, w.nNet ≤ k ∧ k < w'.nNet ∧ E.net k = .dgram b src ∧
      Packet.tryFrom (b.take 1520) = some (.ok pkt) ∧
      (pkt.connectionId = w'.s.senderId ∨ pkt.connectionId = w'.s.receiverId) ∧
      (pkt.getType = some .fin ∨ pkt.getType = some .state ∧ pkt.ackNr = w'.s.seqNr) := by
  have hcl : close E fuel w = (.ok (), w') := by
    obtain ⟨_, w1, g1, g2⟩ := andThen_ok (show M.andThen (close E fuel) _ w = _ from h)
    simp only [pure_def, M.ret, Prod.mk.injEq, true_and] at g2
    rw [g1, g2]
  unfold close at hcl
  msimp at hcl
  rw [if_neg (by simp [h1, h2, h3])] at hcl
  obtain ⟨_, w1, g1, hcl⟩ := andThen_ok hcl
  msimp at hcl
  obtain ⟨_, w2, g2, hcl⟩ := andThen_ok hcl
  msimp at hcl
  have n1 : w.nNet ≤ w1.nNet := by
    have hs := (at_flush (E := E) .any fuel (reach_any hw)).1 (by rw [g1]; simp)
    rw [g1] at hs
    exact hs.nNet
  have n2 : w2.nNet = w1.nNet := by
    have := udpSend_snd (E := E) w1.s.connectedTo (finPacket w1.s (E.now w1.nNow)).bytes { w1 with nNow := w1.nNow + 1 }
    rw [g2] at this
    simp only at this
    rw [this]
  obtain ⟨v, hv⟩ : ∃ v, v = w2.setS { w2.s with state := .finSent } := ⟨_, rfl⟩
  rw [← hv] at hcl
  have v1 : v.s.state = .finSent := by rw [hv]; rfl
  have v2 : v.nNet = w2.nNet := by rw [hv]; rfl
  have key := whileS_ok (P := fun s => decide (s.state ≠ .closed)) (b := scratchRecv E fuel)
    (J := fun u => v.nNet ≤ u.nNet ∧ (u.s.state = .finSent ∨ u.s.state = .closed ∧
      ∃ k b src pkt, v.nNet ≤ k ∧ k < u.nNet ∧ E.net k = .dgram b src ∧ Packet.tryFrom (b.take 1520) = some (.ok pkt) ∧
      (pkt.connectionId = u.s.senderId ∨ pkt.connectionId = u.s.receiverId) ∧
      (pkt.getType = some .fin ∨ pkt.getType = some .state ∧ pkt.ackNr = u.s.seqNr))) ?_ fuel ⟨Nat.le_refl _, .inl v1⟩ hcl
  · obtain ⟨⟨_, hj⟩, hp⟩ := key
    have hst : w'.s.state = .closed := by simpa using hp
    rcases hj with hj | ⟨_, k, b, src, pkt, k1, k2⟩
    · rw [hst] at hj; simp at hj
    · exact ⟨hst, k, b, src, pkt, by omega, k2⟩
  · intro u u' ⟨j1, j2⟩ hp hb
    have hfs : u.s.state = .finSent := by
      rcases j2 with j2 | j2
      · exact j2
      · simp [j2.1] at hp
    unfold scratchRecv at hb
    rw [bind_def] at hb
    obtain ⟨x, u1, b1, b2⟩ := andThen_ok hb
    simp only [pure_def, M.ret, Prod.mk.injEq, true_and] at b2
    subst b2
    obtain ⟨r1, r2, r3, r4, r5⟩ := recv_finSent hfs b1
    refine ⟨by omega, ?_⟩
    rcases r5 with r5 | ⟨r5, k, b, src, pkt, k1, k2, k3, k4, k5, k6⟩
    · exact .inl r5
    · exact .inr ⟨r5, k, b, src, pkt, by omega, k2, k3, k4, by rw [r3, r4]; exact k5, by rw [r1]; exact k6⟩

section
open Sample

/-- Data is sent; it is acknowledged; then our FIN (number 101) is acknowledged. -/
def closeOk : Env := env [arr (dg .state 6 2 100), arr (dg .state 6 2 101)]

/-- `close` flushes, sends its FIN and returns Ok; closing again does nothing. -/
example : results closeOk 9 [.sendTo [1], .close, .close] (server closeOk) = [.ok (.count 1), .ok .unit, .ok .unit] ∧
    (sent (runs closeOk 9 [.sendTo [1], .close, .close] (server closeOk))).map (fun b => (Packet.mk b).getType) =
      [some .state, some .data, some .fin] ∧
    (runs closeOk 9 [.sendTo [1], .close, .close] (server closeOk)).s.state = .closed := by decide +kernel

end

/-! ### C38 -/

/-- A handshake packet from the address the socket is connected to was received: a SYN if it was bound and waited
for a connection, a State packet if it was connecting. -/
def Shaken (E : Env) (w : World) : Prop :=
  ∃ pkt, Received E w pkt w.s.connectedTo ∧ (pkt.getType = some .syn ∨ pkt.getType = some .state)

theorem step_shaken {V : Ctx} {a b : World} (h : Step E V a b) (hi : a.s.state = .connected → Shaken E a)
    (hb : b.s.state = .connected) : Shaken E b := by
  have hn := step_nNet h
  have same : a.s.state = b.s.state → b.s.connectedTo = a.s.connectedTo → Shaken E b := by
    intro h1 h2
    obtain ⟨pkt, h3, h4⟩ := hi (h1.trans hb)
    exact ⟨pkt, h2 ▸ h3.mono hn, h4⟩
  cases h with
  | syn pkt src r h1 h2 h3 => exact ⟨pkt, h1, .inl h2⟩
  | synAck pkt src t h1 h2 h3 => exact ⟨pkt, h1, .inr h2⟩
  | measure pkt src i p t s' hg ht _ _ hf hp hm => exact same (onNewAck_state hm).symm (onNewAck_connectedTo hm)
  | advance s' _ hm => exact same (advanceSendWindow_state hm).symm (advanceSendWindow_connectedTo hm)
  | giveUp _ => simp at hb
  | finClose _ _ _ _ _ => simp at hb
  | finAck _ _ _ _ _ _ => simp at hb
  | reset _ _ _ _ _ => simp at hb
  | finSent _ _ _ _ => simp at hb
  | _ => exact same (by simp [enqueue, Socket.insertIntoBuffer, Socket.halveWindow]) (by simp [enqueue, Socket.insertIntoBuffer, Socket.halveWindow])

/-- `peer_addr` succeeds exactly while the socket is connected or closing. -/
theorem C38_when (s : Socket) :
    ((∃ a, s.peerAddr = .ok a) ↔ s.state = .connected ∨ s.state = .finSent) ∧
    (∀ e, s.peerAddr = .error e → e = .sock .notConnected) ∧ SocketError.notConnected.kind = .notConnected := by
  unfold Socket.peerAddr
  refine ⟨?_, ?_, rfl⟩
  · split <;> simp_all
  · intro e h
    split at h <;> simp_all

/-- In every reachable connected socket `peer_addr` is the source of a handshake packet: of the SYN given to
`accept`, or of one received by this socket. -/
theorem C38_source {w : World} (hw : Reach E w) (hs : w.s.state = .connected) :
    w.s.peerAddr = .ok w.s.connectedTo ∧
    (Shaken E w ∨ ∃ fuel bound b w0 r, accept E fuel (.dgram b w.s.connectedTo) bound = .made r w0 w.s.connectedTo ∧ Run E w0 w) := by
  refine ⟨by simp [Socket.peerAddr, hs], ?_⟩
  have along : ∀ {w0 w1 : World}, Steps E .any w0 w1 → w0.s.state ≠ .connected → w1.s.state = .connected → Shaken E w1 := by
    intro w0 w1 h h0
    induction h with
    | refl => intro h; exact absurd h h0
    | tail _ hst ih => exact step_shaken hst ih
  obtain ⟨w0, hm, hr⟩ := hw
  have hra := run_steps .any ⟨trivial, trivial⟩ trivial trivial dataPacket_any hr (reach_any ⟨w0, hm, .refl⟩)
  have hm' := hm
  cases hm with
  | bind resolved bound h =>
    refine .inl (along hra ?_ hs)
    unfold Utp.bind at h
    split at h
    · simp at h
    · split at h
      · simp at h
      · simp only [Except.ok.injEq] at h
        rw [← h]
        simp [freshWorld, Socket.fromRawParts]
  | connect fuel resolved wild h hp =>
    unfold Utp.connect at h
    split at h
    · simp at h
    · split at h
      · simp at h
      · rename_i addr _ _ la
        obtain ⟨w1, h0, h1, _⟩ := connectM_start (E := E) VOk.any fuel la { v6 := addr.v6, id := 0 } addr
        simp only [Except.ok.injEq] at h
        rw [h] at h1
        refine .inl (along ((h1 hp).trans hra) ?_ hs)
        rcases h0.2 with h | h <;> simp [h]
  | accept fuel ev bound h hp =>
    rename_i r src
    obtain ⟨b, pkt, la, rfl, _, _, _, _, _, he⟩ := accept_inv h hp
    have hst : w0.s.state = .connected := by rw [he]; rfl
    have hto : w0.s.connectedTo = src := by rw [he]; rfl
    have := (C33_fixed ⟨w0, hm', .refl⟩ hr (by simp [hst]) (by simp [hst])).2.2.2.2
    rw [hto] at this
    exact .inr ⟨fuel, bound, b, w0, r, by rw [this]; exact h, hr⟩

/-- From the moment a socket is connected, whatever happens, `peer_addr` returns this address while it is connected or
closing and NotConnected otherwise.  (Missing for C38: sockets that were never connected, see the
counterexample.) -/
theorem C38_partial {w w' : World} (hw : Reach E w) (hs : w.s.state = .connected) (h : Run E w w') :
    w'.s.peerAddr = if w'.s.state = .connected ∨ w'.s.state = .finSent then .ok w.s.connectedTo else .error (.sock .notConnected) := by
  have := (C33_fixed hw h (by simp [hs]) (by simp [hs])).2.2.2.2
  unfold Socket.peerAddr
  rw [this]

section
open Sample

/-- `peer_addr` of an accepted connection before and after the peer closes it. -/
example : let E := env [arr (dg .fin 6 2 99)]
    Reach E (server E) ∧ (server E).s.state = .connected ∧ (server E).s.peerAddr.toOption = some peer ∧
    Run E (server E) (runs E 10 [.recvFrom 9] (server E)) ∧ (runs E 10 [.recvFrom 9] (server E)).s.peerAddr.toOption = none :=
  ⟨reach_server 10 [] (by decide +kernel) (by simp [results]), by decide +kernel, by decide +kernel, run_runs 10 _ .refl (by decide +kernel), by decide +kernel⟩

/-- A Reset arrives at a bound socket that is not connected; then `close` is called. -/
def resetUnconnected : Env := env [arr (dg .reset 8 2 100)]

/-- What is missing for C38: `close` of a socket that received a Reset before it was connected sends a FIN to the address
it was bound to and goes to FinSent, and then `peer_addr` claims to be connected to this address. -/
theorem C38_counterexample :
    let w := runs resetUnconnected 9 [.recvFrom 5, .close] (bound resetUnconnected)
    Reach resetUnconnected w ∧
    results resetUnconnected 9 [.recvFrom 5, .close] (bound resetUnconnected) = [.err (.sock .connectionReset), .pending] ∧
    (match w.s.peerAddr with | .ok a => decide (a = peer) | .error _ => false) = true ∧
    (sent w).map (fun b => (Packet.mk b).getType) = [some .fin] :=
  ⟨reach_bound _ _ (by decide +kernel), by decide +kernel⟩

end

end Utp
