import Verif.Lemmas.Release
import Verif.Props.Crash
import Verif.Props.Control
import Verif.Props.Lifecycle
import Verif.Props.Receive
import Verif.Props.Retransmit
import Verif.Samples
/-!
# C58: builds with and without overflow checks; and what this adds to C19, C26, C27, C30, C31, C35, C36, C43, C44

Some theorems in other files are about builds without overflow checks, where no call panics.  With C58 they carry over to any
build, for the calls that do not panic (C45 tells which ones do).
-/

namespace Utp
open M

variable {E : Env}

/-! ### C58 -/

/-- A call that does not panic returns the same and leaves the same world (socket, clock, random numbers, datagrams sent and
received) in a build without overflow checks. -/
theorem C58_op {w : World} {fuel : Nat} {op : Op} (h : (runOp E fuel op w).1 ≠ .panic) :
    runOp { E with checks := false } fuel op w = runOp E fuel op w :=
  agrees_runOp fuel op w h

/-- A sequence of calls none of which panics returns the same and ends in the same world in a build without overflow checks. -/
theorem C58_calls (fuel : Nat) : ∀ (ops : List Op) (w : World), (∀ r ∈ results E fuel ops w, r ≠ .panic) →
    results { E with checks := false } fuel ops w = results E fuel ops w ∧
    runs { E with checks := false } fuel ops w = runs E fuel ops w
  | [], _, _ => ⟨rfl, rfl⟩
  | op :: ops, w, h => by
    simp only [results, runs, List.mem_cons, forall_eq_or_imp] at h ⊢
    rw [C58_op h.1]
    obtain ⟨h1, h2⟩ := C58_calls fuel ops _ h.2
    exact ⟨by rw [h1], h2⟩

/-- `connect` does not depend on overflow checks at all. -/
theorem C58_connect (fuel : Nat) (resolved : Except ErrorKind (List Addr)) (wild : Except ErrorKind Addr) :
    connect { E with checks := false } fuel resolved wild = connect E fuel resolved wild := by
  have hnp := fun r w => C45_connect (E := E) (fuel := fuel) (resolved := resolved) (wild := wild) (r := r) (w := w)
  unfold connect at hnp ⊢
  cases ha : takeAddress resolved with
  | error e => rfl
  | ok addr =>
    cases wild with
    | error k => rfl
    | ok l =>
      simp only [ha, Except.ok.injEq] at hnp ⊢
      exact agrees_connectM fuel addr _ (hnp _ _ rfl)

/-- `accept` does not depend on them, unless it panics. -/
theorem C58_accept {fuel : Nat} {ev : NetEvent} {bound : Except ErrorKind Addr}
    (h : ∀ w src, accept E fuel ev bound ≠ .made .panic w src) :
    accept { E with checks := false } fuel ev bound = accept E fuel ev bound := by
  unfold accept at h ⊢
  cases ev with
  | never => rfl
  | fail k => rfl
  | dgram b src =>
    simp only at h ⊢
    split
    · rfl
    · rfl
    · rename_i pkt hp
      rw [hp] at h
      simp only at h
      split
      · rfl
      · rename_i ty hty
        rw [hty] at h
        simp only at h
        split
        · rfl
        · rename_i hs
          rw [if_neg hs] at h
          cases bound with
          | error k => rfl
          | ok l =>
            simp only at h ⊢
            have := agrees_acceptM (E := E) fuel pkt src (freshWorld E l src) (fun hp => h _ _ (by rw [hp]))
            change AcceptRes.made (acceptM E.release fuel pkt src (freshWorld E l src)).1
              (acceptM E.release fuel pkt src (freshWorld E l src)).2 src = _
            rw [this]

/-- The executions without a panic of a build with overflow checks are executions of the build without them. -/
theorem C58_reach {w : World} (hw : Reach E w) : Reach { E with checks := false } w := by
  obtain ⟨w0, hm, hr⟩ := hw
  refine ⟨w0, ?_, ?_⟩
  · cases hm with
    | bind res bound h => exact .bind res bound h
    | connect fuel res wild h hr => exact .connect fuel res wild (by rw [C58_connect, h]) hr
    | accept fuel ev bound h hr =>
      refine .accept fuel ev bound (by rw [C58_accept, h]; rw [h]; intro w' src' he; cases he; exact hr rfl) hr
  · induction hr with
    | refl => exact .refl
    | op fuel op _ hp ih =>
      have := C58_op hp
      exact this ▸ Run.op fuel op ih (by rw [this]; exact hp)

section
open Sample

/-- Three State packets that acknowledge number 65535, then data. -/
def strangeAcks (checks : Bool) : Env :=
  env [arr (dg .state 6 2 65535), arr (dg .state 6 2 65535), arr (dg .state 6 2 65535), arr (dg .data 6 2 100 [7])] checks

/-- An execution that does not panic, of a build with overflow checks, and the same one of the build without them. -/
example : let ops := [Op.setMaxRetries 3, .sendTo [1, 2], .recvFrom 1]
    let E := env [arr (dg .data 6 2 100 [7, 8])] true
    results E 10 ops (server E) = [.ok .unit, .ok (.count 2), .ok (.bytes [7] peer)] ∧
    results { E with checks := false } 10 ops (server E) = [.ok .unit, .ok (.count 2), .ok (.bytes [7] peer)] := by decide +kernel

/-- Where the build with overflow checks panics the other one goes on. -/
example : server (strangeAcks true) = server (strangeAcks false) ∧
    results (strangeAcks true) 10 [.sendTo [1], .recvFrom 9] (server (strangeAcks true)) = [.ok (.count 1), .panic] ∧
    results (strangeAcks false) 10 [.sendTo [1], .recvFrom 9] (server (strangeAcks true)) = [.ok (.count 1), .ok (.bytes [7] peer)] := by
  decide +kernel

end

/-! ### Receiving, in any build -/

theorem recv_release {fuel len : Nat} {w : World} (h : (recv E fuel len w).1 ≠ .panic) : recv E.release fuel len w = recv E fuel len w :=
  agrees_recv fuel len w h

/-- `C35_read` in any build. -/
theorem C35_read_any {w : World} (hw : Reach E w) (hs : w.s.state = .closed) (fuel len : Nat)
    (hnp : (runOp E (fuel + 1) (.recvFrom len) w).1 ≠ .panic) :
    ∃ out w', runOp E (fuel + 1) (.recvFrom len) w = (.ok (.bytes out w.s.connectedTo), w') ∧
      out ++ w'.s.deliverable = w.s.deliverable ∧ out.length ≤ len ∧ OnlyBuffers w w' := by
  have h := C35_read (E := E.release) rfl (C58_reach hw) hs fuel len
  rw [show runOp E.release _ _ _ = _ from C58_op hnp] at h
  exact h

/-- `C35_sticky_partial` in any build. -/
theorem C35_sticky_any_partial {w : World} (hw : Reach E w) (hs : w.s.state = .closed)
    (hd : w.s.deliverable = []) (hn : w.s.NoEmpty) (fuel len : Nat)
    (hnp : (runOp E (fuel + 1) (.recvFrom len) w).1 ≠ .panic) :
    runOp E (fuel + 1) (.recvFrom len) w = (.ok (.bytes [] w.s.connectedTo), w) := by
  have h := C35_sticky_partial (E := E.release) rfl (C58_reach hw) hs hd hn fuel len
  rw [show runOp E.release _ _ _ = _ from C58_op hnp] at h
  exact h

/-- `C36_read` in any build. -/
theorem C36_read_any {w : World} (hw : Reach E w) (hs : w.s.state = .resetReceived) (fuel len : Nat)
    (hnp : (runOp E fuel (.recvFrom len) w).1 ≠ .panic) :
    ∃ out w', out ++ w'.s.deliverable = w.s.deliverable ∧ out.length ≤ len ∧ OnlyBuffers w w' ∧
      runOp E fuel (.recvFrom len) w =
        (if out = [] then .err (.sock .connectionReset) else .ok (.bytes out w.s.connectedTo), w') := by
  have h := C36_read (E := E.release) rfl (C58_reach hw) hs fuel len
  rw [show runOp E.release _ _ _ = _ from C58_op hnp] at h
  exact h

/-- `C36_sticky_partial` in any build. -/
theorem C36_sticky_any_partial {w : World} (hw : Reach E w) (hs : w.s.state = .resetReceived)
    (hd : w.s.deliverable = []) (hn : w.s.NoEmpty) (fuel len : Nat)
    (hnp : (runOp E fuel (.recvFrom len) w).1 ≠ .panic) :
    runOp E fuel (.recvFrom len) w = (.err (.sock .connectionReset), w) := by
  have h := C36_sticky_partial (E := E.release) rfl (C58_reach hw) hs hd hn fuel len
  rw [show runOp E.release _ _ _ = _ from C58_op hnp] at h
  exact h

/-- `C43_fin` in any build. -/
theorem C43_fin_any {w : World} (hw : Reach E w) (hs : w.s.state = .connected ∨ w.s.state = .finSent)
    {b : Bytes} {src : Addr} {pkt : Packet} (hn : E.net w.nNet = .dgram b src)
    (hp : Packet.tryFrom (b.take 1520) = some (.ok pkt)) (ht : pkt.getType = some .fin)
    (hid : pkt.connectionId = w.s.senderId ∨ pkt.connectionId = w.s.receiverId) (hr : 0 < w.s.maxRetries.toNat)
    (hok : E.snd w.nSnd = .ok) (fuel len : Nat)
    (hnp : (recv E (fuel + 2) len w).1 ≠ .panic) :
    ∃ out w' reply, recv E (fuel + 2) len w = (.ok (out, src), w') ∧ w'.s.state = .closed ∧
      w'.log = w.log ++ [.wait w.s.patience, .send src (Packet.bytes reply) true] ∧
      20 ≤ reply.bytes.length ∧ reply.getType = some .state ∧ reply.connectionId = w.s.senderId ∧
      reply.ackNr = if pkt.seqNr = w.s.ackNr + 1 then pkt.seqNr else w.s.ackNr := by
  have h := C43_fin (E := E.release) rfl (C58_reach hw) hs hn hp ht hid hr hok fuel len
  rw [recv_release hnp] at h
  exact h

/-- `C43_repeat_partial` in any build. -/
theorem C43_repeat_any_partial {w : World} (hw : Reach E w) (hs : w.s.state = .closed)
    {b : Bytes} {src : Addr} {pkt : Packet} (hn : E.net w.nNet = .dgram b src)
    (hp : Packet.tryFrom (b.take 1520) = some (.ok pkt)) (ht : pkt.getType = some .fin)
    (hid : pkt.connectionId = w.s.senderId ∨ pkt.connectionId = w.s.receiverId) (hr : 0 < w.s.maxRetries.toNat)
    (hok : E.snd w.nSnd = .ok) (fuel len : Nat)
    (hnp : (recv E (fuel + 2) len w).1 ≠ .panic) :
    ∃ out w' reply, recv E (fuel + 2) len w = (.ok (out, src), w') ∧ w'.s.state = .closed ∧
      w'.log = w.log ++ [.wait w.s.patience, .send src (Packet.bytes reply) true] ∧
      20 ≤ reply.bytes.length ∧ reply.getType = some .state ∧ reply.connectionId = w.s.senderId ∧
      reply.ackNr = if pkt.seqNr = w.s.ackNr + 1 then pkt.seqNr else w.s.ackNr := by
  have h := C43_repeat_partial (E := E.release) rfl (C58_reach hw) hs hn hp ht hid hr hok fuel len
  rw [recv_release hnp] at h
  exact h

/-- `C44_partial` in any build. -/
theorem C44_any_partial {w : World} (hw : Reach E w) (hs : w.s.state = .connected)
    {b : Bytes} {src : Addr} {pkt : Packet} (hn : E.net w.nNet = .dgram b src)
    (hp : Packet.tryFrom (b.take 1520) = some (.ok pkt)) (ht : pkt.getType = some .syn)
    (hseq : pkt.seqNr ≠ w.s.ackNr + 1) (hr : 0 < w.s.maxRetries.toNat)
    (hok : E.snd w.nSnd = .ok) (fuel len : Nat)
    (hnp : (recv E (fuel + 2) len w).1 ≠ .panic) :
    ∃ out w1 w' reply, recv E (fuel + 2) len w = (.ok (out, src), w') ∧
      (∃ d, w1.s = { w.s with remoteWnd := pkt.wndSize, theirDelay := d }) ∧ OnlyBuffers w1 w' ∧
      out ++ w'.s.deliverable = w.s.deliverable ∧
      w'.log = w.log ++ [.wait w.s.patience, .send src (Packet.bytes reply) true] ∧ reply.getType = some .reset := by
  have h := C44_partial (E := E.release) rfl (C58_reach hw) hs hn hp ht hseq hr hok fuel len
  rw [recv_release hnp] at h
  exact h

/-- `C30_reply_partial` in any build. -/
theorem C30_reply_any_partial {w : World} (hs : w.s.state = .connected ∨ w.s.state = .finSent)
    {b : Bytes} {src : Addr} {pkt : Packet} (hn : E.net w.nNet = .dgram b src)
    (hp : Packet.tryFrom (b.take 1520) = some (.ok pkt)) (ht : pkt.getType = some .data)
    (hid : pkt.connectionId = w.s.senderId ∨ pkt.connectionId = w.s.receiverId)
    (hseq : pkt.seqNr ≠ w.s.ackNr ∧ pkt.seqNr ≠ w.s.ackNr + 1) (ha : w.s.ackNr ≠ 65535)
    (hnw : ∀ p ∈ w.s.incoming, p.seqNr = w.s.ackNr ∨ p.seqNr = w.s.ackNr + 1 ∨ w.s.ackNr + 1 < p.seqNr)
    (hfar : ∀ p ∈ w.s.incoming, (p.seqNr - w.s.ackNr).toNat ≤ 2000)
    (hr : 0 < w.s.maxRetries.toNat) (hok : E.snd w.nSnd = .ok) (fuel len : Nat)
    (hnp : (recv E (fuel + 2) len w).1 ≠ .panic) :
    ∃ t, ∃ reply : Spec.Datagram, (recv E (fuel + 2) len w).2.log = w.log ++ [.wait t, .send src reply.bytes true] ∧ reply.Ok ∧
      (Packet.mk reply.bytes).ackNr = w.s.ackNr ∧ reply.payload = [] ∧
      (if ∀ p ∈ w.s.incoming, p.seqNr = w.s.ackNr ∨ p.seqNr = w.s.ackNr + 1 then reply.exts = []
       else ∃ bm, reply.exts = [⟨1, bm⟩] ∧
        ∀ i, Spec.bitAt bm i = true ↔ i < 65534 ∧ ∃ p ∈ w.s.incoming, p.seqNr = w.s.ackNr + 2 + BitVec.ofNat 16 i) := by
  have h := C30_reply_partial (E := E.release) rfl hs hn hp ht hid hseq ha hnw hfar hr hok fuel len
  rw [recv_release hnp] at h
  exact h

/-- `C19_sack_partial` in any build. -/
theorem C19_sack_any_partial {w : World} {b : Bytes} {src : Addr} {pkt last : Packet} {e : Extension} {fuel len : Nat}
    (hn : E.net w.nNet = .dgram b src) (hr : 0 < w.s.maxRetries.toNat) (hp : Packet.tryFrom (b.take 1520) = some (.ok pkt))
    (ht : pkt.getType = some .state) (hst : w.s.state = .connected)
    (hid : pkt.connectionId = w.s.senderId ∨ pkt.connectionId = w.s.receiverId)
    (hroom : w.s.currWindow.toNat < 2800 ∨ (∀ q ∈ w.s.sendWindow, q.seqNr ≠ pkt.ackNr) ∧
      w.s.currWindow.toNat < max 2800 (min w.s.cwnd.toNat pkt.wndSize.toNat))
    (hlast : w.s.sendWindow.getLast? = some last)
    (hext : pkt.extensions = some [e]) (hsel : e.ty = .selectiveAck) (hnw : pkt.ackNr.toNat + 2 + 8 * e.data.length ≤ 65536)
    (hs : ∀ k, E.snd k ≠ .never)
    (hnp : (recv E (fuel + 2) len w).1 ≠ .panic) :
    ∃ t acts, (recv E (fuel + 2) len w).2.log = w.log ++ .wait t :: acts ∧
      Retransmits w.s.connectedTo (sackLost w.s.sendWindow pkt.ackNr last.seqNr e.data) acts := by
  have h := C19_sack_partial (E := E.release) (fuel := fuel) (len := len) rfl hn hr hp ht hst hid hroom hlast hext hsel hnw hs
  rw [recv_release hnp] at h
  exact h

/-- `C36_reported_partial` in any build. -/
theorem C36_reported_any_partial {w : World} (hw : Reach E w)
    (hs : w.s.state = .connected ∨ w.s.state = .finSent) (hd : w.s.deliverable = []) (hne : w.s.NoEmpty)
    {b : Bytes} {src : Addr} (hn : E.net w.nNet = .dgram b src) (hr : 0 < w.s.maxRetries.toNat)
    {pkt : Packet} (hp : Packet.tryFrom (b.take 1520) = some (.ok pkt)) (ht : pkt.getType = some .reset)
    (hid : pkt.connectionId = w.s.senderId ∨ pkt.connectionId = w.s.receiverId) (fuel len : Nat) :
    ((runOp E (fuel + 2) (.recvFrom len) w).1 ≠ .panic → (runOp E (fuel + 2) (.recvFrom len) w).1 = .err (.sock .connectionReset) ∧
      (runOp E (fuel + 2) (.recvFrom len) w).2.s.state = .resetReceived) ∧
    ((runOp E (fuel + 2) .flush w).1 ≠ .panic →
      (runOp E (fuel + 2) .flush w).1 = (if w.s.sendWindow = [] then .ok .unit else .err (.sock .connectionReset))) := by
  obtain ⟨h1, h2, h3⟩ := C36_reported_partial (E := E.release) rfl (C58_reach hw) hs hd hne hn hr hp ht hid fuel len
  refine ⟨fun hnp => ?_, fun hnp => ?_⟩
  · rw [show runOp E.release _ _ _ = _ from C58_op hnp] at h1 h2
    exact ⟨h1, h2⟩
  · rw [show runOp E.release _ _ _ = _ from C58_op hnp] at h3
    exact h3

/-- `C27_partial` in any build. -/
theorem C27_any_partial {w : World} (hw : Reach E w) (hs : w.s.state = .connected ∨ w.s.state = .finSent)
    {b : Bytes} {src : Addr} {pkt : Packet} (hn : E.net w.nNet = .dgram b src)
    (hp : Packet.tryFrom (b.take 1520) = some (.ok pkt)) (ht : pkt.getType = some .data)
    (hid : pkt.connectionId = w.s.senderId ∨ pkt.connectionId = w.s.receiverId)
    (hdup : pkt.seqNr = w.s.lastDropped ∨ ∃ q ∈ w.s.incoming, q.seqNr = pkt.seqNr) (hseq : pkt.seqNr ≠ w.s.ackNr + 1)
    (hr : 0 < w.s.maxRetries.toNat) (hok : E.snd w.nSnd = .ok) :
    ∃ w1 d t, ∃ reply : Packet, w1.s = { w.s with remoteWnd := pkt.wndSize, theirDelay := d } ∧
      w1.log = w.log ++ [.wait t, .send src reply.bytes true] ∧ reply.ackNr = w.s.ackNr ∧
      ∀ fuel len, (recv E (fuel + 2) len w).1 ≠ .panic →
        ∃ out w2, recv E (fuel + 2) len w = (.ok (out, src), w2) ∧ out ++ w2.s.deliverable = w.s.deliverable ∧ OnlyBuffers w1 w2 := by
  obtain ⟨w1, d, t, reply, h1, h2, h3, h4⟩ := C27_partial (E := E.release) rfl (C58_reach hw) hs hn hp ht hid hdup hseq hr hok
  refine ⟨w1, d, t, reply, h1, h2, h3, fun fuel len hnp => ?_⟩
  obtain ⟨g1, out, w2, g2, g3⟩ := h4 fuel len
  rw [recv_release hnp] at g1 g2
  refine ⟨out, w2, g2, g3, ?_⟩
  rw [g1] at g2
  have hnp' : (flushIncoming E.release len w1).1 ≠ .panic := flushIncoming_no_panic rfl len w1 (by rw [h1]; exact (reach_any hw).inc)
  obtain ⟨out', w', k1, _, _, k2, _⟩ := flushIncoming_spec (E := E.release) len w1 hnp'
  rw [andThen_eq k1] at g2
  cases g2
  exact k2

/-- `C31_partial` in any build. -/
theorem C31_any_partial {w : World} (hw : Reach E w) (hs : w.s.state = .connected ∨ w.s.state = .finSent)
    (hd : w.s.deliverable = []) (hne : w.s.NoEmpty)
    {b : Bytes} {src : Addr} {pkt : Packet} (hn : E.net w.nNet = .dgram b src)
    (hp : Packet.tryFrom (b.take 1520) = some (.ok pkt)) (ht : pkt.getType = some .data)
    (hid : pkt.connectionId = w.s.senderId ∨ pkt.connectionId = w.s.receiverId)
    (hseq : pkt.seqNr ≠ w.s.ackNr ∧ pkt.seqNr ≠ w.s.ackNr + 1) (hlast : pkt.seqNr ≠ w.s.lastDropped)
    (hr : 0 < w.s.maxRetries.toNat) (hok : E.snd w.nSnd = .ok) (fuel : Nat) (hnp : (scratchRecv E (fuel + 2) w).1 ≠ .panic) :
    ∃ w1, scratchRecv E (fuel + 2) w = (.ok (), w1) ∧ w1.s.pending = [] ∧ w1.s.ackNr = w.s.ackNr ∧
      (∀ p ∈ w.s.incoming, p ∈ w1.s.incoming) ∧ ∃ p ∈ w1.s.incoming, p.seqNr = pkt.seqNr ∧ (p = pkt ∨ p ∈ w.s.incoming) := by
  have h := C31_partial (E := E.release) rfl (C58_reach hw) hs hd hne hn hp ht hid hseq hlast hr hok fuel
  rw [show scratchRecv E.release (fuel + 2) w = _ from Agrees.seq (agrees_recv _ _) (fun _ => .refl _) w hnp] at h
  exact h

theorem results_append (fuel : Nat) (a b : List Op) (w : World) :
    results E fuel (a ++ b) w = results E fuel a w ++ results E fuel b (runs E fuel a w) := by
  induction a generalizing w with
  | nil => rfl
  | cons op a ih => simp only [List.cons_append, results, runs, ih]

/-- `C26_all` in any build. -/
theorem C26_all_any {w0 : World} (hw : Reach E w0) (hn : w0.s.NoEmpty) (fuel : Nat) (lens : List Nat)
    (hl : ∀ l ∈ lens, 0 < l)
    (hd : ∀ i < lens.length, (runs E fuel ((lens.take i).map .recvFrom) w0).s.deliverable ≠ [])
    (hnp : ∀ r ∈ results E fuel (lens.map .recvFrom) w0, r ≠ .panic) :
    ∃ outs : List Bytes, results E fuel (lens.map .recvFrom) w0 = outs.map (fun b => .ok (.bytes b w0.s.connectedTo)) ∧
      (∀ b ∈ outs, b ≠ []) ∧
      outs.flatten ++ (runs E fuel (lens.map .recvFrom) w0).s.deliverable = w0.s.deliverable ∧
      OnlyBuffers w0 (runs E fuel (lens.map .recvFrom) w0) := by
  obtain ⟨e1, e2⟩ := C58_calls fuel _ _ hnp
  have h := C26_all (E := E.release) rfl (C58_reach hw) hn fuel lens hl (by
    intro i hi
    obtain ⟨_, e⟩ := C58_calls (E := E) fuel ((lens.take i).map .recvFrom) w0 (by
      intro r hr
      refine hnp r ?_
      rw [← List.take_append_drop i lens, List.map_append, results_append, List.mem_append]
      exact .inl hr)
    exact e ▸ hd i hi)
  rw [show results E.release _ _ _ = _ from e1, show runs E.release _ _ _ = _ from e2] at h
  exact h

/-- `C35_drain_partial` in any build. -/
theorem C35_drain_any_partial (fuel : Nat) (lens : List Nat) {w : World} (hw : Reach E w) (hs : w.s.state = .closed)
    (hnp : ∀ r ∈ results E (fuel + 1) (lens.map .recvFrom) w, r ≠ .panic) :
    (reads E (fuel + 1) lens w).1 ++ (reads E (fuel + 1) lens w).2.s.deliverable = w.s.deliverable ∧
    (reads E (fuel + 1) lens w).2.log = w.log ∧
    (w.s.NoEmpty → (∀ l ∈ lens, 0 < l) → w.s.deliverable.length ≤ lens.length →
      (reads E (fuel + 1) lens w).1 = w.s.deliverable) := by
  have key : ∀ (lens : List Nat) (w : World), (∀ r ∈ results E (fuel + 1) (lens.map .recvFrom) w, r ≠ .panic) →
      reads E.release (fuel + 1) lens w = reads E (fuel + 1) lens w := by
    intro lens
    induction lens with
    | nil => intro w _; rfl
    | cons len lens ih =>
      intro w h
      simp only [List.map_cons, results, List.mem_cons, forall_eq_or_imp] at h
      simp only [reads]
      rw [show runOp E.release _ _ _ = _ from C58_op h.1, ih _ h.2]
  have h := C35_drain_partial (E := E.release) rfl fuel lens (C58_reach hw) hs
  rw [key lens w hnp] at h
  exact h

section
open Sample

/-- A build with overflow checks: packets out of order, a duplicate, a SYN, data received while `flush` waits, a FIN, a repeated FIN. -/
def busy : Env := env [arr (dg .data 6 3 99 [3]), arr (dg .data 6 3 99 [3]), arr (dg .syn 5 1 0), arr (dg .state 6 99 100), arr (dg .data 6 2 100 [1, 2]),
  arr (dg .fin 6 4 100)] true

/-- The operations. -/
def busyOps : List Op := [.sendTo [9], .flush, .recvFrom 1, .recvFrom 9, .recvFrom 9, .recvFrom 9, .recvFrom 9]

/-- The calls do not panic, so that the theorems of this section apply to them. -/
example : Reach busy (runs busy 20 busyOps (server busy)) ∧
    results busy 20 busyOps (server busy) =
      [.ok (.count 1), .ok .unit, .ok (.bytes [1] peer), .ok (.bytes [2] peer), .ok (.bytes [3] peer), .ok (.bytes [] peer), .ok (.bytes [] peer)] ∧ (runs busy 20 busyOps (server busy)).s.state = .closed :=
  ⟨reach_server _ _ (by decide +kernel) (by decide +kernel), by decide +kernel, by decide +kernel⟩

end

end Utp
