import Verif.Props.State
import Verif.Lemmas.Log
/-!
# C45, C46: no panics, and everything emitted is a valid packet of this connection
-/

namespace Utp
open M Spec

variable {E : Env}

/-! ### C45 -/

/-- Without overflow checks no operation of any reachable socket panics, whatever arrives.  (What is missing for C45:
builds with overflow checks, see `C45_debug_partial` and the counterexamples.) -/
theorem C45_ops_partial (hc : E.checks = false) {w : World} (hw : Reach E w) (fuel : Nat) (op : Op) :
    (runOp E fuel op w).1 ≠ .panic :=
  (at_runOp .any fuel op (fun _ _ => ⟨trivial, trivial⟩) (fun _ => trivial) (fun _ => trivial) (reach_any hw)
    (fun buf _ => queue_any (reach_any hw) buf)).safe hc

/-- Without overflow checks `accept` does not panic. -/
theorem C45_accept_partial (hc : E.checks = false) (fuel : Nat) (ev : NetEvent) (bound : Except ErrorKind Addr) :
    accept E fuel ev bound ≠ .panic ∧ ∀ w src, accept E fuel ev bound ≠ .made .panic w src := by
  unfold accept
  cases ev with
  | never => simp
  | fail k => simp
  | dgram b src =>
    simp only
    rcases hp : Packet.tryFrom (b.take BUF_SIZE) with _ | r
    · rcases C01_decides (b.take BUF_SIZE) with ⟨_, h⟩ | ⟨_, h⟩ <;> simp [h] at hp
    · cases r with
      | error e => simp
      | ok pkt =>
        simp only
        obtain ⟨⟨ty, hty, _⟩, _⟩ := C02_first_bytes hp
        rw [hty]
        simp only
        split
        · simp
        · rename_i hsyn
          simp only [ne_eq, Decidable.not_not] at hsyn
          subst hsyn
          cases bound with
          | error k => simp
          | ok la =>
            simp only [ne_eq, reduceCtorEq, not_false_eq_true, AcceptRes.made.injEq, true_and]
            intro w' src' h
            have h1 := h.1
            unfold acceptM at h1
            rw [handlePacket_syn_new fuel _ src hty rfl] at h1
            simp only [hc, Bool.false_eq_true, false_and, if_false] at h1
            unfold udpSend at h1
            split at h1 <;> simp at h1

section
open Sample

/-- With overflow checks a single SYN with connection identifier 65535 makes `accept` panic
(`packet.connection_id() + 1`, src/socket.rs:889). -/
theorem C45_counterexample_syn : ∃ w, accept (env [] true) 1 (arr (dg .syn 65535 1 0)) (.ok here) = .made .panic w peer := by
  refine ⟨match accept (env [] true) 1 (arr (dg .syn 65535 1 0)) (.ok here) with
    | .made _ w _ => w
    | _ => freshWorld (env []) here peer, ?_⟩
  decide +kernel

/-- With overflow checks a data packet ahead of sequence number 65535 makes `recv_from` panic
(`self.ack_nr + 1`, src/socket.rs:574): accept a SYN with sequence number 65535, then receive packet 1. -/
theorem C45_counterexample_data :
    ∃ w, accept (env [arr (dg .data 6 1 0 [1])] true) 1 (arr (dg .syn 5 65535 0)) (.ok here) = .made (.ok ()) w peer ∧
      (runOp (env [arr (dg .data 6 1 0 [1])] true) 10 (.recvFrom 10) w).1 = .panic :=
  ⟨_, rfl, by decide +kernel⟩

/-- With overflow checks three State packets that acknowledge number 65535 while data is outstanding make
`recv_from` panic (`packet.ack_nr() + 1`, src/socket.rs:1114). -/
theorem C45_counterexample_state :
    let E := env [arr (dg .state 6 2 65535), arr (dg .state 6 2 65535), arr (dg .state 6 2 65535)] true
    results E 10 [.sendTo [1], .recvFrom 10] (server E) = [.ok (.count 1), .panic] := by decide +kernel

/-- The same executions do not panic in a build without overflow checks. -/
example : ∃ w, accept (env [arr (dg .data 6 1 0 [1])]) 1 (arr (dg .syn 5 65535 0)) (.ok here) = .made (.ok ()) w peer ∧
      (runOp (env [arr (dg .data 6 1 0 [1])]) 10 (.recvFrom 10) w).1 = .pending := ⟨_, rfl, by decide +kernel⟩

end

/-! ### C46 -/

/-- `bytes` is accepted by the decoder, as the packet `p`. -/
def Decodes (bytes : Bytes) (p : Packet) : Prop := Packet.tryFrom bytes = some (.ok p)

/-- A packet whose selective ack is longer than 252 bytes: a header, the two bytes of the extension and the bitmap. -/
def HugeSack (bytes : Bytes) : Prop := 20 + 2 + 252 < bytes.length

/-- Data packets with the connection identifier `n`. -/
def Ctx.withId (n : U16) : Ctx := ⟨fun p => Ctx.any p ∧ p.connectionId = n, True, True, True, True⟩

theorem VOk.withId (n : U16) : VOk (Ctx.withId n) :=
  ⟨fun p t h => ⟨VOk.any.ts p t h.1, by simpa using h.2⟩, fun p t h => ⟨VOk.any.td p t h.1, by simpa using h.2⟩⟩

theorem Emitted.valid {w : World} {dst : Addr} {p : Packet} (h : Emitted E .any w dst p) :
    HugeSack p.bytes ∨ Decodes p.bytes p := by
  cases h with
  | data _ h => exact .inr h.1.accepted
  | fin t _ _ _ _ => exact .inr (finPacket_plain _ _).accepted
  | request t _ _ => exact .inr (resendRequest_plain _ _).accepted
  | reply _ pkt r _ h =>
    obtain ⟨_, _, _, _, _, hd⟩ := h.facts
    rcases hd with ⟨b, hb⟩ | ⟨sack, _, hl, hl'⟩
    · exact .inr (accepted_setWndSize hb _)
    · exact .inl (by simp [HugeSack, hl']; omega)

theorem Emitted.id {n : U16} {w : World} {dst : Addr} {p : Packet} (h : Emitted E (.withId n) w dst p)
    (hn : w.s.senderId = n) : p.connectionId = n := by
  cases h with
  | data _ h => exact h.2
  | fin t _ _ _ _ => rw [(finPacket_facts _ _).2.2, hn]
  | request t _ _ => rw [(resendRequest_facts _ _).2.2, hn]
  | reply _ pkt r _ h =>
    obtain ⟨_, _, _, h, _, _⟩ := h.facts
    rw [setWndSize_connectionId, h, hn]

/-- Every datagram a socket ever hands to the operating system is accepted by the decoder, unless it carries a
selective ack of more than 252 bytes (what is missing for C46, see the counterexample). -/
theorem C46_valid_partial {w : World} (hw : Reach E w) {dst : Addr} {bytes : Bytes} (h : Sent w dst bytes) :
    HugeSack bytes ∨ ∃ p, Decodes bytes p := by
  obtain ⟨w0, h0, hs⟩ := reach_steps .any ⟨trivial, trivial⟩ trivial trivial dataPacket_any hw
  obtain ⟨l, hl, hl'⟩ := hs.log
  obtain ⟨ok, hm⟩ := h
  rw [hl, List.mem_append] at hm
  rcases hm with hm | hm
  · cases h0 with
    | bound => simp [freshWorld] at hm
    | connecting la a0 a st _ _ _ _ hlog =>
      rcases hlog _ hm with ⟨t, h⟩ | ⟨dst', t, ok', h⟩
      · simp at h
      · simp only [Act.send.injEq] at h
        rw [h.2.1]
        exact .inr ⟨_, (synPacket_plain _ _).accepted⟩
    | accepted la src pkt ok' n _ _ _ =>
      simp only [List.mem_singleton, Act.send.injEq] at hm
      rw [hm.2.1]
      exact .inr ⟨_, (prepareReply_plain _ _ _ _).accepted⟩
  · rcases hl' _ hm with ⟨t, h⟩ | ⟨w1, dst', p, ok', _, _, he, h⟩
    · simp at h
    · simp only [Act.send.injEq] at h
      rw [h.2.1]
      exact he.valid.imp id fun h => ⟨p, h⟩

/-- Just after it was made a socket has nothing to send. -/
theorem made_empty {w : World} (h : Made E w) : w.s.sendWindow = [] ∧ w.s.unsent = [] ∧ ∀ p ∈ w.s.incoming, ValidData p := by
  have hV : VOk ⟨fun _ => False, False, False, False, True⟩ := ⟨fun _ _ h => h, fun _ _ h => h⟩
  obtain ⟨w0, h0, hs⟩ := made_steps hV h
  have hi := (start_inv h0).steps hV hs
  exact ⟨List.eq_nil_iff_forall_not_mem.mpr hi.win, List.eq_nil_iff_forall_not_mem.mpr fun p hp => (hi.uns p hp).1, hi.inc⟩

theorem run_withId {w0 w : World} (hm : Made E w0) (hn : w0.s.state ≠ .new) (h : Run E w0 w) :
    Steps E (.withId w0.s.senderId) w0 w := by
  obtain ⟨h1, h2, h3⟩ := made_empty hm
  have hi0 : Inv (.withId w0.s.senderId) w0 := ⟨by simp [h1], by simp [h2], h3, .inl trivial⟩
  induction h with
  | refl => exact .refl _
  | @op w fuel op _ hp ih =>
    have hi := hi0.steps (.withId _) ih
    refine ih.trans ((at_runOp (.withId _) fuel op (fun _ _ => ⟨trivial, trivial⟩) (fun _ => trivial) (fun _ => trivial) hi ?_).1 hp)
    intro buf _ p hpm
    rcases fold_enqueue_mem _ _ _ hpm with h | ⟨c, hc, n, rfl⟩
    · exact (hi.uns p h).1
    · exact ⟨dataPacket_any _ _ (chunks_bounds _ _ c hc).1 (chunks_bounds _ _ c hc).2,
        by rw [(dataPacket_facts _ _).2.2.1]; exact (steps_ids' ih hn).2.1⟩

/-- Every datagram sent by a connection that `connect` or `accept` returned carries the connection identifier
for sending, which never changes. -/
theorem C46_ids {w0 w : World} (hm : Made E w0) (hn : w0.s.state ≠ .new) (h : Run E w0 w) :
    w.s.senderId = w0.s.senderId ∧ ∃ l, w.log = w0.log ++ l ∧
      ∀ dst bytes ok, Act.send dst bytes ok ∈ l → 20 ≤ bytes.length ∧ (Packet.mk bytes).connectionId = w0.s.senderId := by
  have hs := run_withId hm hn h
  obtain ⟨l, hl, hl'⟩ := hs.log
  refine ⟨(steps_ids' hs hn).2.1, l, hl, ?_⟩
  intro dst bytes ok hmem
  rcases hl' _ hmem with ⟨t, h⟩ | ⟨w1, dst', p, ok', h1, _, he, h⟩
  · simp at h
  · simp only [Act.send.injEq] at h
    rw [h.2.1]
    refine ⟨?_, he.id (steps_ids' h1 hn).2.1⟩
    cases he with
    | data _ h => exact h.1.1.len
    | fin t _ _ _ _ => exact (finPacket_plain _ _).len
    | request t _ _ => exact (resendRequest_plain _ _).len
    | reply _ pkt r _ hr => simpa using hr.facts.2.2.2.2.1

/-- Every packet a socket holds has a complete header, so that the field accessors never read out of bounds. -/
theorem C46_stored {w : World} (hw : Reach E w) :
    ∀ p, p ∈ w.s.sendWindow ∨ p ∈ w.s.unsent ∨ p ∈ w.s.incoming → 20 ≤ p.bytes.length ∧ ∃ b, Decodes b p := by
  have hi := reach_any hw
  intro p hp
  rcases hp with hp | hp | hp
  · exact ⟨(hi.win p hp).1.len, _, (hi.win p hp).1.accepted⟩
  · exact ⟨(hi.uns p hp).1.1.len, _, (hi.uns p hp).1.1.accepted⟩
  · obtain ⟨⟨b, hb⟩, _⟩ := hi.inc p hp
    obtain ⟨d, hd, e⟩ := (C01_accept_iff b).mp ⟨p, hb⟩
    refine ⟨?_, b, hb⟩
    rw [C02_lossless hb, e]
    simp [Datagram.bytes, hd.headerLen]

section
open Sample

/-- Two packets arrive far ahead of what was received: 2018 and 2019 numbers after it. -/
def farAhead : Env := env [arr (dg .data 6 2019 100 [1]), arr (dg .data 6 2020 100 [2])]

/-- What is missing for C46: the reply to the second one carries a bitmap of 256 bytes, whose length does not fit into
the length byte; it is not accepted by the decoder. -/
theorem C46_counterexample : ∃ w bytes, Reach farAhead w ∧ Sent w peer bytes ∧ bytes.length = 278 ∧
    ∀ p, ¬ Decodes bytes p := by
  obtain ⟨w, hw⟩ : ∃ w, w = runs farAhead 10 [.recvFrom 10] (server farAhead) := ⟨_, rfl⟩
  have key : ∃ bytes, Act.send peer bytes true ∈ w.log ∧ bytes.length = 278 ∧
      (match Packet.tryFrom bytes with | some (.ok _) => false | _ => true) = true := by
    refine ⟨(sent w).getLastD [], ?_⟩
    rw [hw]
    decide +kernel
  obtain ⟨bytes, h1, h2, h3⟩ := key
  refine ⟨w, bytes, hw ▸ reach_server _ _ (by decide +kernel) (by decide +kernel), ⟨_, h1⟩, h2, ?_⟩
  intro p hp
  rw [Decodes] at hp
  rw [hp] at h3
  simp at h3

/-- An established connection that emits datagrams: the acknowledgement of a data packet. -/
example : ∃ l, (runs (env [arr (dg .data 6 2 100 [1])]) 10 [.recvFrom 10] (server (env [arr (dg .data 6 2 100 [1])]))).log =
    (server (env [arr (dg .data 6 2 100 [1])])).log ++ l ∧ l.length = 2 :=
  ⟨(runs (env [arr (dg .data 6 2 100 [1])]) 10 [.recvFrom 10] (server (env [arr (dg .data 6 2 100 [1])]))).log.drop 1,
    by decide +kernel⟩

end

end Utp
