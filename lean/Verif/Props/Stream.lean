import Verif.Lemmas.Queue
/-!
# C14, C15: framing and content of data packets
-/

namespace Utp
open M

variable {E : Env} {P : Op → Res Out → Prop}

/-- A data packet of the connection with identifier `id` whose sequence number stands for one of the pieces `cs`
of a stream numbered from `base`, and which carries that piece. -/
def Carries (base id : U16) (cs : List Bytes) (p : Packet) : Prop :=
  ∃ i c, cs[i]? = some c ∧ p.seqNr = base + BitVec.ofNat 16 i ∧ p.payload = some c ∧ p.connectionId = id ∧
    p.bytes.length = 20 + c.length

/-- The context of C15: nothing more is queued; `ct` says whether the user may close and set the retry limit, `rq` whether
lost packets may be asked for. -/
def streamCtx (base id : U16) (cs : List Bytes) (ct rq : Prop) : Ctx :=
  ⟨fun p => Plain p .data ∧ Carries base id cs p, False, True, ct, rq⟩

theorem streamCtx_ok (base id : U16) (cs : List Bytes) (ct q : Prop) : VOk (streamCtx base id cs ct q) :=
  ⟨fun p t h => ⟨h.1.setTimestamp t, by simpa [Carries] using h.2⟩,
   fun p d h => ⟨h.1.setTimestampDifference d, by simpa [Carries] using h.2⟩⟩

theorem Carries.mono {base id : U16} {cs new : List Bytes} {p : Packet} (h : Carries base id cs p) :
    Carries base id (cs ++ new) p := by
  obtain ⟨i, c, h1, h2⟩ := h
  refine ⟨i, c, ?_, h2⟩
  rw [List.getElem?_append_left (by have := List.getElem?_eq_some_iff.mp h1; exact this.1)]
  exact h1

theorem Inv.streamMono {base id : U16} {cs new : List Bytes} {ct q : Prop} {w : World}
    (h : Inv (streamCtx base id cs ct q) w) : Inv (streamCtx base id (cs ++ new) ct q) w :=
  ⟨fun p hp => ⟨(h.win p hp).1, (h.win p hp).2.mono⟩, fun p hp => ⟨⟨(h.uns p hp).1.1, (h.uns p hp).1.2.mono⟩, (h.uns p hp).2⟩, h.inc, h.fly⟩

theorem framed_carries {base id : U16} {cs new : List Bytes} {s : Socket} (hs : s.seqNr = base + BitVec.ofNat 16 cs.length)
    (hid : s.senderId = id) : ∀ p ∈ framed s new, Plain p .data ∧ Carries base id (cs ++ new) p := by
  intro p hp
  obtain ⟨i, hi, he⟩ := List.getElem_of_mem hp
  have h := framed_getElem? new s i
  rw [List.getElem?_eq_getElem hi, he] at h
  rw [framed_length] at hi
  rw [List.getElem?_eq_getElem hi] at h
  simp only [Option.map_some, Option.some.injEq] at h
  rw [h]
  obtain ⟨f1, f2, f3, f4, f5⟩ := dataPacket_facts { s with seqNr := s.seqNr + BitVec.ofNat 16 i } new[i]
  refine ⟨dataPacket_plain _ _, cs.length + i, new[i], ?_, ?_, f4, ?_, f5⟩
  · rw [List.getElem?_append_right (by omega)]
    simp [hi]
  · rw [f1]
    simp only [hs]
    rw [BitVec.add_assoc]
    congr 1
    apply BitVec.eq_of_toNat_eq
    simp only [BitVec.toNat_add, BitVec.toNat_ofNat]
    omega
  · rw [f3]; exact hid

/-- What is known of an established connection after the pieces `cs` were given to `send_to`. -/
structure StreamAt (E : Env) (ct rq : Prop) (base id : U16) (peer : Addr) (cs : List Bytes) (w : World) : Prop where
  inv : Inv (streamCtx base id cs ct rq) w
  est : Established w
  seq : w.s.seqNr = base + BitVec.ofNat 16 cs.length
  sid : w.s.senderId = id
  dst : w.s.connectedTo = peer

/-- One operation: steps in a context that knows the new pieces, from the state in which they are queued. -/
theorem op_stream {ct rq : Prop} {base id : U16} {peer : Addr} {cs new : List Bytes} {w : World} (h : StreamAt E ct rq base id peer cs w) (fuel : Nat)
    (op : Op) (hp : (runOp E fuel op w).1 ≠ .panic) (ha : Adds w op new)
    (hc : (op = .close ∨ ∃ n, op = .setMaxRetries n) → ct) (hrq : (∃ len, op = .recvFrom len) → rq) :
    (∃ w1, Steps E (streamCtx base id (cs ++ new) ct rq) w1 (runOp E fuel op w).2 ∧ (∃ u n, w1 = w.setS { w.s with unsent := u, seqNr := n }) ∧
      StreamAt E ct rq base id peer (cs ++ new) w1) ∧
    StreamAt E ct rq base id peer (cs ++ new) (runOp E fuel op w).2 := by
  have main : ∃ w1, Steps E (streamCtx base id (cs ++ new) ct rq) w1 (runOp E fuel op w).2 ∧ (∃ u n, w1 = w.setS { w.s with unsent := u, seqNr := n }) ∧
      StreamAt E ct rq base id peer (cs ++ new) w1 := by
    by_cases hop : ∃ buf, op = .sendTo buf
    · obtain ⟨buf, rfl⟩ := hop
      simp only [Adds] at ha
      by_cases hcl : w.s.state = .closed
      · rw [if_pos hcl] at ha
        subst ha
        refine ⟨w, ?_, ⟨_, _, rfl⟩, by simpa using h⟩
        have : (runOp E fuel (.sendTo buf) w).2 = w := by
          simp [runOp, bind_def, M.andThen, sendTo_closed fuel buf hcl]
        rw [this]; exact .refl _
      · rw [if_neg hcl] at ha
        have hnew : chunks buf.length buf = new := Framing.unique _ _ _ (chunks_framing _ _ (Nat.le_refl _)) ha
        have hq : queued w buf = w.setS { w.s with unsent := w.s.unsent ++ framed w.s new, seqNr := w.s.seqNr + BitVec.ofNat 16 new.length } := by
          rw [queued, hnew, fold_enqueue]
        have h1 : StreamAt E ct rq base id peer (cs ++ new) (queued w buf) := by
          rw [hq]
          have hi := h.inv.streamMono (new := new)
          refine ⟨⟨hi.win, ?_, hi.inc, hi.fly⟩, h.est, ?_, h.sid, h.dst⟩
          · intro p hp
            simp only [setS_s, List.mem_append] at hp
            rcases hp with hp | hp
            · exact hi.uns p hp
            · exact ⟨framed_carries h.seq h.sid p hp, framed_fresh _ _ p hp⟩
          · simp only [setS_s, h.seq]
            rw [BitVec.add_assoc]
            congr 1
            apply BitVec.eq_of_toNat_eq
            simp only [BitVec.toNat_add, BitVec.toNat_ofNat, List.length_append]
            omega
        refine ⟨queued w buf, ?_, ⟨_, _, hq⟩, h1⟩
        have hat := at_sendQueue (E := E) (streamCtx_ok base id (cs ++ new) ct rq) trivial fuel fuel h1.inv
        have hrun : runOp E fuel (.sendTo buf) w = M.andThen (M.andThen (sendQueue E fuel fuel) (fun _ => M.ret buf.length))
            (fun n => M.ret (.count n)) (queued w buf) := by
          simp only [runOp, bind_def, pure_def]
          unfold M.andThen
          simp only [sendTo_eq (E := E) fuel buf hcl, M.andThen]
        have hat2 := (hat.andThen (f := fun _ => M.ret buf.length) (Q' := fun _ _ => True) fun _ _ _ _ => .ret trivial).andThen
          (f := fun n => M.ret (Out.count n)) (Q' := fun _ _ => True) fun _ _ _ _ => .ret trivial
        rw [hrun] at hp ⊢
        exact hat2.1 hp
    · have hnew : new = [] := by
        cases op with
        | sendTo buf => exact absurd ⟨buf, rfl⟩ hop
        | _ => exact ha
      subst hnew
      refine ⟨w, ?_, ⟨_, _, rfl⟩, by simpa using h⟩
      have hat := at_runOp (E := E) (streamCtx_ok base id (cs ++ []) ct rq) fuel op (fun buf e => absurd ⟨buf, e⟩ hop) hc
        hrq (by simpa using h.inv) (fun buf e => absurd ⟨buf, e⟩ hop)
      exact hat.1 hp
  refine ⟨main, ?_⟩
  obtain ⟨w1, hs, _, h1⟩ := main
  obtain ⟨f1, f2, _, f4⟩ := steps_fixed (fun h => h) hs h1.est
  exact ⟨h1.inv.steps (streamCtx_ok _ _ _ _ _) hs, h1.est.steps hs, f1.trans h1.seq, f2.trans h1.sid, f4.trans h1.dst⟩

/-- A connection just made: established, nothing sent yet. -/
structure Fresh (w : World) : Prop where
  est : Established w
  win : w.s.sendWindow = []
  uns : w.s.unsent = []
  inc : w.s.incoming = []

theorem Fresh.stream {w : World} (h : Fresh w) : StreamAt E True True w.s.seqNr w.s.senderId w.s.connectedTo [] w :=
  ⟨⟨by simp [h.win], by simp [h.uns], by simp [h.inc], .inl trivial⟩, h.est, by simp, rfl, rfl⟩

theorem exec_stream {w0 w : World} {cs : List Bytes} (h0 : Fresh w0) (h : Exec E P w0 cs w) :
    StreamAt E True True w0.s.seqNr w0.s.senderId w0.s.connectedTo cs w := by
  induction h with
  | refl => exact h0.stream
  | op fuel op new _ hp _ ha ih => exact (op_stream ih fuel op hp ha (fun _ => trivial) fun _ => trivial).2

/-! ### C14 -/

/-- What `send_to` does first on a socket that is not closed: it appends to the queue of unsent packets the
pieces of the buffer, framed as data packets with consecutive sequence numbers modulo 2^16 from the next one
on, each datagram having a 20-byte header and at most 1400 bytes. -/
theorem C14_framing (w : World) (buf : Bytes) :
    ∃ cs pkts, Framing buf cs ∧ (queued w buf).s.unsent = w.s.unsent ++ pkts ∧ pkts.length = cs.length ∧
      (queued w buf).s.seqNr = w.s.seqNr + BitVec.ofNat 16 cs.length ∧
      ∀ i (h : i < pkts.length), ∃ c, cs[i]? = some c ∧ (pkts[i]).payload = some c ∧ (pkts[i]).getType = some .data ∧
        (pkts[i]).seqNr = w.s.seqNr + BitVec.ofNat 16 i ∧ (pkts[i]).connectionId = w.s.senderId ∧
        (pkts[i]).ackNr = w.s.ackNr ∧
        (pkts[i]).bytes.length ≤ 1400 ∧ Packet.tryFrom (pkts[i]).bytes = some (.ok pkts[i]) := by
  have hf := chunks_framing buf.length buf (Nat.le_refl _)
  refine ⟨_, framed w.s (chunks buf.length buf), hf, ?_, framed_length _ _, ?_, ?_⟩
  · simp [queued, fold_enqueue]
  · simp [queued, fold_enqueue]
  · intro i hi
    have h := framed_getElem? (chunks buf.length buf) w.s i
    rw [List.getElem?_eq_getElem hi] at h
    rw [framed_length] at hi
    rw [List.getElem?_eq_getElem hi] at h
    simp only [Option.map_some, Option.some.injEq] at h
    rw [h]
    obtain ⟨f1, f2, f3, f4, f5⟩ := dataPacket_facts { w.s with seqNr := w.s.seqNr + BitVec.ofNat 16 i } (chunks buf.length buf)[i]
    have hb := hf.bound _ (List.getElem_mem hi)
    have hpl := dataPacket_plain { w.s with seqNr := w.s.seqNr + BitVec.ofNat 16 i } (chunks buf.length buf)[i]
    exact ⟨_, List.getElem?_eq_getElem hi, f4, hpl.ty, f1, f3, f2, by rw [f5]; omega, hpl.accepted⟩

theorem sendQueue_ok (fuel : Nat) : ∀ n (w w' : World) (u : Unit), sendQueue E fuel n w = (.ok u, w') → w'.s.unsent = [] := by
  intro n
  induction n with
  | zero => intro w w' u h; simp [sendQueue, M.never] at h
  | succ n ih =>
    intro w w' u h
    unfold sendQueue at h
    obtain ⟨s, w1, h1, h⟩ := andThen_ok h
    simp only [getS, Prod.mk.injEq, Res.ok.injEq] at h1
    obtain ⟨rfl, rfl⟩ := h1
    rcases hu : w.s.unsent with _ | ⟨p, rest⟩
    · simp only [hu, pure_def, M.ret, Prod.mk.injEq] at h
      rw [← h.2, hu]
    · simp only [hu] at h
      obtain ⟨_, _, _, h⟩ := andThen_ok h
      obtain ⟨_, _, _, h⟩ := andThen_ok h
      obtain ⟨_, _, _, h⟩ := andThen_ok h
      obtain ⟨_, _, _, h⟩ := andThen_ok h
      obtain ⟨_, _, _, h⟩ := andThen_ok h
      exact ih _ _ _ h

/-- When `send_to` returns `Ok(n)`, `n` is the buffer length, the socket was not closed, every queued packet
was taken from the queue, and (on an established connection) the next sequence number has advanced by the number
of pieces. -/
theorem C14_result {w w' : World} {fuel : Nat} {buf : Bytes} {o : Out} (h : runOp E fuel (.sendTo buf) w = (.ok o, w')) :
    o = .count buf.length ∧ w.s.state ≠ .closed ∧ w'.s.unsent = [] := by
  by_cases hcl : w.s.state = .closed
  · simp [runOp, bind_def, M.andThen, sendTo_closed fuel buf hcl] at h
  · have hrun : runOp E fuel (.sendTo buf) w = M.andThen (M.andThen (sendQueue E fuel fuel) (fun _ => M.ret buf.length))
        (fun n => M.ret (.count n)) (queued w buf) := by
      simp only [runOp, bind_def, pure_def]
      unfold M.andThen
      simp only [sendTo_eq (E := E) fuel buf hcl, M.andThen]
    rw [hrun] at h
    simp only [M.andThen] at h
    rcases hq : sendQueue E fuel fuel (queued w buf) with ⟨r, w1⟩
    rw [hq] at h
    cases r with
    | ok u =>
      simp only [M.ret, Prod.mk.injEq, Res.ok.injEq] at h
      have := sendQueue_ok (E := E) fuel fuel (queued w buf) _ _ hq
      exact ⟨h.1.symm, hcl, by rw [← h.2]; exact this⟩
    | err e => simp at h
    | panic => simp at h
    | pending => simp at h

/-- In every execution of an established connection the next sequence number counts the pieces given to
`send_to` so far, modulo 2^16. -/
theorem C14_numbering {w0 w : World} {cs : List Bytes} (h0 : Fresh w0) (h : Exec E P w0 cs w) :
    w.s.seqNr = w0.s.seqNr + BitVec.ofNat 16 cs.length := (exec_stream h0 h).seq

/-- Framing is a function of the buffer: the pieces are determined by the four conditions. -/
theorem C14_unique {buf : Bytes} {cs cs' : List Bytes} (h : Framing buf cs) (h' : Framing buf cs') : cs = cs' :=
  Framing.unique _ _ _ h h'

-- a buffer of 2761 bytes is cut into pieces of 1380, 1380 and 1 bytes
example : ∃ cs, Framing (List.replicate 2761 (7 : U8)) cs ∧ cs.map List.length = [1380, 1380, 1] :=
  ⟨_, chunks_framing 2761 _ (by rw [List.length_replicate]; exact Nat.le_refl _), by decide +kernel⟩

/-! ### C15 -/

theorem emitted_data {V : Ctx} {w : World} {dst : Addr} {p q : Packet} (he : Emitted E V w dst p)
    (hd : Packet.tryFrom p.bytes = some (.ok q)) (hq : q.getType = some .data) : V p ∧ dst = w.s.connectedTo := by
  have hpq : q.bytes = p.bytes := C02_lossless hd
  have ht : p.getType = some .data := by
    have : q.getType = p.getType := by simp only [Packet.getType, hpq]
    rw [← this, hq]
  cases he with
  | data _ hv => exact ⟨hv, rfl⟩
  | fin t _ _ _ _ => rw [(finPacket_plain w.s t).ty] at ht; simp at ht
  | request t _ _ _ => rw [(resendRequest_plain w.s t).ty] at ht; simp at ht
  | reply src pkt r hr hrep _ =>
    obtain ⟨⟨t, h1, h2⟩, _⟩ := hrep.facts
    rw [setWndSize_getType, h1] at ht
    simp only [Option.some.injEq] at ht
    subst ht
    simp at h2

/-- Every data datagram that an established connection ever emits — first transmissions and retransmissions,
whatever the network, the clock and the user did — goes to the peer, carries the connection identifier, and
its payload is the piece that its sequence number stands for, among the pieces given to `send_to` so far. -/
theorem C15_content {w0 w : World} {cs : List Bytes} (h0 : Fresh w0) (h : Exec E P w0 cs w) :
    ∃ l, w.log = w0.log ++ l ∧ ∀ dst bytes ok, Act.send dst bytes ok ∈ l →
      ∀ q, Packet.tryFrom bytes = some (.ok q) → q.getType = some .data →
        dst = w0.s.connectedTo ∧ Carries w0.s.seqNr w0.s.senderId cs q := by
  induction h with
  | refl => exact ⟨[], by simp, by simp⟩
  | @op cs w fuel op new hx hp _ ha ih =>
    obtain ⟨l, hl, hall⟩ := ih
    obtain ⟨⟨w1, hs, ⟨u, n, hw1⟩, h1⟩, _⟩ := op_stream (exec_stream h0 hx) fuel op hp ha (fun _ => trivial) fun _ => trivial
    obtain ⟨l', hl', hall'⟩ := hs.log
    refine ⟨l ++ l', by rw [hl', hw1, setS_log, hl, List.append_assoc], ?_⟩
    intro dst bytes ok hmem q hq hty
    rw [List.mem_append] at hmem
    rcases hmem with hmem | hmem
    · obtain ⟨a, b⟩ := hall dst bytes ok hmem q hq hty
      exact ⟨a, b.mono⟩
    · rcases hall' _ hmem with ⟨t, ht⟩ | ⟨w2, dst', p, ok', hs1, _, he, hact⟩
      · simp at ht
      · simp only [Act.send.injEq] at hact
        obtain ⟨rfl, rfl, rfl⟩ := hact
        obtain ⟨hv, hdst⟩ := emitted_data he hq hty
        obtain ⟨_, _, _, f4⟩ := steps_fixed (fun h => h) hs1 h1.est
        refine ⟨by rw [hdst, f4, h1.dst], ?_⟩
        have hpq : q = p := by
          have := C02_lossless hq
          cases q; cases p; simpa using this
        rw [hpq]; exact hv.2

/-- Every sequence of operations is such an execution. -/
theorem run_exec {w0 w : World} (h : Run E w0 w) : ∃ cs, Exec E AnyOutcome w0 cs w := by
  induction h with
  | refl => exact ⟨[], .refl⟩
  | @op w fuel op _ hp ih =>
    obtain ⟨cs, hx⟩ := ih
    have : ∃ new, Adds w op new := by
      cases op with
      | sendTo buf =>
        by_cases hcl : w.s.state = .closed
        · exact ⟨[], by simp [Adds, hcl]⟩
        · exact ⟨_, by simpa [Adds, hcl] using chunks_framing buf.length buf (Nat.le_refl _)⟩
      | _ => exact ⟨[], rfl⟩
    obtain ⟨new, hn⟩ := this
    exact ⟨_, .op fuel op new hx hp trivial hn⟩

end Utp
