import Verif.Lemmas.Sending
import Verif.Props.Timeout
/-!
# C18, C22, C23: sending queued packets
-/

namespace Utp
open M Packet Sample

variable {E : Env} {P : Op → Res Out → Prop}

/-! ### C18 -/

/-- In every reachable state, a call of `send_to` that does not panic transmits the queued packets one after the other, and
each only when there is room in the window or, by any real time that the clock may show, half a second passed since its
turn came (`MaySend` in the constructor `sent`); `queued` is described by `C14_framing`. -/
theorem C18_send {w w' : World} {fuel : Nat} {buf : Bytes} {r : Res Out} (hw : Reach E w) (hcl : w.s.state ≠ .closed)
    (h : runOp E fuel (.sendTo buf) w = (r, w')) (hp : r ≠ .panic) :
    ∃ r', SendTrace E (Awaiting E) (queued w buf) r' w' ∧ (∀ o, r = .ok o → r' = .ok ()) ∧ (∀ e, r = .err e → r' = .err e) ∧
      (r = .pending → r' = .pending) := by
  obtain ⟨r', ht, h1⟩ := sendTo_trace (reach_any hw) hcl h hp
  exact ⟨r', ht.mono fun _ _ hs => hs.waiting (fun h => h) (fun h => h), h1⟩

/-- Every clock shows some real time, so the condition of C18 is never empty. -/
theorem C18_realTime (E : Env) : ∃ T, RealTime E T := by
  let step : Nat → Nat → Nat := fun t k => t + ((E.now k).toNat + 2 ^ 32 - t % 2 ^ 32)
  refine ⟨fun k => Nat.rec (E.now 0).toNat (fun k t => step t (k + 1)) k, ?_, ?_⟩
  · intro i j hij
    induction hij with
    | refl => exact Nat.le_refl _
    | step _ ih => exact Nat.le_trans ih (Nat.le_add_right _ _)
  · intro k
    cases k with
    | zero => have := (E.now 0).isLt; show (E.now 0).toNat = (E.now 0).toNat % 2 ^ 32; omega
    | succ k =>
      show (E.now (k + 1)).toNat = step _ (k + 1) % 2 ^ 32
      have := (E.now (k + 1)).isLt
      simp only [step]
      generalize (Nat.rec (E.now 0).toNat (fun k t => step t (k + 1)) k : Nat) = t
      omega

/-- A clock that shows another 0.6 s at each reading; nothing arrives. -/
def slowEnv : Env := env [] (now := fun k => BitVec.ofNat 32 (k * 600000))

/-- A case of `C18_send`: of three packets the third exceeds the window of 2800 bytes, waits, and is transmitted nevertheless. -/
example : ∃ w', runOp slowEnv 30 (.sendTo (List.replicate 4000 7)) (server slowEnv) = (.ok (.count 4000), w') ∧
    (sent w').map List.length = [20, 1400, 1400, 1260] ∧
    SendTrace slowEnv (Awaiting slowEnv) (queued (server slowEnv) (List.replicate 4000 7)) (.ok ()) w' := by
  have hr : Reach slowEnv (server slowEnv) := reach_server 20 [] (by decide +kernel) (by simp [results])
  have h1 : (runOp slowEnv 30 (.sendTo (List.replicate 4000 7)) (server slowEnv)).1 = .ok (.count 4000) := by decide +kernel
  have h2 : (sent (runOp slowEnv 30 (.sendTo (List.replicate 4000 7)) (server slowEnv)).2).map List.length = [20, 1400, 1400, 1260] := by
    decide +kernel
  have h3 : (server slowEnv).s.state ≠ .closed := by decide +kernel
  generalize server slowEnv = w at *
  obtain ⟨r', ht, ho, _⟩ := C18_send (w' := (runOp slowEnv 30 (.sendTo (List.replicate 4000 7)) w).2) hr h3 (Prod.ext h1 rfl) (by simp)
  rw [ho _ rfl] at ht
  exact ⟨_, Prod.ext h1 rfl, h2, ht⟩

/-! ### C23 -/

/-- Among the effects `l` is a successful transmission to `dst` of a data packet of the connection `id`, numbered `n`, with
the payload `c`. -/
def Transmitted (l : List Act) (dst : Addr) (id n : U16) (c : Bytes) : Prop :=
  ∃ q, Act.send dst q.bytes true ∈ l ∧ Packet.tryFrom q.bytes = some (.ok q) ∧ q.getType = some .data ∧ q.seqNr = n ∧
    q.connectionId = id ∧ q.payload = some c

theorem trace_transmitted {w w' : World} {r : Res Unit} (h : SendTrace E (Awaiting E) w r w') (hr : r = .ok ()) (he : Established w) :
    (∃ l, w'.log = w.log ++ l ∧ ∀ p ∈ w.s.unsent,
      (∃ t d, Act.send w.s.connectedTo ((p.setTimestamp t).setTimestampDifference d).bytes true ∈ l) ∨
      ∃ a, 32768 < (p.seqNr - a).toNat ∧ (a = w.s.lastAcked ∨
        ∃ pkt src, Received E w' pkt src ∧ pkt.getType = some .state ∧ pkt.ackNr = a)) ∧ w.nNet ≤ w'.nNet := by
  induction h with
  | done h => exact ⟨⟨[], by simp, by simp [h]⟩, Nat.le_refl _⟩
  | @sent w w1 w2 w' p q rest r h1 h2 h3 h4 h5 h6 h7 h8 h9 h10 ih =>
    obtain ⟨hpe, he1⟩ := h2.peer he
    obtain ⟨⟨l, hl, hall⟩, hn⟩ := ih hr (by unfold Established; rw [h7]; exact he1)
    obtain ⟨l0, hl0⟩ := h2.log
    obtain ⟨t, d, rfl⟩ := h5
    have hnet := h2.net
    refine ⟨⟨l0 ++ ([.send w1.s.connectedTo ((p.setTimestamp t).setTimestampDifference d).bytes true] ++ l), ?_, ?_⟩, ?_⟩
    · rw [hl, h6, hl0]; simp [World.setS]
    · intro x hx
      rw [h1, List.mem_cons] at hx
      rcases hx with rfl | hx
      · refine .inl ⟨t, d, ?_⟩
        have : w1.s.connectedTo = w.s.connectedTo := hpe
        rw [this]; simp
      · have hu : w2.s.unsent = rest := by rw [h7]; exact h2.unsent
        have hc : w2.s.connectedTo = w.s.connectedTo := by rw [h7]; exact hpe
        rcases hall x (by rw [hu]; exact hx) with ⟨t, d, hh⟩ | ⟨a, hfar, ha⟩
        · rw [hc] at hh
          exact .inl ⟨t, d, by simp [hh]⟩
        · refine .inr ⟨a, hfar, ?_⟩
          rcases ha with ha | ha
          · have hla : w2.s.lastAcked = w1.s.lastAcked := by rw [h7]
            rw [ha, hla]
            rcases h2.acked with hk | ⟨pkt, src, k1, k2, k3⟩
            · exact .inl hk
            · exact .inr ⟨pkt, src, k1.mono (by omega), k2, k3⟩
          · exact .inr ha
    · simp only [World.setS] at hnet; omega
  | @skipped w w1 w2 w' p rest r h1 h2 h3 h4 h5 h6 h7 h8 ih =>
    obtain ⟨hpe, he1⟩ := h2.peer he
    obtain ⟨⟨l, hl, hall⟩, hn⟩ := ih hr (by unfold Established; rw [h5]; exact he1)
    obtain ⟨l0, hl0⟩ := h2.log
    have hnet := h2.net
    refine ⟨⟨l0 ++ l, ?_, ?_⟩, ?_⟩
    · rw [hl, h4, hl0]; simp [World.setS]
    · intro x hx
      rw [h1, List.mem_cons] at hx
      rcases hx with rfl | hx
      · refine .inr ⟨w1.s.lastAcked, h3, ?_⟩
        rcases h2.acked with hk | ⟨pkt, src, k1, k2, k3⟩
        · exact .inl hk
        · exact .inr ⟨pkt, src, k1.mono (by omega), k2, k3⟩
      · have hu : w2.s.unsent = rest := by rw [h5]; exact h2.unsent
        have hc : w2.s.connectedTo = w.s.connectedTo := by rw [h5]; exact hpe
        rcases hall x (by rw [hu]; exact hx) with ⟨t, d, hh⟩ | ⟨a, hfar, ha⟩
        · rw [hc] at hh
          exact .inl ⟨t, d, by simp [hh]⟩
        · refine .inr ⟨a, hfar, ?_⟩
          rcases ha with ha | ha
          · have hla : w2.s.lastAcked = w1.s.lastAcked := by rw [h5]
            rw [ha, hla]
            rcases h2.acked with hk | ⟨pkt, src, k1, k2, k3⟩
            · exact .inl hk
            · exact .inr ⟨pkt, src, k1.mono (by omega), k2, k3⟩
          · exact .inr ha
    · simp only [World.setS] at hnet; omega
  | waiting h1 h2 h3 => exact absurd hr h3
  | refused h1 h2 h3 h4 h5 h6 h7 h8 => exact absurd hr h8
  | fuel => simp at hr

/-- When `send_to` on an established connection returns Ok, each piece of the buffer was transmitted to the peer during the call,
in a data packet with the right number, except a piece whose number lies more than half the number range after one that the
socket took as the last acknowledged number (at the start, or from a State packet received).  What is missing for the full
property: that exception is real, see the counterexample. -/
theorem C23_partial {w w' : World} {fuel : Nat} {buf : Bytes} {cs : List Bytes} {o : Out} (hw : Reach E w) (he : Established w)
    (h : runOp E fuel (.sendTo buf) w = (.ok o, w')) (hf : Framing buf cs) :
    ∃ l, w'.log = w.log ++ l ∧ ∀ i c, cs[i]? = some c →
      Transmitted l w.s.connectedTo w.s.senderId (w.s.seqNr + BitVec.ofNat 16 i) c ∨
      ∃ a, 32768 < (w.s.seqNr + BitVec.ofNat 16 i - a).toNat ∧ (a = w.s.lastAcked ∨
        ∃ pkt src, Received E w' pkt src ∧ pkt.getType = some .state ∧ pkt.ackNr = a) := by
  have hcl := (C14_result h).2.1
  obtain ⟨r', ht, hok, _⟩ := C18_send hw hcl h (by simp)
  obtain ⟨⟨l, hl, hall⟩, _⟩ := trace_transmitted ht (hok _ rfl) (by
    unfold Established at *; simpa [queued, fold_enqueue] using he)
  refine ⟨l, hl, ?_⟩
  intro i c hi
  have hcs : chunks buf.length buf = cs := Framing.unique _ _ _ (chunks_framing _ _ (Nat.le_refl _)) hf
  have hm : dataPacket { w.s with seqNr := w.s.seqNr + BitVec.ofNat 16 i } c ∈ (queued w buf).s.unsent := by
    have : (queued w buf).s.unsent = w.s.unsent ++ framed w.s cs := by simp [queued, fold_enqueue, hcs]
    rw [this, List.mem_append]
    right
    refine List.mem_of_getElem? (i := i) ?_
    rw [framed_getElem?, hi]
    rfl
  obtain ⟨f1, f2, f3, f4, f5⟩ := dataPacket_facts { w.s with seqNr := w.s.seqNr + BitVec.ofNat 16 i } c
  have hpl := dataPacket_plain { w.s with seqNr := w.s.seqNr + BitVec.ofNat 16 i } c
  have hc : (queued w buf).s.connectedTo = w.s.connectedTo := by simp [queued, fold_enqueue]
  have hla : (queued w buf).s.lastAcked = w.s.lastAcked := by simp [queued, fold_enqueue]
  rcases hall _ hm with ⟨t, d, hh⟩ | ⟨a, hfar, ha⟩
  · refine .inl ⟨_, hc ▸ hh, ?_⟩
    have hpl' := (hpl.setTimestamp t).setTimestampDifference d
    exact ⟨hpl'.accepted, hpl'.ty, by simpa using f1, by simpa using f3, by simpa using f4⟩
  · rw [f1] at hfar
    rw [hla] at ha
    exact .inr ⟨a, hfar, ha⟩

/-- A case of `C23_partial` in which everything is transmitted. -/
example : ∃ w' l, runOp (env []) 20 (.sendTo [1, 2, 3]) (server (env [])) = (.ok (.count 3), w') ∧
    w'.log = (server (env [])).log ++ l ∧ Transmitted l peer 5 100 [1, 2, 3] := by
  have hr : Reach (env []) (server (env [])) := reach_server 20 [] (by decide +kernel) (by simp [results])
  have h1 : (runOp (env []) 20 (.sendTo [1, 2, 3]) (server (env []))).1 = .ok (.count 3) := by decide +kernel
  have h2 : Established (server (env [])) := by unfold Established; decide +kernel
  have h3 : (server (env [])).s.connectedTo = peer := by decide +kernel
  have h4 : (server (env [])).s.seqNr = 100 := by decide +kernel
  have h5 : (server (env [])).s.senderId = 5 := by decide +kernel
  have h6 : (server (env [])).s.lastAcked = 0 := by decide +kernel
  have h7 : (runOp (env []) 20 (.sendTo [1, 2, 3]) (server (env []))).2.nNet = 0 := by decide +kernel
  generalize server (env []) = w at *
  obtain ⟨l, hl, hall⟩ := C23_partial (cs := [[1, 2, 3]]) hr h2 (Prod.ext h1 rfl) ⟨rfl, by decide, by decide, by decide⟩
  refine ⟨_, l, Prod.ext h1 rfl, hl, ?_⟩
  rcases hall 0 [1, 2, 3] rfl with h | ⟨a, hfar, ha⟩
  · rw [h3, h4, h5] at h; exact h
  · rcases ha with rfl | ⟨pkt, src, hrec, _⟩
    · rw [h4, h6] at hfar
      exact absurd hfar (by decide)
    · obtain ⟨k, b, n, hk, _⟩ := hrec
      rw [h7] at hk
      exact absurd hk (by omega)

/-- A listening socket that drew a first number above 32768 and got no acknowledgement yet: `send_to` returns Ok though
nothing was transmitted. -/
theorem C23_counterexample : ∃ E w, Reach E w ∧ Established w ∧ (runOp E 20 (.sendTo [1, 2, 3]) w).1 = .ok (.count 3) ∧
    (runOp E 20 (.sendTo [1, 2, 3]) w).2.log = w.log := by
  let E := env [] (rand := [7, 40000])
  exact ⟨E, server E, reach_server 20 [] (by decide +kernel) (by simp [results]), by unfold Established; decide +kernel,
    by decide +kernel, by decide +kernel⟩

/-! ### C22 -/

/-- If `send_to` fails or its future is dropped (for the first time on a connection), at most one sequence number is missing
among the outstanding and the queued packets, which otherwise are consecutive up to the next one; exactly one is
missing when it returned an error.  What is missing for the full property: that number is never used again, see
`C22_forever`. -/
theorem C22_partial {w0 w w' : World} {cs : List Bytes} {fuel : Nat} {buf : Bytes} {r : Res Out} (h0 : Fresh w0)
    (hx : Exec E SendsOk w0 cs w) (hcl : w.s.state ≠ .closed) (h : runOp E fuel (.sendTo buf) w = (r, w')) (hp : r ≠ .panic) :
    ∃ lost, lost.length ≤ 1 ∧ Numbered w'.s.seqNr (w'.s.sendWindow ++ (lost ++ w'.s.unsent)) ∧
      w'.s.seqNr = w.s.seqNr + BitVec.ofNat 16 (chunks buf.length buf).length ∧ (∀ e, r = .err e → lost.length = 1) ∧ Established w' ∧
      lost.length + w'.s.unsent.length ≤ (chunks buf.length buf).length := by
  obtain ⟨r', ht, _, he, _⟩ := sendTo_trace (exec_inv h0 hx) hcl h hp
  obtain ⟨ha, hu⟩ := exec_acct h0 hx
  have hest := (exec_stream h0 hx).est
  have hq : queued w buf = w.setS { w.s with unsent := w.s.unsent ++ framed w.s (chunks buf.length buf), seqNr := w.s.seqNr + BitVec.ofNat 16 (chunks buf.length buf).length } := by
    rw [queued, fold_enqueue]
  obtain ⟨lost, l1, l2, l3, l4, l5, l6⟩ := trace_acct (f := False) ht (by rw [hq]; exact hest) (by
    refine ⟨?_, by simp⟩
    rw [hq]
    obtain ⟨base, hb1, hb2⟩ := ha.num
    simp only [List.append_nil] at hb1 hb2
    refine ⟨base, ?_, ?_⟩
    · intro i p hip
      simp only [setS_s, hu, List.nil_append] at hip
      by_cases hlt : i < w.s.sendWindow.length
      · rw [List.getElem?_append_left hlt] at hip
        exact hb1 i p hip
      · rw [List.getElem?_append_right (by omega), framed_getElem?] at hip
        simp only [Option.map_eq_some_iff] at hip
        obtain ⟨c, _, rfl⟩ := hip
        rw [(dataPacket_facts _ _).1]
        simp only [← hb2]
        rw [ofNat16_add]
        congr 2
        omega
    · simp only [setS_s, hu, List.nil_append, List.length_append, framed_length]
      rw [← hb2, ofNat16_add])
  exact ⟨lost, l1, l2.num, by rw [l5, hq]; rfl, fun e hr => l3 e (he e hr), l4, by
    rw [hq] at l6; simpa [hu, framed_length] using l6⟩

/-- The packets of a connection that lost the number `n`. -/
def without (n : U16) : Ctx := ⟨fun p => Plain p .data ∧ p.seqNr ≠ n, False, True, True, True⟩

theorem without_ok (n : U16) : VOk (without n) :=
  ⟨fun p t h => ⟨h.1.setTimestamp t, by simpa using h.2⟩, fun p d h => ⟨h.1.setTimestampDifference d, by simpa using h.2⟩⟩

theorem exec_without {n : U16} {w0 w : World} {cs : List Bytes} (hi : Inv (without n) w0) (he : Established w0) {j : Nat}
    (hj : n + BitVec.ofNat 16 j = w0.s.seqNr) (h0 : 0 < j) (h : Exec E P w0 cs w) (hl : j + cs.length ≤ 65536) :
    Inv (without n) w ∧ Established w ∧ w.s.seqNr = w0.s.seqNr + BitVec.ofNat 16 cs.length ∧
      ∃ l, w.log = w0.log ++ l ∧ ∀ dst bytes ok, Act.send dst bytes ok ∈ l →
        ∀ q, Packet.tryFrom bytes = some (.ok q) → q.getType = some .data → q.seqNr ≠ n := by
  induction h with
  | refl => exact ⟨hi, he, by simp, [], by simp, by simp⟩
  | @op cs w fuel op new hx hp _ ha ih =>
    rw [List.length_append] at hl
    obtain ⟨i1, i2, i3, l, i4, i5⟩ := ih (by omega)
    have hs := op_queue (E := E) (without_ok n) trivial trivial i1 fuel op hp ha (by
      intro p hpm
      obtain ⟨i, hil, hie⟩ := List.getElem_of_mem hpm
      have hg := framed_getElem? new w.s i
      rw [List.getElem?_eq_getElem hil, hie] at hg
      rw [framed_length] at hil
      rw [List.getElem?_eq_getElem hil] at hg
      simp only [Option.map_some, Option.some.injEq] at hg
      rw [hg]
      refine ⟨dataPacket_plain _ _, ?_⟩
      rw [(dataPacket_facts _ _).1]
      simp only [i3, ← hj]
      rw [ofNat16_add, ofNat16_add]
      intro e
      have := ofNat16_inj (base := n) (i := j + (cs.length + i)) (j := 0) (by omega) (by omega) (by rw [e]; simp)
      omega) (fun _ => trivial)
    have hiq : Inv (without n) (w.setS { w.s with unsent := w.s.unsent ++ framed w.s new, seqNr := w.s.seqNr + BitVec.ofNat 16 new.length }) := by
      refine ⟨i1.win, ?_, i1.inc, .inl trivial⟩
      intro p hpm
      simp only [setS_s, List.mem_append] at hpm
      rcases hpm with hpm | hpm
      · exact i1.uns p hpm
      · refine ⟨?_, framed_fresh _ _ p hpm⟩
        obtain ⟨i, hil, hie⟩ := List.getElem_of_mem hpm
        have hg := framed_getElem? new w.s i
        rw [List.getElem?_eq_getElem hil, hie] at hg
        rw [framed_length] at hil
        rw [List.getElem?_eq_getElem hil] at hg
        simp only [Option.map_some, Option.some.injEq] at hg
        rw [hg]
        refine ⟨dataPacket_plain _ _, ?_⟩
        rw [(dataPacket_facts _ _).1]
        simp only [i3, ← hj]
        rw [ofNat16_add, ofNat16_add]
        intro e
        have := ofNat16_inj (base := n) (i := j + (cs.length + i)) (j := 0) (by omega) (by omega) (by rw [e]; simp)
        omega
    have heq : Established (w.setS { w.s with unsent := w.s.unsent ++ framed w.s new, seqNr := w.s.seqNr + BitVec.ofNat 16 new.length }) := i2
    refine ⟨hiq.steps (without_ok n) hs, heq.steps hs, ?_, ?_⟩
    · rw [(steps_fixed (fun h => h) hs heq).1]
      simp only [setS_s, i3, ofNat16_add, List.length_append]
    · obtain ⟨l', hl', hall'⟩ := hs.log
      refine ⟨l ++ l', by rw [hl', ← List.append_assoc, ← i4]; rfl, ?_⟩
      intro dst bytes ok hmem q hq hty
      rw [List.mem_append] at hmem
      rcases hmem with hmem | hmem
      · exact i5 dst bytes ok hmem q hq hty
      · rcases hall' _ hmem with ⟨t, ht⟩ | ⟨w2, dst', p, ok', hs1, _, hem, hact⟩
        · simp at ht
        · simp only [Act.send.injEq] at hact
          obtain ⟨rfl, rfl, rfl⟩ := hact
          obtain ⟨hv, _⟩ := emitted_data hem hq hty
          have hpq : q = p := by
            have := C02_lossless hq
            cases q; cases p; simpa using this
          rw [hpq]; exact hv.2

theorem Exec.any {w0 w : World} {cs : List Bytes} (h : Exec E P w0 cs w) : Exec E AnyOutcome w0 cs w := by
  induction h with
  | refl => exact .refl
  | op fuel op new _ hp _ ha ih => exact .op fuel op new ih hp trivial ha

/-- Every failed `send_to` breaks the stream for good: there is a sequence number, among those just taken, that no data packet
transmitted later ever carries, whatever is sent afterwards, until all 65536 numbers have been used.  (At most 65536 packets
may be outstanding or queued.) -/
theorem C22_forever {w0 w w' : World} {cs : List Bytes} {fuel : Nat} {buf : Bytes} {e : IoErr} (h0 : Fresh w0)
    (hx : Exec E SendsOk w0 cs w) (hcl : w.s.state ≠ .closed) (h : runOp E fuel (.sendTo buf) w = (.err e, w'))
    (hl : w'.s.sendWindow.length + w'.s.unsent.length < 65536) :
    ∃ i, i < (chunks buf.length buf).length ∧ i + w'.s.unsent.length + 1 = (chunks buf.length buf).length ∧ ∀ P cs' w'', Exec E P w' cs' w'' → w'.s.unsent.length + 1 + cs'.length ≤ 65536 →
      ∃ l, w''.log = w'.log ++ l ∧ ∀ dst bytes ok, Act.send dst bytes ok ∈ l →
        ∀ q, Packet.tryFrom bytes = some (.ok q) → q.getType = some .data → q.seqNr ≠ w.s.seqNr + BitVec.ofNat 16 i := by
  obtain ⟨lost, l1, ⟨base, hb1, hb2⟩, l3, l4, l5, l6⟩ := C22_partial h0 hx hcl h (by simp)
  have hlen := l4 e rfl
  obtain ⟨p, rfl⟩ : ∃ p, lost = [p] := List.length_eq_one_iff.mp hlen
  have hpn : p.seqNr = base + BitVec.ofNat 16 w'.s.sendWindow.length := hb1 _ p (by simp)
  simp only [List.length_singleton] at l6
  refine ⟨(chunks buf.length buf).length - (w'.s.unsent.length + 1), by omega, by omega, fun P cs' w'' hx' hlen' => ?_⟩
  have hpi : p.seqNr = w.s.seqNr + BitVec.ofNat 16 ((chunks buf.length buf).length - (w'.s.unsent.length + 1)) := by
    have e1 : p.seqNr + BitVec.ofNat 16 (w'.s.unsent.length + 1) = w.s.seqNr + BitVec.ofNat 16 (chunks buf.length buf).length := by
      rw [hpn, ofNat16_add, ← l3, ← hb2]
      congr 2
      simp
    have e2 : w.s.seqNr + BitVec.ofNat 16 ((chunks buf.length buf).length - (w'.s.unsent.length + 1)) + BitVec.ofNat 16 (w'.s.unsent.length + 1) =
        w.s.seqNr + BitVec.ofNat 16 (chunks buf.length buf).length := by
      rw [ofNat16_add]
      congr 2
      omega
    exact (BitVec.add_left_inj _).mp (e1.trans e2.symm)
  rw [← hpi]
  have hx1 : Exec E AnyOutcome w0 (cs ++ chunks buf.length buf) (runOp E fuel (.sendTo buf) w).2 := by
    exact .op fuel (.sendTo buf) _ hx.any (by rw [h]; simp) trivial (by
      simp only [Adds, if_neg hcl]; exact chunks_framing _ _ (Nat.le_refl _))
  rw [h] at hx1
  have hs1 := (exec_stream h0 hx1).inv
  refine (exec_without (n := p.seqNr) ?_ l5 (j := 1 + w'.s.unsent.length) ?_ (by omega) hx' (by omega)).2.2.2
  · refine ⟨fun q hq => ⟨(hs1.win q hq).1, ?_⟩, fun q hq => ⟨⟨(hs1.uns q hq).1.1, ?_⟩, (hs1.uns q hq).2⟩, hs1.inc, .inl trivial⟩
    · obtain ⟨i, hil, hie⟩ := List.getElem_of_mem hq
      have := hb1 i q (by rw [List.getElem?_append_left hil, List.getElem?_eq_getElem hil, hie])
      rw [this, hpn]
      intro e
      have := ofNat16_inj (by omega) (by omega) e
      omega
    · obtain ⟨i, hil, hie⟩ := List.getElem_of_mem hq
      have := hb1 (w'.s.sendWindow.length + 1 + i) q (by
        rw [List.getElem?_append_right (by omega), List.getElem?_append_right (by simp; omega)]
        simp only [List.length_singleton]
        rw [show w'.s.sendWindow.length + 1 + i - w'.s.sendWindow.length - 1 = i by omega, List.getElem?_eq_getElem hil, hie])
      rw [this, hpn]
      intro e
      have := ofNat16_inj (by omega) (by omega) e
      omega
  · rw [hpn, ofNat16_add, ← hb2]
    simp only [List.length_append, List.length_singleton]

/-- The operating system refuses the second datagram. -/
def refuseEnv : Env := env [] (snd := [.ok, .fail .other])

/-- A case of `C22_partial`: one of three numbers is missing. -/
example : Fresh (server refuseEnv) ∧ (server refuseEnv).s.state ≠ .closed ∧
    (let r := runOp refuseEnv 20 (.sendTo (List.replicate 3000 7)) (server refuseEnv)
     r.1 = .err (.os .other) ∧ r.2.s.sendWindow = [] ∧ r.2.s.unsent.map Packet.seqNr = [101, 102] ∧ r.2.s.seqNr = 103) :=
  ⟨⟨by unfold Established; decide +kernel, by decide +kernel, by decide +kernel, by decide +kernel⟩, by decide +kernel, by decide +kernel⟩

/-- `send_to` of three packets fails at the first; the second and third stay queued, and the number 100 is never sent again. -/
theorem C22_counterexample : ∃ (w : World), Fresh w ∧ w.s.seqNr = 100 ∧ ∃ e w',
    runOp refuseEnv 20 (.sendTo (List.replicate 3000 7)) w = (.err e, w') ∧
    ∀ P cs' w'', Exec refuseEnv P w' cs' w'' → cs'.length ≤ 65000 → ∃ l, w''.log = w'.log ++ l ∧
      ∀ dst bytes ok, Act.send dst bytes ok ∈ l → ∀ q, Packet.tryFrom bytes = some (.ok q) → q.getType = some .data → q.seqNr ≠ 100 := by
  have h1 : (runOp refuseEnv 20 (.sendTo (List.replicate 3000 7)) (server refuseEnv)).1 = .err (.os .other) := by decide +kernel
  have h2 : (runOp refuseEnv 20 (.sendTo (List.replicate 3000 7)) (server refuseEnv)).2.s.sendWindow.length = 0 := by decide +kernel
  have h3 : (runOp refuseEnv 20 (.sendTo (List.replicate 3000 7)) (server refuseEnv)).2.s.unsent.length = 2 := by decide +kernel
  have h4 : (server refuseEnv).s.seqNr = 100 := by decide +kernel
  have h5 : Fresh (server refuseEnv) := ⟨by unfold Established; decide +kernel, by decide +kernel, by decide +kernel, by decide +kernel⟩
  have h6 : (server refuseEnv).s.state ≠ .closed := by decide +kernel
  have h7 : (chunks (List.replicate 3000 (7 : U8)).length (List.replicate 3000 7)).length = 3 := by decide +kernel
  generalize server refuseEnv = w at *
  obtain ⟨i, -, hi, hall⟩ := C22_forever (cs := []) h5 .refl h6 (Prod.ext h1 rfl) (by rw [h2, h3]; decide)
  rw [h3, h7] at hi
  obtain rfl : i = 0 := by omega
  refine ⟨w, h5, h4, _, _, Prod.ext h1 rfl, fun P cs' w'' hx hlen => ?_⟩
  obtain ⟨l, hl, hh⟩ := hall P cs' w'' hx (by rw [h3]; omega)
  rw [h4] at hh
  exact ⟨l, hl, by simpa using hh⟩

end Utp
