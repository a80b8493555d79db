import Verif.Lemmas.Timely
/-!
# C85 and C86: the timestamp and the timestamp difference of what is sent
-/

namespace Utp
open M Packet Sample

variable {E : Env}

theorem Made.timely {w : World} (h : Made E w) : ∃ syn sid rid, Tim False E syn sid rid w := by
  cases h with
  | bind resolved bound h =>
    unfold Utp.bind at h
    split at h
    · cases h
    · split at h
      · cases h
      · cases h
        exact ⟨none, _, _, (dialing_fresh _ _).timely False.elim⟩
  | @connect fuel resolved wild res w h hp =>
    unfold Utp.connect at h
    split at h
    · cases h
    · split at h
      · cases h
      · rename_i addr _ _ la
        simp only [Except.ok.injEq] at h
        have := holds_connectM (E := E) fuel addr _ (dialing_fresh la { v6 := addr.v6, id := 0 })
        rw [h] at this
        cases res with
        | panic => exact absurd rfl hp
        | ok a => exact ⟨_, _, _, Timely.weaken this⟩
        | _ => exact ⟨_, _, _, this⟩
  | accept fuel ev bound h hp =>
    obtain ⟨b, _, h⟩ := accept_timely h hp
    exact ⟨_, _, _, h.weaken⟩

/-- **C85.**  Whatever happened to a socket, every datagram it sent was handed to the operating system right after a reading of the clock, and carries that reading as its timestamp. -/
theorem C85_punctual {w : World} (h : Reach E w) : Punctual E w.nNow w.log := by
  obtain ⟨w0, h0, hr⟩ := h
  obtain ⟨syn, sid, rid, ht⟩ := h0.timely
  exact (hr.timely ht).stamps

theorem Punctual.times {k : Nat} {l : List Act} (h : Punctual E k l) : ∀ dst b ok, .send dst b ok ∈ l → ∃ i, i < k ∧ stampOf b = (E.now i).toNat := by
  induction h with
  | start => intro _ _ _ h; cases h
  | read _ ih => exact fun dst b ok hm => (ih dst b ok hm).imp fun i hi => ⟨by omega, hi.2⟩
  | wait t _ ih =>
    intro dst b ok hm
    refine ih dst b ok ?_
    simpa using hm
  | @send k l d c o _ hs ih =>
    intro dst b ok hm
    rcases List.mem_append.mp hm with hm | hm
    · exact (ih dst b ok hm).imp fun i hi => ⟨by omega, hi.2⟩
    · simp only [List.mem_singleton, Act.send.injEq] at hm
      rw [hm.2.1]
      exact ⟨k, by omega, hs⟩

theorem Punctual.split {k : Nat} {l : List Act} (h : Punctual E k l) : ∀ l1 dst b ok l2, l = l1 ++ .send dst b ok :: l2 →
    ∃ i, Punctual E i l1 ∧ i < k ∧ stampOf b = (E.now i).toNat ∧ ∀ dst' b' ok', .send dst' b' ok' ∈ l2 → ∃ j, i < j ∧ j < k ∧ stampOf b' = (E.now j).toNat := by
  induction h with
  | start => intro l1 _ _ _ _ h; cases l1 <;> cases h
  | read _ ih =>
    intro l1 dst b ok l2 e
    obtain ⟨i, h1, h2, h3, h4⟩ := ih l1 dst b ok l2 e
    refine ⟨i, h1, by omega, h3, fun dst' b' ok' hm => ?_⟩
    obtain ⟨j, g1, g2, g3⟩ := h4 dst' b' ok' hm
    exact ⟨j, g1, by omega, g3⟩
  | @wait k l t hp ih =>
    intro l1 dst b ok l2 e
    rcases List.eq_nil_or_concat l2 with rfl | ⟨l2', x, rfl⟩
    · have := congrArg List.getLast? e
      simp at this
    · rw [List.concat_eq_append, ← List.cons_append, ← List.append_assoc] at e
      obtain ⟨e1, e2⟩ := List.append_inj' e rfl
      obtain ⟨i, h1, h2, h3, h4⟩ := ih l1 dst b ok l2' e1
      refine ⟨i, h1, h2, h3, fun dst' b' ok' hm => h4 dst' b' ok' ?_⟩
      rw [List.concat_eq_append] at hm
      simp only [List.cons.injEq, and_true] at e2
      rw [← e2] at hm
      simpa using hm
  | @send k l d c o hp hs ih =>
    intro l1 dst b ok l2 e
    rcases List.eq_nil_or_concat l2 with rfl | ⟨l2', x, rfl⟩
    · obtain ⟨e1, e2⟩ := List.append_inj' e rfl
      simp only [List.cons.injEq, Act.send.injEq, and_true] at e2
      obtain ⟨_, rfl, _⟩ := e2
      subst e1
      exact ⟨k, hp, by omega, hs, fun _ _ _ h => by cases h⟩
    · rw [List.concat_eq_append, ← List.cons_append, ← List.append_assoc] at e
      obtain ⟨e1, e2⟩ := List.append_inj' e rfl
      obtain ⟨i, h1, h2, h3, h4⟩ := ih l1 dst b ok l2' e1
      refine ⟨i, h1, by omega, h3, fun dst' b' ok' hm => ?_⟩
      rw [List.concat_eq_append] at hm
      simp only [List.cons.injEq, and_true] at e2
      rw [← e2] at hm
      rcases List.mem_append.mp hm with hm | hm
      · obtain ⟨j, g1, g2, g3⟩ := h4 dst' b' ok' hm
        exact ⟨j, g1, by omega, g3⟩
      · simp only [List.mem_singleton, Act.send.injEq] at hm
        rw [hm.2.1]
        exact ⟨k, h2, by omega, hs⟩

/-- **C85**, in terms of a single datagram: its timestamp is a reading of the clock. -/
theorem C85_sent {w : World} (h : Reach E w) {dst : Addr} {b : Bytes} (hs : Sent w dst b) : ∃ i, i < w.nNow ∧ stampOf b = (E.now i).toNat := by
  obtain ⟨ok, hm⟩ := hs
  exact (C85_punctual h).times dst b ok hm

/-- **C85**, in terms of two datagrams: if the clock never goes back, neither do the timestamps; if it always advances, no two datagrams have the same. -/
theorem C85_order {w : World} (h : Reach E w) {l1 l2 l3 : List Act} {d1 d2 : Addr} {b1 b2 : Bytes} {o1 o2 : Bool}
    (hl : w.log = l1 ++ .send d1 b1 o1 :: (l2 ++ .send d2 b2 o2 :: l3)) :
    ((∀ i j, i ≤ j → (E.now i).toNat ≤ (E.now j).toNat) → stampOf b1 ≤ stampOf b2) ∧
    ((∀ i j, i < j → (E.now i).toNat < (E.now j).toNat) → stampOf b1 < stampOf b2) := by
  obtain ⟨i, _, _, h1, h2⟩ := (C85_punctual h).split _ _ _ _ _ hl
  obtain ⟨j, g1, _, g2⟩ := h2 d2 b2 o2 (by simp)
  rw [h1, g2]
  exact ⟨fun hc => hc i j (by omega), fun hc => hc i j g1⟩

/-- A packet with a timestamp. -/
def stampedDg (ts : U32) (b : Bytes) : Bytes := (Packet.setTimestamp ⟨b⟩ ts).bytes

/-- A clock that advances by a millisecond at every reading. -/
def milliClock (k : Nat) : U32 := BitVec.ofNat 32 (1000 * (k + 1))

/-- A SYN is accepted, a byte sent, a Data packet received and answered; then the byte is sent again after a timeout, and the connection closed. -/
def stampEnv : Env := env [arr (stampedDg 400 (dg .data 6 2 99 [7])), .fail .timedOut, arr (stampedDg 900 (dg .state 6 3 100))] (now := milliClock)

/-- The operations. -/
def stampOps : List Op := [.sendTo [1], .recvFrom 10, .flush, .close]

/-- Not vacuous: the reply to the SYN, the byte, the answer, the byte again and the FIN carry the readings of the clock just before. -/
example : Reach stampEnv (runs stampEnv 20 stampOps (server stampEnv)) ∧
    (sent (runs stampEnv 20 stampOps (server stampEnv))).map stampOf = [2000, 4000, 6000, 7000, 11000] := by
  refine ⟨reach_server 20 _ (by decide +kernel) (by decide +kernel), by decide +kernel⟩

/-! ### C86 -/

/-- **C86**, what holds, for a socket made by `connect`: every datagram reports the delay of the packet it answers, or that of the latest packet of the connection, unless it is a FIN or repeats a
Data packet.

Partial: a FIN reports nothing, and a packet that is repeated after a timeout reports the delay of an earlier time (`C86_counterexample_fin`, `C86_counterexample_repeat`); a delay is the distance
of two clocks, whichever is ahead (`C86_counterexample_ahead`). -/
theorem C86_connect_partial {fuel : Nat} {resolved : Except ErrorKind (List Addr)} {wild : Except ErrorKind Addr} {w0 w : World}
    (h0 : connect E fuel resolved wild = .ok (.ok (), w0)) (h : Run E w0 w) : Reports E none w.s.senderId w.s.receiverId w.nNow w.nNet w.log := by
  unfold connect at h0
  split at h0
  · cases h0
  · split at h0
    · cases h0
    · rename_i addr _ _ la
      simp only [Except.ok.injEq] at h0
      have := holds_connectM (E := E) fuel addr _ (dialing_fresh la { v6 := addr.v6, id := 0 })
      rw [h0] at this
      have ht := h.timely this
      rw [(ht.ids trivial).2.1, (ht.ids trivial).2.2]
      exact ht.delays trivial

/-- **C86**, what holds, for a socket made by `accept`.

Partial: as for `connect`. -/
theorem C86_accept_partial {fuel : Nat} {b : Bytes} {bound : Except ErrorKind Addr} {r : Res Unit} {w0 w : World} {src : Addr}
    (h0 : accept E fuel (.dgram b src) bound = .made r w0 src) (hp : r ≠ .panic) (h : Run E w0 w) :
    Reports E (some (b.take 1500)) w.s.senderId w.s.receiverId w.nNow w.nNet w.log := by
  obtain ⟨b', e, h1⟩ := accept_timely h0 hp
  cases e
  have ht := h.timely h1
  rw [(ht.ids trivial).2.1, (ht.ids trivial).2.2]
  exact ht.delays trivial

theorem Reports.field {syn : Option Bytes} {sid rid : U16} {k n : Nat} {l : List Act} (h : Reports E syn sid rid k n l) :
    ∀ l1 dst b ok l2, l = l1 ++ .send dst b ok :: l2 → ∃ k' n', k' ≤ k ∧ n' ≤ n ∧ DelayField E syn sid rid k' n' b := by
  induction h with
  | start => intro l1 _ _ _ _ h; cases l1 <;> cases h
  | read _ ih =>
    intro l1 dst b ok l2 e
    obtain ⟨k', n', h1, h2, h3⟩ := ih l1 dst b ok l2 e
    exact ⟨k', n', by omega, h2, h3⟩
  | wait t _ ih =>
    intro l1 dst b ok l2 e
    rcases List.eq_nil_or_concat l2 with rfl | ⟨l2', x, rfl⟩
    · have := congrArg List.getLast? e
      simp at this
    · rw [List.concat_eq_append, ← List.cons_append, ← List.append_assoc] at e
      obtain ⟨k', n', h1, h2, h3⟩ := ih l1 dst b ok l2' (List.append_inj' e rfl).1
      exact ⟨k', n', h1, by omega, h3⟩
  | @send k n l d c o _ hs ih =>
    intro l1 dst b ok l2 e
    rcases List.eq_nil_or_concat l2 with rfl | ⟨l2', x, rfl⟩
    · obtain ⟨_, e2⟩ := List.append_inj' e rfl
      simp only [List.cons.injEq, Act.send.injEq, and_true] at e2
      obtain ⟨_, rfl, _⟩ := e2
      exact ⟨k, n, Nat.le_refl _, Nat.le_refl _, hs⟩
    · rw [List.concat_eq_append, ← List.cons_append, ← List.append_assoc] at e
      exact ih l1 dst b ok l2' (List.append_inj' e rfl).1

/-- Not vacuous: the delays that are reported in the example.  The SYN is dated 0 and met at 1000 (and answered at 2000); the Data packet is dated 400 and met at 5000 (and answered at 6000). -/
example : accept stampEnv 1 (arr (dg .syn 5 1 0)) (.ok here) = .made (.ok ()) (server stampEnv) peer ∧
    Run stampEnv (server stampEnv) (runs stampEnv 20 stampOps (server stampEnv)) ∧
    (sent (runs stampEnv 20 stampOps (server stampEnv))).map (fun b => (kind b, delayOf b)) = [(2, 2000), (0, 1000), (2, 5600), (0, 1000), (1, 0)] := by
  refine ⟨by decide +kernel, run_runs 20 _ .refl (by decide +kernel), by decide +kernel⟩

/-- **C86** is false for FINs: the FIN reports no delay, though that of the latest packet is known. -/
theorem C86_counterexample_fin : ∃ (E : Env) (w : World) (b : Bytes), Reach E w ∧ Sent w peer b ∧ kind b = 1 ∧ delayOf b = 0 ∧ w.s.theirDelay = 7100 :=
  ⟨stampEnv, runs stampEnv 20 stampOps (server stampEnv), (finPacket (runs stampEnv 20 stampOps (server stampEnv)).s 11000).bytes,
    reach_server 20 _ (by decide +kernel) (by decide +kernel), ⟨true, by decide +kernel⟩, by decide +kernel, by decide +kernel, by decide +kernel⟩

/-- **C86** is false for a packet that is repeated after a timeout: it reports what was measured when it was sent first, though a later packet was received. -/
theorem C86_counterexample_repeat : ∃ (E : Env) (w : World) (b : Bytes), Reach E w ∧ (sent w).getLast? = some b ∧ kind b = 0 ∧ stampOf b = 7000 ∧
    delayOf b = 1000 ∧ w.s.theirDelay = 4600 := by
  refine ⟨env [arr (stampedDg 400 (dg .data 6 2 99 [7])), .fail .timedOut] (now := milliClock), _, _, reach_server 20 [.sendTo [1], .recvFrom 10, .flush] (by decide +kernel) (by decide +kernel),
    rfl, ?_, ?_, ?_, ?_⟩ <;> decide +kernel

/-- **C86**: a delay is the distance of two clocks, whichever is ahead.  The clock of the sender of these two packets is ahead; they have the same timestamp, the second arrives later, and its delay is reported as
the smaller one. -/
theorem C86_counterexample_ahead : ∃ (E : Env) (w : World) (b1 b2 : Bytes), Reach E w ∧ (sent w).drop 1 = [b1, b2] ∧
    E.net 0 = arr (stampedDg 9000 (dg .data 6 2 99 [7])) ∧ E.net 1 = arr (stampedDg 9000 (dg .data 6 3 99 [7])) ∧
    stampOf b1 = 4000 ∧ delayOf b1 = 5000 ∧ stampOf b2 = 6000 ∧ delayOf b2 = 3000 := by
  refine ⟨env [arr (stampedDg 9000 (dg .data 6 2 99 [7])), arr (stampedDg 9000 (dg .data 6 3 99 [7]))] (now := milliClock), _, _, _,
    reach_server 20 [.recvFrom 10, .recvFrom 10] (by decide +kernel) (by decide +kernel), rfl, rfl, rfl, ?_, ?_, ?_, ?_⟩ <;> decide +kernel

end Utp
