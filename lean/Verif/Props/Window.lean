import Verif.Props.Congestion
import Verif.Props.Stream
/-!
# C16, C17, C21: the send window
-/

namespace Utp
open M

variable {E : Env} {P : Op → Res Out → Prop}

/-! ### C16 -/

/-- The packets of `l` have the consecutive sequence numbers `base`, `base + 1`, … modulo 2^16. -/
def Consecutive (base : U16) (l : List Packet) : Prop :=
  ∀ i p, l[i]? = some p → p.seqNr = base + BitVec.ofNat 16 i

theorem ofNat16_inj {base : U16} {i j : Nat} (hi : i < 65536) (hj : j < 65536)
    (h : base + BitVec.ofNat 16 i = base + BitVec.ofNat 16 j) : i = j := by
  have h1 := congrArg BitVec.toNat h
  simp only [BitVec.toNat_add, BitVec.toNat_ofNat] at h1
  omega

/-- An acknowledgement of the `k`-th outstanding packet forgets exactly the first `k + 1` packets, wherever the
sequence numbers wrap; nothing but the bytes in flight changes with it. -/
theorem C16_cumulative {s s' : Socket} {base : U16} {k : Nat} (hc : Consecutive base s.sendWindow)
    (hl : s.sendWindow.length ≤ 65536) (hk : k < s.sendWindow.length) (ha : s.lastAcked = base + BitVec.ofNat 16 k)
    (h : s.advanceSendWindow E = some s') :
    s'.sendWindow = s.sendWindow.drop (k + 1) ∧ s' = { s with sendWindow := s'.sendWindow, currWindow := s'.currWindow } := by
  have hf : (s.sendWindow.findIdx? fun p => p.seqNr == s.lastAcked) = some k := by
    rw [List.findIdx?_eq_some_iff_getElem]
    refine ⟨hk, ?_, ?_⟩
    · have := hc k _ (List.getElem?_eq_getElem hk)
      simp [this, ha]
    · intro j hj
      have := hc j _ (List.getElem?_eq_getElem (by omega))
      simp only [this, ha, beq_iff_eq]
      intro e
      have := ofNat16_inj (by omega) (by omega) e
      omega
  unfold Socket.advanceSendWindow at h
  simp only [hf] at h
  split at h
  · simp at h
  · simp only [Option.some.injEq] at h
    rw [← h]; simp

/-- An acknowledgement of any other number forgets nothing and changes nothing. -/
theorem C16_other {s : Socket} (ha : ∀ p ∈ s.sendWindow, p.seqNr ≠ s.lastAcked) : s.advanceSendWindow E = some s := by
  have hf : (s.sendWindow.findIdx? fun p => p.seqNr == s.lastAcked) = none := by
    rw [List.findIdx?_eq_none_iff]
    intro p hp
    simpa using ha p hp
  unfold Socket.advanceSendWindow
  simp [hf]

/-- The ways in which the send window may change: not at all; the timestamp of the oldest packet is refreshed;
a packet is added at the end; or it loses a prefix, which ends with the first packet whose number was
acknowledged by a State packet received. -/
def WindowRule (E : Env) (a b : World) : Prop :=
  b.s.sendWindow = a.s.sendWindow ∨
  (∃ p rest t, a.s.sendWindow = p :: rest ∧ b.s.sendWindow = p.setTimestamp t :: rest) ∨
  (∃ p, b.s.sendWindow = a.s.sendWindow ++ [p]) ∨
  (∃ pre p pkt src, a.s.sendWindow = pre ++ p :: b.s.sendWindow ∧ (∀ q ∈ pre, q.seqNr ≠ p.seqNr) ∧
    Received E a pkt src ∧ pkt.getType = some .state ∧ pkt.ackNr = p.seqNr)

theorem advance_window {s s' : Socket} (h : s.advanceSendWindow E = some s') :
    s'.sendWindow = s.sendWindow ∨
    ∃ pre p, s.sendWindow = pre ++ p :: s'.sendWindow ∧ (∀ q ∈ pre, q.seqNr ≠ p.seqNr) ∧ p.seqNr = s.lastAcked := by
  unfold Socket.advanceSendWindow at h
  split at h
  · simp only [Option.some.injEq] at h; exact .inl (by rw [h])
  · rename_i pos hf
    split at h
    · simp at h
    · simp only [Option.some.injEq] at h
      obtain ⟨h1, h2, h3⟩ := List.findIdx?_eq_some_iff_getElem.mp hf
      refine .inr ⟨s.sendWindow.take pos, s.sendWindow[pos], ?_, ?_, by simpa using h2⟩
      · rw [← h]
        simp
      · intro q hq
        obtain ⟨j, hj, rfl⟩ := List.getElem_of_mem hq
        rw [List.length_take] at hj
        have h3' := h3 j (by omega)
        simp only [List.getElem_take]
        have h2' : s.sendWindow[pos].seqNr = s.lastAcked := by simpa using h2
        rw [h2']
        simpa using h3'

theorem step_window_inner {V : Ctx} {a b : World} (h : Step E V a b) :
    b.s.sendWindow = a.s.sendWindow ∨
    (∃ p rest t, a.s.sendWindow = p :: rest ∧ b.s.sendWindow = p.setTimestamp t :: rest) ∨
    (∃ p, V.que ∧ b.s.sendWindow = a.s.sendWindow ++ [p]) ∨
    (∃ pre p pkt src, a.s.sendWindow = pre ++ p :: b.s.sendWindow ∧ (∀ q ∈ pre, q.seqNr ≠ p.seqNr) ∧
      Received E a pkt src ∧ pkt.getType = some .state ∧ pkt.ackNr = p.seqNr) := by
  cases h with
  | touch p rest t hw _ _ => exact .inr (.inl ⟨p, rest, t, hw, rfl⟩)
  | push p hq _ _ _ _ => exact .inr (.inr (.inl ⟨p, hq, rfl⟩))
  | measure pkt src i p t s' hg ht _ _ hf hp hm => exact .inl (onNewAck_sendWindow hm)
  | advance s' hg hm =>
    rcases advance_window hm with h | ⟨pre, p, h1, h2, h3⟩
    · exact .inl h
    · obtain ⟨pkt, src, hr, ht, ha⟩ := hg
      exact .inr (.inr (.inr ⟨pre, p, pkt, src, h1, h2, hr, ht, ha.trans h3.symm⟩))
  | _ => exact .inl (by simp [enqueue, Socket.insertIntoBuffer, Socket.halveWindow])

theorem step_window {V : Ctx} {a b : World} (h : Step E V a b) : WindowRule E a b := by
  rcases step_window_inner h with h | h | ⟨p, _, h⟩ | h
  · exact .inl h
  · exact .inr (.inl h)
  · exact .inr (.inr (.inl ⟨p, h⟩))
  · exact .inr (.inr (.inr h))

/-- Along every operation the send window only changes by the rule above. -/
theorem C16_changes {w : World} (hw : Reach E w) (fuel : Nat) (op : Op) (hp : (runOp E fuel op w).1 ≠ .panic) :
    Traced E (WindowRule E) w (runOp E fuel op w).2 := op_path (fun _ _ => step_window) hw fuel op hp

/-- The window of the execution `measured`: two packets are sent, and acknowledged one after the other. -/
example : Reach measured (measuredAt 3) ∧ (runOp measured 20 (.recvFrom 9) (measuredAt 3)).1 ≠ .panic ∧
    (List.range 6).map (fun i => (measuredAt i).s.sendWindow.map Packet.seqNr) = [[], [100], [100, 101], [100, 101], [101], []] :=
  ⟨measured_reach 3 (by simp), by decide +kernel, by decide +kernel⟩

/-- Three packets around the end of the numbers; the second is acknowledged. -/
def wrapWindow : Socket :=
  let s := (Sample.server (Sample.env [])).s
  { s with sendWindow := ([65535, 0, 1] : List U16).map fun n => (Packet.withPayload [7]).setSeqNr n, currWindow := 63, lastAcked := 0 }

/-- Only the third one is left. -/
example : Consecutive 65535 wrapWindow.sendWindow ∧ wrapWindow.lastAcked = 65535 + BitVec.ofNat 16 1 ∧
    ∃ s', wrapWindow.advanceSendWindow (Sample.env []) = some s' ∧ s'.sendWindow = wrapWindow.sendWindow.drop 2 ∧ s'.currWindow = 21 := by
  have h1 : (wrapWindow.advanceSendWindow (Sample.env [])).map (fun s' => (s'.sendWindow, s'.currWindow)) = some (wrapWindow.sendWindow.drop 2, 21) := by decide +kernel
  have h3 : wrapWindow.sendWindow.map Packet.seqNr = [65535, 0, 1] := by decide +kernel
  refine ⟨fun i p hp => ?_, rfl, ?_⟩
  · have h4 := congrArg (·[i]?) h3
    simp only [List.getElem?_map, hp, Option.map_some] at h4
    match i, h4 with
    | 0, h4 => simpa using h4
    | 1, h4 => simpa using h4
    | 2, h4 => simpa using h4
    | i + 3, h4 => simp at h4
  · cases hs : wrapWindow.advanceSendWindow (Sample.env []) with
    | none => rw [hs] at h1; simp at h1
    | some s' => rw [hs] at h1; simp only [Option.map_some, Option.some.injEq, Prod.mk.injEq] at h1; exact ⟨s', rfl, h1⟩

/-! ### C17 -/

/-- The count of bytes in flight is the total size of the outstanding packets as a 32-bit value; in builds with
overflow checks it is exactly that number. -/
def InFlight (E : Env) (s : Socket) : Prop :=
  s.currWindow = BitVec.ofNat 32 (totalSize s.sendWindow) ∧ (E.checks = true → totalSize s.sendWindow < 2 ^ 32)

theorem subLens_some : ∀ (l : List Packet) (n : Nat), n < 2 ^ 32 → totalSize l ≤ n →
    Socket.subLens E (BitVec.ofNat 32 n) l ≠ none := by
  intro l
  induction l with
  | nil => intro n _ _; simp [Socket.subLens]
  | cons p l ih =>
    intro n hn hl
    simp only [totalSize, List.map_cons, List.sum_cons] at hl
    unfold Socket.subLens
    simp only
    rw [if_neg]
    · have e : BitVec.ofNat 32 n - BitVec.ofNat 32 p.len = BitVec.ofNat 32 (n - p.bytes.length) := by
        apply BitVec.eq_of_toNat_eq
        simp only [BitVec.toNat_sub, BitVec.toNat_ofNat, Packet.len]
        omega
      rw [e]
      exact ih _ (by omega) (by simp only [totalSize]; omega)
    · rintro ⟨_, h⟩
      rw [BitVec.lt_def] at h
      simp only [BitVec.toNat_ofNat, Packet.len] at h
      omega

/-- With the accounting exact, forgetting acknowledged packets never underflows (never panics). -/
theorem C17_no_underflow {s : Socket} (h : InFlight E s) : s.advanceSendWindow E ≠ none := by
  unfold Socket.advanceSendWindow
  split
  · simp
  · rename_i pos hf
    have hsub : Socket.subLens E s.currWindow (s.sendWindow.take (pos + 1)) ≠ none := by
      by_cases hc : E.checks = true
      · rw [h.1]
        refine subLens_some _ _ (h.2 hc) ?_
        have := totalSize_append (s.sendWindow.take (pos + 1)) (s.sendWindow.drop (pos + 1))
        rw [List.take_append_drop] at this
        omega
      · exact subLens_release (by simpa using hc) _ _
    split
    · rename_i hn; exact absurd hn hsub
    · simp

theorem step_inFlight {a b : World} (h : Step E .any a b) (hi : InFlight E a.s) : InFlight E b.s := by
  unfold InFlight at *
  cases h with
  | touch p rest t hw _ _ =>
    have : totalSize (p.setTimestamp t :: rest) = totalSize a.s.sendWindow := by rw [hw]; simp [totalSize]
    simpa [this] using hi
  | push p _ hv _ _ ho =>
    simp only [setS_s]
    rw [totalSize_append]
    have hp : totalSize [p] = p.bytes.length := by simp [totalSize]
    rw [hp]
    refine ⟨?_, ?_⟩
    · rw [hi.1]
      apply BitVec.eq_of_toNat_eq
      simp only [BitVec.toNat_add, BitVec.toNat_ofNat, Packet.len]
      omega
    · intro hc
      have h1 := ho hc
      have h2 := hi.2 hc
      rw [hi.1] at h1
      simp only [BitVec.toNat_ofNat, Packet.len] at h1
      have h3 := hv.2.2
      omega
  | measure pkt src i p t s' hg ht _ _ hf hp hm =>
    simpa [onNewAck_sendWindow hm, onNewAck_currWindow hm] using hi
  | advance s' hg hm =>
    simp only [setS_s]
    unfold Socket.advanceSendWindow at hm
    split at hm
    · simp only [Option.some.injEq] at hm; rw [← hm]; exact hi
    · rename_i pos hf
      split at hm
      · simp at hm
      · rename_i c hc
        simp only [Option.some.injEq] at hm
        rw [← hm]
        have ht := totalSize_append (a.s.sendWindow.take (pos + 1)) (a.s.sendWindow.drop (pos + 1))
        rw [List.take_append_drop] at ht
        refine ⟨?_, fun h => by have := hi.2 h; simp only; omega⟩
        rw [subLens_exact _ _ _ hc, hi.1, ht]
        apply BitVec.eq_of_toNat_eq
        simp only [BitVec.toNat_sub, BitVec.toNat_ofNat]
        omega
  | _ => simpa [enqueue, Socket.insertIntoBuffer, Socket.halveWindow] using hi

theorem start_inFlight {w : World} (h : Start E w) : InFlight E w.s := by
  cases h with
  | bound => simp [InFlight, freshWorld, Socket.fromRawParts, totalSize]
  | connecting la a0 a st _ hs _ _ _ => simp [InFlight, hs, Socket.fromRawParts, totalSize]
  | accepted => simp [InFlight, acceptSocket, Socket.fromRawParts, totalSize]

/-- In every reachable state the bytes in flight are accounted exactly. -/
theorem C17_exact {w : World} (hw : Reach E w) : InFlight E w.s :=
  reach_inv (I := fun w => InFlight E w.s) (fun _ => start_inFlight) (fun _ _ h _ => step_inFlight h) hw

/-- Also in every state inside an operation, so that no operation ever underflows the count. -/
theorem C17_always {w : World} (hw : Reach E w) (fuel : Nat) (op : Op) (hp : (runOp E fuel op w).1 ≠ .panic) :
    Traced E (fun a b => InFlight E a.s ∧ InFlight E b.s) w (runOp E fuel op w).2 := by
  have h := op_path (R := fun a b => InFlight E a.s → InFlight E b.s) (fun _ _ => step_inFlight) hw fuel op hp
  have : ∀ {a b}, Traced E (fun a b => InFlight E a.s → InFlight E b.s) a b → InFlight E a.s →
      InFlight E b.s ∧ Traced E (fun a b => InFlight E a.s ∧ InFlight E b.s) a b := by
    intro a b h
    induction h with
    | refl => exact fun h => ⟨h, .refl _⟩
    | tail _ hs ih => exact fun h => ⟨hs.2 (ih h).1, .tail (ih h).2 ⟨hs.1, (ih h).1, hs.2 (ih h).1⟩⟩
  exact (this h (C17_exact hw)).2

/-- The count is zero when nothing is outstanding. -/
theorem C17_zero {w : World} (hw : Reach E w) (h : w.s.sendWindow = []) : w.s.currWindow = 0 := by
  rw [(C17_exact hw).1, h]; simp [totalSize]

/-- The bytes in flight in the execution `measured`. -/
example : Reach measured (measuredAt 5) ∧ (List.range 6).map (fun i => (measuredAt i).s.currWindow) = [0, 21, 43, 43, 22, 0] ∧
    totalSize (measuredAt 2).s.sendWindow = 43 := ⟨measured_reach 5 (by simp), by decide +kernel, by decide +kernel⟩

/-! ### C21 -/

/-- The packets of `l` have the consecutive sequence numbers that end just before `n`. -/
def Numbered (n : U16) (l : List Packet) : Prop :=
  ∃ base, Consecutive base l ∧ base + BitVec.ofNat 16 l.length = n

theorem consecutive_congr {base : U16} {l l' : List Packet} (h : l.map Packet.seqNr = l'.map Packet.seqNr)
    (hc : Consecutive base l) : Consecutive base l' := by
  intro i p hp
  have h1 : (l'.map Packet.seqNr)[i]? = some p.seqNr := by simp [hp]
  rw [← h] at h1
  simp only [List.getElem?_map, Option.map_eq_some_iff] at h1
  obtain ⟨q, hq, he⟩ := h1
  rw [← he]; exact hc i q hq

theorem Numbered.congr {n : U16} {l l' : List Packet} (h : l.map Packet.seqNr = l'.map Packet.seqNr)
    (hc : Numbered n l) : Numbered n l' := by
  obtain ⟨base, h1, h2⟩ := hc
  have := congrArg List.length h
  simp only [List.length_map] at this
  exact ⟨base, consecutive_congr h h1, by rw [← this]; exact h2⟩

theorem ofNat16_add (a b : Nat) (n : U16) : n + BitVec.ofNat 16 a + BitVec.ofNat 16 b = n + BitVec.ofNat 16 (a + b) := by
  apply BitVec.eq_of_toNat_eq
  simp only [BitVec.toNat_add, BitVec.toNat_ofNat]
  omega

theorem Numbered.suffix {n : U16} {a b : List Packet} (h : Numbered n (a ++ b)) : Numbered n b := by
  obtain ⟨base, h1, h2⟩ := h
  refine ⟨base + BitVec.ofNat 16 a.length, ?_, ?_⟩
  · intro i p hp
    rw [ofNat16_add]
    refine h1 (a.length + i) p ?_
    rw [List.getElem?_append_right (by omega)]
    simpa using hp
  · rw [ofNat16_add, ← h2, List.length_append]

theorem Numbered.last {n : U16} {a : List Packet} {p : Packet} (h : Numbered n (a ++ [p])) : p.seqNr + 1 = n := by
  obtain ⟨base, h1, h2⟩ := h.suffix
  have := h1 0 p (by simp)
  rw [this, ← h2]
  simp

/-- A State packet was received that acknowledges the number before `n`. -/
def AckRecv (E : Env) (w : World) (n : U16) : Prop :=
  ∃ pkt src, Received E w pkt src ∧ pkt.getType = some .state ∧ pkt.ackNr + 1 = n

theorem AckRecv.mono {w w' : World} {n : U16} (h : AckRecv E w n) (hn : w.nNet ≤ w'.nNet) : AckRecv E w' n := by
  obtain ⟨pkt, src, h1, h2⟩ := h
  exact ⟨pkt, src, h1.mono hn, h2⟩

/-- Outstanding packets followed by `X` are numbered up to the next sequence number; if there are none (and
there were some, `f`), the last one was acknowledged. -/
structure Acct (E : Env) (f : Prop) (X : List Packet) (w : World) : Prop where
  num : Numbered w.s.seqNr (w.s.sendWindow ++ X)
  ack : f → w.s.sendWindow ++ X = [] → AckRecv E w w.s.seqNr

theorem step_unsent {V : Ctx} (hq : ¬ V.que) (hn : ¬ V.enq) {a b : World} (h : Step E V a b) : b.s.unsent = a.s.unsent := by
  cases h with
  | measure pkt src i p t s' hg ht _ _ hf hp hm => exact onNewAck_unsent hm
  | advance s' hg hm => exact advanceSendWindow_unsent hm
  | pop p rest h => exact absurd h hq
  | enqueue c h => exact absurd h hn
  | _ => simp [Socket.insertIntoBuffer, Socket.halveWindow]

theorem steps_acct {V : Ctx} (hq : ¬ V.que) (hn : ¬ V.enq) {f : Prop} {X : List Packet} {a b : World} (h : Steps E V a b)
    (he : Established a) (ha : Acct E f X a) : Acct E f X b ∧ b.s.unsent = a.s.unsent := by
  induction h with
  | refl => exact ⟨ha, rfl⟩
  | @tail b c h hs ih =>
    obtain ⟨ih, ihu⟩ := ih
    refine ⟨?_, (step_unsent hq hn hs).trans ihu⟩
    have hseq := (steps_fixed hn (Steps.single hs) (he.steps h)).1
    have hnet := step_nNet hs
    rcases step_window_inner hs with hw | ⟨p, rest, t, h1, h2⟩ | ⟨p, hqq, _⟩ | ⟨pre, p, pkt, src, h1, h2, h3, h4, h5⟩
    · exact ⟨by rw [hseq, hw]; exact ih.num, fun hf hX => by
        rw [hw] at hX; rw [hseq]; exact (ih.ack hf hX).mono hnet⟩
    · refine ⟨?_, fun hf hX => by rw [h2] at hX; simp at hX⟩
      rw [hseq, h2]
      refine ih.num.congr ?_
      rw [h1]; simp
    · exact absurd hqq hq
    · have hnum := ih.num
      rw [h1] at hnum
      have e : pre ++ p :: c.s.sendWindow ++ X = (pre ++ [p]) ++ (c.s.sendWindow ++ X) := by simp
      rw [e] at hnum
      refine ⟨by rw [hseq]; exact hnum.suffix, fun hf hX => ?_⟩
      rw [hX, List.append_nil] at hnum
      rw [hseq]
      exact ⟨pkt, src, h3.mono hnet, h4, by rw [h5]; exact hnum.last⟩

/-- Receiving only. -/
def Ctx.inner : Ctx := ⟨Ctx.any.ok, False, False, False, True⟩

theorem VOk.inner : VOk Ctx.inner := ⟨VOk.any.ts, VOk.any.td⟩

theorem Inv.inner {w : World} (h : Inv .any w) : Inv .inner w := ⟨h.win, h.uns, h.inc, .inl trivial⟩
theorem Inv.outer {w : World} (h : Inv .inner w) : Inv .any w := ⟨h.win, h.uns, h.inc, .inl trivial⟩

theorem sendQueue_acct {f : Prop} (fuel : Nat) : ∀ n (w w' : World) (u : Unit), Inv .any w → Established w →
    Acct E f w.s.unsent w → sendQueue E fuel n w = (.ok u, w') → Acct E f [] w' := by
  intro n
  induction n with
  | zero => intro w w' u _ _ _ h; simp [sendQueue, M.never] at h
  | succ n ih =>
    intro w w' u hi he ha h
    unfold sendQueue at h
    obtain ⟨s, w1, h1, h⟩ := andThen_ok h
    simp only [getS, Prod.mk.injEq, Res.ok.injEq] at h1
    obtain ⟨rfl, rfl⟩ := h1
    rcases hu : w.s.unsent with _ | ⟨p, rest⟩
    · simp only [hu, pure_def, M.ret, Prod.mk.injEq] at h
      rw [hu] at ha
      rw [← h.2]; exact ha
    · simp only [hu] at h
      obtain ⟨_, w1, h1, h⟩ := andThen_ok h
      simp only [modS, Prod.mk.injEq] at h1
      have hw1 : w1 = w.setS { w.s with unsent := rest } := h1.2.symm
      have hi1 : Inv .any w1 := by
        rw [hw1]
        exact ⟨hi.win, fun q hq => hi.uns q (by rw [hu]; exact List.mem_cons_of_mem _ hq), hi.inc, .inl trivial⟩
      have he1 : Established w1 := by rw [hw1]; exact he
      have ha1 : Acct E f (p :: rest) w1 := by rw [hw1]; rw [hu] at ha; exact ⟨ha.num, ha.ack⟩
      obtain ⟨p', w2, h2, h⟩ := andThen_ok h
      have hat := at_sendPacket (E := E) .inner (recv_ok .inner fuel BUF_SIZE) fuel
        (show Ctx.inner p from (hi.uns p (by rw [hu]; simp)).1) hi1.inner
      have hst := hat.1 (by rw [h2]; simp)
      have hpost := hat.2.2 p' (by rw [h2])
      rw [h2] at hst
      obtain ⟨ha2, hu2⟩ := steps_acct (fun h => h) (fun h => h) hst he1 ha1
      have hi2 := (hi1.inner.steps .inner hst).outer
      have he2 := he1.steps hst
      obtain ⟨s, w3, h3, h⟩ := andThen_ok h
      simp only [getS, Prod.mk.injEq, Res.ok.injEq] at h3
      obtain ⟨rfl, rfl⟩ := h3
      obtain ⟨_, w3, h3, h'⟩ := andThen_ok h
      clear h
      have hw3 : w3 = w2 := by
        unfold overflowIf at h3
        split at h3
        · simp [M.panic] at h3
        · simp only [M.ret, Prod.mk.injEq] at h3; exact h3.2.symm
      subst hw3
      obtain ⟨_, w4, h4, h⟩ := andThen_ok h'
      simp only [modS, Prod.mk.injEq] at h4
      have hw4 : w4 = w3.setS { w3.s with currWindow := w3.s.currWindow + BitVec.ofNat 32 p'.len, sendWindow := w3.s.sendWindow ++ [p'] } := h4.2.symm
      have hseq : p'.seqNr = p.seqNr := by
        rcases hpost.2 with rfl | ⟨t, d, rfl⟩
        · rfl
        · rw [setTimestampDifference_seqNr, setTimestamp_seqNr]
      refine ih w4 w' u ?_ ?_ ?_ h
      · rw [hw4]
        refine ⟨?_, hi2.uns, hi2.inc, .inl trivial⟩
        intro q hq
        simp only [setS_s, List.mem_append, List.mem_singleton] at hq
        rcases hq with hq | rfl
        · exact hi2.win q hq
        · exact hpost.1
      · rw [hw4]; exact he2
      · rw [hw4]
        have hu3 : w3.s.unsent = rest := by rw [hu2, hw1]; rfl
        refine ⟨?_, fun _ hX => by simp at hX⟩
        simp only [setS_s, hu3]
        refine ha2.num.congr ?_
        simp [hseq]

theorem Exec.run {w0 w : World} {cs : List Bytes} (h : Exec E P w0 cs w) : Run E w0 w := by
  induction h with
  | refl => exact .refl
  | op fuel op new _ hp _ _ ih => exact .op fuel op ih hp

theorem exec_inv {w0 w : World} {cs : List Bytes} (h0 : Fresh w0) (h : Exec E P w0 cs w) : Inv .any w := by
  have hi : Inv .any w0 := ⟨by simp [h0.win], by simp [h0.uns], by simp [h0.inc], .inl trivial⟩
  exact hi.steps .any (run_steps .any ⟨trivial, trivial⟩ trivial trivial dataPacket_any h.run hi)

/-- The accounting of an execution in which every `send_to` succeeded. -/
theorem exec_acct {w0 w : World} {cs : List Bytes} (h0 : Fresh w0) (h : Exec E SendsOk w0 cs w) :
    Acct E (cs ≠ []) [] w ∧ w.s.unsent = [] := by
  induction h with
  | refl => exact ⟨⟨⟨w0.s.seqNr, by simp [h0.win, Consecutive], by simp [h0.win]⟩, by simp⟩, h0.uns⟩
  | @op cs w fuel op new hx hp hok ha ih =>
    have hi := exec_inv h0 hx
    have he := (exec_stream h0 hx).est
    by_cases hop : ∃ buf, op = .sendTo buf
    · obtain ⟨buf, rfl⟩ := hop
      obtain ⟨o, ho⟩ := hok ⟨buf, rfl⟩
      rcases hr : runOp E fuel (.sendTo buf) w with ⟨r, w'⟩
      rw [hr] at ho
      simp only at ho
      subst ho
      obtain ⟨_, hcl, hun⟩ := C14_result hr
      refine ⟨?_, hun⟩
      simp only [Adds, if_neg hcl] at ha
      have hnew : chunks buf.length buf = new := Framing.unique _ _ _ (chunks_framing _ _ (Nat.le_refl _)) ha
      have hq : queued w buf = w.setS { w.s with unsent := w.s.unsent ++ framed w.s new, seqNr := w.s.seqNr + BitVec.ofNat 16 new.length } := by
        rw [queued, hnew, fold_enqueue]
      have hiq : Inv .any (queued w buf) := by
        refine ⟨by rw [hq]; exact hi.win, ?_, by rw [hq]; exact hi.inc, .inl trivial⟩
        intro p hpm
        rcases fold_enqueue_mem _ _ _ hpm with h | ⟨c, hc, n, rfl⟩
        · exact hi.uns p h
        · exact ⟨dataPacket_any _ _ (chunks_bounds _ _ c hc).1 (chunks_bounds _ _ c hc).2, dataPacket_fresh _ _⟩
      have heq : Established (queued w buf) := by rw [hq]; exact he
      have haq : Acct E (cs ++ new ≠ []) (queued w buf).s.unsent (queued w buf) := by
        obtain ⟨⟨⟨base, hb1, hb2⟩, hack⟩, hu⟩ := ih
        rw [hq]
        simp only [List.append_nil] at hb1 hb2 hack
        refine ⟨⟨base, ?_, ?_⟩, ?_⟩
        · intro i p hip
          simp only [setS_s, hu, List.nil_append] at hip
          by_cases hlt : i < w.s.sendWindow.length
          · rw [List.getElem?_append_left hlt] at hip
            exact hb1 i p hip
          · rw [List.getElem?_append_right (by omega), framed_getElem?] at hip
            simp only [Option.map_eq_some_iff] at hip
            obtain ⟨c, _, rfl⟩ := hip
            rw [(dataPacket_facts _ _).1]
            simp only [← hb2]
            rw [ofNat16_add]
            congr 2
            omega
        · simp only [setS_s, hu, List.nil_append, List.length_append, framed_length]
          rw [← hb2, ofNat16_add]
        · intro hne hX
          simp only [setS_s, hu, List.nil_append, List.append_eq_nil_iff] at hX
          have hn : new = [] := by
            have := framed_length new w.s
            rw [hX.2] at this
            exact List.eq_nil_of_length_eq_zero this.symm
          subst hn
          obtain ⟨pkt, src, h1, h2, h3⟩ := hack (by simpa using hne) hX.1
          exact ⟨pkt, src, h1, h2, by simpa using h3⟩
      have hrun : runOp E fuel (.sendTo buf) w = M.andThen (M.andThen (sendQueue E fuel fuel) (fun _ => M.ret buf.length))
          (fun n => M.ret (.count n)) (queued w buf) := by
        simp only [runOp, bind_def, pure_def]
        unfold M.andThen
        simp only [sendTo_eq (E := E) fuel buf hcl, M.andThen]
      rw [hrun] at hr
      obtain ⟨_, w1, hr, e1⟩ := andThen_ok hr
      obtain ⟨_, w2, hr, e2⟩ := andThen_ok hr
      simp only [M.ret, Prod.mk.injEq] at e1 e2
      rw [← e1.2, ← e2.2]
      exact sendQueue_acct fuel fuel _ _ _ hiq heq haq hr
    · have hnew : new = [] := by
        cases op with
        | sendTo buf => exact absurd ⟨buf, rfl⟩ hop
        | _ => exact ha
      subst hnew
      have hat := at_runOp (E := E) (V := ⟨Ctx.any.ok, False, False, True, True⟩) ⟨VOk.any.ts, VOk.any.td⟩ fuel op
        (fun buf e => absurd ⟨buf, e⟩ hop) (fun _ => trivial) (fun _ => trivial) ⟨hi.win, hi.uns, hi.inc, .inl trivial⟩ (fun buf e => absurd ⟨buf, e⟩ hop)
      obtain ⟨h1, h2⟩ := steps_acct (fun h => h) (fun h => h) (hat.1 hp) he ih.1
      rw [List.append_nil]
      exact ⟨h1, h2.trans ih.2⟩

/-- As long as every `send_to` succeeds, the outstanding packets have consecutive sequence numbers that end just
before the next one (the hypothesis of `C16_cumulative`). -/
theorem C16_consecutive {w0 w : World} {cs : List Bytes} (h0 : Fresh w0) (h : Exec E SendsOk w0 cs w) :
    ∃ base, Consecutive base w.s.sendWindow ∧ base + BitVec.ofNat 16 w.s.sendWindow.length = w.s.seqNr := by
  have := (exec_acct h0 h).1.num
  rw [List.append_nil] at this
  exact this

theorem flush_empties {w w' : World} {fuel : Nat} {o : Out} (hi : Inv .any w) (hf : runOp E fuel .flush w = (.ok o, w')) : w'.s.sendWindow = [] := by
  have hat := at_flush (E := E) .any fuel hi
  obtain ⟨u, w1, h1, h2⟩ := andThen_ok (show M.andThen (flush E fuel) (fun _ => M.ret Out.unit) w = _ from hf)
  simp only [M.ret, Prod.mk.injEq] at h2
  have := hat.2.2 u (by rw [h1])
  rw [h1] at this
  rw [← h2.2]; exact this

/-- If every `send_to` succeeded and nothing is outstanding, the last sequence number used was acknowledged. -/
theorem acked_last {w0 w : World} {cs : List Bytes} (h0 : Fresh w0) (h : Exec E SendsOk w0 cs w) (hw : w.s.sendWindow = []) (hne : cs ≠ []) :
    ∃ pkt src, Received E w pkt src ∧ pkt.getType = some .state ∧ pkt.ackNr = w0.s.seqNr + BitVec.ofNat 16 (cs.length - 1) := by
  obtain ⟨ha, hu⟩ := exec_acct h0 h
  obtain ⟨pkt, src, h1, h2, h3⟩ := ha.ack hne (by simp [hw])
  refine ⟨pkt, src, h1, h2, ?_⟩
  have hs := (exec_stream h0 h).seq
  have hpos : 0 < cs.length := List.length_pos_iff.mpr hne
  have e : w0.s.seqNr + BitVec.ofNat 16 cs.length = w0.s.seqNr + BitVec.ofNat 16 (cs.length - 1) + 1 := by
    have := ofNat16_add (cs.length - 1) 1 w0.s.seqNr
    rw [show cs.length - 1 + 1 = cs.length by omega] at this
    exact this.symm
  rw [hs, e] at h3
  exact (BitVec.add_left_inj 1).mp h3

/-- If every `send_to` succeeded, and some data was sent, and `flush` returns Ok, then a State packet was received
that acknowledges the last sequence number used; nothing is outstanding or queued. -/
theorem C21_flush {w0 w w' : World} {cs : List Bytes} {fuel : Nat} {o : Out} (h0 : Fresh w0) (h : Exec E SendsOk w0 cs w)
    (hf : runOp E fuel .flush w = (.ok o, w')) :
    w'.s.sendWindow = [] ∧ w'.s.unsent = [] ∧
    (cs ≠ [] → ∃ pkt src, Received E w' pkt src ∧ pkt.getType = some .state ∧
      pkt.ackNr = w0.s.seqNr + BitVec.ofNat 16 (cs.length - 1)) := by
  have hx : Exec E SendsOk w0 (cs ++ []) (runOp E fuel .flush w).2 :=
    .op fuel .flush [] h (by rw [hf]; simp) (fun ⟨_, e⟩ => by simp at e) rfl
  rw [hf, List.append_nil] at hx
  have hw := flush_empties (exec_inv h0 h) hf
  exact ⟨hw, (exec_acct h0 hx).2, acked_last h0 hx hw⟩

section
open Sample

/-- Two short `send_to` that succeed, and two receives after them, are an execution. -/
theorem exec_two {E : Env} {w0 : World} {a b : Bytes} (ha : Framing a [a]) (hb : Framing b [b])
    (h0 : ∀ i ∈ List.range 2, (runs E 20 ([.sendTo a, .sendTo b].take i) w0).s.state ≠ .closed)
    (hp : .panic ∉ results E 20 [.sendTo a, .sendTo b, .recvFrom 9, .recvFrom 9] w0)
    (hr : results E 20 [.sendTo a, .sendTo b] w0 = [.ok (.count a.length), .ok (.count b.length)]) :
    Exec E SendsOk w0 [a, b] (runs E 20 [.sendTo a, .sendTo b, .recvFrom 9, .recvFrom 9] w0) := by
  simp only [results, List.cons.injEq, and_true, List.mem_cons, not_or] at hp hr
  have h1 := h0 0 (by simp)
  have h2 := h0 1 (by simp)
  simp only [List.take, runs] at h1 h2 ⊢
  have x1 := Exec.op (P := SendsOk) 20 (.sendTo a) [a] (.refl (E := E) (w0 := w0)) (Ne.symm hp.1)
    (fun _ => ⟨_, hr.1⟩) (by simp only [Adds, if_neg h1]; exact ha)
  have x2 := Exec.op (P := SendsOk) 20 (.sendTo b) [b] x1 (Ne.symm hp.2.1)
    (fun _ => ⟨_, hr.2⟩) (by simp only [Adds, if_neg h2]; exact hb)
  have x3 := Exec.op (P := SendsOk) 20 (.recvFrom 9) [] x2 (Ne.symm hp.2.2.1) (fun ⟨_, h⟩ => by simp at h) rfl
  exact Exec.op (P := SendsOk) 20 (.recvFrom 9) [] x3 (Ne.symm hp.2.2.2.1) (fun ⟨_, h⟩ => by simp at h) rfl

theorem server_fresh : Fresh (server measured) :=
  ⟨by unfold Established; decide +kernel, by decide +kernel, by decide +kernel, by decide +kernel⟩

theorem measured_exec : Exec measured SendsOk (server measured) [[1], [2, 3]] (measuredAt 4) :=
  exec_two ⟨rfl, by simp, by simp, by simp⟩ ⟨rfl, by simp, by simp, by simp⟩ (by decide +kernel) (by decide +kernel) (by decide +kernel)

/-- A case of `C21_flush`: both packets are acknowledged, the last one has number 101. -/
example : ∃ w', runOp measured 20 .flush (measuredAt 4) = (.ok .unit, w') ∧ w'.s.sendWindow = [] ∧
    ∃ pkt src, Received measured w' pkt src ∧ pkt.getType = some .state ∧ pkt.ackNr = 101 := by
  have h1 : (runOp measured 20 .flush (measuredAt 4)).1 = .ok .unit := by decide +kernel
  have h2 : (server measured).s.seqNr = 100 := by decide +kernel
  have h3 := server_fresh
  have h4 := measured_exec
  generalize server measured = w0 at *
  generalize measuredAt 4 = w at *
  obtain ⟨a, -, b⟩ := C21_flush h3 h4 (Prod.ext h1 rfl)
  refine ⟨_, Prod.ext h1 rfl, a, ?_⟩
  have := b (by simp)
  rw [h2] at this
  exact this

/-- A case of `C16_consecutive`, `C14_numbering` and `C15_content`. -/
example : (measuredAt 4).s.seqNr = 102 ∧ (measuredAt 4).s.sendWindow.length = 1 ∧
    ((sent (measuredAt 4)).filterMap fun b => (Packet.mk b).payload) = [[], [1], [2, 3], [1]] := by decide +kernel

end

end Utp
