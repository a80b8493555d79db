import Verif.Props.Safety
import Verif.Props.Window
import Verif.Props.Handshake
import Verif.Spec.Crash
/-!
# C45 for builds with overflow checks: where the panics come from
-/

namespace Utp
open M Spec

variable {E : Env}

theorem step_notSynSent {V : Ctx} {a b : World} (h : Step E V a b) (hn : a.s.state ≠ .synSent) : b.s.state ≠ .synSent := by
  cases step_state h <;> simp_all

theorem Overflow.crash {w : World} (h : Overflow E .any w) (hc : E.checks = true) (hi : InFlight E w.s) : Crash E w := by
  have hf : w.s.currWindow.toNat = totalSize w.s.sendWindow := by
    have := hi.2 hc
    rw [hi.1, BitVec.toNat_ofNat]
    omega
  cases h with
  | buffered h1 h2 => exact .buffered h1 h2
  | timeout h => exact .timeout (by omega)
  | sack pkt src exts e i hg ht hx he hs hi hb ho =>
    obtain ⟨k, b, n, _, _, _, hp⟩ := id hg
    obtain ⟨d, hd, hb', _, l, hl, hm⟩ := C03_accepted hp
    rw [hx, Option.some.injEq] at hl
    subst hl
    have hmem : (e.ty.toU8, e.data) ∈ d.exts.map (fun e => (e.code, e.data)) := by rw [← hm]; exact List.mem_map_of_mem he
    obtain ⟨x, hx, hxe⟩ := List.mem_map.mp hmem
    simp only [Prod.mk.injEq] at hxe
    rw [← hxe.2] at hi hb
    exact .sack pkt src d x i hg ht hd (by rw [C02_lossless hp, hb']) hx (by rw [hxe.1, hs]; rfl) hi hb ho
  | ack pkt src hg ht ha => exact .ack pkt src hg ht ha
  | dupAcks h =>
    have := w.s.dupAcks.isLt
    exact .duplicates (by omega)
  | syn pkt src hg ht hi hst => exact .syn pkt src hg ht hi hst
  | synAck h1 h2 => exact .synAck h2 h1
  | push p hp h =>
    have := hp.2.2
    simp only [BitVec.toNat_ofNat, Packet.len] at h
    exact .flight (by omega)
  | window h => exact .flight (by omega)
  | advance h => exact absurd h (C17_no_underflow hi)

/-- An operation panics only in builds with overflow checks, and only in one of the situations listed in `Crash`.  (What is missing for C45: these situations do occur.) -/
theorem C45_debug_partial {w : World} (hw : Reach E w) (fuel : Nat) (op : Op)
    (hp : (runOp E fuel op w).1 = .panic) : E.checks = true ∧ Crash E (runOp E fuel op w).2 := by
  have h := at_runOp (E := E) .any fuel op (fun _ _ => ⟨trivial, trivial⟩) (fun _ => trivial) (fun _ => trivial) (reach_any hw)
    (fun buf _ => queue_any (reach_any hw) buf)
  obtain ⟨hc, hs, ho⟩ := h.2.1 hp
  exact ⟨hc, ho.crash hc (hs.inv (I := fun w => InFlight E w.s) (fun _ _ => step_inFlight) (C17_exact hw))⟩

/-- Neither the number received last nor that of a buffered packet is 65535. -/
def LowNumbers (w : World) : Prop := w.s.ackNr ≠ 65535 ∧ ∀ p ∈ w.s.incoming, p.seqNr ≠ 65535

theorem step_lowNumbers (hE : FarFromWrap E) {V : Ctx} {a b : World} (h : Step E V a b) (hl : LowNumbers a) : LowNumbers b := by
  have hadv : ∀ s : Socket, s.ackNr ≠ 65535 → (∀ p ∈ s.incoming, p.seqNr ≠ 65535) →
      s.advanceIncoming.ackNr ≠ 65535 ∧ ∀ p ∈ s.advanceIncoming.incoming, p.seqNr ≠ 65535 := by
    intro s h1 h2
    unfold Socket.advanceIncoming
    split
    · exact ⟨h1, h2⟩
    · rename_i p rest hs
      exact ⟨h2 p (by simp [hs]), fun q hq => h2 q (by simp [hs, hq])⟩
  unfold LowNumbers at *
  cases h with
  | arrive pkt src hg =>
    simp only [setS_s, Socket.bumpAck]
    split
    · exact ⟨hE.seq _ _ _ hg, hl.2⟩
    · exact hl
  | syn pkt src r hg => exact ⟨hE.seq _ _ _ hg, hl.2⟩
  | synAck pkt src t hg => exact ⟨hE.seq _ _ _ hg, hl.2⟩
  | insert pkt src hg =>
    refine ⟨hl.1, fun p hp => ?_⟩
    rcases mem_insertPkt hp with h | rfl
    · exact hl.2 p h
    · exact hE.seq _ _ _ hg
  | deliverPending len h =>
    simp only [setS_s, Socket.takePending]
    split
    · exact hadv _ hl.1 hl.2
    · exact hl
  | deliverHead p rest pl len h1 h2 =>
    simp only [setS_s, Socket.takeHead]
    split
    · exact hadv _ hl.1 hl.2
    · exact hl
  | measure pkt src i p t s' hg ht _ _ hf hp hm => simpa [onNewAck_ackNr hm, onNewAck_incoming hm] using hl
  | advance s' hg hm => simpa [advanceSendWindow_ackNr hm, advanceSendWindow_incoming hm] using hl
  | _ => simpa [enqueue, Socket.halveWindow] using hl

/-- As long as no arriving packet has a number near the end of the 16-bit range, an operation panics only when the timeout, the
count of duplicate acknowledgements or the bytes in flight exhaust 64, 32 and 32 bits.  (What is missing for C45: numbers
near the end of the range.) -/
theorem C45_far_partial (hE : FarFromWrap E) {w : World} (hw : Reach E w) (hl : LowNumbers w) (hn : w.s.state ≠ .synSent)
    (fuel : Nat) (op : Op) (hp : (runOp E fuel op w).1 = .panic) :
    2 ^ 63 ≤ (runOp E fuel op w).2.s.congTimeout.toNat ∨ (runOp E fuel op w).2.s.dupAcks.toNat = 2 ^ 32 - 1 ∨
      2 ^ 32 ≤ totalSize (runOp E fuel op w).2.s.sendWindow + 1400 := by
  have h0 := at_runOp (E := E) .any fuel op (fun _ _ => ⟨trivial, trivial⟩) (fun _ => trivial) (fun _ => trivial) (reach_any hw)
    (fun buf _ => queue_any (reach_any hw) buf)
  have hl' : LowNumbers (runOp E fuel op w).2 := (h0.2.1 hp).2.1.inv (I := LowNumbers) (fun _ _ => step_lowNumbers hE) hl
  cases (C45_debug_partial hw fuel op hp).2 with
  | buffered h1 h2 => exact absurd h1 hl'.1
  | ack pkt src hg ht ha => exact absurd ha (hE.ack _ _ _ hg ht)
  | sack pkt src d e i hg ht hd hb he hc hi hbit ho =>
    have := hE.sack _ _ _ hg ht d hd hb e he
    omega
  | syn pkt src hg ht hi => exact absurd hi (hE.id _ _ _ hg ht)
  | synAck h => exact absurd h ((h0.2.1 hp).2.1.inv (I := fun w => w.s.state ≠ .synSent) (fun _ _ => step_notSynSent) hn)
  | timeout h => exact .inl h
  | duplicates h => exact .inr (.inl h)
  | flight h => exact .inr (.inr h)

/-- `connect` does not panic in any build. -/
theorem C45_connect {fuel : Nat} {resolved : Except ErrorKind (List Addr)} {wild : Except ErrorKind Addr} {r : Res Unit} {w : World}
    (h : connect E fuel resolved wild = .ok (r, w)) : r ≠ .panic := by
  obtain ⟨_, _, _, blocks, tail, _, _, _, _, he⟩ := C39_connect_partial h
  cases he <;> simp

/-- `accept` panics exactly when overflow checks are on, a SYN with connection identifier 65535 arrived, and the socket for
the new connection could be bound. -/
theorem C45_accept_iff {fuel : Nat} {ev : NetEvent} {bound : Except ErrorKind Addr} :
    ((accept E fuel ev bound = .panic) ∨ ∃ w src, accept E fuel ev bound = .made .panic w src) ↔
      E.checks = true ∧ ∃ b src pkt la, ev = .dgram b src ∧ Packet.tryFrom (b.take 1500) = some (.ok pkt) ∧
        pkt.getType = some .syn ∧ pkt.connectionId = 65535 ∧ bound = .ok la := by
  unfold accept
  cases ev with
  | never => simp
  | fail k => simp
  | dgram b src =>
    simp only [BUF_SIZE, NetEvent.dgram.injEq]
    rcases hp : Packet.tryFrom (b.take 1500) with _ | r
    · rcases C01_decides (b.take 1500) with ⟨_, h⟩ | ⟨_, h⟩ <;> simp [h] at hp
    · cases r with
      | error e =>
        simp only [reduceCtorEq, exists_false, or_self, false_iff, not_and, not_exists]
        rintro _ _ _ pkt la ⟨rfl, rfl⟩ h
        rw [hp] at h
        simp at h
      | ok pkt =>
        simp only
        obtain ⟨⟨ty, hty, _⟩, _⟩ := C02_first_bytes hp
        rw [hty]
        simp only
        split
        · rename_i hne
          simp only [reduceCtorEq, exists_false, or_self, false_iff, not_and, not_exists]
          rintro _ _ _ pkt' la ⟨rfl, rfl⟩ h h'
          rw [hp] at h
          simp only [Option.some.injEq, Except.ok.injEq] at h
          rw [← h, hty] at h'
          simp at h'
          exact absurd h' hne
        · rename_i hsyn
          simp only [ne_eq, Decidable.not_not] at hsyn
          subst hsyn
          cases bound with
          | error k => simp
          | ok la =>
            simp only [reduceCtorEq, false_or, AcceptRes.made.injEq]
            have key : (acceptM E fuel pkt src (freshWorld E la src)).1 = .panic ↔ E.checks = true ∧ pkt.connectionId = 65535 := by
              rw [acceptM, handlePacket_syn_new fuel _ _ hty rfl]
              by_cases hc : E.checks = true ∧ pkt.connectionId = 65535
              · rw [if_pos hc]
                simp [hc]
              · rw [if_neg hc]
                simp only [udpSend, hc, iff_false]
                split <;> simp
            constructor
            · rintro ⟨w, s', h, -⟩
              have := key.mp h
              exact ⟨this.1, b, src, pkt, la, ⟨rfl, rfl⟩, hp, hty, this.2, rfl⟩
            · rintro ⟨hc, b', src', pkt', la', ⟨rfl, rfl⟩, hp', _, hi, _⟩
              rw [hp] at hp'
              simp only [Option.some.injEq, Except.ok.injEq] at hp'
              exact ⟨_, _, key.mpr ⟨hc, hp' ▸ hi⟩, rfl, rfl⟩

section
open Sample

/-- With overflow checks a State packet with a selective ack whose bits reach beyond the number 65535 makes `recv_from`
panic (`packet.ack_nr() + 2 + i as u16`, src/socket.rs:1091) while data is outstanding. -/
theorem C45_counterexample_sack :
    let E := env [arr (sackDg 6 2 65530 [0x0F, 0, 0, 0])] true
    results E 10 [.sendTo [1], .recvFrom 10] (server E) = [.ok (.count 1), .panic] := by decide +kernel

/-- The only unset bit stands for 65536. -/
example : let E := env [arr (sackDg 6 2 65530 [0xEF, 0xFF, 0xFF, 0xFF])] true
    results E 10 [.sendTo [1], .recvFrom 10] (server E) = [.ok (.count 1), .panic] := by decide +kernel

/-- The only unset bit stands for 65535. -/
example : let E := env [arr (sackDg 6 2 65530 [0xF7, 0xFF, 0xFF, 0xFF])] true
    results E 10 [.sendTo [1], .recvFrom 10] (server E) = [.ok (.count 1), .pending] := by decide +kernel

/-- A reachable socket that panics, to which `C45_debug_partial` applies. -/
example : let E := env [arr (sackDg 6 2 65530 [0x0F, 0, 0, 0])] true
    let w := runs E 10 [.sendTo [1]] (server E)
    Reach E w ∧ (runOp E 10 (.recvFrom 10) w).1 = .panic :=
  ⟨reach_server _ _ (by decide +kernel) (by decide +kernel), by decide +kernel⟩

/-- A network far from the end of the number range: one data packet arrives and is read. -/
example : let E := env [arr (dg .data 6 2 100 [1])] true
    LowNumbers (server E) ∧ (runOp E 10 (.recvFrom 10) (server E)).1 = .ok (.bytes [1] peer) := by
  refine ⟨⟨by decide +kernel, by decide +kernel⟩, by decide +kernel⟩

/-- Nothing ever arrives. -/
def deafAge : Env := env (List.replicate 70 (.fail .timedOut)) true

/-- A case of `C45_far_partial`: the user allows a hundred attempts, and the timeout is doubled until it overflows. -/
example : let w := runs deafAge 80 [.setMaxRetries 100] (server deafAge)
    (runOp deafAge 80 (.recvFrom 9) w).1 = .panic ∧
    (2 ^ 63 ≤ (runOp deafAge 80 (.recvFrom 9) w).2.s.congTimeout.toNat ∨ (runOp deafAge 80 (.recvFrom 9) w).2.s.dupAcks.toNat = 2 ^ 32 - 1 ∨
      2 ^ 32 ≤ totalSize (runOp deafAge 80 (.recvFrom 9) w).2.s.sendWindow + 1400) := by
  have hn : ∀ k b src, deafAge.net k ≠ .dgram b src := by
    intro k b src h
    simp only [deafAge, env, List.getD_eq_getElem?_getD, List.getElem?_replicate] at h
    split at h <;> simp at h
  have hr : ∀ w pkt src, ¬ Received deafAge w pkt src := fun w pkt src ⟨k, b, _, _, _, h, _⟩ => hn k b src h
  have hp : (runOp deafAge 80 (.recvFrom 9) (runs deafAge 80 [.setMaxRetries 100] (server deafAge))).1 = .panic := by decide +kernel
  refine ⟨hp, C45_far_partial ⟨fun w p s h => (hr w p s h).elim, fun w p s h => (hr w p s h).elim, fun w p s h => (hr w p s h).elim, fun w p s h => (hr w p s h).elim⟩ (reach_server _ _ (by decide +kernel) (by decide +kernel))
    ⟨by decide +kernel, by decide +kernel⟩ (by decide +kernel) 80 _ hp⟩

end

end Utp
