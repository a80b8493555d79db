import Verif.Lemmas.Dull
import Verif.Samples
/-!
# C121: neither the own address nor the time of the last acknowledgement is ever looked at
-/

namespace Utp
open M

variable {E : Env}

/-- **C121.**  From two worlds that differ only in the own address and in `last_acked_timestamp`, every list of operations gives the same
results, and leaves worlds that differ only in these. -/
theorem C121_runs (a : Addr) (fuel : Nat) : ∀ (ops : List Op) (w : World) (t : U32),
    results E fuel ops (w.other a t) = results E fuel ops w ∧ ∃ t', runs E fuel ops (w.other a t) = (runs E fuel ops w).other a t'
  | [], _, t => ⟨rfl, t, rfl⟩
  | op :: ops, w, t => by
    obtain ⟨t1, h1⟩ := dull_runOp (E := E) (a := a) fuel op w t
    obtain ⟨h2, h3⟩ := C121_runs a fuel ops (runOp E fuel op w).2 t1
    simp only [results, runs, h1]
    exact ⟨by rw [h2], h3⟩

/-- The same is sent and waited for. -/
theorem C121_log (a : Addr) (fuel : Nat) (ops : List Op) (w : World) (t : U32) :
    (runs E fuel ops (w.other a t)).log = (runs E fuel ops w).log := by
  obtain ⟨_, t', h⟩ := C121_runs (E := E) a fuel ops w t
  rw [h]
  rfl

theorem dull_synLoop {a : Addr} : ∀ k t, Dull a (synLoop E k t) (synLoop E k t)
  | 0, _ => .pure _
  | k + 1, t => by
    unfold synLoop
    refine .get fun s _ => .seq .now fun c => .seq (.udpSend _ _) fun _ => .seq (.modS fun _ t => ⟨t, rfl⟩) fun _ => .seq (.udpRecv _ _) fun x => ?_
    cases x with
    | ok y => exact .seq (.modS fun _ t => ⟨t, rfl⟩) fun _ => .pure _
    | error e => exact .ite (dull_synLoop k _) (.throw _)

theorem dull_connectM {a : Addr} (fuel : Nat) (addr : Addr) : Dull a (connectM E fuel addr) (connectM E fuel addr) := by
  unfold connectM
  refine .seq (.modS fun _ t => ⟨t, rfl⟩) fun _ => .get fun s _ => .seq (dull_synLoop _ _) fun b => .get fun s _ => .seq (.orPanic _) fun r => ?_
  cases r with
  | error e => exact .throw _
  | ok pkt => exact .seq (dull_handlePacket (dull_recv _ _) _ _ _) fun _ => .pure _

/-- C121 for `connect`: which address the operating system has bound makes no difference. -/
theorem C121_connect (fuel : Nat) (resolved : Except ErrorKind (List Addr)) (a b : Addr) {r : Res Unit} {w : World}
    (h : connect E fuel resolved (.ok a) = .ok (r, w)) : ∃ t, connect E fuel resolved (.ok b) = .ok (r, w.other b t) := by
  unfold connect at h ⊢
  cases e : takeAddress resolved with
  | error x => rw [e] at h; cases h
  | ok addr =>
    rw [e] at h
    simp only [Except.ok.injEq] at h ⊢
    obtain ⟨t, ht⟩ := dull_connectM (E := E) (a := b) fuel addr (freshWorld E a { v6 := addr.v6, id := 0 }) 0
    rw [h] at ht
    exact ⟨t, ht⟩

theorem dull_acceptM {a : Addr} (fuel : Nat) (pkt : Packet) (src : Addr) : Dull a (acceptM E fuel pkt src) (acceptM E fuel pkt src) := by
  intro w t
  obtain ⟨t1, h1⟩ := dull_handlePacket (E := E) (a := a) (dull_recv fuel BUF_SIZE) fuel pkt src w t
  unfold acceptM
  rw [h1]
  rcases e : handlePacket E fuel (recv E fuel BUF_SIZE) pkt src w with ⟨r, v⟩
  cases r with
  | ok o =>
    cases o with
    | none => exact ⟨t1, rfl⟩
    | some p => exact Dull.udpSend src p.bytes v t1
  | err x => exact ⟨t1, rfl⟩
  | panic => exact ⟨t1, rfl⟩
  | pending => exact ⟨t1, rfl⟩

/-- C121 for `accept`. -/
theorem C121_accept (fuel : Nat) (ev : NetEvent) (a b src : Addr) {r : Res Unit} {w : World}
    (h : accept E fuel ev (.ok a) = .made r w src) : ∃ t, accept E fuel ev (.ok b) = .made r (w.other b t) src := by
  unfold accept at h ⊢
  cases ev with
  | never => cases h
  | fail k => cases h
  | dgram x s =>
    simp only at h ⊢
    cases e : Packet.tryFrom (x.take BUF_SIZE) with
    | none => rw [e] at h; cases h
    | some y =>
      rw [e] at h
      cases y with
      | error z => cases h
      | ok pkt =>
        simp only at h ⊢
        cases e2 : pkt.getType with
        | none => rw [e2] at h; cases h
        | some ty =>
          rw [e2] at h
          simp only at h ⊢
          by_cases hs : ty ≠ .syn
          · rw [if_pos hs] at h; cases h
          · rw [if_neg hs] at h ⊢
            obtain ⟨t, ht⟩ := dull_acceptM (E := E) (a := b) fuel pkt s (freshWorld E a s) 0
            cases h
            refine ⟨t, ?_⟩
            rw [show freshWorld E b src = (freshWorld E a src).other b 0 from rfl, ht]

section
open Sample

/-- Data and an acknowledgement arrive. -/
def plainEnv : Env := env [arr (dg .data 6 2 99 [1, 2]), arr (dg .state 6 3 100 [])]

/-- A conversation in which the time of the last acknowledgement is written: it is the same from another address. -/
example : (results plainEnv 20 [.recvFrom 10, .sendTo [7], .flush] (server plainEnv)).map bytesOf = [some [1, 2], none, none] ∧
    results plainEnv 20 [.recvFrom 10, .sendTo [7], .flush] ((server plainEnv).other peer 12345) = results plainEnv 20 [.recvFrom 10, .sendTo [7], .flush] (server plainEnv) ∧
    (server plainEnv).s.localAddr ≠ peer ∧ (server plainEnv).s.lastAckedTs ≠ 12345 :=
  ⟨by decide +kernel, (C121_runs peer 20 _ _ _).1, by decide +kernel, by decide +kernel⟩

/-- A socket accepted at another address. -/
example : ∃ t, accept plainEnv 1 (arr (dg .syn 5 1 0)) (.ok ⟨true, 77⟩) = .made (.ok ()) ((server plainEnv).other ⟨true, 77⟩ t) peer :=
  C121_accept 1 _ here _ peer (by decide +kernel)

/-- The peer acknowledges the SYN. -/
def ackedEnv : Env := env [arr (dg .state 7 100 1 [])]

/-- A socket connected from another address. -/
example : (client ackedEnv).s.state = .connected ∧
    ∃ t, connect ackedEnv 20 (.ok [peer]) (.ok ⟨true, 77⟩) = .ok (.ok (), (client ackedEnv).other ⟨true, 77⟩ t) :=
  ⟨by decide +kernel, C121_connect 20 _ here _ (connect_client [] (by decide +kernel))⟩

end

end Utp
