import Verif.Lemmas.PeerTimes
import Verif.Props.Oblivious
import Verif.Samples
/-!
# C115: the times in the datagrams of the peer are only echoed
-/

namespace Utp
open M

variable {E : Env} {net : Nat → NetEvent}

/-- C115: take two worlds that differ only in the times the peer wrote (and what was echoed of them), and networks that deliver the
same datagrams but for the timestamps and timestamp differences.  Then all operations return the same, and the worlds still differ
in nothing else: the same waits, the same clock readings, the same congestion window and timeout, and the same datagrams at the
same moments but for the bytes 8 to 11, the timestamp difference. -/
theorem C115_runs (hN : ∀ k, LagEvent (E.net k) (net k)) (fuel : Nat) : ∀ (ops : List Op) {w w' : World}, LagWorld w w' →
    results (E.withNet net) fuel ops w' = results E fuel ops w ∧ LagWorld (runs E fuel ops w) (runs (E.withNet net) fuel ops w')
  | [], _, _, hw => ⟨rfl, hw⟩
  | op :: ops, _, _, hw => by
    obtain ⟨h1, h2⟩ := lag_runOp hN fuel op _ _ hw
    obtain ⟨h3, h4⟩ := C115_runs hN fuel ops h2
    refine ⟨?_, h4⟩
    simp only [results]
    rw [h3, h1.eq]

theorem lag_world_refl (w : World) : LagWorld w w := by
  have hs : LagSocket w.s w.s :=
    .mk (d := w.s.theirDelay) (List.forall₂_same.2 fun _ _ => AgreeBut.refl _) (List.forall₂_same.2 fun _ _ => AgreeBut.refl _) (List.forall₂_same.2 fun _ _ => AgreeBut.refl _)
  refine ⟨hs, rfl, rfl, rfl, rfl, List.forall₂_same.2 fun a _ => ?_⟩
  cases a with
  | send a b ok => exact .send a ok (AgreeBut.refl _)
  | wait t => exact .wait t

/-- C115 from one world: whatever the state, nothing but the timestamp difference of what is sent depends on the times of the peer. -/
theorem C115_times (hN : ∀ k, LagEvent (E.net k) (net k)) (fuel : Nat) (ops : List Op) (w : World) :
    results (E.withNet net) fuel ops w = results E fuel ops w ∧ LagWorld (runs E fuel ops w) (runs (E.withNet net) fuel ops w) :=
  C115_runs hN fuel ops (lag_world_refl w)

/-- C115 for connections made by `connect`. -/
theorem C115_connect (hN : ∀ k, LagEvent (E.net k) (net k)) (fuel : Nat) (resolved : Except ErrorKind (List Addr)) (wild : Except ErrorKind Addr)
    {r : Res Unit} {w : World} (h : connect E fuel resolved wild = .ok (r, w)) :
    ∃ w', connect (E.withNet net) fuel resolved wild = .ok (r, w') ∧ LagWorld w w' := by
  unfold connect at h ⊢
  split at h
  · cases h
  · split at h
    · cases h
    · rename_i a _ _ l
      obtain ⟨h1, h2⟩ := lag_connectM hN fuel a _ _ (lag_world_refl (freshWorld E l { v6 := a.v6, id := 0 }))
      simp only [Except.ok.injEq] at h
      rw [h] at h1 h2
      exact ⟨_, congrArg Except.ok (Prod.ext (show (connectM (E.withNet net) fuel a (freshWorld (E.withNet net) l { v6 := a.v6, id := 0 })).1 = r from h1.eq) (Eq.refl _)), h2⟩

/-- C115 for connections made by `accept`. -/
theorem C115_accept (hN : ∀ k, LagEvent (E.net k) (net k)) (fuel : Nat) {ev ev' : NetEvent} (he : LagEvent ev ev')
    (bound : Except ErrorKind Addr) {r : Res Unit} {w : World} {src : Addr} (h : accept E fuel ev bound = .made r w src) :
    ∃ w', accept (E.withNet net) fuel ev' bound = .made r w' src ∧ LagWorld w w' := by
  cases he with
  | fail k => cases h
  | never => cases h
  | @dgram b b' a hb =>
    unfold accept at h ⊢
    simp only at h ⊢
    have hp := AgreeBut.tryFrom (AgreeBut.take hb BUF_SIZE)
    generalize Packet.tryFrom (b.take BUF_SIZE) = x at hp h
    generalize Packet.tryFrom (b'.take BUF_SIZE) = x' at hp
    cases hp with
    | none => cases h
    | some hp =>
      cases hp with
      | error e => cases h
      | ok hp =>
        simp only at h ⊢
        rw [InPkt.getType hp]
        split at h
        · cases h
        · split at h
          · cases h
          · rename_i hsyn
            split at h
            · cases h
            · rename_i l
              obtain ⟨h1, h2⟩ := lag_acceptM hN fuel hp a _ _ (lag_world_refl (freshWorld E l a))
              simp only [AcceptRes.made.injEq] at h
              obtain ⟨e3, e4, rfl⟩ := h
              rw [e3] at h1
              rw [e4] at h2
              rw [if_neg hsyn]
              exact ⟨_, congrArg (fun r => AcceptRes.made r _ a) (show (acceptM (E.withNet net) fuel _ a (freshWorld (E.withNet net) l a)).1 = r from h1.eq), h2⟩

namespace Sample

/-- The peer writes other times into its datagrams. -/
def retime (x : U8) : NetEvent → NetEvent
  | .dgram b a => .dgram (b.take 4 ++ ((b.drop 4).take 8).map (· ^^^ x) ++ b.drop 12) a
  | e => e

theorem retime_lag (x : U8) (e : NetEvent) : LagEvent e (retime x e) := by
  cases e with
  | dgram b a =>
    refine .dgram a ⟨by simp; omega, fun i hi => ?_⟩
    rcases hi with hi | hi
    · rw [List.append_assoc]
      by_cases hl : i < b.length
      · rw [List.getElem?_append_left (by simp; omega), List.getElem?_take_of_lt hi]
      · rw [List.getElem?_eq_none (by simp; omega), List.getElem?_eq_none (by omega)]
    · by_cases hl : 12 ≤ b.length
      · rw [List.getElem?_append_right (by simp; omega)]
        simp only [List.length_append, List.length_take, List.length_map, List.length_drop, List.getElem?_drop]
        congr 1
        omega
      · rw [List.getElem?_eq_none (by simp; omega), List.getElem?_eq_none (by omega)]
  | fail k => exact .fail k
  | never => exact .never

/-- Data arrive, ours are sent and acknowledged, and more data arrive. -/
def lagEnv : Env := env [arr (dg .data 6 2 99 [1, 2]), arr (dg .state 6 3 100 []), arr (dg .data 6 3 100 [3])]

/-- The same with other times. -/
def lagEnv' : Env := lagEnv.withNet fun k => retime 0xA5 (lagEnv.net k)

end Sample

section
open Sample

/-- The hypothesis of the theorems above holds here. -/
example : ∀ k, LagEvent (lagEnv.net k) (retime 0xA5 (lagEnv.net k)) := fun _ => retime_lag _ _

/-- Data are read, sent and acknowledged in the same way, while the timestamp differences that are sent are not the same. -/
example : (results lagEnv' 20 [.recvFrom 10, .sendTo [7, 7], .flush, .recvFrom 10] (server lagEnv)).map bytesOf = [some [1, 2], none, none, some [3]] ∧
    (runs lagEnv' 20 [.recvFrom 10, .sendTo [7, 7], .flush] (server lagEnv)).s.sendWindow = [] ∧
    (sent (runs lagEnv 20 [.recvFrom 10, .sendTo [7, 7], .flush] (server lagEnv))).length = 3 ∧
    sent (runs lagEnv 20 [.recvFrom 10, .sendTo [7, 7], .flush] (server lagEnv)) ≠ sent (runs lagEnv' 20 [.recvFrom 10, .sendTo [7, 7], .flush] (server lagEnv)) := by decide +kernel

/-- `C115_accept` applies to the connection of the examples. -/
example : ∃ r w, accept lagEnv 1 (arr (dg .syn 5 1 0)) (.ok here) = .made r w peer := by
  have h : (match accept lagEnv 1 (arr (dg .syn 5 1 0)) (.ok here) with | .made _ _ a => a == peer | _ => false) = true := by decide +kernel
  split at h
  · rename_i r w a e
    rw [beq_iff_eq] at h
    exact ⟨r, w, by rw [e, h]⟩
  · cases h

/-- `C115_connect` applies to a connection that is made. -/
example : ∃ w, connect (env [arr (dg .state 7 30 1)]) 20 (.ok [peer]) (.ok here) = .ok (.ok (), w) := by
  have h : (match connect (env [arr (dg .state 7 30 1)]) 20 (.ok [peer]) (.ok here) with | .ok (.ok (), _) => true | _ => false) = true := by decide +kernel
  split at h
  · rename_i w e
    exact ⟨w, e⟩
  · cases h

end

end Utp
