import Verif.Lemmas.OtherHints
import Verif.Lemmas.Reach
import Verif.Props.OtherClock
import Verif.Samples
/-!
# C114: what is read does not depend on the times and the window the peer reports
-/

namespace Utp
open M

variable {E E' : Env}

/-- One operation. -/
theorem hints_op (hE : OtherHints E E') (fuel : Nat) {op : Op} (h : op.Silent) : HintKeeps Eq (runOp E fuel op) (runOp E' fuel op) := by
  cases op with
  | recvFrom len => exact .seqE (hints_recvFrom hE _ _) fun _ => .pure rfl
  | sendTo b => exact absurd rfl (h b)
  | flush => exact .seqE (hints_flush hE _) fun _ => .pure rfl
  | close => exact .seqE (hints_close hE _) fun _ => .pure rfl
  | setMaxRetries n =>
    refine .seqE (.modS ?_) fun _ => .pure rfl
    rintro s _ ⟨hs, hi⟩
    exact ⟨hs, hi⟩

/-- Operations in a row. -/
theorem hints_ops (hE : OtherHints E E') (fuel : Nat) : ∀ (ops : List Op) (w w' : World), (∀ op ∈ ops, op.Silent) → HintedWorld w w' →
    results E' fuel ops w' = results E fuel ops w ∧ HintedWorld (runs E fuel ops w) (runs E' fuel ops w')
  | [], _, _, _, h => ⟨rfl, h⟩
  | op :: ops, w, w', ho, h => by
    obtain ⟨h1, h2⟩ := hints_op hE fuel (ho op (by simp)) w w' h
    obtain ⟨h3, h4⟩ := hints_ops hE fuel ops _ _ (fun o m => ho o (by simp [m])) h2
    refine ⟨?_, h4⟩
    simp only [results]
    rw [h3, sameRes_eq h1]

/-- C114: as long as nothing sent is outstanding, what the operations other than sending return, which datagrams they send but for
the two timestamp fields, and how long they wait depends neither on the timestamps, the timestamp differences and the windows in the
datagrams of the peer, nor on our clock. -/
theorem C114_hints (hE : OtherHints E E') (fuel : Nat) (ops : List Op) (w : World) (hw : w.s.sendWindow = []) (ho : ∀ op ∈ ops, op.Silent) :
    results E' fuel ops w = results E fuel ops w ∧ List.Forall₂ TimedAct (runs E fuel ops w).log (runs E' fuel ops w).log := by
  have hi : HintPkts w.s.incoming w.s.incoming := List.forall₂_same.2 fun _ _ => ⟨rfl, fun _ _ => rfl⟩
  obtain ⟨h1, h2⟩ := hints_ops hE fuel ops w w ho ⟨.mk (d := w.s.theirDelay) (t := w.s.lastAckedTs) (r := w.s.remoteWnd) hw hi, rfl, rfl, rfl, timedLog_refl _⟩
  exact ⟨h1, h2.log⟩

namespace Sample

/-- The peer writes other times and another window into its datagrams. -/
def rehint (x : U8) : NetEvent → NetEvent
  | .dgram b a => .dgram (b.take 4 ++ ((b.drop 4).take 12).map (· ^^^ x) ++ b.drop 16) a
  | e => e

theorem rehint_same (x : U8) (e : NetEvent) : HintEvent e (rehint x e) := by
  cases e with
  | dgram b a =>
    refine .dgram a ⟨by simp; omega, fun i hi => ?_⟩
    rcases hi with hi | hi
    · rw [List.append_assoc]
      by_cases hl : i < b.length
      · rw [List.getElem?_append_left (by simp; omega), List.getElem?_take_of_lt hi]
      · rw [List.getElem?_eq_none (by simp; omega), List.getElem?_eq_none (by omega)]
    · by_cases hl : 16 ≤ b.length
      · rw [List.getElem?_append_right (by simp; omega)]
        simp only [List.length_append, List.length_take, List.length_map, List.length_drop, List.getElem?_drop]
        congr 1
        omega
      · rw [List.getElem?_eq_none (by simp; omega), List.getElem?_eq_none (by omega)]
  | fail k => exact .fail k
  | never => exact .never

/-- Other hints, and another clock. -/
def hintEnv : Env := { clockEnv.withClock strangeClock (fun _ => 5) (fun _ _ _ => 9) with net := fun k => rehint 0xA5 (clockEnv.net k) }

/-- The hypotheses of `C114_hints` hold in this execution. -/
example : OtherHints clockEnv hintEnv ∧ (server clockEnv).s.sendWindow = [] := ⟨⟨rfl, rfl, rfl, fun k => rehint_same _ _⟩, by decide +kernel⟩

/-- The data are read in order in either execution, while the datagrams sent differ. -/
example : (results hintEnv 20 [.recvFrom 10, .recvFrom 10, .close, .recvFrom 10] (server clockEnv)).map bytesOf = [some [2], some [3, 3], none, some []] ∧
    sent (runs clockEnv 20 [.recvFrom 10] (server clockEnv)) ≠ sent (runs hintEnv 20 [.recvFrom 10] (server clockEnv)) := by decide +kernel

end Sample

end Utp
