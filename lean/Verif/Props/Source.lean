import Verif.Lemmas.Source
import Verif.Props.Lifecycle
/-!
# C83: does a connection care where a datagram comes from?
-/

namespace Utp
open M

variable {E : Env} {net : Nat → NetEvent}

theorem SameAct.refl : ∀ a : Act, SameAct E net a a
  | .send _ b ok => .send b ok (.inl rfl)
  | .wait t => .wait t

theorem SameWorld.refl (w : World) : SameWorld E net w w :=
  ⟨rfl, rfl, rfl, rfl, rfl, List.forall₂_same.mpr fun a _ => SameAct.refl a⟩

theorem SameRes.out {r r' : Res Out} (h : SameRes (SameVal E net) r r') : SameOut E net r r' := by
  cases h with
  | ok h => exact h
  | err e => exact .refl _
  | panic => exact .refl _
  | pending => exact .refl _

/-- **C83.**  A connection does not care: whatever the source addresses of the datagrams, an operation on it ends the same way, with the same state and after sending the same datagrams at the same
moments.  Only where the answers go, and the address that `recv_from` returns, follow the source address. -/
theorem C83_blind (hN : ∀ k, (net k).content = (E.net k).content) {w : World} (he : w.s.Established) (fuel : Nat) (op : Op) :
    SameOut E net (runOp E fuel op w).1 (runOp (E.withNet net) fuel op w).1 ∧ SameWorld E net (runOp E fuel op w).2 (runOp (E.withNet net) fuel op w).2 := by
  obtain ⟨h1, h2⟩ := twins_runOp hN fuel op w w ⟨.refl w, he⟩
  exact ⟨h1.out, h2.same⟩

/-- The same for any number of operations. -/
theorem C83_runs (hN : ∀ k, (net k).content = (E.net k).content) {w w1 : World} (he : w.s.Established) (h : Run E w w1) :
    ∃ w2, Run (E.withNet net) w w2 ∧ SameWorld E net w1 w2 := by
  suffices ∃ w2, Run (E.withNet net) w w2 ∧ Twin E net w1 w2 from this.imp fun _ h => ⟨h.1, h.2.same⟩
  induction h with
  | refl => exact ⟨w, .refl, .refl w, he⟩
  | @op v fuel op _ hp ih =>
    obtain ⟨v2, h1, h2⟩ := ih
    obtain ⟨h3, h4⟩ := twins_runOp hN fuel op v v2 h2
    refine ⟨_, .op fuel op h1 ?_, h4⟩
    intro hc
    rw [hc] at h3
    cases hv : (runOp E fuel op v).1 with
    | panic => exact hp hv
    | _ => rw [hv] at h3; cases h3

/-- **C83**, what holds: datagrams from another address neither redirect the connection nor bring more to that address than one answer each; an address from which nothing came gets nothing.

Partial: they do affect the connection (`C83_blind`, `C83_counterexample`). -/
theorem C83_partial {w w' : World} (hw : Reach E w) (he : w.s.Established) (h : Run E w w') {a : Addr} (ha : a ≠ w.s.connectedTo) :
    w'.s.connectedTo = w.s.connectedTo ∧ OnlyAnswers E a w w' ∧
    ((∀ k b, w.nNet ≤ k → k < w'.nNet → E.net k ≠ .dgram b a) → ∃ l, w'.log = w.log ++ l ∧ sendsTo a l = []) := by
  have hc := (C33_fixed hw h he.1 he.2).2.2.2.2
  have ha' : w'.s.connectedTo ≠ a := by rw [hc]; exact fun e => ha e.symm
  exact ⟨hc, C65_partial h (fun e => ha e.symm) ha', C65_unprovoked h (fun e => ha e.symm) ha'⟩

section
open Sample

/-- A stranger sends a packet with the identifier of the connection and the next number, before the peer does. -/
def injected : Env := env [.dgram (dg .data 6 2 100 [66]) other, arr (dg .data 6 2 100 [1]), arr (dg .data 6 3 100 [2])]

/-- A stranger sends a Reset with the identifier of the connection. -/
def resetByStranger : Env := env [.dgram (dg .reset 6 2 100) other, arr (dg .data 6 2 100 [1])]

/-- The datagrams of `injected`, all from the peer. -/
example : ∀ k, ((env [arr (dg .data 6 2 100 [66]), arr (dg .data 6 2 100 [1]), arr (dg .data 6 3 100 [2])]).net k).content = (injected.net k).content := by
  intro k
  match k with
  | 0 => decide +kernel
  | 1 => decide +kernel
  | 2 => decide +kernel
  | n + 3 => rfl

/-- **C83 is false**: a byte of the stranger is read in the place of the peer's; and a Reset of the stranger ends the connection. -/
theorem C83_counterexample :
    (let w := runs injected 9 [.recvFrom 9, .recvFrom 9] (server injected)
     Reach injected w ∧ results injected 9 [.recvFrom 9, .recvFrom 9] (server injected) = [.ok (.bytes [66] other), .ok (.bytes [2] peer)]) ∧
    (let w := runs resetByStranger 9 [.recvFrom 9] (server resetByStranger)
     Reach resetByStranger w ∧ results resetByStranger 9 [.recvFrom 9] (server resetByStranger) = [.err (.sock .connectionReset)] ∧
     w.s.state = .resetReceived ∧ w.s.connectedTo = peer) :=
  ⟨⟨reach_server _ _ (by decide +kernel) (by decide +kernel), by decide +kernel⟩,
    reach_server _ _ (by decide +kernel) (by decide +kernel), by decide +kernel, by decide +kernel, by decide +kernel⟩

/-- `C83_partial` and `C83_blind` apply here. -/
example : (server injected).s.Established ∧ other ≠ (server injected).s.connectedTo ∧ (server injected).s.connectedTo = peer :=
  ⟨⟨by decide +kernel, by decide +kernel⟩, by decide +kernel, by decide +kernel⟩

end

end Utp
