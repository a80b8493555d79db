import Verif.Lemmas.UtpStream
import Verif.Props.Lifecycle
import Verif.Props.Errors
import Verif.Lemmas.Exact
/-!
# C103: empty buffers
-/

namespace Utp
open M Sample

variable {E : Env}

theorem recvFromLoop_nothing {fuel len : Nat} : ∀ n {w w' : World} {a : Addr},
    recvFromLoop E fuel len n w = (.ok ([], a), w') → w'.s.state = .closed ∧ a = w'.s.connectedTo
  | 0, w, w', a, h => by simp [recvFromLoop, M.never] at h
  | n + 1, w, w', a, h => by
    unfold recvFromLoop at h
    msimp at h
    split at h
    · next hc =>
      simp only [Prod.mk.injEq, Res.ok.injEq] at h
      obtain ⟨⟨-, rfl⟩, rfl⟩ := h
      exact ⟨hc, rfl⟩
    · obtain ⟨⟨o, src⟩, w1, h1, h⟩ := andThen_ok h
      simp only at h
      split at h
      · exact recvFromLoop_nothing n h
      · rename_i ho
        simp only [M.ret, Prod.mk.injEq, Res.ok.injEq] at h
        exact absurd h.1.1 ho

/-- `recv_from` returns no bytes only on a closed socket, whatever the size of the buffer. -/
theorem C103_nothing {fuel len : Nat} {w w' : World} {a : Addr} (h : runOp E fuel (.recvFrom len) w = (.ok (.bytes [] a), w')) :
    w'.s.state = .closed ∧ a = w'.s.connectedTo := by
  unfold runOp at h
  rw [bind_def] at h
  obtain ⟨⟨o, b⟩, w1, h1, h⟩ := andThen_ok h
  simp only [pure_def, M.ret, Prod.mk.injEq, Res.ok.injEq, Out.bytes.injEq] at h
  obtain ⟨⟨rfl, rfl⟩, rfl⟩ := h
  unfold recvFrom at h1
  rw [bind_def] at h1
  obtain ⟨o, w2, -, h⟩ := andThen_ok h1
  msimp at h
  split at h
  · next ho =>
    simp only [Prod.mk.injEq, Res.ok.injEq] at h
    exact absurd h.1.1 ho
  · split at h
    · simp at h
    · exact recvFromLoop_nothing _ h

/-- **C103 is false for reads**: a read into an empty buffer returns Ok only when the connection is closed, whatever data there is and whatever arrives. -/
theorem C103_read {fuel : Nat} {w w' : World} {out : Out} (h : runOp E fuel (.recvFrom 0) w = (.ok out, w')) :
    out = .bytes [] w'.s.connectedTo ∧ w'.s.state = .closed := by
  obtain ⟨b, src, rfl, hb⟩ : ∃ b src, out = .bytes b src ∧ b.length ≤ 0 := by
    unfold runOp at h
    rw [bind_def] at h
    obtain ⟨⟨o, b⟩, w1, h1, h⟩ := andThen_ok h
    simp only [pure_def, M.ret, Prod.mk.injEq, Res.ok.injEq] at h
    exact ⟨o, b, h.1.symm, recvFrom_gives fuel 0 _ _ _ h1⟩
  have : b = [] := List.length_eq_zero_iff.mp (by omega)
  subst this
  obtain ⟨h1, h2⟩ := C103_nothing h
  exact ⟨by rw [h2], h1⟩

/-- **C103**, the part that holds: `send_to` with an empty buffer returns 0 at once and does nothing, on every socket that is not closed and has no packets left from a
`send_to` that failed; and a read into an empty buffer returns 0 at once on a closed socket, without receiving or sending.

Partial: a read on an open connection, see `C103_read` and the counterexample. -/
theorem C103_partial {w : World} (fuel : Nat) :
    (w.s.state ≠ .closed → w.s.unsent = [] → runOp E (fuel + 1) (.sendTo []) w = (.ok (.count 0), w)) ∧
    (w.s.state = .closed → (runOp E (fuel + 1) (.recvFrom 0) w).1 ≠ .panic → ∃ w', runOp E (fuel + 1) (.recvFrom 0) w = (.ok (.bytes [] w.s.connectedTo), w') ∧
      w'.s.deliverable = w.s.deliverable ∧ w'.log = w.log ∧ w'.nNet = w.nNet ∧ w'.s.state = .closed) := by
  constructor
  · intro hst hu
    show (sendTo E (fuel + 1) []).andThen _ _ = _
    have hq : queued w [] = w := rfl
    have : sendTo E (fuel + 1) [] w = (.ok 0, w) := by
      rw [sendTo_eq _ _ hst, hq, andThen_eq (w' := w) (a := ())]
      · rfl
      · rw [sendQueue]
        msimp
        simp only [hu]
        rfl
    rw [andThen_eq this]
    rfl
  · intro hst hnp
    have hf : (flushIncoming E 0 w).1 ≠ .panic := by
      intro h
      apply hnp
      show (M.andThen (M.andThen (flushIncoming E 0) _) _ w).1 = _
      rcases hr : flushIncoming E 0 w with ⟨r, v⟩
      rw [hr] at h
      simp only at h
      subst h
      rw [andThen_eq_panic (andThen_eq_panic hr)]
    obtain ⟨out, w', h1, h2, h3, h4, -⟩ := flushIncoming_spec 0 w hf
    have : out = [] := List.length_eq_zero_iff.mp (by omega)
    subst this
    refine ⟨w', ?_, by simpa using h2, ?_⟩
    · show M.andThen (recvFrom E (fuel + 1) 0) _ w = _
      rw [andThen_eq (recvFrom_closed hst fuel 0 h1 h4)]
      rfl
    · obtain ⟨g1, g2, -, g3⟩ := flushIncoming_effect (E := E) 0 w
      rw [h1] at g1 g2 g3
      exact ⟨g1, g2, g3.trans hst⟩

section

/-- Two bytes arrive, and then nothing. -/
def twoBytes : Env := env [arr (dg .data 6 2 100 [7, 8]), .fail .timedOut, .fail .timedOut, .fail .timedOut, .fail .timedOut, .fail .timedOut]

/-- **C103 is false**: a byte is there, but the read into an empty buffer waits for a packet until it times out, and closes the connection. -/
theorem C103_counterexample : Reach twoBytes (server twoBytes) ∧
    results twoBytes 9 [.recvFrom 1, .recvFrom 0, .recvFrom 1, .sendTo [1]] (server twoBytes) =
      [.ok (.bytes [7] peer), .err (.sock .connectionTimedOut), .ok (.bytes [8] peer), .err (.sock .connectionClosed)] :=
  ⟨reach_server 0 [] (by decide +kernel) (by decide +kernel), by decide +kernel⟩

/-- A case of `C103_partial`: after the FIN of the peer the read returns 0 bytes at once, and the byte is still there. -/
example : let E := env [arr (dg .data 6 2 100 [7, 8]), arr (dg .data 6 3 100 [9]), arr (dg .fin 6 4 100)]
    results E 9 [.recvFrom 1, .recvFrom 0, .recvFrom 0, .sendTo [], .recvFrom 1] (server E) =
      [.ok (.bytes [7] peer), .ok (.bytes [] peer), .ok (.bytes [] peer), .err (.sock .connectionClosed), .ok (.bytes [8] peer)] := by decide +kernel

example : runOp twoBytes 9 (.sendTo []) (server twoBytes) = (.ok (.count 0), server twoBytes) :=
  (C103_partial (E := twoBytes) (w := server twoBytes) 8).1 (by decide +kernel) (by decide +kernel)

end

end Utp
