import Verif.Spec.Reported
import Verif.Spec.Strangers
import Verif.Lemmas.Nesting
import Verif.Props.State
import Verif.Props.Errors
import Verif.Samples
/-!
# C99: the address reported by `recv_from`
-/

namespace Utp

open M

variable {E : Env}

/-- The address returned by `recv` with bytes is the source of a valid packet received meanwhile. -/
theorem recv_reported {fuel len : Nat} {w w' : World} {out : Bytes} {a : Addr}
    (h : recv E fuel len w = (.ok (out, a), w')) (ho : out ≠ []) : HeardFrom E w w' a := by
  cases fuel with
  | zero => simp [recv, M.never] at h
  | succ f =>
    unfold recv recvBody at h
    rw [bind_def] at h
    obtain ⟨⟨b, src⟩, w1, h1, h⟩ := andThen_ok h
    have hf := recvWait_frame (E := E) f 0 w
    rw [h1] at hf
    obtain ⟨k, d, hk, hk', hn, hb⟩ := hf.got _ rfl
    simp only at hn hb hk
    rw [bind_def] at h
    obtain ⟨p, w2, h2, h⟩ := andThen_ok h
    cases ht : Packet.tryFrom b with
    | none => rw [ht] at h2; simp [orPanic, M.panic] at h2
    | some q =>
      rw [ht] at h2
      simp only [orPanic, M.ret, Prod.mk.injEq, Res.ok.injEq] at h2
      obtain ⟨rfl, rfl⟩ := h2
      cases q with
      | error e =>
        obtain ⟨s, w3, _, h⟩ := andThen_ok h
        simp only [pure_def, M.ret, Prod.mk.injEq, Res.ok.injEq] at h
        exact absurd h.1.1.symm ho
      | ok pkt =>
        simp only at h
        have hs : SameRec w1.nNet (recv E f BUF_SIZE) (recv E f BUF_SIZE) := fun v g _ =>
          ⟨rfl, Nat.le_trans g (recv_nNet f BUF_SIZE v)⟩
        have hn' := (same_recvPacket (E := E) hs f len pkt src w1 (Nat.le_refl _)).2
        rw [h] at hn'
        unfold recvPacket at h
        simp only [bind_def] at h
        obtain ⟨_, w3, _, h⟩ := andThen_ok h
        obtain ⟨_, w4, _, h⟩ := andThen_ok h
        obtain ⟨_, w5, _, h⟩ := andThen_ok h
        obtain ⟨_, w6, _, h⟩ := andThen_ok h
        obtain ⟨_, w7, _, h⟩ := andThen_ok h
        simp only [pure_def, M.ret, Prod.mk.injEq, Res.ok.injEq] at h
        obtain ⟨⟨-, rfl⟩, rfl⟩ := h
        exact ⟨k, d, pkt, hk', by simp only at hn'; omega, hn, by rw [← hb]; exact ht⟩

/-- The address reported by `recv_from` is the socket's own record of its peer, or, with bytes, the source of a valid packet
received meanwhile. -/
theorem recvFromLoop_reported {fuel len : Nat} : ∀ n {w w' : World} {out : Bytes} {a : Addr},
    recvFromLoop E fuel len n w = (.ok (out, a), w') → a = w'.s.connectedTo ∨ out ≠ [] ∧ HeardFrom E w w' a
  | 0, w, w', out, a, h => by simp [recvFromLoop, M.never] at h
  | n + 1, w, w', out, a, h => by
    unfold recvFromLoop at h
    msimp at h
    split at h
    · simp only [Prod.mk.injEq, Res.ok.injEq] at h
      obtain ⟨⟨-, rfl⟩, rfl⟩ := h
      exact .inl rfl
    · obtain ⟨⟨o, src⟩, w1, h1, h⟩ := andThen_ok h
      have hm := recv_nNet (E := E) fuel len w
      rw [h1] at hm
      simp only at h
      split at h
      · rcases recvFromLoop_reported n h with g | ⟨g, k, b, p, g1, g2, g3⟩
        · exact .inl g
        · exact .inr ⟨g, k, b, p, Nat.le_trans hm g1, g2, g3⟩
      · rename_i ho
        simp only [M.ret, Prod.mk.injEq, Res.ok.injEq] at h
        obtain ⟨⟨rfl, rfl⟩, rfl⟩ := h
        exact .inr ⟨ho, recv_reported h1 ho⟩

theorem recvFrom_reported {fuel len : Nat} {w w' : World} {out : Bytes} {a : Addr} (h : recvFrom E fuel len w = (.ok (out, a), w')) :
    a = w'.s.connectedTo ∨ out ≠ [] ∧ HeardFrom E w w' a := by
  unfold recvFrom at h
  rw [bind_def] at h
  obtain ⟨o, w1, h1, h⟩ := andThen_ok h
  have hn := (flushIncoming_effect (E := E) len w).2.1
  rw [h1] at hn
  msimp at h
  split at h
  · simp only [Prod.mk.injEq, Res.ok.injEq] at h
    obtain ⟨⟨-, rfl⟩, rfl⟩ := h
    exact .inl rfl
  · split at h
    · simp at h
    · rcases recvFromLoop_reported _ h with g | ⟨g, k, b, p, g1, g2, g3⟩
      · exact .inl g
      · exact .inr ⟨g, k, b, p, by rw [← hn]; exact g1, g2, g3⟩

/-- The address `recv_from` reports is that of the peer, or bytes were read and it is the source of a valid packet received
during this very call.  Hence it is the peer's with no bytes, with bytes that were there already, and whenever no valid packet arrives
from another address during the call.  (Missing for C99: a packet of a stranger, see the counterexample.) -/
theorem C99_partial {w v v' : World} (hw : Reach E w) (he : w.s.Established) (hr : Run E w v) {fuel len : Nat} {out : Bytes} {a : Addr}
    (h : runOp E fuel (.recvFrom len) v = (.ok (.bytes out a), v')) :
    (a = w.s.connectedTo ∨ out ≠ [] ∧ HeardFrom E v v' a) ∧
    ((∀ b, HeardFrom E v v' b → b = w.s.connectedTo) → a = w.s.connectedTo) := by
  have hc : v'.s.connectedTo = w.s.connectedTo := by
    have := C33_fixed hw (.op fuel (.recvFrom len) hr (by rw [h]; simp)) he.1 he.2
    rw [h] at this
    exact this.2.2.2.2
  have h' : recvFrom E fuel len v = (.ok (out, a), v') := by
    unfold runOp at h
    rw [bind_def] at h
    obtain ⟨⟨o, b⟩, w1, h1, h⟩ := andThen_ok h
    simp only [pure_def, M.ret, Prod.mk.injEq, Res.ok.injEq, Out.bytes.injEq] at h
    obtain ⟨⟨rfl, rfl⟩, rfl⟩ := h
    exact h1
  have := recvFrom_reported h'
  rw [hc] at this
  refine ⟨this, fun hb => ?_⟩
  rcases this with g | ⟨-, g⟩
  · exact g
  · exact hb _ g

section
open Sample

/-- The peer's second packet overtakes its first; then a stranger's acknowledgement arrives, with a foreign identifier and the number
of the packet that is missing. -/
def spoken : Env := env [arr (dg .data 6 3 100 [7, 8]), .dgram (dg .state 77 2 0) other]

/-- **C99 is false**: the peer's bytes are reported with the address of the stranger. -/
theorem C99_counterexample :
    Reach spoken (server spoken) ∧ (server spoken).s.Established ∧ (server spoken).s.connectedTo = peer ∧ other ≠ peer ∧
    spoken.net 0 = .dgram (dg .data 6 3 100 [7, 8]) peer ∧
    results spoken 9 [.recvFrom 9] (server spoken) = [.ok (.bytes [7, 8] other)] :=
  ⟨reach_server 0 [] (by decide +kernel) (by decide +kernel), ⟨by decide +kernel, by decide +kernel⟩, by decide +kernel, by decide +kernel,
    by decide +kernel, by decide +kernel⟩

/-- A peer that sends two packets in order, the first larger than the buffer of the reader. -/
def steady : Env := env [arr (dg .data 6 2 100 [7, 8]), arr (dg .data 6 3 100 [9])]

/-- `C99_partial` applies: all three reads report the peer, the second without receiving anything. -/
example : results steady 9 [.recvFrom 1, .recvFrom 1, .recvFrom 9] (server steady) =
      [.ok (.bytes [7] peer), .ok (.bytes [8] peer), .ok (.bytes [9] peer)] ∧
    (runs steady 9 [.recvFrom 1] (server steady)).nNet = (runs steady 9 [.recvFrom 1, .recvFrom 1] (server steady)).nNet ∧
    (server steady).s.Established :=
  ⟨by decide +kernel, by decide +kernel, by decide +kernel, by decide +kernel⟩

end

end Utp
