import Verif.Lemmas.Nesting
import Verif.Samples
/-!
# C90: receives in progress inside each other

`recv` handles a packet; handling a State packet may resend packets; resending waits for room in the window by
calling `recv`.  The property: the number of receives in progress at the same time is bounded, whatever the peer
sends.  It is false of the code: one datagram, sent `d` times, leaves `d` receives in progress inside each other
(`C90_nests`, `C90_counterexample`); each of them keeps its buffers of 1520 and 1500 bytes and a stack frame when
polled, and none of the waits of half a second that were begun ends.  What holds: a receive is made inside another
one only after the outer one received a State packet of the connection, with 2800 bytes outstanding
(`C90_cause_partial`), so the depth is bounded by the number of State packets received (`C90_depth_partial`).
-/

namespace Utp
open M

variable {E : Env}

/-- What makes a receive call itself: a State packet of this connection on a connected socket, with at least two full
packets outstanding. -/
theorem C90_cause_partial {fuel len : Nat} {w v : World} (h : Calls E fuel len w v) :
    2800 ≤ v.s.currWindow.toNat ∧ w.s.state = .connected ∧ ∃ k b src pkt, w.nNet ≤ k ∧ k < v.nNet ∧ E.net k = .dgram b src ∧
      Packet.tryFrom (b.take 1520) = some (.ok pkt) ∧ pkt.getType = some .state ∧
      (pkt.connectionId = w.s.senderId ∨ pkt.connectionId = w.s.receiverId) :=
  calls_cause h

/-- The depth is bounded by the number of State packets received since the outermost call began.  Missing: a bound that
does not depend on the peer (there is none, `C90_counterexample`). -/
theorem C90_depth_partial {fuel len d : Nat} {w v : World} (h : Nested E fuel len d w v) :
    ∃ ks : List Nat, ks.length = d ∧ ks.Pairwise (· < ·) ∧ ∀ k ∈ ks, w.nNet ≤ k ∧ k < v.nNet ∧
      ∃ b src pkt, E.net k = .dgram b src ∧ Packet.tryFrom (b.take 1520) = some (.ok pkt) ∧ pkt.getType = some .state := by
  induction h with
  | here => exact ⟨[], rfl, .nil, by simp⟩
  | @deeper fuel len d w u v h h' ih =>
    obtain ⟨ks, h1, h2, h3⟩ := ih
    obtain ⟨-, -, k, b, src, pkt, hk, hk', hn, hp, ht, -⟩ := calls_cause h
    have hle : u.nNet ≤ v.nNet := by
      cases ks with
      | nil =>
        cases h' with
        | here => exact Nat.le_refl _
        | deeper _ _ => simp at h1
      | cons a _ => have := h3 a (by simp); omega
    refine ⟨k :: ks, by simp [h1], List.pairwise_cons.mpr ⟨fun j hj => ?_, h2⟩, ?_⟩
    · have := (h3 j hj).1; omega
    · intro j hj
      rcases List.mem_cons.mp hj with rfl | hj
      · exact ⟨hk, by omega, b, src, pkt, hn, hp, ht⟩
      · obtain ⟨i1, i2, i3⟩ := h3 j hj
        exact ⟨by omega, i2, i3⟩

/-- A socket that does not have 2800 bytes outstanding when it would have to wait never nests; nor does one that is not
connected. -/
theorem C90_connected_partial {fuel len d : Nat} {w v : World} (h : Nested E fuel len d w v) (hc : w.s.state ≠ .connected) : d = 0 := by
  cases h with
  | here => rfl
  | deeper h _ => exact absurd (calls_cause h).2.1 hc

/-- `d` copies of one State packet leave `d` receives in progress inside each other. -/
theorem C90_nests (hc : E.checks = false) {b : Bytes} {src : Addr} {pkt : Packet} (hp : Packet.tryFrom (b.take 1520) = some (.ok pkt))
    (ht : ∀ k, tsSub (E.now (k + 1)) (E.now k) < PRE_SEND_TIMEOUT) : ∀ (d : Nat) (w : World), Trap w pkt →
    (∀ k, w.nNet ≤ k → k < w.nNet + d → E.net k = .dgram b src) →
    ∀ len, ∃ v, Nested E (d + 1) len d w v ∧ v.nNet = w.nNet + d
  | 0, w, _, _, len => ⟨w, .here _ _ _, rfl⟩
  | d + 1, w, hT, hn, len => by
    obtain ⟨u, hu, hT', hstep⟩ := calls_step hc (hn w.nNet (Nat.le_refl _) (by omega)) hp hT ht d len
    obtain ⟨v, h1, h2⟩ := C90_nests hc hp ht d u hT' (fun k h1 h2 => hn k (by omega) (by omega)) BUF_SIZE
    exact ⟨v, .deeper (fun x => hstep _ true x (by simp [probe, halt])) h1, by omega⟩

/-- If the copies keep coming, no receive ever returns, although each waits for at most half a second at a time. -/
theorem C90_never (hc : E.checks = false) {b : Bytes} {src : Addr} {pkt : Packet} (hp : Packet.tryFrom (b.take 1520) = some (.ok pkt))
    (ht : ∀ k, tsSub (E.now (k + 1)) (E.now k) < PRE_SEND_TIMEOUT) : ∀ (fuel : Nat) (w : World), Trap w pkt →
    (∀ k, w.nNet ≤ k → E.net k = .dgram b src) → ∀ len, (recv E fuel len w).1 = .pending
  | 0, _, _, _, _ => rfl
  | 1, w, _, _, len => rfl
  | fuel + 2, w, hT, hn, len => by
    obtain ⟨u, hu, hT', hstep⟩ := calls_step hc (hn w.nNet (Nat.le_refl _)) hp hT ht fuel len
    have ih := C90_never hc hp ht (fuel + 1) u hT' (fun k h => hn k (by omega)) BUF_SIZE
    rw [recv, hstep _ false (recv E (fuel + 1) BUF_SIZE u).2 (Prod.ext ih rfl)]
    rfl

/-! ### The concrete case -/

open Sample

/-- A selective ack from a peer without room for data: the packet after number 99 is lost, three others arrived. -/
def nestDg : Bytes :=
  match ((((((Packet.new.setType .state).setConnectionId 6).setSeqNr 0).setAckNr 99).setWndSize 0)).setSack [7, 0, 0, 0] with
  | some p => p.bytes
  | none => []

/-- The peer sends it again and again. -/
def nestEnv : Env := { env [] with net := fun _ => arr nestDg }

/-- An accepted socket that has sent two full packets. -/
def nestWorld : World := runs nestEnv 5 [.sendTo (List.replicate 2760 1)] (server nestEnv)

/-- The packet in it. -/
def nestPkt : Packet :=
  match Packet.tryFrom nestDg with
  | some (.ok p) => p
  | _ => Packet.new

theorem nest_decoded : Packet.tryFrom (nestDg.take 1520) = some (.ok nestPkt) := rfl

theorem nest_trap : Trap nestWorld nestPkt where
  ty := by decide +kernel
  connected := by decide +kernel
  ours := by decide +kernel
  patient := by decide +kernel
  old := by decide +kernel
  sack := ⟨⟨.selectiveAck, [7, 0, 0, 0]⟩, [], by decide +kernel, rfl, by decide +kernel⟩
  lost := by decide +kernel
  small := by decide +kernel
  full := by decide +kernel

theorem tsSub_tick (k : Nat) : tsSub (BitVec.ofNat 32 (k + 1)) (BitVec.ofNat 32 k) < PRE_SEND_TIMEOUT := by
  unfold tsSub PRE_SEND_TIMEOUT
  simp only [BitVec.toNat_ofNat]
  omega

/-- A case for `C90_cause_partial` and `C90_depth_partial`: three receives in progress inside each other. -/
example : ∃ v, Nested nestEnv 3 BUF_SIZE 2 nestWorld v :=
  (C90_nests (E := nestEnv) rfl nest_decoded tsSub_tick 2 nestWorld nest_trap (fun _ _ _ => rfl) BUF_SIZE).imp fun _ h => h.1

/-- The property is false: the peer of an accepted socket that has two packets outstanding sends one datagram over and
over; the receives in progress inside each other become arbitrarily many, and `flush` never returns. -/
theorem C90_counterexample : ∃ (E : Env) (w : World) (dg : Bytes), Reach E w ∧ (∀ k, E.net k = .dgram dg w.s.connectedTo) ∧
    (∀ d, ∃ v, Nested E (d + 1) BUF_SIZE d w v ∧ v.nNet = w.nNet + d) ∧ ∀ fuel, (flush E fuel w).1 = .pending := by
  refine ⟨nestEnv, nestWorld, nestDg, reach_server 5 _ ?_ ?_, fun k => ?_, fun d => ?_, fun fuel => ?_⟩
  · rfl
  · decide +kernel
  · have : nestWorld.s.connectedTo = peer := by decide +kernel
    rw [this]
    rfl
  · exact C90_nests (E := nestEnv) rfl nest_decoded tsSub_tick d nestWorld nest_trap (fun _ _ _ => rfl) BUF_SIZE
  · cases fuel with
    | zero => rfl
    | succ n =>
      have h := C90_never (E := nestEnv) rfl nest_decoded tsSub_tick (n + 1) nestWorld nest_trap (fun _ _ => rfl) BUF_SIZE
      have hne : nestWorld.s.sendWindow ≠ [] := by decide +kernel
      unfold flush scratchRecv
      simp only [M.whileM]
      msimp
      simp only [hne, ne_eq, not_false_eq_true, decide_true, if_true]
      rw [andThen_pending (w' := (recv nestEnv (n + 1) BUF_SIZE nestWorld).2) (Prod.ext h rfl)]

end Utp
