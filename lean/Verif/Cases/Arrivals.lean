import Verif.Props.Control
import Verif.Props.Advert
import Verif.Props.Ack
/-!
# Concrete cases of the theorems about one arriving packet: C27, C29, C30, C31, C43, C44, C63, C80

Each theorem is applied to a reachable socket and a datagram that arrives: all its hypotheses hold together.
-/

namespace Utp
namespace Sample

/-- A FIN arrives at an open connection. -/
example : ∃ out w' reply, recv twoFins 7 9 (server twoFins) = (.ok (out, peer), w') ∧ w'.s.state = .closed ∧
    w'.log = (server twoFins).log ++ [.wait (server twoFins).s.patience, .send peer (Packet.bytes reply) true] ∧ reply.getType = some .state ∧ reply.ackNr = 2 := by
  obtain ⟨out, w', reply, h1, h2, h3, _, h5, _, h7⟩ := C43_fin (E := twoFins) rfl (w := server twoFins)
    (reach_server 0 [] (by decide +kernel) (by decide +kernel)) (.inl (by decide +kernel)) (pkt := ⟨dg .fin 6 2 100⟩)
    (b := dg .fin 6 2 100) (src := peer) (by decide +kernel) (by rfl) (by decide +kernel) (.inr (by decide +kernel)) (by decide +kernel) (by decide +kernel) 5 9
  exact ⟨out, w', reply, h1, h2, h3, h5, h7.trans (by decide +kernel)⟩

/-- It arrives again. -/
example : ∃ out w' reply, recv twoFins 7 9 (runs twoFins 10 [.recvFrom 9] (server twoFins)) = (.ok (out, peer), w') ∧ w'.s.state = .closed ∧
    Packet.getType reply = some .state ∧ reply.ackNr = 2 := by
  obtain ⟨out, w', reply, h1, h2, _, _, h5, _, h7⟩ := C43_repeat_partial (E := twoFins) rfl (w := runs twoFins 10 [.recvFrom 9] (server twoFins))
    (reach_server _ _ (by decide +kernel) (by decide +kernel)) (by decide +kernel) (pkt := ⟨dg .fin 6 2 100⟩)
    (b := dg .fin 6 2 100) (src := peer) (by decide +kernel) (by rfl) (by decide +kernel) (.inr (by decide +kernel)) (by decide +kernel) (by decide +kernel) 5 9
  exact ⟨out, w', reply, h1, h2, h5, h7.trans (by decide +kernel)⟩

/-- Packets 4 and 2 arrive, then a SYN of somebody else. -/
def mixture : Env := env [arr (dg .data 6 4 100 [4]), arr (dg .data 6 2 100 [2]), .dgram (dg .syn 1000 9 0 [] 0) other]

/-- The world after packet 2 was read; packet 4 is held. -/
def mixed (E : Env) : World := runs E 10 [.recvFrom 9] (server E)

/-- The SYN is answered with a Reset; nothing is read, and packet 4 is still held. -/
example : ∃ out w' reply, recv mixture 7 9 (mixed mixture) = (.ok (out, other), w') ∧ out ++ w'.s.deliverable = [] ∧
    w'.log = (mixed mixture).log ++ [.wait (some 1000), .send other (Packet.bytes reply) true] ∧ reply.getType = some .reset ∧
    w'.s.incoming.map Packet.seqNr = [4] := by
  obtain ⟨out, w1, w', reply, h1, ⟨d, h2⟩, h3, h4, h5, h6⟩ := C44_partial (E := mixture) rfl (w := mixed mixture)
    (reach_server _ _ (by decide +kernel) (by decide +kernel)) (by decide +kernel) (pkt := ⟨dg .syn 1000 9 0 [] 0⟩)
    (b := dg .syn 1000 9 0 [] 0) (src := other) (by decide +kernel) (by rfl) (by decide +kernel) (by decide +kernel) (by decide +kernel) (by rfl) 5 9
  have hd : (mixed mixture).s.deliverable = [] := by decide +kernel
  have hp : (mixed mixture).s.patience = some 1000 := by decide +kernel
  have hi : (recv mixture 7 9 (mixed mixture)).2.s.incoming.map Packet.seqNr = [4] := by decide +kernel
  rw [h1] at hi
  exact ⟨out, w', reply, h1, h4.trans hd, hp ▸ h5, h6, hi⟩

/-- Packet 4 comes again while it is held. -/
def mixedTwice : Env := env [arr (dg .data 6 4 100 [4]), arr (dg .data 6 2 100 [2]), arr (dg .data 6 4 100 [4] 7)]

/-- Only the window of the peer changes; the reply acknowledges packet 2. -/
example : ∃ (w1 : World) (d : Int) (t : Option U64), ∃ reply : Packet, w1.s = { (mixed mixedTwice).s with remoteWnd := 7, theirDelay := d } ∧
    w1.log = (mixed mixedTwice).log ++ [.wait t, .send peer reply.bytes true] ∧ reply.ackNr = 2 ∧
    ∃ out w2, recv mixedTwice 7 9 (mixed mixedTwice) = (.ok (out, peer), w2) ∧ out ++ w2.s.deliverable = [] := by
  obtain ⟨w1, d, t, reply, h1, h2, h3, h4⟩ := C27_partial (E := mixedTwice) rfl (w := mixed mixedTwice)
    (reach_server _ _ (by decide +kernel) (by decide +kernel)) (.inl (by decide +kernel)) (pkt := ⟨dg .data 6 4 100 [4] 7⟩)
    (b := dg .data 6 4 100 [4] 7) (src := peer) (by decide +kernel) (by rfl) (by decide +kernel) (.inr (by decide +kernel))
    (.inr ⟨⟨dg .data 6 4 100 [4]⟩, by decide +kernel, by decide +kernel⟩) (by decide +kernel) (by decide +kernel) (by rfl)
  obtain ⟨out, w2, h5, h6⟩ := (h4 5 9).2
  have hd : (mixed mixedTwice).s.deliverable = [] := by decide +kernel
  exact ⟨w1, d, t, reply, h1, h2, h3.trans (by decide +kernel), out, w2, h5, h6.trans hd⟩

/-- Packet 7 comes when 4 is held and 3 is missing. -/
def mixedGap : Env := env [arr (dg .data 6 4 100 [4]), arr (dg .data 6 2 100 [2]), arr (dg .data 6 7 100 [7])]

/-- The reply to packet 7 acknowledges packet 2 and has one bit set, the one of packet 4 (number 0). -/
example : ∃ t, ∃ reply : Spec.Datagram, (recv mixedGap 7 9 (mixed mixedGap)).2.log = (mixed mixedGap).log ++ [.wait t, .send peer reply.bytes true] ∧
    (Packet.mk reply.bytes).ackNr = 2 ∧ ∃ bm, reply.exts = [⟨1, bm⟩] ∧ ∀ i, Spec.bitAt bm i = true ↔ i = 0 := by
  have hi : (mixed mixedGap).s.incoming = [⟨dg .data 6 4 100 [4]⟩] := by decide +kernel
  have ha : (mixed mixedGap).s.ackNr = 2 := by decide +kernel
  have h4 : (Packet.mk (dg .data 6 4 100 [4])).seqNr = 4 := by decide +kernel
  have h7 : (Packet.mk (dg .data 6 7 100 [7])).seqNr = 7 := by decide +kernel
  obtain ⟨t, reply, h1, _, h3, _, h5⟩ := C30_reply_partial (E := mixedGap) rfl (w := mixed mixedGap) (.inl (by decide +kernel)) (pkt := ⟨dg .data 6 7 100 [7]⟩)
    (b := dg .data 6 7 100 [7]) (src := peer) (by decide +kernel) (by rfl) (by decide +kernel) (.inr (by decide +kernel))
    (by rw [ha, h7]; decide) (by rw [ha]; decide) (by rw [hi, ha]; simp only [List.mem_singleton, forall_eq, h4]; decide)
    (by rw [hi, ha]; simp only [List.mem_singleton, forall_eq, h4]; decide) (by decide +kernel) (by rfl) 5 9
  rw [hi, ha] at h5
  simp only [List.mem_singleton, forall_eq, h4] at h5
  rw [if_neg (by decide)] at h5
  obtain ⟨bm, h6, h8⟩ := h5
  refine ⟨t, reply, h1, h3.trans ha, bm, h6, fun i => (h8 i).trans ?_⟩
  rw [exists_eq_left, h4]
  constructor
  · rintro ⟨hl, he⟩
    have := congrArg BitVec.toNat he
    simp at this
    omega
  · rintro rfl
    exact ⟨by decide, by decide⟩

/-- A receive into a scratch buffer keeps packet 7. -/
example : ∃ w1, scratchRecv mixedGap 7 (mixed mixedGap) = (.ok (), w1) ∧ w1.s.pending = [] ∧ w1.s.ackNr = 2 ∧ ∃ p ∈ w1.s.incoming, p.seqNr = 7 := by
  obtain ⟨w1, h1, h2, h3, _, p, h5, h6, _⟩ := C31_partial (E := mixedGap) rfl (w := mixed mixedGap)
    (reach_server _ _ (by decide +kernel) (by decide +kernel)) (.inl (by decide +kernel)) (by decide +kernel) (by unfold Socket.NoEmpty; decide +kernel)
    (pkt := ⟨dg .data 6 7 100 [7]⟩)
    (b := dg .data 6 7 100 [7]) (src := peer) (by decide +kernel) (by rfl) (by decide +kernel) (.inr (by decide +kernel))
    (by decide +kernel) (by decide +kernel) (by decide +kernel) (by rfl) 5
  exact ⟨w1, h1, h2, h3.trans (by decide +kernel), p, h5, h6.trans (by decide +kernel)⟩

/-- The reply to packet 7 promises a window of a megabyte. -/
example : ∃ t reply, (recv mixedGap 7 9 (mixed mixedGap)).2.log = (mixed mixedGap).log ++ [.wait t, .send peer reply true] ∧ advertised reply = 1048576 :=
  C80_partial (E := mixedGap) (w := mixed mixedGap) (.inl (by decide +kernel)) (pkt := ⟨dg .data 6 7 100 [7]⟩)
    (b := dg .data 6 7 100 [7]) (src := peer) (by decide +kernel) (by rfl) (by decide +kernel) (.inr (by decide +kernel)) (by decide +kernel) (by rfl) 5 9
    (by decide +kernel)

/-- A packet of another connection. -/
example : ∃ (w1 : World) (t : Option U64), ∃ reply : Packet, w1.s = (server strayState).s ∧ w1.log = (server strayState).log ++ [.wait t, .send other reply.bytes true] ∧
    IsControl (server strayState).s .reset reply.bytes ∧ recv strayState 7 9 (server strayState) = (.ok ([], other), w1) := by
  obtain ⟨w1, t, reply, h1, h2, h3, _, h5⟩ := C29_partial (E := strayState) (w := server strayState)
    (reach_server 0 [] (by decide +kernel) (by decide +kernel)) (by decide +kernel) (by unfold Socket.NoEmpty; decide +kernel) (by decide +kernel)
    (b := dg .state 77 9 100) (src := other) (pkt := ⟨dg .state 77 9 100⟩) (ty := .state) (by decide +kernel) (by rfl) (by decide +kernel) (by decide) (by decide)
    (by decide +kernel) (by decide +kernel) (by decide +kernel) (by decide +kernel) (by decide +kernel) (by rfl)
  exact ⟨w1, t, reply, h1, h2, h3, (h5 5 9).1⟩

/-- Three packets are sent; the first is acknowledged three times. -/
def thrice : Env := env [arr (dg .state 6 2 100), arr (dg .state 6 2 100), arr (dg .state 6 2 100)]

/-- After `n` of the acknowledgements. -/
def thriced : Nat → World
  | 0 => runs thrice 20 [.sendTo [1], .sendTo [2], .sendTo [3]] (server thrice)
  | n + 1 => (recv thrice 7 9 (thriced n)).2

/-- The second one is counted. -/
example : ∃ td pe inc ack ld, (thriced 2).s = { (thriced 1).s with
    dupAcks := 2, remoteWnd := 1048576, theirDelay := td, pending := pe, incoming := inc, ackNr := ack, lastDropped := ld } := by
  obtain ⟨w', h1, _, td, pe, inc, ack, ld, h3⟩ := C63_repeated (E := thrice) (w := thriced 1) (b := dg .state 6 2 100) (src := peer) (pkt := ⟨dg .state 6 2 100⟩)
    (exts := []) (fuel := 5) (len := 9) (by decide +kernel) (by decide +kernel) (by rfl) (by decide +kernel) (by decide +kernel) (.inr (by decide +kernel))
    (by decide +kernel) (by decide +kernel) (.inl (by decide +kernel)) (by decide +kernel) (by simp) (by decide +kernel)
  refine ⟨td, pe, inc, ack, ld, ?_⟩
  have h4 : (thriced 2).s = w'.s := congrArg World.s h1
  have h5 : (thriced 1).s.dupAcks + 1 = 2 := by decide +kernel
  have h6 : (Packet.mk (dg .state 6 2 100)).wndSize = 1048576 := by decide +kernel
  rw [h4, h3, h5, h6]

/-- At the third the window is halved. -/
example : ∃ td pe inc ack ld c, (thriced 3).s = { (thriced 2).s with
    dupAcks := 3, remoteWnd := 1048576, theirDelay := td, cwnd := c, pending := pe, incoming := inc, ackNr := ack, lastDropped := ld } ∧ c.toNat = 2800 := by
  obtain ⟨w', h1, td, pe, inc, ack, ld, c, h3, h7⟩ := C63_third (E := thrice) (w := thriced 2) (b := dg .state 6 2 100) (src := peer) (pkt := ⟨dg .state 6 2 100⟩)
    (p := (thriced 2).s.sendWindow.headD Packet.new)
    (exts := []) (fuel := 5) (len := 9) (by decide +kernel) (by decide +kernel) (by rfl) (by decide +kernel) (by decide +kernel) (.inr (by decide +kernel))
    (by decide +kernel) (by decide +kernel) (by decide +kernel) (by decide +kernel) (by decide +kernel) (fun k => by simp [thrice, env]) (by decide +kernel) (by simp)
    (by decide +kernel)
  refine ⟨td, pe, inc, ack, ld, c, ?_, h7.trans (by decide +kernel)⟩
  have h4 : (thriced 3).s = w'.s := congrArg World.s h1
  have h6 : (Packet.mk (dg .state 6 2 100)).wndSize = 1048576 := by decide +kernel
  rw [h4, h3, h6]

end Sample
end Utp
