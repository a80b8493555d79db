import Verif.Lemmas.Listener
import Verif.Props.Handshake
import Verif.Samples
/-!
# A listener over time: C72, C73
-/

namespace Utp
open M

variable {L : LEnv} {fuel : Nat} {s : Listener} {done : List (Nat × AcceptRes)} {lost : List Nat}

/-- **C72.**  However many calls of `accept` are in progress, whenever each is polled and however far each poll gets: a result of `accept` is the result for the
datagram it took, as if this call were the only one and ran without interruption. -/
theorem C72_each (h : LRun L fuel s done lost) {k : Nat} {r : AcceptRes} (hr : (k, r) ∈ done) : r = accept (L.env k) fuel (L.net k) (L.bound k) :=
  h.inv.result k r hr

/-- **C72.**  Each datagram which was taken from the UDP socket is in one place: it is answered by one result, or it is in the hands of one call in progress, or
the call that took it was dropped. -/
theorem C72_once (h : LRun L fuel s done lost) :
    (∀ k, k < s.taken ↔ k ∈ done.map Prod.fst ∨ k ∈ lost ∨ ∃ i f, s.fut i = some f ∧ f.index = some k) ∧
    (done.map Prod.fst).Nodup ∧ lost.Nodup ∧ (∀ k, k ∈ done.map Prod.fst → k ∉ lost) ∧
    (∀ i f k, s.fut i = some f → f.index = some k → k ∉ done.map Prod.fst ∧ k ∉ lost) ∧
    (∀ i j f g k, s.fut i = some f → s.fut j = some g → f.index = some k → g.index = some k → i = j) := by
  have hi := h.inv
  obtain ⟨n1, n2, n3⟩ := List.nodup_append.mp hi.nodup
  refine ⟨fun k => ⟨fun hk => ?_, ?_⟩, n1, n2, fun k h1 h2 => n3 k h1 k h2 rfl, fun i f k h1 h2 => ?_, hi.one⟩
  · rcases hi.all k hk with h1 | h1
    · rcases List.mem_append.mp h1 with h1 | h1
      · exact .inl h1
      · exact .inr (.inl h1)
    · exact .inr (.inr h1)
  · rintro (h1 | h1 | ⟨i, f, h1, h2⟩)
    · exact hi.below k (List.mem_append_left _ h1)
    · exact hi.below k (List.mem_append_right _ h1)
    · exact (hi.index_lt h1 h2).2.1
  · have := (hi.index_lt h1 h2).2.2
    exact ⟨fun h => this (List.mem_append_left _ h), fun h => this (List.mem_append_right _ h)⟩

/-- **C72.**  While no call is dropped, nothing is lost: every datagram taken is answered or being dealt with. -/
theorem C72_kept (h : LRun L fuel s done []) {k : Nat} (hk : k < s.taken) :
    (∃ r, (k, r) ∈ done) ∨ ∃ i f, s.fut i = some f ∧ f.index = some k := by
  rcases ((C72_once h).1 k).mp hk with h1 | h1 | h1
  · obtain ⟨x, h2, rfl⟩ := List.mem_map.mp h1
    exact .inl ⟨x.2, h2⟩
  · simp at h1
  · exact .inr h1

/-- **C72.**  The stream of incoming connections: its items are the results for the datagrams in the order of their arrival, one for each, without an end; at any time at
most one datagram is taken and not answered. -/
theorem C72_incoming {slot : Option AFut} {n : Nat} {items : List (Option AcceptRes)} (h : IRun L fuel slot n items) :
    (∀ k x, items[k]? = some x → x = some (accept (L.env k) fuel (L.net k) (L.bound k))) ∧ items.length ≤ n ∧ n ≤ items.length + 1 := by
  obtain ⟨h1, h2⟩ := h.inv
  refine ⟨fun k x hx => ?_, ?_⟩
  · rw [h1] at hx
    rw [List.getElem?_map] at hx
    obtain ⟨j, h3, rfl⟩ := Option.map_eq_some_iff.mp hx
    obtain ⟨h4, h5⟩ := List.getElem?_eq_some_iff.mp h3
    rw [List.getElem_range] at h5
    rw [h5]
  · rcases h2 with ⟨-, rfl⟩ | ⟨f, -, -, rfl⟩ <;> omega

/-- **C72.**  A poll is ready as soon as what the call waits for is there: the datagram, and room to send the reply. -/
theorem C72_ready (n : Nat) (h : L.net n ≠ .never) (hs : ∀ i, (L.env n).snd i ≠ .never) {steps : Nat} (h3 : 3 ≤ steps) :
    pollAccept L fuel steps .receiving n = (.inr (n, accept (L.env n) fuel (L.net n) (L.bound n)), n + 1) := by
  obtain ⟨m, rfl⟩ := Nat.exists_eq_add_of_le h3
  rw [Nat.add_comm]
  exact poll_ready n h hs m

theorem pollNext_ready {n : Nat} {slot : Option AFut} (hslot : slot = none ∨ slot = some .receiving) (h : L.net n ≠ .never) (hs : ∀ i, (L.env n).snd i ≠ .never)
    {items : List (Option AcceptRes)} (hr : IRun L fuel slot n items) : IRun L fuel none (n + 1) (items ++ [some (L.result fuel n)]) := by
  have e : pollAccept L fuel 3 .receiving n = (.inr (n, L.result fuel n), n + 1) := poll_ready n h hs 0
  have h1 : pollNext AFut.receiving (fun f => (pollAccept L fuel 3 f n).1) slot = (some (some (n, L.result fuel n)), none) := by
    rcases hslot with rfl | rfl <;> simp [pollNext, e]
  have h2 := hr.item 3 h1
  have e2 : slot.getD .receiving = .receiving := by rcases hslot with rfl | rfl <;> rfl
  rw [e2, e] at h2
  exact h2

/-- **C72.**  If datagrams keep arriving and replies can be sent, the stream of incoming connections yields any number of items. -/
theorem C72_endless (h : ∀ n, L.net n ≠ .never) (hs : ∀ n i, (L.env n).snd i ≠ .never) (n : Nat) :
    IRun L fuel none n ((List.range n).map fun k => some (accept (L.env k) fuel (L.net k) (L.bound k))) := by
  induction n with
  | zero => exact IRun.init
  | succ n ih =>
    rw [List.range_succ, List.map_append]
    exact pollNext_ready (.inl rfl) (h n) (hs n) ih

/-- **C73.**  Two sockets which `accept` made come from two SYN packets: if they have the same peer and the same connection identifiers, then two SYN packets with this identifier arrived
from this peer.

Partial: one call of `connect` can send several (`C73_counterexample`). -/
theorem C73_partial (h : LRun L fuel s done lost) {k k' : Nat} {w w' : World} {src src' : Addr} (hk : (k, .made (.ok ()) w src) ∈ done)
    (hk' : (k', .made (.ok ()) w' src') ∈ done) (hne : (k, AcceptRes.made (.ok ()) w src) ≠ (k', .made (.ok ()) w' src'))
    (hp : w.s.connectedTo = w'.s.connectedTo) (hi : w.s.senderId = w'.s.senderId) :
    k ≠ k' ∧ src = src' ∧ ∃ b b' pkt pkt', L.net k = .dgram b src ∧ L.net k' = .dgram b' src ∧ Packet.tryFrom (b.take 1500) = some (.ok pkt) ∧
      Packet.tryFrom (b'.take 1500) = some (.ok pkt') ∧ pkt.getType = some .syn ∧ pkt'.getType = some .syn ∧ pkt.connectionId = pkt'.connectionId := by
  have e := C72_each h hk
  have e' := C72_each h hk'
  obtain ⟨b, pkt, _, h1, h2, h3, -, h4, -, -, -, h5, -⟩ := C41_socket e.symm
  obtain ⟨b', pkt', _, g1, g2, g3, -, g4, -, -, -, g5, -⟩ := C41_socket e'.symm
  have hs : src = src' := by rw [← h4, ← g4, hp]
  subst hs
  refine ⟨?_, rfl, b, b', pkt, pkt', h1, g1, h2, g2, h3, g3, by rw [← h5, ← g5, hi]⟩
  rintro rfl
  rw [← e'] at e
  cases e
  exact hne rfl

open Sample

/-- The environment of a listener: the datagrams that arrive (then nothing), each with its sender; the new sockets are bound to ports 10, 11, …, and draw 100 and 200, 101 and 201, …. -/
def lenv (net : List (Bytes × Addr)) : LEnv where
  net := fun k => match net[k]? with | some (b, src) => .dgram b src | none => .never
  bound := fun k => .ok ⟨false, 10 + k⟩
  env := fun k => env [] (rand := [100 + k, 200 + k])

/-- Non-trivial for `C72_each`, `C72_once`, `C72_kept`: two calls in progress, each has taken a SYN, and the one which took the second is done first. -/
example : ∃ s r0 r1, LRun (lenv [(dg .syn 5 1 0, peer), (dg .syn 6 1 0, other)]) 1 s [(1, r1), (0, r0)] [] ∧ s.taken = 2 ∧
    (∃ w, r0 = .made (.ok ()) w peer) ∧ ∃ w, r1 = .made (.ok ()) w other := by
  have l0 := (LRun.init (L := lenv [(dg .syn 5 1 0, peer), (dg .syn 6 1 0, other)]) (fuel := 1)).call.call
  have l1 := l0.poll (i := 0) (f := .receiving) 1 (by rfl) (by rfl)
  have l2 := l1.ready (i := 1) (f := .receiving) 3 (by rfl) (C72_ready 1 (by simp [lenv]) (by simp [lenv, env]) (by omega))
  have l3 := l2.ready (i := 0) 2 (by rfl) (by rfl)
  exact ⟨_, _, _, l3, rfl, ⟨_, rfl⟩, ⟨_, rfl⟩⟩

/-- A call of `accept` that is dropped takes its datagram with it: a SYN arrived, a call of `accept` took it and was dropped while it waited for the new UDP socket; another
call of `accept` was in progress all the time.  Undisturbed, the datagram would have made a connection; now no call will ever answer it. -/
theorem C72_counterexample : ∃ (L : LEnv) (s : Listener), LRun L 1 s [] [0] ∧ s.fut 1 = some .receiving ∧
    (∃ w, accept (L.env 0) 1 (L.net 0) (L.bound 0) = .made (.ok ()) w peer) ∧
    ∀ s' done' lost', LRun L 1 s' done' lost' → 0 ∈ lost' → ∀ r, (0, r) ∉ done' := by
  have l0 := (LRun.init (L := lenv [(dg .syn 5 1 0, peer)]) (fuel := 1)).call.call
  have l1 := l0.poll (i := 0) (f := .receiving) 1 (by rfl) (by rfl)
  have l2 := l1.drop (i := 0) (by rfl)
  refine ⟨_, _, l2, rfl, ⟨_, rfl⟩, ?_⟩
  intro s' done' lost' h h0 r hr
  exact (C72_once h).2.2.2.1 0 (List.mem_map.mpr ⟨_, hr, rfl⟩) h0

/-- Non-trivial for `C72_incoming`, `C72_ready`: something which is not uTP at all, then a SYN, then nothing; two items, and the stream is still waiting. -/
example : ∃ n items, IRun (lenv [([1, 2, 3], other), (dg .syn 5 1 0, peer)]) 1 (some .receiving) n items ∧ n = 2 ∧
    ∃ w, items = [some (.failed (.parse .invalidPacketLength)), some (.made (.ok ()) w peer)] := by
  have l0 := pollNext_ready (.inl rfl) (by simp [lenv]) (by simp [lenv, env]) (IRun.init (L := lenv [([1, 2, 3], other), (dg .syn 5 1 0, peer)]) (fuel := 1))
  have l1 := pollNext_ready (.inl rfl) (by simp [lenv]) (by simp [lenv, env]) l0
  exact ⟨_, _, l1.pending 1 rfl, rfl, _, rfl⟩

/-- The two SYN packets of a client that gets no reply in time. -/
def lateSyns : List Bytes := sent (client (env [.fail .timedOut]))

/-- A listener which gets both. -/
def lateListener : LEnv := lenv (lateSyns.map fun b => (b, here))

/-- The sockets it makes. -/
def lateSocket (k : Nat) : World := acceptWorld (lateListener.result 1 k)

/-- The client, which gets the reply of the first. -/
def lateClient : Env := env [.fail .timedOut, .dgram (sent (lateSocket 0)).flatten (lateSocket 0).s.localAddr]

/-- One call of `connect` makes two connections at the other end: the reply to its first SYN comes too late, it sends the SYN again, and the listener makes a socket for each of them.
Both sockets are connected, with the same identifiers and the same peer, but the client is connected to one of them only. -/
theorem C73_counterexample : ∃ (Ec : Env) (L : LEnv) (w1 w2 : World) (syn1 syn2 reply : Bytes),
    sent (client Ec) = [syn1, syn2] ∧ L.net 0 = .dgram syn1 here ∧ L.net 1 = .dgram syn2 here ∧
    IRun L 1 none 2 [some (.made (.ok ()) w1 here), some (.made (.ok ()) w2 here)] ∧
    sent w1 = [reply] ∧ Ec.net 0 = .fail .timedOut ∧ Ec.net 1 = .dgram reply w1.s.localAddr ∧
    (client Ec).s.state = .connected ∧ (client Ec).s.connectedTo = w1.s.localAddr ∧ w1.s.localAddr ≠ w2.s.localAddr ∧
    w1.s.state = .connected ∧ w2.s.state = .connected ∧ w1.s.connectedTo = w2.s.connectedTo ∧ w1.s.senderId = w2.s.senderId ∧ w1.s.receiverId = w2.s.receiverId := by
  have l0 := pollNext_ready (.inl rfl) (by decide +kernel) (by simp [lateListener, lenv, env]) (IRun.init (L := lateListener) (fuel := 1))
  have l1 := pollNext_ready (.inl rfl) (by decide +kernel) (by simp [lateListener, lenv, env]) l0
  have e0 : lateListener.result 1 0 = .made (.ok ()) (lateSocket 0) here := by decide +kernel
  have e1 : lateListener.result 1 1 = .made (.ok ()) (lateSocket 1) here := by decide +kernel
  rw [e0, e1] at l1
  exact ⟨lateClient, lateListener, lateSocket 0, lateSocket 1, lateSyns[0]!, lateSyns[1]!, (sent (lateSocket 0))[0]!,
    by decide +kernel, by decide +kernel, by decide +kernel, l1, by decide +kernel, rfl, by decide +kernel, by decide +kernel, by decide +kernel, by decide +kernel,
    by decide +kernel, by decide +kernel, by decide +kernel, by decide +kernel, by decide +kernel⟩

/-- Non-trivial for `C73_partial`: the sockets of `C73_counterexample`, made by one call of `accept` after the other. -/
example : ∃ s, LRun lateListener 1 s [(0, .made (.ok ()) (lateSocket 0) here), (1, .made (.ok ()) (lateSocket 1) here)] [] ∧
    (lateSocket 0).s.connectedTo = (lateSocket 1).s.connectedTo ∧ (lateSocket 0).s.senderId = (lateSocket 1).s.senderId := by
  have e0 : lateListener.result 1 0 = .made (.ok ()) (lateSocket 0) here := by decide +kernel
  have e1 : lateListener.result 1 1 = .made (.ok ()) (lateSocket 1) here := by decide +kernel
  have l0 := (LRun.init (L := lateListener) (fuel := 1)).call.call
  have l1 := l0.ready (i := 0) (f := .receiving) 3 (by rfl) (C72_ready 0 (by decide +kernel) (by simp [lateListener, lenv, env]) (by omega))
  have l2 := l1.ready (i := 1) (f := .receiving) 3 (by rfl) (C72_ready 1 (by decide +kernel) (by simp [lateListener, lenv, env]) (by omega))
  simp only [List.nil_append, List.cons_append, e0, e1] at l2
  exact ⟨_, l2, by decide +kernel, by decide +kernel⟩

end Utp
