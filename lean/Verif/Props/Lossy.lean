import Verif.Lemmas.Lossy
import Verif.Lemmas.Release
import Verif.Props.Lossless
/-!
# Data over a network that loses datagrams: C77
-/

namespace Utp
open M Packet Sample

theorem agrees_transfer {E : Env} (fuel : Nat) : ∀ batches, Agrees (transfer E fuel batches) (transfer E.release fuel batches)
  | [] => .refl _
  | batch :: rest => by
    have hs : ∀ l, Agrees (sendAll E fuel l) (sendAll E.release fuel l) := by
      intro l
      induction l with
      | nil => exact .refl _
      | cons b l ih => exact Agrees.andThen (agrees_sendTo fuel b) fun _ => ih
    exact Agrees.andThen (hs batch) fun _ => Agrees.andThen (agrees_flush fuel) fun _ => agrees_transfer fuel rest

theorem agrees_readLoop {E : Env} (fuel len total : Nat) : ∀ n got, Agrees (readLoop E fuel len total n got) (readLoop E.release fuel len total n got)
  | 0, _ => .refl _
  | n + 1, got => by
    unfold readLoop
    split
    · exact .refl _
    · exact Agrees.andThen (agrees_recvFrom fuel len) fun _ => agrees_readLoop fuel len total n _

/-- A program that does not panic, in a build without overflow checks. -/
theorem same_release {α : Type} {E : Env} {m m' : Nat → M α} {x : World} (h : ∀ fuel, Agrees (m fuel) (m' fuel)) (he : E.checks = false → m = m')
    (hp : E.checks = true → ∀ fuel, (m fuel x).1 ≠ .panic) (fuel : Nat) : m' fuel x = m fuel x := by
  cases hc : E.checks with
  | false => rw [he hc]
  | true => exact h fuel x (hp hc fuel)

theorem release_of_false {E : Env} (h : E.checks = false) : E.release = E := by
  cases E; simp only [Env.release] at *; rw [h]

theorem channel_same {α : Type} {m m' : Nat → M α} {y : World} {E : Env} {x : World} {since which : Nat → Nat} (h : ∀ fuel, m' fuel y = m fuel y)
    (hc : Channel m y E x since which) : Channel m' y E.release x since which := by
  refine ⟨fun p d src he => ?_, hc.order, hc.finite⟩
  obtain ⟨s, hs, fuel, hd⟩ := hc.sent p d src he
  exact ⟨s, hs, fuel, by unfold effectsOf at hd ⊢; rw [h]; exact hd⟩

theorem patient_same {α : Type} {m m' : Nat → M α} {E : Env} {x : World} (h : ∀ fuel, m' fuel x = m fuel x) (hp : Patient E x m) : Patient E.release x m' := by
  refine ⟨hp.ends, fun n fuel hn => hp.often n fuel ?_⟩
  unfold effectsOf at hn ⊢
  rw [← h]; exact hn

/-- **C77.**  Over a network that may lose any datagrams, in both directions, and may repeat them, but keeps their order, a sender that flushes after every buffer and a
reader both finish, without an error, and the reader gets exactly the bytes sent: any number of buffers, through all retransmissions, repeated packets, repeated
acknowledgements and wrap-arounds of the sequence numbers.  All that is asked of the network is that it does not let so many waits in a row end
without a datagram that a socket gives up.

Partial: every buffer fits into one packet and is flushed (otherwise false: `C77_counterexample_batch`); nothing of what the sender sent may be acknowledged ahead (`CaughtUp`), which after data in the other direction is
not so (`C77_counterexample`); datagrams do not overtake each other (otherwise false: `C77_counterexample_overtake`); if the build checks for overflow, neither program panics (C45; the timeout may overflow, `C77_counterexample_debug`); the operating system accepts every datagram. -/
theorem C77_partial {A B : Env} {a b : World} {bufs : List Bytes} {len : Nat} (hl : Linked a b) (hs : CaughtUp a.s b.s) (hb : b.s.sendWindow = [])
    (hfit : ∀ c ∈ bufs, 0 < c.length ∧ c.length ≤ 1380) (hlen : 0 < len)
    (hcA : A.checks = true → ∀ fuel, (transfer A fuel (bufs.map fun c => [c]) a).1 ≠ .panic)
    (hcB : B.checks = true → ∀ fuel, (readUntil B len bufs.flatten.length fuel b).1 ≠ .panic)
    (hokA : ∀ n, A.snd n = .ok) (hokB : ∀ n, B.snd n = .ok)
    (hnet : Lossy A B a b (fun fuel => transfer A fuel (bufs.map fun c => [c])) (fun fuel => readUntil B len bufs.flatten.length fuel))
    (hpA : Patient A a (fun fuel => transfer A fuel (bufs.map fun c => [c]))) (hpB : Patient B b (fun fuel => readUntil B len bufs.flatten.length fuel)) :
    ∃ a' b', (∃ F, ∀ fuel, F ≤ fuel → transfer A fuel (bufs.map fun c => [c]) a = (.ok (), a') ∧ readUntil B len bufs.flatten.length fuel b = (.ok bufs.flatten, b')) ∧
      Linked a' b' ∧ CaughtUp a'.s b'.s ∧ b'.s.sendWindow = [] ∧ a'.s.seqNr = a.s.seqNr + BitVec.ofNat 16 bufs.length := by
  obtain ⟨since, since', which, which', h1, h2, h3⟩ := hnet
  have eA := same_release (m' := fun fuel => transfer A.release fuel (bufs.map fun c => [c])) (fun fuel => agrees_transfer fuel _) (fun h => by rw [release_of_false h]) hcA
  have eB := same_release (m' := fun fuel => readUntil B.release len bufs.flatten.length fuel) (fun fuel => agrees_readLoop fuel _ _ _ _)
    (fun h => by rw [release_of_false h]; rfl) hcB
  have H : LossyPair A.release B.release a b bufs len since since' which which' :=
    ⟨hl, hs, hb, hfit, hlen, rfl, rfl, hokA, hokB, h1, channel_same eB h2, channel_same eA h3, patient_same eA hpA, patient_same eB hpB⟩
  obtain ⟨a', b', ⟨F, hF⟩, h⟩ := H.delivered
  have hfl : (bufs.map fun c => [c]).flatten = bufs := by
    rw [← List.flatMap_def]; exact List.flatMap_singleton' bufs
  rw [hfl] at hF
  exact ⟨a', b', ⟨F, fun fuel hf => ⟨(eA fuel).symm.trans (hF fuel hf).1, (eB fuel).symm.trans (hF fuel hf).2⟩⟩, h⟩

/-- **C77.**  From `connect` and `accept` on: the connecting side sends, the accepting side reads. -/
theorem C77_connection_partial {A B : Env} {b : World} {n fuel fuel' : Nat} {la la' addr src src' : Addr} {d : Bytes} {reply : Bytes} {bufs : List Bytes} {len : Nat}
    (hn : n < 5) (hto : ∀ i, i < n → (A.net i).isTimeout) (hsyn : IsSyn 1 (sequentialIdentifiers (A.rand 0)).1 d)
    (ha : accept B fuel' (.dgram d src) (.ok la') = .made (.ok ()) b src) (hl : b.log = [.send src reply true]) (hr : A.net n = .dgram reply src')
    (hfit : ∀ c ∈ bufs, 0 < c.length ∧ c.length ≤ 1380) (hlen : 0 < len)
    (hokA : ∀ n, A.snd n = .ok) (hokB : ∀ n, B.snd n = .ok) :
    ∃ a, connect A fuel (.ok [addr]) (.ok la) = .ok (.ok (), a) ∧
      ((A.checks = true → ∀ fuel, (transfer A fuel (bufs.map fun c => [c]) a).1 ≠ .panic) →
        (B.checks = true → ∀ fuel, (readUntil B len bufs.flatten.length fuel b).1 ≠ .panic) →
        Lossy A B a b (fun fuel => transfer A fuel (bufs.map fun c => [c])) (fun fuel => readUntil B len bufs.flatten.length fuel) →
        Patient A a (fun fuel => transfer A fuel (bufs.map fun c => [c])) → Patient B b (fun fuel => readUntil B len bufs.flatten.length fuel) →
        ∃ F, ∀ fuel, F ≤ fuel → (transfer A fuel (bufs.map fun c => [c]) a).1 = .ok () ∧ (readUntil B len bufs.flatten.length fuel b).1 = .ok bufs.flatten) := by
  obtain ⟨a, h1, h2, h3, h4, _⟩ := C67_handshake (fuel := fuel) (la := la) (addr := addr) hn hto (fun i _ => hokA i) hsyn ha hl hr
  obtain ⟨_, _, _, _, _, _, _, _, _, e7⟩ := accept_inv ha (by simp)
  have hb1 : b.s.lastDropped = b.s.ackNr := by rw [e7]; rfl
  have hb2 : b.s.sendWindow = [] := by rw [e7]; rfl
  have hset : CaughtUp a.s b.s := by
    have one : (1 : U16).toNat = 1 := rfl
    refine ⟨h3.sent, ?_, ?_⟩
    · have h4 : (a.s.seqNr - a.s.lastAcked).toNat = 1 := h4
      bv_omega
    · rcases h3.next with h | ⟨h, h'⟩
      · exact h
      · exact absurd (hb1.trans h) h'
  refine ⟨a, h1, fun hcA hcB hnet hpA hpB => ?_⟩
  obtain ⟨a', b', ⟨F, hF⟩, _⟩ := C77_partial h2 hset hb2 hfit hlen hcA hcB hokA hokB hnet hpA hpB
  exact ⟨F, fun fuel hf => by rw [(hF fuel hf).1, (hF fuel hf).2]; exact ⟨rfl, rfl⟩⟩

/-- More fuel lets a call that was cut off go on: until there it does the same. -/
theorem C57_fuel_log {E : Env} {fuel fuel' : Nat} (hf : fuel ≤ fuel') (op : Op) (w : World) : (runOp E fuel op w).2.log <+: (runOp E fuel' op w).2.log :=
  (ext_runOp hf op).log w

/-! ### Examples -/

/-- The datagram number `i` and the number of waits before it. -/
def findDatagram : List Act → Nat → Nat → Option (Nat × Bytes)
  | [], _, _ => none
  | .wait _ :: l, i, s => findDatagram l i (s + 1)
  | .send _ d _ :: _, 0, s => some (s, d)
  | .send _ _ _ :: l, i + 1, s => findDatagram l i s

theorem findDatagram_spec : ∀ (l : List Act) (i s0 s : Nat) (d : Bytes), findDatagram l i s0 = some (s, d) → ∃ n, s = s0 + n ∧ DatagramAt l i n d
  | [], _, _, _, _, h => by simp [findDatagram] at h
  | .wait t :: l, i, s0, s, d, h => by
    obtain ⟨n, h1, pre, dst, ok, post, h2, h3, h4⟩ := findDatagram_spec l i (s0 + 1) s d h
    exact ⟨n + 1, by omega, .wait t :: pre, dst, ok, post, by rw [h2]; rfl, h3, by simp [waitsOf, h4]⟩
  | .send dst d' ok :: l, 0, s0, s, d, h => by
    simp only [findDatagram, Option.some.injEq, Prod.mk.injEq] at h
    exact ⟨0, by omega, [], dst, ok, l, by rw [h.2]; rfl, rfl, rfl⟩
  | .send dst d' ok :: l, i + 1, s0, s, d, h => by
    obtain ⟨n, h1, pre, dst', ok', post, h2, h3, h4⟩ := findDatagram_spec l i s0 s d h
    exact ⟨n, h1, .send dst d' ok :: pre, dst', ok', post, by rw [h2]; rfl, by simpa [datagramsOf] using h3, h4⟩

/-- Does this wait end as the channel says? -/
def sentCheck (l : List Act) (ev : NetEvent) (since which : Nat) : Bool :=
  match ev, findDatagram l which 0 with
  | .dgram d _, some (s, d') => decide (s ≤ since) && decide (d = d')
  | .dgram _ _, none => false
  | _, _ => true

theorem channel_of {α : Type} {m : Nat → M α} {y : World} {E : Env} {x : World} {since which : Nat → Nat} (K fuel : Nat) (hnone : ∀ p, K ≤ p → ¬ Comes (E.net (x.nNet + p)))
    (hmono : ∀ p p', p ≤ p' → which p ≤ which p') (h : ∀ p, p < K → sentCheck (effectsOf m y fuel) (E.net (x.nNet + p)) (since p) (which p) = true) : Channel m y E x since which := by
  refine ⟨fun p d src hd => ?_, fun p p' hp _ _ => hmono p p' hp, fun i => ⟨K, fun p hp hc => absurd hc (hnone p hp)⟩⟩
  have hp : p < K := Nat.lt_of_not_le fun hc => hnone p hc ⟨d, src, hd⟩
  have h := h p hp
  rw [hd] at h
  rcases hf : findDatagram (effectsOf m y fuel) (which p) 0 with _ | ⟨s, d'⟩
  · simp [sentCheck, hf] at h
  · simp only [sentCheck, hf, Bool.and_eq_true, decide_eq_true_eq] at h
    obtain ⟨n, h1, h2⟩ := findDatagram_spec _ _ _ _ _ hf
    exact ⟨n, by omega, fuel, h.2 ▸ h2⟩

theorem patient_often {α : Type} {m : Nat → M α} {E : Env} {x : World} (hext : ∀ f f', f ≤ f' → Ext (m f) (m f')) (fuel : Nat) (hdone : (m fuel x).1 ≠ .pending)
    (hends : ∀ n, Comes (E.net (x.nNet + n)) ∨ Expires (E.net (x.nNet + n)))
    (hw : ∀ n, n + x.s.maxRetries.toNat ≤ waitsOf (effectsOf m x fuel) → ∃ j, j < x.s.maxRetries.toNat ∧ Comes (E.net (x.nNet + n + j))) : Patient E x m := by
  refine ⟨hends, fun n f hn => ?_⟩
  have hle : waitsOf (effectsOf m x f) ≤ waitsOf (effectsOf m x fuel) := by
    rcases Nat.le_total f fuel with hf | hf
    · exact waitsOf_prefix (LossyPair.prefix_drop ((hext _ _ hf).log x) _)
    · rcases hext _ _ hf x with h | h
      · unfold effectsOf; rw [h]; exact Nat.le_refl _
      · exact absurd h.1 hdone
  exact hw n (by omega)

theorem patient_of {α : Type} {m : Nat → M α} {E : Env} {x : World} (hext : ∀ f f', f ≤ f' → Ext (m f) (m f')) (fuel : Nat) (hdone : (m fuel x).1 ≠ .pending)
    (hends : ∀ n, Comes (E.net (x.nNet + n)) ∨ Expires (E.net (x.nNet + n))) (hw : waitsOf (effectsOf m x fuel) < x.s.maxRetries.toNat) : Patient E x m :=
  patient_often hext fuel hdone hends fun n hn => absurd hn (by omega)

namespace Sample

/-- An environment in which the waits after the listed ones time out. -/
def lenv (net : List NetEvent) : Env := { senv net [] with net := fun k => net.getD k (.fail .timedOut) }

theorem lenv_ends {net : List NetEvent} (h : ∀ ev ∈ net, Comes ev ∨ Expires ev) (n : Nat) : Comes ((lenv net).net n) ∨ Expires ((lenv net).net n) := by
  show Comes (net.getD n _) ∨ Expires (net.getD n _)
  rw [List.getD_eq_getElem?_getD]
  rcases hg : net[n]? with _ | ev
  · exact .inr (.inl rfl)
  · exact h ev (List.mem_of_getElem? hg)

theorem lenv_none {net : List NetEvent} {x K p : Nat} (hK : net.length ≤ x + K) (hp : K ≤ p) : ¬ Comes ((lenv net).net (x + p)) := by
  rintro ⟨d, src, h⟩
  have : (lenv net).net (x + p) = .fail .timedOut := by
    show net.getD (x + p) _ = _
    rw [List.getD_eq_getElem?_getD, List.getElem?_eq_none (by omega)]
    rfl
  rw [this] at h
  cases h

/-- The connecting side: the first two waits for an acknowledgement time out. -/
def lossyA : List NetEvent := [arr (dg .state 7 100 1 [] 0), .fail .timedOut, .fail .timedOut, arr (dg .state 7 100 2), arr (dg .state 7 100 3)]
/-- The accepting side: the first packet arrives only when it was sent again, and then once more. -/
def lossyB : List NetEvent := [arr (dg .data 8 2 100 [1, 2] 0), arr (dg .data 8 2 100 [1, 2] 0), arr (dg .data 8 3 100 [3] 0)]
/-- The accepting side accepts. -/
def lossyReader : World := acceptWorld (accept (lenv lossyB) 1 (arr theSyn) (.ok here))
/-- Two buffers: the first packet is lost once, and then its acknowledgement. -/
example : ∃ a' b', (∃ F, ∀ fuel, F ≤ fuel → transfer (lenv lossyA) fuel [[[1, 2]], [[3]]] (client (lenv lossyA)) = (.ok (), a') ∧
    readUntil (lenv lossyB) 5 3 fuel lossyReader = (.ok [1, 2, 3], b')) := by
  have hl : Linked (client (lenv lossyA)) lossyReader :=
    ⟨by decide +kernel, by decide +kernel, by decide +kernel, by decide +kernel, by decide +kernel, by decide +kernel, by decide +kernel, by decide +kernel⟩
  have hs : CaughtUp (client (lenv lossyA)).s lossyReader.s := ⟨by decide +kernel, by decide +kernel, by decide +kernel⟩
  have eA : (client (lenv lossyA)).nNet = 1 := by decide +kernel
  have eB : lossyReader.nNet = 0 := by decide +kernel
  have net : Lossy (lenv lossyA) (lenv lossyB) (client (lenv lossyA)) lossyReader (fun fuel => transfer (lenv lossyA) fuel [[[1, 2]], [[3]]])
      (fun fuel => readUntil (lenv lossyB) 5 3 fuel) := by
    refine ⟨fun p => p, fun q => q + 1, fun p => p - 1, fun q => q + 1, fun p q => Nat.lt_succ_iff, ?_, ?_⟩
    · refine channel_of 4 10 (fun p hp => ?_) (fun p p' h => by omega) (by decide +kernel)
      exact lenv_none (by rw [eA]; decide) hp
    · refine channel_of 3 10 (fun p hp => ?_) (fun p p' h => by omega) (by decide +kernel)
      exact lenv_none (by rw [eB]; decide) hp
  have pa : Patient (lenv lossyA) (client (lenv lossyA)) (fun fuel => transfer (lenv lossyA) fuel [[[1, 2]], [[3]]]) :=
    patient_of (fun f f' h => ext_transfer h _) 10 (by decide +kernel) (fun n => lenv_ends (by simp [lossyA, Comes, Expires, arr]) _) (by decide +kernel)
  have pb : Patient (lenv lossyB) lossyReader (fun fuel => readUntil (lenv lossyB) 5 3 fuel) :=
    patient_of (fun f f' h => ext_readUntil h _ _) 10 (by decide +kernel) (fun n => lenv_ends (by simp [lossyB, Comes, Expires, arr]) _) (by decide +kernel)
  obtain ⟨a', b', h, _⟩ := C77_partial (bufs := [[1, 2], [3]]) hl hs (by decide +kernel) (by decide) (by decide) (fun h => absurd h (by decide)) (fun h => absurd h (by decide))
    (fun n => by simp [lenv, senv, env])
    (fun n => by simp [lenv, senv, env]) net pa pb
  exact ⟨a', b', h⟩

/-- The accepting side sends: it gets acknowledgements of both packets. -/
def answerA : List NetEvent := [arr (dg .state 8 2 100 [] 0), arr (dg .state 8 2 101)]
/-- The connecting side: nothing arrives in time, then the second packet. -/
def answerB : List NetEvent := [arr (dg .state 7 100 1 [] 0), .fail .timedOut, arr (dg .data 7 101 2 [8] 0)]
/-- The accepting side accepts. -/
def answerer : World := acceptWorld (accept (lenv answerA) 1 (arr theSyn) (.ok here))

end Sample

/-- After the handshake the connecting side expects a packet whose number it takes as acknowledged already: the answer to its SYN carried it.  If the first packet of the
accepting side is lost, then the first timeout of the connecting side makes it ask for the *next* packet, which acknowledges the lost one.  The accepting side
sends `[9]` and `[8]` and is told that both arrived; the other side reads `[8]`. -/
theorem C77_counterexample : ∃ (A B : Env) (a b : World), Linked a b ∧ Ready a.s b.s ∧ b.s.sendWindow = [] ∧ A.checks = false ∧ B.checks = false ∧
    (∀ n, A.snd n = .ok) ∧ (∀ n, B.snd n = .ok) ∧
    Lossy A B a b (fun fuel => transfer A fuel [[[9]], [[8]]]) (fun fuel => readUntil B 5 1 fuel) ∧
    Patient A a (fun fuel => transfer A fuel [[[9]], [[8]]]) ∧ Patient B b (fun fuel => readUntil B 5 1 fuel) ∧
    (transfer A 10 [[[9]], [[8]]] a).1 = .ok () ∧ (readUntil B 5 1 10 b).1 = .ok [8] := by
  have eA : answerer.nNet = 0 := by decide +kernel
  have eB : (client (lenv answerB)).nNet = 1 := by decide +kernel
  refine ⟨lenv answerA, lenv answerB, answerer, client (lenv answerB), ?_, ?_, by decide +kernel, rfl, rfl, fun n => by simp [lenv, senv, env], fun n => by simp [lenv, senv, env],
    ?_, ?_, ?_, by decide +kernel, by decide +kernel⟩
  · exact ⟨by decide +kernel, by decide +kernel, by decide +kernel, by decide +kernel, by decide +kernel, by decide +kernel, by decide +kernel, by decide +kernel⟩
  · exact ⟨by decide +kernel, by decide +kernel, by decide +kernel⟩
  · refine ⟨fun p => p + 1, fun q => q, fun p => 3 * p, fun q => q, fun p q => Nat.lt_iff_add_one_le, ?_, ?_⟩
    · refine channel_of 2 10 (fun p hp => ?_) (fun p p' h => by omega) (by decide +kernel)
      exact lenv_none (by rw [eA]; decide) hp
    · refine channel_of 2 10 (fun p hp => ?_) (fun p p' h => by omega) (by decide +kernel)
      exact lenv_none (by rw [eB]; decide) hp
  · exact patient_of (fun f f' h => ext_transfer h _) 10 (by decide +kernel) (fun n => lenv_ends (by simp [answerA, Comes, Expires, arr]) _) (by decide +kernel)
  · exact patient_of (fun f f' h => ext_readUntil h _ _) 10 (by decide +kernel) (fun n => lenv_ends (by simp [answerB, Comes, Expires, arr]) _) (by decide +kernel)

namespace Sample

/-- The sender: both acknowledgements are lost, the wait times out; then acknowledgements of the second and the third packet. -/
def batchA : List NetEvent := [arr (dg .state 7 100 1 [] 0), .fail .timedOut, arr (dg .state 7 100 3), arr (dg .state 7 100 4)]
/-- The reader: two packets, the first one sent again, and the third one. -/
def batchB : List NetEvent := [arr (dg .data 8 2 100 [1] 0), arr (dg .data 8 3 100 [2] 0), arr (dg .data 8 2 100 [1] 0), arr (dg .data 8 4 100 [3] 0)]
/-- The accepting side accepts. -/
def batchReader : World := acceptWorld (accept (lenv batchB) 1 (arr theSyn) (.ok here))

end Sample

/-- C77 is false if two packets are sent before a flush, on a network that loses two acknowledgements and nothing else, repeats nothing and keeps the order.  The sender sends
the first packet again; the reader, which has returned it already, puts it into its buffer, where it stays for ever and hides everything behind it.  The
sender is told that the third packet has arrived, and it has, but the reader waits for it until it gives up. -/
theorem C77_counterexample_batch : ∃ (A B : Env) (a b : World), Linked a b ∧ CaughtUp a.s b.s ∧ b.s.sendWindow = [] ∧ A.checks = false ∧ B.checks = false ∧
    (∀ n, A.snd n = .ok) ∧ (∀ n, B.snd n = .ok) ∧
    Lossy A B a b (fun fuel => transfer A fuel [[[1], [2]], [[3]]]) (fun fuel => readUntil B 5 3 fuel) ∧
    Patient A a (fun fuel => transfer A fuel [[[1], [2]], [[3]]]) ∧
    (transfer A 10 [[[1], [2]], [[3]]] a).1 = .ok () ∧
    B.net (b.nNet + 3) = .dgram (dg .data 8 4 100 [3] 0) peer ∧ a.s.seqNr = 2 ∧
    results B 20 [.recvFrom 5, .recvFrom 5, .recvFrom 5] b = [.ok (.bytes [1] peer), .ok (.bytes [2] peer), .err (.sock .connectionTimedOut)] := by
  have eA : (client (lenv batchA)).nNet = 1 := by decide +kernel
  have eB : batchReader.nNet = 0 := by decide +kernel
  refine ⟨lenv batchA, lenv batchB, client (lenv batchA), batchReader, ?_, ?_, by decide +kernel, rfl, rfl, fun n => by simp [lenv, senv, env], fun n => by simp [lenv, senv, env],
    ?_, ?_, by decide +kernel, by rw [eB]; rfl, by decide +kernel, by decide +kernel⟩
  · exact ⟨by decide +kernel, by decide +kernel, by decide +kernel, by decide +kernel, by decide +kernel, by decide +kernel, by decide +kernel, by decide +kernel⟩
  · exact ⟨by decide +kernel, by decide +kernel, by decide +kernel⟩
  · refine ⟨fun p => p + 2, fun q => q - 1, fun p => p + 1, fun q => q, fun p q => by show p < q - 1 ↔ p + 2 ≤ q; omega, ?_, ?_⟩
    · refine channel_of 3 10 (fun p hp => ?_) (fun p p' h => by omega) (by decide +kernel)
      exact lenv_none (by rw [eA]; decide) hp
    · refine channel_of 4 10 (fun p hp => ?_) (fun p p' h => by omega) (by decide +kernel)
      exact lenv_none (by rw [eB]; decide) hp
  · exact patient_of (fun f f' h => ext_transfer h _) 10 (by decide +kernel) (fun n => lenv_ends (by simp [batchA, Comes, Expires, arr]) _) (by decide +kernel)

theorem sentBy_of {α : Type} {m : Nat → M α} {y : World} {E : Env} {x : World} {since which : Nat → Nat} (K fuel : Nat) (hnone : ∀ p, K ≤ p → ¬ Comes (E.net (x.nNet + p)))
    (h : ∀ p, p < K → sentCheck (effectsOf m y fuel) (E.net (x.nNet + p)) (since p) (which p) = true) (p : Nat) (d : Bytes) (src : Addr)
    (hd : E.net (x.nNet + p) = .dgram d src) : SentBy m y (since p) (which p) d := by
  have hp : p < K := Nat.lt_of_not_le fun hc => hnone p hc ⟨d, src, hd⟩
  have h := h p hp
  rw [hd] at h
  rcases hf : findDatagram (effectsOf m y fuel) (which p) 0 with _ | ⟨s, d'⟩
  · simp [sentCheck, hf] at h
  · simp only [sentCheck, hf, Bool.and_eq_true, decide_eq_true_eq] at h
    obtain ⟨n, h1, h2⟩ := findDatagram_spec _ _ _ _ _ hf
    exact ⟨n, by omega, fuel, h.2 ▸ h2⟩

namespace Sample

/-- The sender: the first wait times out because the packet is late; then the acknowledgements. -/
def overA : List NetEvent := [arr (dg .state 7 100 1 [] 0), .fail .timedOut, arr (dg .state 7 100 2), arr (dg .state 7 100 3), arr (dg .state 7 100 4)]
/-- The reader: the packet sent again, the second one, the late one, the third one. -/
def overB : List NetEvent := [arr (dg .data 8 2 100 [1] 0), arr (dg .data 8 3 100 [2] 0), arr (dg .data 8 2 100 [1] 0), arr (dg .data 8 4 100 [3] 0)]
/-- The accepting side accepts. -/
def overReader : World := acceptWorld (accept (lenv overB) 1 (arr theSyn) (.ok here))

end Sample

/-- C77 is false if datagrams may overtake each other, although nothing is lost and every datagram arrives exactly once: the first packet is late, is sent again, and its
first copy arrives after the second packet.  The third packet is acknowledged but never read. -/
theorem C77_counterexample_overtake : ∃ (A B : Env) (a b : World) (since since' which which' : Nat → Nat), Linked a b ∧ CaughtUp a.s b.s ∧ b.s.sendWindow = [] ∧
    A.checks = false ∧ B.checks = false ∧ (∀ n, A.snd n = .ok) ∧ (∀ n, B.snd n = .ok) ∧ (∀ p q, p < since' q ↔ since p ≤ q) ∧
    Channel (fun fuel => readUntil B 5 3 fuel) b A a since which ∧
    (∀ p d src, B.net (b.nNet + p) = .dgram d src → SentBy (fun fuel => transfer A fuel [[[1]], [[2]], [[3]]]) a (since' p) (which' p) d) ∧
    (∀ i, i < 4 → ∃ p, Comes (B.net (b.nNet + p)) ∧ which' p = i) ∧
    (∀ p p', Comes (B.net (b.nNet + p)) → Comes (B.net (b.nNet + p')) → which' p = which' p' → p = p') ∧
    Patient A a (fun fuel => transfer A fuel [[[1]], [[2]], [[3]]]) ∧
    (transfer A 10 [[[1]], [[2]], [[3]]] a).1 = .ok () ∧
    B.net (b.nNet + 3) = .dgram (dg .data 8 4 100 [3] 0) peer ∧ a.s.seqNr = 2 ∧
    results B 20 [.recvFrom 5, .recvFrom 5, .recvFrom 5] b = [.ok (.bytes [1] peer), .ok (.bytes [2] peer), .err (.sock .connectionTimedOut)] := by
  have eA : (client (lenv overA)).nNet = 1 := by decide +kernel
  have eB : overReader.nNet = 0 := by decide +kernel
  have hnone : ∀ p, 4 ≤ p → ¬ Comes ((lenv overB).net (overReader.nNet + p)) := fun p hp => lenv_none (by rw [eB]; decide) hp
  refine ⟨lenv overA, lenv overB, client (lenv overA), overReader, fun p => if p ≤ 2 then p else p + 1, fun q => if q ≤ 2 then q + 1 else q,
    fun p => if p ≤ 2 then p - 1 else p, fun q => match q with | 0 => 1 | 1 => 2 | 2 => 0 | q => q, ?_, ?_, by decide +kernel, rfl, rfl,
    fun n => by simp [lenv, senv, env], fun n => by simp [lenv, senv, env], ?_, ?_, ?_, ?_, ?_, ?_, by decide +kernel, by rw [eB]; rfl, by decide +kernel, by decide +kernel⟩
  · exact ⟨by decide +kernel, by decide +kernel, by decide +kernel, by decide +kernel, by decide +kernel, by decide +kernel, by decide +kernel, by decide +kernel⟩
  · exact ⟨by decide +kernel, by decide +kernel, by decide +kernel⟩
  · intro p q
    show p < (if q ≤ 2 then q + 1 else q) ↔ (if p ≤ 2 then p else p + 1) ≤ q
    split <;> split <;> omega
  · refine channel_of 4 10 (fun p hp => ?_) (fun p p' h => ?_) (by decide +kernel)
    · exact lenv_none (by rw [eA]; decide) hp
    · show (if p ≤ 2 then p - 1 else p) ≤ (if p' ≤ 2 then p' - 1 else p')
      split <;> split <;> omega
  · exact sentBy_of 4 10 hnone (by decide +kernel)
  · intro i hi
    rw [eB]
    match i, hi with
    | 0, _ => exact ⟨2, ⟨_, _, rfl⟩, rfl⟩
    | 1, _ => exact ⟨0, ⟨_, _, rfl⟩, rfl⟩
    | 2, _ => exact ⟨1, ⟨_, _, rfl⟩, rfl⟩
    | 3, _ => exact ⟨3, ⟨_, _, rfl⟩, rfl⟩
  · intro p p' h h' he
    have hp := Nat.lt_of_not_le fun hc => hnone p hc h
    have hp' := Nat.lt_of_not_le fun hc => hnone p' hc h'
    match p, p', hp, hp', he with
    | 0, 0, _, _, _ | 1, 1, _, _, _ | 2, 2, _, _, _ | 3, 3, _, _, _ => rfl
    | 0, 1, _, _, he | 0, 2, _, _, he | 0, 3, _, _, he | 1, 0, _, _, he | 1, 2, _, _, he | 1, 3, _, _, he | 2, 0, _, _, he | 2, 1, _, _, he | 2, 3, _, _, he
    | 3, 0, _, _, he | 3, 1, _, _, he | 3, 2, _, _, he => exact absurd he (by decide)
  · exact patient_of (fun f f' h => ext_transfer h _) 10 (by decide +kernel) (fun n => lenv_ends (by simp [overA, Comes, Expires, arr]) _) (by decide +kernel)

/-- The last acknowledgement is lost and the reader, who has everything, does not answer any more: the sender gives up.  (The network of C77 is one that delivers
the last acknowledgement.) -/
example : (transfer (lenv [arr (dg .state 7 100 1 [] 0)]) 10 [[[1]]] (client (lenv [arr (dg .state 7 100 1 [] 0)]))).1 = .err (.sock .connectionTimedOut) ∧
    (readUntil (lenv [arr (dg .data 8 2 100 [1] 0)]) 5 1 10 (acceptWorld (accept (lenv [arr (dg .data 8 2 100 [1] 0)]) 1 (arr theSyn) (.ok here)))).1 = .ok [1] := by
  decide +kernel

namespace Sample

/-- The same with overflow checks. -/
def lenvChecked (net : List NetEvent) : Env := { lenv net with checks := true }

/-- The sender: the acknowledgement of the first packet, and copies of it in between timeouts. -/
def growA : List NetEvent := arr (dg .state 7 100 1 [] 0) :: arr (dg .state 7 100 2) ::
  (List.replicate 14 [.fail .timedOut, .fail .timedOut, .fail .timedOut, .fail .timedOut, arr (dg .state 7 100 2)]).flatten
/-- The reader gets both packets. -/
def growB : List NetEvent := [arr (dg .data 8 2 100 [1] 0), arr (dg .data 8 3 100 [2] 0)]
/-- The accepting side accepts. -/
def growReader : World := acceptWorld (accept (lenvChecked growB) 1 (arr theSyn) (.ok here))

/-- Does a datagram arrive? -/
def comesB : NetEvent → Bool
  | .dgram _ _ => true
  | _ => false

theorem comes_of : ∀ {ev : NetEvent}, comesB ev = true → Comes ev
  | .dgram d src, _ => ⟨d, src, rfl⟩

end Sample

/-- In a build with overflow checks C77 is false: the acknowledgement of the second packet is lost, and copies of the first acknowledgement arrive, so that the sender never
gives up; the timeout is doubled (and never reset, because nothing outstanding is acknowledged) until it overflows, and the sender panics. -/
theorem C77_counterexample_debug : ∃ (A B : Env) (a b : World), Linked a b ∧ CaughtUp a.s b.s ∧ b.s.sendWindow = [] ∧ A.checks = true ∧ B.checks = true ∧
    (∀ n, A.snd n = .ok) ∧ (∀ n, B.snd n = .ok) ∧
    Lossy A B a b (fun fuel => transfer A fuel [[[1]], [[2]]]) (fun fuel => readUntil B 5 2 fuel) ∧
    Patient A a (fun fuel => transfer A fuel [[[1]], [[2]]]) ∧ Patient B b (fun fuel => readUntil B 5 2 fuel) ∧
    (transfer A 100 [[[1]], [[2]]] a).1 = .panic ∧ (readUntil B 5 2 10 b).1 = .ok [1, 2] := by
  have eA : (client (lenvChecked growA)).nNet = 1 := by decide +kernel
  have eB : growReader.nNet = 0 := by decide +kernel
  have eR : (client (lenvChecked growA)).s.maxRetries.toNat = 5 := by decide +kernel
  have eW : waitsOf (effectsOf (fun fuel => transfer (lenvChecked growA) fuel [[[1]], [[2]]]) (client (lenvChecked growA)) 100) = 70 := by decide +kernel
  have hp : (transfer (lenvChecked growA) 100 [[[1]], [[2]]] (client (lenvChecked growA))).1 = .panic := by decide +kernel
  refine ⟨lenvChecked growA, lenvChecked growB, client (lenvChecked growA), growReader, ?_, ?_, by decide +kernel, rfl, rfl, fun n => by simp [lenvChecked, lenv, senv, env],
    fun n => by simp [lenvChecked, lenv, senv, env], ?_, ?_, ?_, hp, by decide +kernel⟩
  · exact ⟨by decide +kernel, by decide +kernel, by decide +kernel, by decide +kernel, by decide +kernel, by decide +kernel, by decide +kernel, by decide +kernel⟩
  · exact ⟨by decide +kernel, by decide +kernel, by decide +kernel⟩
  · refine ⟨fun p => p + 1, fun q => q, fun p => 0, fun q => q, fun p q => Nat.lt_iff_add_one_le, ?_, ?_⟩
    · refine channel_of 71 10 (fun p hp => ?_) (fun p p' h => Nat.le_refl _) (by decide +kernel)
      exact lenv_none (by rw [eA]; decide) hp
    · refine channel_of 2 10 (fun p hp => ?_) (fun p p' h => h) (by decide +kernel)
      exact lenv_none (by rw [eB]; decide) hp
  · refine patient_often (fun f f' h => ext_transfer h _) 100 (by show (transfer _ _ _ _).1 ≠ _; rw [hp]; simp)
      (fun n => lenv_ends (by simp [growA, Comes, Expires, arr]) _) fun n hn => ?_
    rw [eW, eR] at hn
    have h : ∀ n, n < 66 → ∃ j, j < 5 ∧ comesB ((lenvChecked growA).net (1 + n + j)) = true := by decide +kernel
    obtain ⟨j, h1, h2⟩ := h n (by omega)
    exact ⟨j, by rw [eR]; exact h1, by rw [eA]; exact comes_of h2⟩
  · exact patient_of (fun f f' h => ext_readUntil h _ _) 10 (by decide +kernel) (fun n => lenv_ends (by simp [growB, Comes, Expires, arr]) _) (by decide +kernel)

/-- A program that ends without a panic does not panic with less or more fuel. -/
theorem no_panic_of {α : Type} {m : Nat → M α} {x : World} (hext : ∀ f f', f ≤ f' → Ext (m f) (m f')) (fuel : Nat) (hd : (m fuel x).1 ≠ .pending)
    (hp : (m fuel x).1 ≠ .panic) (f : Nat) : (m f x).1 ≠ .panic := by
  rcases Nat.le_total f fuel with hf | hf
  · rcases hext _ _ hf x with h | h
    · rw [← h]; exact hp
    · rw [h.1]; simp
  · rcases hext _ _ hf x with h | h
    · rw [h]; exact hp
    · exact absurd h.1 hd

namespace Sample

/-- The accepting side of the first example, with overflow checks. -/
def checkedReader : World := acceptWorld (accept (lenvChecked lossyB) 1 (arr theSyn) (.ok here))

/-- The first example in builds with overflow checks. -/
example : ∃ a' b', (∃ F, ∀ fuel, F ≤ fuel → transfer (lenvChecked lossyA) fuel [[[1, 2]], [[3]]] (client (lenvChecked lossyA)) = (.ok (), a') ∧
    readUntil (lenvChecked lossyB) 5 3 fuel checkedReader = (.ok [1, 2, 3], b')) := by
  have hl : Linked (client (lenvChecked lossyA)) checkedReader :=
    ⟨by decide +kernel, by decide +kernel, by decide +kernel, by decide +kernel, by decide +kernel, by decide +kernel, by decide +kernel, by decide +kernel⟩
  have hs : CaughtUp (client (lenvChecked lossyA)).s checkedReader.s := ⟨by decide +kernel, by decide +kernel, by decide +kernel⟩
  have eA : (client (lenvChecked lossyA)).nNet = 1 := by decide +kernel
  have eB : checkedReader.nNet = 0 := by decide +kernel
  have net : Lossy (lenvChecked lossyA) (lenvChecked lossyB) (client (lenvChecked lossyA)) checkedReader (fun fuel => transfer (lenvChecked lossyA) fuel [[[1, 2]], [[3]]])
      (fun fuel => readUntil (lenvChecked lossyB) 5 3 fuel) := by
    refine ⟨fun p => p, fun q => q + 1, fun p => p - 1, fun q => q + 1, fun p q => Nat.lt_succ_iff, ?_, ?_⟩
    · refine channel_of 4 10 (fun p hp => ?_) (fun p p' h => by omega) (by decide +kernel)
      exact lenv_none (by rw [eA]; decide) hp
    · refine channel_of 3 10 (fun p hp => ?_) (fun p p' h => by omega) (by decide +kernel)
      exact lenv_none (by rw [eB]; decide) hp
  have pa : Patient (lenvChecked lossyA) (client (lenvChecked lossyA)) (fun fuel => transfer (lenvChecked lossyA) fuel [[[1, 2]], [[3]]]) :=
    patient_of (fun f f' h => ext_transfer h _) 10 (by decide +kernel) (fun n => lenv_ends (by simp [lossyA, Comes, Expires, arr]) _) (by decide +kernel)
  have pb : Patient (lenvChecked lossyB) checkedReader (fun fuel => readUntil (lenvChecked lossyB) 5 3 fuel) :=
    patient_of (fun f f' h => ext_readUntil h _ _) 10 (by decide +kernel) (fun n => lenv_ends (by simp [lossyB, Comes, Expires, arr]) _) (by decide +kernel)
  obtain ⟨a', b', h, _⟩ := C77_partial (bufs := [[1, 2], [3]]) hl hs (by decide +kernel) (by decide) (by decide)
    (fun _ => no_panic_of (fun f f' h => ext_transfer h _) 10 (by decide +kernel) (by decide +kernel))
    (fun _ => no_panic_of (fun f f' h => ext_readUntil h _ _) 10 (by decide +kernel) (by decide +kernel))
    (fun n => by simp [lenvChecked, lenv, senv, env]) (fun n => by simp [lenvChecked, lenv, senv, env]) net pa pb
  exact ⟨a', b', h⟩

end Sample

end Utp
