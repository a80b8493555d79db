import Verif.Lemmas.Lossless
import Verif.Lemmas.Fuel
import Verif.Props.Handshake
import Verif.Props.EndToEnd
/-!
# A lossless transfer completes
-/

namespace Utp
open M

section
variable {A B : Env} {a b : World}

/-- **C67.**  Over a network that loses nothing, the sender's calls of `send_to` and `flush` all succeed, and the reader gets exactly the bytes sent, in any
build.  Each packet is sent once and acknowledged once.  Afterwards the connection is as ready for further transfers as before, in both directions.

Partial: the numbers of the packets sent before a flush must not get more than 32768 ahead of the last acknowledged number (`Fits`); the packets beyond
are not sent (`C23_counterexample`). -/
theorem C67_transfer_partial {batches : List (List Bytes)} {len : Nat} (h : Linked a b) (hr : Ready a.s b.s) (hA : ∀ n, A.snd n = .ok) (hB : ∀ n, B.snd n = .ok)
    (hfit : Fits a.s batches) (hl : 0 < len) (ha : Arrives (fun fuel => transfer A fuel batches) a B b)
    (hb : Arrives (fun fuel => readUntil B len batches.flatten.flatten.length fuel) b A a) :
    ∃ a' b', Delivered A B a b batches len a' b' ∧ Linked a' b' ∧ Ready a'.s b'.s ∧ (Ready b.s a.s → Ready b'.s a'.s) ∧ a'.s.lead ≤ a.s.lead ∧ b'.s.lead = b.s.lead ∧
      (datagramsOf (a'.log.drop a.log.length)).length = (batches.flatten.map packetsOf).sum ∧
      (datagramsOf (b'.log.drop b.log.length)).length = (batches.flatten.map packetsOf).sum := by
  obtain ⟨cs, hcs⟩ : ∃ cs, cs = piecesOf batches.flatten := ⟨_, rfl⟩
  have hfit' : ∀ bs ∈ batches, a.s.lead + (piecesOf bs).length ≤ 32769 := fun bs hbs => by rw [piecesOf_length]; exact hfit bs hbs
  have htold := all_told h hr hA hB hfit' hl ha hb cs.length (by rw [hcs]; exact Nat.le_refl _)
  have hfed := fed_of_told h hr hA hfit' ha htold
  rw [← hcs] at hfed
  have hlast : Lasting fun _ => False := fun _ _ _ h => h
  have hflat : cs.flatten = batches.flatten.flatten := by rw [hcs, piecesOf_flatten]
  have hcl : cs.length = (batches.flatten.map packetsOf).sum := by rw [hcs, piecesOf_length]
  -- the sender
  have hsrv : Served A a b.s.seqNr cs fun _ => False := by
    intro j ps w hw hj
    refine .inl (htold j ?_)
    obtain ⟨c, hc, _⟩ := hw.pieces j ps[j] (List.getElem?_eq_getElem hj)
    exact (List.getElem?_eq_some_iff.mp hc).1
  have hrun := prog_transfer hlast hsrv hA h.aTries hr.acked batches 0 [] a (by simpa using hcs) hfit' (h.idle hr cs)
  rw [← hcs, Nat.zero_add] at hrun
  -- the reader
  have hsup : Supplied B b a.s.seqNr cs fun _ => False := by
    intro i u w c hw hc
    exact .inl (hfed i c (by have := (List.getElem?_eq_some_iff.mp hc).1; omega) hc)
  have hrun' := prog_readLoop hlast hsup hB hl cs.flatten.length 0 0 [] [] b (by omega) (h.reader hr) (Nat.zero_le _) (by simp)
  rcases hrun with ⟨_, a', ⟨ps, hn, j, hj, hw, hun, hsq⟩, F, hF⟩ | ⟨F, hF⟩
  rotate_left
  · exact absurd (hF F (Nat.le_refl _)) id
  rcases hrun' with ⟨x, b', ⟨hx, i, hv, hi', hi⟩, G, hG⟩ | ⟨G, hG⟩
  rotate_left
  · exact absurd (hG G (Nat.le_refl _)) id
  have hj' : j = cs.length := by have := hw.le; omega
  have hil : i = cs.length := by
    have h1 := take_all (by rw [hcs]; exact piecesOf_nonempty _) hi
    omega
  subst hj' hil hx
  obtain ⟨d, hexp⟩ := hv.exp
  have one : (1 : U16).toNat = 1 := rfl
  have hdrop : ps.drop cs.length = [] := List.drop_eq_nil_of_le (by omega)
  refine ⟨a', b', ⟨F + G, fun fuel hfuel => ⟨hF fuel (by omega), ?_⟩⟩, ⟨hw.state, hexp.state, ?_, ?_, ?_, ?_, hw.quiet, ⟨hexp.empty rfl, hexp.pending⟩⟩,
    ⟨⟨?_, hun, ?_⟩, ?_, ?_⟩, ?_, ?_, ?_, ?_, ?_⟩
  · rw [← hflat]
    exact hG fuel (by omega)
  · rw [hw.tries]; exact h.aTries
  · rw [hv.kept.maxRetries]; exact h.bTries
  · rw [hw.sid, hv.rid]; exact h.toB
  · rw [hv.sid, hw.rid]; exact h.toA
  · rw [hw.window, hdrop]
  · rw [hw.size, hdrop]; rfl
  · have hq := hw.acked
    split at hq
    · rename_i h0
      rw [hq, hsq, h0]
      simpa using hr.acked
    · rw [hsq, ← hq]
      intro h'
      bv_omega
  · rw [hsq]
    have hf := hexp.fresh rfl
    cases d with
    | true =>
      simp only [if_true] at hf
      rw [hf.1, hf.2]
      exact .inl ⟨by bv_omega, by bv_omega⟩
    | false => exact .inr hf
  · intro hba
    refine ⟨?_, ?_, ?_⟩
    · rw [hv.kept.sendWindow, hv.kept.unsent, hv.kept.currWindow]; exact hba.sent
    · rw [hv.kept.lastAcked, hv.kept.seqNr]; exact hba.acked
    · rw [hv.kept.seqNr]; exact hw.takes hba.next
  · have hq := hw.acked
    split at hq
    · rename_i h0
      unfold Socket.lead
      rw [hsq, hq, h0]
      simp
    · have := lead_pos hr.acked
      have : a'.s.lead = 1 := by
        unfold Socket.lead
        rw [hsq, ← hq]
        bv_omega
      omega
  · unfold Socket.lead
    rw [hv.kept.seqNr, hv.kept.lastAcked]
  · obtain ⟨l, h1, h2⟩ := hw.log
    rw [h1, List.drop_left, h2, List.length_map, hn, hcl]
  · obtain ⟨l, rs, h1, h2, h3, _⟩ := hv.log
    rw [h1, List.drop_left, h2, List.length_map, h3, hcl]

theorem Linked.symm (h : Linked a b) : Linked b a := ⟨h.bOpen, h.aOpen, h.bTries, h.aTries, h.toA, h.toB, h.bRead, h.aRead⟩

theorem Fits.mono {s s' : Socket} {batches : List (List Bytes)} (h : Fits s batches) (hl : s'.lead ≤ s.lead) : Fits s' batches := fun bs hbs => by
  have := h bs hbs
  omega

/-- **C67.**  A conversation over a network that loses nothing: the two sides take turns in sending, any number of times, and everything sent is read. -/
theorem C67_conversation_partial (hA : ∀ n, A.snd n = .ok) (hB : ∀ n, B.snd n = .ok) : ∀ (legs : List Leg) (a b : World), Linked a b → Ready a.s b.s → Ready b.s a.s →
    (∀ l ∈ legs, 0 < l.len ∧ Fits (if l.first then a.s else b.s) l.batches) → Reliable A B a b legs →
    ∃ a' b', Converse A B a b legs a' b' ∧ Linked a' b' ∧ Ready a'.s b'.s ∧ Ready b'.s a'.s
  | [], a, b, h, h1, h2, _, _ => ⟨a, b, .done a b, h, h1, h2⟩
  | l :: rest, a, b, h, h1, h2, hf, hrel => by
    obtain ⟨hl, hfit⟩ := hf l (by simp)
    unfold Reliable at hrel
    cases hd : l.first with
    | true =>
      rw [hd] at hrel hfit
      simp only [if_true] at hrel hfit
      obtain ⟨a', b', g1, g2, g3, g4, g5, g6, _⟩ := C67_transfer_partial h h1 hA hB hfit hl hrel.1 hrel.2.1
      obtain ⟨a'', b'', k1, k2⟩ := C67_conversation_partial hA hB rest a' b' g2 g3 (g4 h2) (fun l' hl' => by
        obtain ⟨e1, e2⟩ := hf l' (by simp [hl'])
        refine ⟨e1, ?_⟩
        split
        · rename_i hb; rw [if_pos hb] at e2; exact e2.mono g5
        · rename_i hb; rw [if_neg hb] at e2; exact e2.mono (by omega)) (hrel.2.2 a' b' g1)
      exact ⟨a'', b'', .ab hd g1 k1, k2⟩
    | false =>
      rw [hd] at hrel hfit
      simp only [Bool.false_eq_true, if_false] at hrel hfit
      obtain ⟨b', a', g1, g2, g3, g4, g5, g6, _⟩ := C67_transfer_partial h.symm h2 hB hA hfit hl hrel.1 hrel.2.1
      obtain ⟨a'', b'', k1, k2⟩ := C67_conversation_partial hA hB rest a' b' g2.symm (g4 h1) g3 (fun l' hl' => by
        obtain ⟨e1, e2⟩ := hf l' (by simp [hl'])
        refine ⟨e1, ?_⟩
        split
        · rename_i hb; rw [if_pos hb] at e2; exact e2.mono (by omega)
        · rename_i hb; rw [if_neg hb] at e2; exact e2.mono g5) (hrel.2.2 a' b' g1)
      exact ⟨a'', b'', .ba hd g1 k1, k2⟩

/-- **C67.**  A socket made by `connect` and the one made by `accept` for its SYN can transfer at once: the connecting side any batch of up to 32768 packets, and
the accepting side, unless it drew the first number 0, batches so short that their last number is at most 32768. -/
theorem C67_handshake {n fuel fuel' : Nat} {la la' addr src src' : Addr} {d : Bytes} {reply : Bytes} (hn : n < 5)
    (hto : ∀ i, i < n → (A.net i).isTimeout) (hsnd : ∀ i, i ≤ n → A.snd i = .ok) (hsyn : IsSyn 1 (sequentialIdentifiers (A.rand 0)).1 d)
    (ha : accept B fuel' (.dgram d src) (.ok la') = .made (.ok ()) b src) (hl : b.log = [.send src reply true]) (hr : A.net n = .dgram reply src') :
    ∃ a, connect A fuel (.ok [addr]) (.ok la) = .ok (.ok (), a) ∧ Linked a b ∧ Ready a.s b.s ∧ a.s.lead = 1 ∧
      (b.s.seqNr ≠ 0 → Ready b.s a.s ∧ b.s.lead = b.s.seqNr.toNat) := by
  obtain ⟨a, h1, h2, h3, h4, h5, h6, h7, h8, h9, h10⟩ := C40_listener_partial (fuel := fuel) (la := la) (addr := addr) hn hto hsnd hsyn ha hl hr
  have one : (1 : U16).toNat = 1 := rfl
  have hc := h1
  simp only [connect, takeAddress, Except.ok.injEq] at hc
  obtain ⟨_, _, _, pkt, td, ts, _, _, _, _, hs⟩ := connected_socket (E := A) (fuel := fuel) (la := la) (a0 := { v6 := addr.v6, id := 0 }) (addr := addr) (by rw [hc])
    (by rw [hc]; exact h2)
  rw [hc] at hs
  simp only at hs
  obtain ⟨d', p, la'', e1, e2, e3, e4, e5, e6, e7⟩ := accept_inv ha (by simp)
  have hq : a.s.seqNr = 2 := by rw [hs]; rfl
  have hld : a.s.lastDropped = 0 := by rw [hs]; rfl
  have hlb : b.s.lastAcked = 0 := by rw [e7]; rfl
  have hb1 : b.s.lastDropped = b.s.ackNr := by rw [e7]; rfl
  rw [h9] at h10
  refine ⟨a, h1, ⟨h2, h3, by rw [hs]; exact (by decide : (MAX_RETRANSMISSION_RETRIES ≠ 0)), by rw [e7]; exact (by decide : (MAX_RETRANSMISSION_RETRIES ≠ 0)), h7, h6.symm, by rw [hs]; exact ⟨rfl, rfl⟩, by rw [e7]; exact ⟨rfl, rfl⟩⟩,
    ⟨by rw [hs]; exact ⟨rfl, rfl, rfl⟩, ?_, .inl ⟨h10, by rw [hb1]; exact h10⟩⟩, ?_, fun h0 => ⟨⟨by rw [e7]; exact ⟨rfl, rfl, rfl⟩, by rw [hlb]; exact h0.symm, .inr ⟨h8, ?_⟩⟩, ?_⟩⟩
  · rw [h9, ← h10]
    intro h'
    bv_omega
  · unfold Socket.lead
    rw [h9, ← h10]
    bv_omega
  · rw [hld]; exact h0.symm
  · unfold Socket.lead
    rw [hlb]
    simp

/-- **C67.**  From `connect` and `accept` on, a conversation over a network that loses nothing succeeds, if the first number the accepting side draws is neither 0
nor too large for its batches. -/
theorem C67_connection_partial {n fuel fuel' : Nat} {la la' addr src src' : Addr} {d : Bytes} {reply : Bytes} {legs : List Leg} (hA : ∀ n, A.snd n = .ok)
    (hB : ∀ n, B.snd n = .ok) (hn : n < 5) (hto : ∀ i, i < n → (A.net i).isTimeout) (hsyn : IsSyn 1 (sequentialIdentifiers (A.rand 0)).1 d)
    (ha : accept B fuel' (.dgram d src) (.ok la') = .made (.ok ()) b src) (hl : b.log = [.send src reply true]) (hr : A.net n = .dgram reply src')
    (h0 : b.s.seqNr ≠ 0) (hlen : ∀ l ∈ legs, 0 < l.len)
    (hfit : ∀ l ∈ legs, ∀ bs ∈ l.batches, (bs.map packetsOf).sum + (if l.first then 1 else b.s.seqNr.toNat) ≤ 32769) :
    ∃ a, connect A fuel (.ok [addr]) (.ok la) = .ok (.ok (), a) ∧ (Reliable A B a b legs → ∃ a' b', Converse A B a b legs a' b') := by
  obtain ⟨a, h1, h2, h3, h4, h5⟩ := C67_handshake (fuel := fuel) (la := la) (addr := addr) hn hto (fun i _ => hA i) hsyn ha hl hr
  refine ⟨a, h1, fun hrel => ?_⟩
  obtain ⟨a', b', hc, _⟩ := C67_conversation_partial hA hB legs a b h2 h3 (h5 h0).1 (fun l hm => ⟨hlen l hm, fun bs hbs => by
    have := hfit l hm bs hbs
    have hlb := (h5 h0).2
    split <;> simp_all <;> omega⟩) hrel
  exact ⟨a', b', hc⟩

end

/-! ### An example -/

theorem le_sendAll {E : Env} {f f' : Nat} (hf : f ≤ f') : ∀ bufs, Le (sendAll E f bufs) (sendAll E f' bufs)
  | [] => .refl _
  | b :: rest => .andThen (le_sendTo hf b) fun _ => le_sendAll hf rest

theorem le_transfer {E : Env} {f f' : Nat} (hf : f ≤ f') : ∀ batches, Le (transfer E f batches) (transfer E f' batches)
  | [] => .refl _
  | b :: rest => .andThen (le_sendAll hf b) fun _ => .andThen (le_flush hf) fun _ => le_transfer hf rest

theorem le_readLoop {E : Env} {f f' len total : Nat} (hf : f ≤ f') : ∀ {n n' : Nat} (got : Bytes), n ≤ n' →
    Le (readLoop E f len total n got) (readLoop E f' len total n' got)
  | 0, _, _, _ => .never
  | n + 1, 0, _, h => absurd h (by omega)
  | n + 1, n' + 1, got, h => by
    unfold readLoop
    split
    · exact .refl _
    · exact .andThen (le_recvFrom hf len) fun x => le_readLoop hf _ (by omega)

theorem arrives_of {α : Type} {m : Nat → M α} {x y : World} {Y : Env} (F : Nat) (hm : ∀ f, F ≤ f → Le (m F) (m f)) (hp : (m F x).1 ≠ .pending)
    (hd : ∀ f, f ≤ F → (datagramsOf ((m f x).2.log.drop x.log.length)).map (NetEvent.dgram · Sample.peer) <+: (List.range 10).map fun i => Y.net (y.nNet + i)) :
    Arrives m x Y y := by
  have key : ∀ f, f ≤ F → ∀ i d, (datagramsOf ((m f x).2.log.drop x.log.length))[i]? = some d → ∃ src, Y.net (y.nNet + i) = .dgram d src := by
    intro f hf i d h
    obtain ⟨t, ht⟩ := hd f hf
    have h1 : ((List.range 10).map fun i => Y.net (y.nNet + i))[i]? = some (.dgram d Sample.peer) := by
      rw [← ht, List.getElem?_append_left (by simpa using (List.getElem?_eq_some_iff.mp h).1), List.getElem?_map, h]
      rfl
    rw [List.getElem?_map, Option.map_eq_some_iff] at h1
    obtain ⟨j, hj, hj'⟩ := h1
    obtain ⟨hj1, hj2⟩ := List.getElem?_eq_some_iff.mp hj
    rw [List.getElem_range] at hj2
    subst hj2
    exact ⟨_, hj'⟩
  intro f i d h
  by_cases hf : f ≤ F
  · exact key f hf i d h
  · rw [hm f (by omega) x hp] at h
    exact key F (Nat.le_refl _) i d h

/-- The worlds after a leg are computed. -/
theorem delivered_worlds {A B : Env} {a b a' b' : World} {batches : List (List Bytes)} {len : Nat} (h : Delivered A B a b batches len a' b') (F : Nat)
    (h1 : (transfer A F batches a).1 ≠ .pending) (h2 : (readUntil B len batches.flatten.flatten.length F b).1 ≠ .pending) :
    a' = (transfer A F batches a).2 ∧ b' = (readUntil B len batches.flatten.flatten.length F b).2 := by
  obtain ⟨G, hG⟩ := h
  obtain ⟨g1, g2⟩ := hG (F + G) (by omega)
  rw [le_transfer (show F ≤ F + G by omega) batches a h1] at g1
  rw [show readUntil B len batches.flatten.flatten.length (F + G) b = _ from le_readLoop (show F ≤ F + G by omega) [] (show F ≤ F + G by omega) b h2] at g2
  exact ⟨(congrArg Prod.snd g1).symm, (congrArg Prod.snd g2).symm⟩

/-- A conversation of two parts is reliable if these four checks succeed. -/
theorem reliable_two {A B : Env} {a b : World} {x y : List (List Bytes)} {m n : Nat} (F : Nat)
    (h1 : (transfer A F x a).1 ≠ .pending) (h2 : (readUntil B m x.flatten.flatten.length F b).1 ≠ .pending)
    (h3 : (transfer B F y (readUntil B m x.flatten.flatten.length F b).2).1 ≠ .pending)
    (h4 : (readUntil A n y.flatten.flatten.length F (transfer A F x a).2).1 ≠ .pending)
    (d1 : ∀ f, f ≤ F → (datagramsOf ((transfer A f x a).2.log.drop a.log.length)).map (NetEvent.dgram · Sample.peer) <+:
      (List.range 10).map fun i => B.net (b.nNet + i))
    (d2 : ∀ f, f ≤ F → (datagramsOf ((readUntil B m x.flatten.flatten.length f b).2.log.drop b.log.length)).map (NetEvent.dgram · Sample.peer) <+:
      (List.range 10).map fun i => A.net (a.nNet + i))
    (d3 : ∀ f, f ≤ F → (datagramsOf ((transfer B f y (readUntil B m x.flatten.flatten.length F b).2).2.log.drop
      (readUntil B m x.flatten.flatten.length F b).2.log.length)).map (NetEvent.dgram · Sample.peer) <+:
      (List.range 10).map fun i => A.net ((transfer A F x a).2.nNet + i))
    (d4 : ∀ f, f ≤ F → (datagramsOf ((readUntil A n y.flatten.flatten.length f (transfer A F x a).2).2.log.drop
      (transfer A F x a).2.log.length)).map (NetEvent.dgram · Sample.peer) <+:
      (List.range 10).map fun i => B.net ((readUntil B m x.flatten.flatten.length F b).2.nNet + i)) :
    Reliable A B a b [⟨true, x, m⟩, ⟨false, y, n⟩] := by
  refine ⟨arrives_of F (fun f h => le_transfer h _) h1 d1, arrives_of F (fun f h => le_readLoop h _ h) h2 d2, fun a' b' hd => ?_⟩
  obtain ⟨rfl, rfl⟩ := delivered_worlds hd F h1 h2
  exact ⟨arrives_of F (fun f h => le_transfer h _) h3 d3, arrives_of F (fun f h => le_readLoop h _ h) h4 d4, fun _ _ _ => trivial⟩

namespace Sample

/-- What arrives at the connecting side: the answer to the SYN and the acknowledgements. -/
def losslessA : List NetEvent := [arr (dg .state 7 100 1 [] 0), arr (dg .state 7 100 2), arr (dg .state 7 100 3), arr (dg .state 7 100 4)]
/-- What arrives at the accepting side: the packets. -/
def losslessB : List NetEvent := [arr (dg .data 8 2 100 [1, 2] 0), arr (dg .data 8 3 100 [3] 0), arr (dg .data 8 4 100 [4] 0)]

/-- Two buffers and a third, flushed in between, and read three bytes at a time. -/
example : ∃ a' b', Delivered (senv losslessA []) (senv losslessB []) (client (senv losslessA [])) (readerStart losslessB []) [[[1, 2], [3]], [[4]]] 3 a' b' := by
  have hr : Ready (client (senv losslessA [])).s (readerStart losslessB []).s :=
    ⟨by decide +kernel, by decide +kernel, by decide +kernel⟩
  have hl : Linked (client (senv losslessA [])) (readerStart losslessB []) :=
    ⟨by decide +kernel, by decide +kernel, by decide +kernel, by decide +kernel, by decide +kernel, by decide +kernel, by decide +kernel, by decide +kernel⟩
  have hf : Fits (client (senv losslessA [])).s [[[1, 2], [3]], [[4]]] := by unfold Fits; decide +kernel
  have h1 : ((fun fuel => transfer (senv losslessA []) fuel [[[1, 2], [3]], [[4]]]) 5 (client (senv losslessA []))).1 ≠ .pending := by decide +kernel
  have h2 : ((fun fuel => readUntil (senv losslessB []) 3 4 fuel) 5 (readerStart losslessB [])).1 ≠ .pending := by decide +kernel
  have ha : Arrives (fun fuel => transfer (senv losslessA []) fuel [[[1, 2], [3]], [[4]]]) (client (senv losslessA [])) (senv losslessB []) (readerStart losslessB []) :=
    arrives_of 5 (fun f h => le_transfer h _) h1 (by decide +kernel)
  have hb : Arrives (fun fuel => readUntil (senv losslessB []) 3 4 fuel) (readerStart losslessB []) (senv losslessA []) (client (senv losslessA [])) :=
    arrives_of 5 (fun f h => le_readLoop h _ h) h2 (by decide +kernel)
  obtain ⟨a', b', h, _⟩ := C67_transfer_partial hl hr (fun n => by simp [senv, env]) (fun n => by simp [senv, env]) hf (by decide) ha hb
  exact ⟨a', b', h⟩

/-- The handshake of the same connection. -/
example : ∃ a, connect (senv losslessA []) 20 (.ok [peer]) (.ok here) = .ok (.ok (), a) ∧ Linked a (readerStart losslessB []) ∧ a.s.lead = 1 ∧
    Ready (readerStart losslessB []).s a.s := by
  have hs : IsSyn 1 (sequentialIdentifiers ((senv losslessA []).rand 0)).1 theSyn := by
    have he : theSyn = (synPacket (freshWorld (senv losslessA []) here peer).s 0).bytes := by decide +kernel
    rw [he]
    exact synPacket_syn (freshWorld (senv losslessA []) here peer).s 0
  have ha : accept (senv losslessB []) 1 (arr theSyn) (.ok here) = .made (.ok ()) (readerStart losslessB []) peer := by decide +kernel
  have hl : (readerStart losslessB []).log = [.send peer (dg .state 7 100 1 [] 0) true] := by decide +kernel
  have h0 : (readerStart losslessB []).s.seqNr ≠ 0 := by decide +kernel
  obtain ⟨a, h1, h2, _, h3, h4⟩ := C67_handshake (n := 0) (fuel := 20) (la := here) (addr := peer) (A := senv losslessA []) (by omega) (fun i h => absurd h (by omega))
    (fun i _ => by simp [senv, env]) hs ha hl rfl
  exact ⟨a, h1, h2, h3, (h4 h0).1⟩

/-- The connecting side sends two bytes, then gets one. -/
def talkA : List NetEvent := [arr (dg .state 7 100 1 [] 0), arr (dg .state 7 100 2), arr (dg .data 7 100 2 [9] 0)]
/-- The other side. -/
def talkB : List NetEvent := [arr (dg .data 8 2 100 [1, 2] 0), arr (dg .state 8 3 100)]
/-- Two bytes there, one byte back. -/
def talk : List Leg := [⟨true, [[[1, 2]]], 3⟩, ⟨false, [[[9]]], 3⟩]

theorem talk_reliable : Reliable (senv talkA []) (senv talkB []) (client (senv talkA [])) (readerStart talkB []) talk :=
  reliable_two 5 (by decide +kernel) (by decide +kernel) (by decide +kernel) (by decide +kernel) (by decide +kernel) (by decide +kernel) (by decide +kernel)
    (by decide +kernel)

/-- A conversation. -/
example : ∃ a' b', Converse (senv talkA []) (senv talkB []) (client (senv talkA [])) (readerStart talkB []) talk a' b' := by
  have hr : Ready (client (senv talkA [])).s (readerStart talkB []).s := ⟨by decide +kernel, by decide +kernel, by decide +kernel⟩
  have hr' : Ready (readerStart talkB []).s (client (senv talkA [])).s := ⟨by decide +kernel, by decide +kernel, by decide +kernel⟩
  have hl : Linked (client (senv talkA [])) (readerStart talkB []) :=
    ⟨by decide +kernel, by decide +kernel, by decide +kernel, by decide +kernel, by decide +kernel, by decide +kernel, by decide +kernel, by decide +kernel⟩
  have hf : ∀ l ∈ talk, 0 < l.len ∧ Fits (if l.first then (client (senv talkA [])).s else (readerStart talkB []).s) l.batches := by
    unfold Fits
    decide +kernel
  obtain ⟨a', b', h, _⟩ := C67_conversation_partial (fun n => by simp [senv, env]) (fun n => by simp [senv, env]) talk _ _ hl hr hr' hf talk_reliable
  exact ⟨a', b', h⟩

end Sample

end Utp
