import Verif.Lemmas.Download
import Verif.Props.EndOfStream
/-!
# C88: the accepting side sends, the connecting side reads
-/

namespace Utp
open M

variable {A B : Env} {P : Op → Res Out → Prop}

/-- **C88.**  A client connects and reads, a server is accepted, sends and closes, and the network between them loses, repeats and reorders
datagrams but does not forge them.  The bytes that the client reads are a prefix of the bytes that the server sent; or the server's second data packet
comes before the first, the first piece is lost, and they are a prefix of the rest.

Partial: the numbers of the packets do not wrap around and are not 0, and the replies of the client are taken by its operating system.  The loss of the first piece is a
fault of the code (`C88_counterexample`). -/
theorem C88_partial {cs : List Bytes} {a0 a b0 b : World} {bs : Bytes} (h : Download A B P cs a0 a b0 b bs) (h0 : a0.s.seqNr ≠ 0)
    (hn : a0.s.seqNr.toNat + cs.length ≤ 65535) (hok : ∀ n, B.snd n = .ok) :
    bs <+: cs.flatten ∨ Skipped B a0.s.seqNr.toNat b0.nNet b.nNet ∧ bs <+: (cs.drop 1).flatten := by
  have hl := h.loading
  have hpos : 1 ≤ a0.s.seqNr.toNat := by
    rcases Nat.eq_zero_or_pos a0.s.seqNr.toNat with h | h
    · exact absurd (BitVec.eq_of_toNat_eq h) h0
    · exact h
  refine C24_client_partial hpos hn (fun c hc => (exec_pieces hl.exec c hc).1) hl.bState hl.bEmpty.1 hl.bEmpty.2.1 hl.bEmpty.2.2.1 (by rw [hl.bAck.1]) ?_
    (fun n d src p hn hp => hl.fromServer h.toClient hn (by omega) hp) hok h.reads
  rw [hl.bAck.2]
  exact hpos

/-- **C88**, if the server's first data packet comes before its second one: the bytes read are a prefix of the bytes sent. -/
theorem C88_order_partial {cs : List Bytes} {a0 a b0 b : World} {bs : Bytes} (h : Download A B P cs a0 a b0 b bs) (h0 : a0.s.seqNr ≠ 0)
    (hn : a0.s.seqNr.toNat + cs.length ≤ 65535) (hok : ∀ n, B.snd n = .ok)
    (hfirst : ∀ j, DataAt B j (a0.s.seqNr.toNat + 1) → ∃ i, b0.nNet ≤ i ∧ i < j ∧ DataAt B i a0.s.seqNr.toNat) : bs <+: cs.flatten := by
  rcases C88_partial h h0 hn hok with h | ⟨⟨j, _, _, h3, h4⟩, _⟩
  · exact h
  · obtain ⟨i, i1, i2, i3⟩ := hfirst j h3
    exact absurd i3 (h4 i i1 i2)

/-- **C88**, acknowledgements: if all calls of `send_to` succeeded and then `flush` returned Ok, all pieces except perhaps the first have arrived at the client.

Partial: the numbers of the packets do not wrap around and are not 0.  The first piece need not have arrived (`C88_counterexample`). -/
theorem C88_flushed_partial {cs : List Bytes} {a0 a a' b0 b : World} {bs : Bytes} {fuel : Nat} {o : Out} (h : Download A B SendsOk cs a0 a' b0 b bs)
    (hrun : Run A a0 a) (hf : runOp A fuel .flush a = (.ok o, a')) (h0 : a0.s.seqNr ≠ 0) (hn : a0.s.seqNr.toNat + cs.length ≤ 65535) :
    ∀ i c, 1 ≤ i → cs[i]? = some c → ∃ pkt src, Received B b pkt src ∧ pkt.getType = some .data ∧
      pkt.seqNr = a0.s.seqNr + BitVec.ofNat 16 i ∧ pkt.payload = some c := by
  have hl := h.loading
  obtain ⟨fuelA, d, src, bound, dst, hacc, hd⟩ := h.server
  have hw := flush_empties (reach_any ⟨a0, .accept fuelA _ bound hacc (by simp), hrun⟩) hf
  have hex : Exec A SendsOk a0 cs a' := hl.exec.mono (by
    rintro op r (⟨_, h⟩ | rfl | rfl)
    · exact h
    · rintro ⟨_, h⟩; simp at h
    · rintro ⟨_, h⟩; simp at h)
  intro i c hi hic
  have hi' := (List.getElem?_eq_some_iff.mp hic).1
  have hne : cs ≠ [] := by rintro rfl; simp at hi'
  obtain ⟨pkt, src, hrec, ht, hack⟩ := acked_last hl.fresh hex hw hne
  exact hl.honest h.reads h.toServer h.toClient h.noSyn h0 hn hrec (j := cs.length - 1) (by omega) hack i c hi (by omega) hic

section
open Sample

/-- The type of a packet. -/
def typeOf : NetEvent → Option PacketType
  | .dgram d _ => match Packet.tryFrom (d.take 1520) with
    | some (.ok p) => p.getType
    | _ => none
  | _ => none

theorem noSyn_of {net : List NetEvent} {snd : List SendRes} (h : (net.map typeOf).contains (some .syn) = false) :
    ∀ n d src p, (senv net snd).net n = .dgram d src → Packet.tryFrom (d.take 1520) = some (.ok p) → p.getType ≠ some .syn := by
  intro n d src p hn hp ht
  simp only [senv, env, List.getD_eq_getElem?_getD] at hn
  rcases hg : net[n]? with _ | e
  · rw [hg] at hn; simp at hn
  · rw [hg] at hn
    simp only [Option.getD_some] at hn
    subst hn
    have : (net.map typeOf).contains (some .syn) = true := by
      rw [List.contains_iff_mem, List.mem_map]
      exact ⟨_, List.mem_of_getElem? hg, by simp only [typeOf, hp, ht]⟩
    rw [h] at this
    simp at this

/-- The server after calls of `send_to` and then others. -/
def serverSends (net : List NetEvent) (ops post : List Op) : World :=
  runs (senv net []) 20 post (runs (senv net []) 20 ops (readerStart net []))
/-- The client after calls of `recv_from`. -/
def clientReads (net : List NetEvent) (lens : List Nat) : World := runs (senv net []) 20 (lens.map .recvFrom) (client (senv net []))

theorem download_of {netA netB : List NetEvent} {bufs : List Bytes} {post : List Op} {lens : List Nat}
    (hacc : accept (senv netA []) 1 (arr theSyn) (.ok here) = .made (.ok ()) (readerStart netA []) peer)
    (hb : ∀ b ∈ bufs, b ≠ [] ∧ b.length ≤ 1380)
    (hsend : results (senv netA []) 20 (bufs.map .sendTo) (readerStart netA []) = bufs.map (fun b => .ok (.count b.length)))
    (hpo : ∀ op ∈ post, op = .flush ∨ op = .close)
    (hpost : .panic ∉ results (senv netA []) 20 post (runs (senv netA []) 20 (bufs.map .sendTo) (readerStart netA [])))
    (hcon : (connectM (senv netB []) 20 peer (freshWorld (senv netB []) here ⟨false, 0⟩)).1 = .ok ())
    (hl : ∀ n ∈ lens, 0 < n) (hp : .panic ∉ results (senv netB []) 20 (lens.map .recvFrom) (client (senv netB [])))
    (hsyn : (sent (clientReads netB lens)).contains theSyn = true)
    (hA : allSent netA (clientReads netB lens) = true) (hns : (netA.map typeOf).contains (some .syn) = false)
    (hB : allSent netB (serverSends netA (bufs.map .sendTo) post) = true) :
    Download (senv netA []) (senv netB []) SendsOk bufs (readerStart netA []) (serverSends netA (bufs.map .sendTo) post) (client (senv netB [])) (clientReads netB lens)
      ((results (senv netB []) 20 (lens.map .recvFrom) (client (senv netB []))).map Res.read).flatten := by
  obtain ⟨dst, hs⟩ := sent_of hsyn
  exact ⟨⟨1, theSyn, peer, .ok here, dst, hacc, hs⟩, ⟨_, exec_sends 20 bufs (cs := []) .refl hb hsend, exec_post 20 post .refl hpo hpost⟩,
    ⟨20, .ok [peer], .ok here, connect_client [] hcon⟩, reads_of 20 lens (bs := []) .refl hl hp, delivers_of hA, noSyn_of hns, delivers_of hB⟩

/-- The answer to the SYN; the client waits in vain for the first packet; the FIN. -/
def goneB : List NetEvent := [arr (dg .state 7 100 1 [] 0), .fail .timedOut, arr (dg .fin 7 101 2 [] 0)]
/-- The client's request for the first packet, which acknowledges it; the acknowledgement of the FIN. -/
def goneA : List NetEvent := [arr (dg .state 8 2 100 [] 0), arr (dg .state 8 2 101)]

/-- The fault: the server's first data packet has the number of its answer to the SYN, which the client has acknowledged already.  The server sends three bytes in
one packet, which is lost.  `send_to`, `flush` and `close` of the server return Ok, and the client is told that the stream has ended without having read a byte. -/
theorem C88_counterexample : ∃ A B a0 a b0 b, Download A B SendsOk [[1, 2, 3]] a0 a b0 b [] ∧ (∀ n, B.snd n = .ok) ∧
    results A 20 [.sendTo [1, 2, 3], .flush, .close] a0 = [.ok (.count 3), .ok .unit, .ok .unit] ∧ a.s.state = .closed ∧
    runOp B 20 (.recvFrom 9) b0 = (.ok (.bytes [] peer), b) := by
  have h1 : accept (senv goneA []) 1 (arr theSyn) (.ok here) = .made (.ok ()) (readerStart goneA []) peer := by decide +kernel
  have h2 : results (senv goneA []) 20 (([[1, 2, 3]] : List Bytes).map .sendTo) (readerStart goneA []) = ([[1, 2, 3]] : List Bytes).map (fun b => .ok (.count b.length)) := by
    decide +kernel
  have h3 : results (senv goneA []) 20 [.flush, .close] (runs (senv goneA []) 20 (([[1, 2, 3]] : List Bytes).map .sendTo) (readerStart goneA [])) = [.ok .unit, .ok .unit] := by
    decide +kernel
  have h4 : (connectM (senv goneB []) 20 peer (freshWorld (senv goneB []) here ⟨false, 0⟩)).1 = .ok () := by decide +kernel
  have h5 : results (senv goneB []) 20 ([9].map .recvFrom) (client (senv goneB [])) = [.ok (.bytes [] peer)] := by decide +kernel
  have h6 : (sent (clientReads goneB [9])).contains theSyn = true := by decide +kernel
  have h7 : allSent goneA (clientReads goneB [9]) = true := by decide +kernel
  have h8 : allSent goneB (serverSends goneA (([[1, 2, 3]] : List Bytes).map .sendTo) [.flush, .close]) = true := by decide +kernel
  have h9 : (serverSends goneA (([[1, 2, 3]] : List Bytes).map .sendTo) [.flush, .close]).s.state = .closed := by decide +kernel
  have h := download_of (netA := goneA) (netB := goneB) (bufs := [[1, 2, 3]]) (post := [.flush, .close]) (lens := [9]) h1 (by decide) h2 (by simp) (by rw [h3]; simp) h4
    (by decide) (by rw [h5]; simp) h6 h7 (by decide +kernel) h8
  rw [h5] at h
  refine ⟨_, _, _, _, _, _, h, senv_snd _, ?_, h9, ?_⟩
  · have : ∀ w, results (senv goneA []) 20 [.sendTo [1, 2, 3], .flush, .close] w = results (senv goneA []) 20 (([[1, 2, 3]] : List Bytes).map .sendTo) w ++
      results (senv goneA []) 20 [.flush, .close] (runs (senv goneA []) 20 (([[1, 2, 3]] : List Bytes).map .sendTo) w) := fun _ => rfl
    rw [this, h2, h3]
    rfl
  · simp only [List.map_cons, List.map_nil, results, List.cons.injEq, and_true] at h5
    exact Prod.ext h5 (by simp only [clientReads, List.map_cons, List.map_nil, runs])

/-- The second packet comes before the first; nothing is lost. -/
def swapB : List NetEvent := [arr (dg .state 7 100 1 [] 0), arr (dg .data 7 101 1 [3] 0), arr (dg .data 7 100 1 [1, 2] 0), arr (dg .fin 7 102 2 [] 0)]
/-- The client acknowledges both packets and the FIN. -/
def swapA : List NetEvent := [arr (dg .state 8 2 101), arr (dg .state 8 2 102)]

/-- The same fault without a loss: every packet arrives exactly once, but the second one before the first.  All calls of both sides succeed, and the client reads the
second piece only. -/
theorem C88_counterexample_order : ∃ A B a0 a b0 b, Download A B SendsOk [[1, 2], [3]] a0 a b0 b [3] ∧ (∀ n, B.snd n = .ok) ∧
    results A 20 [.flush, .close] (runs A 20 [.sendTo [1, 2], .sendTo [3]] a0) = [.ok .unit, .ok .unit] ∧
    results B 20 [.recvFrom 9, .recvFrom 9] b0 = [.ok (.bytes [3] peer), .ok (.bytes [] peer)] ∧
    DataAt B 1 101 ∧ DataAt B 2 100 := by
  have h1 : accept (senv swapA []) 1 (arr theSyn) (.ok here) = .made (.ok ()) (readerStart swapA []) peer := by decide +kernel
  have h2 : results (senv swapA []) 20 (([[1, 2], [3]] : List Bytes).map .sendTo) (readerStart swapA []) = ([[1, 2], [3]] : List Bytes).map (fun b => .ok (.count b.length)) := by
    decide +kernel
  have h3 : results (senv swapA []) 20 [.flush, .close] (runs (senv swapA []) 20 (([[1, 2], [3]] : List Bytes).map .sendTo) (readerStart swapA [])) = [.ok .unit, .ok .unit] := by
    decide +kernel
  have h4 : (connectM (senv swapB []) 20 peer (freshWorld (senv swapB []) here ⟨false, 0⟩)).1 = .ok () := by decide +kernel
  have h5 : results (senv swapB []) 20 ([9, 9].map .recvFrom) (client (senv swapB [])) = [.ok (.bytes [3] peer), .ok (.bytes [] peer)] := by decide +kernel
  have h6 : (sent (clientReads swapB [9, 9])).contains theSyn = true := by decide +kernel
  have h7 : allSent swapA (clientReads swapB [9, 9]) = true := by decide +kernel
  have h8 : allSent swapB (serverSends swapA (([[1, 2], [3]] : List Bytes).map .sendTo) [.flush, .close]) = true := by decide +kernel
  have h := download_of (netA := swapA) (netB := swapB) (bufs := [[1, 2], [3]]) (post := [.flush, .close]) (lens := [9, 9]) h1 (by decide) h2 (by simp) (by rw [h3]; simp) h4
    (by decide) (by rw [h5]; simp) h6 h7 (by decide +kernel) h8
  rw [h5] at h
  exact ⟨_, _, _, _, _, _, h, senv_snd _, h3, h5, ⟨_, _, _, rfl, rfl, rfl, rfl⟩, ⟨_, _, _, rfl, rfl, rfl, rfl⟩⟩

/-- The answer to the SYN comes twice, the third packet before the second, the first one twice. -/
def niceB : List NetEvent := [arr (dg .state 7 100 1 [] 0), arr (dg .data 7 102 1 [4] 0), arr (dg .data 7 100 1 [1, 2] 0), arr (dg .state 7 100 1 [] 0),
  arr (dg .data 7 101 1 [3] 0), arr (dg .data 7 100 1 [1, 2] 0), arr (dg .fin 7 103 2 [] 0)]
/-- The client's acknowledgements. -/
def niceA : List NetEvent := [arr (dg .state 8 2 102), arr (dg .state 8 2 103)]

theorem nice_start : (readerStart niceA []).s.seqNr = 100 := by decide +kernel

theorem nice_download : ∃ a0 a b0 b, Download (senv niceA []) (senv niceB []) SendsOk [[1, 2], [3], [4]] a0 a b0 b [1, 2, 3, 4] ∧ a0.s.seqNr = 100 ∧
    a.s.state = .closed ∧ b0.nNet = 1 := by
  have h1 : accept (senv niceA []) 1 (arr theSyn) (.ok here) = .made (.ok ()) (readerStart niceA []) peer := by decide +kernel
  have h2 : results (senv niceA []) 20 (([[1, 2], [3], [4]] : List Bytes).map .sendTo) (readerStart niceA []) = ([[1, 2], [3], [4]] : List Bytes).map (fun b => .ok (.count b.length)) := by
    decide +kernel
  have h3 : .panic ∉ results (senv niceA []) 20 [.flush, .close] (runs (senv niceA []) 20 (([[1, 2], [3], [4]] : List Bytes).map .sendTo) (readerStart niceA [])) := by
    decide +kernel
  have h4 : (connectM (senv niceB []) 20 peer (freshWorld (senv niceB []) here ⟨false, 0⟩)).1 = .ok () := by decide +kernel
  have h5 : .panic ∉ results (senv niceB []) 20 ([1, 9, 9, 9, 9].map .recvFrom) (client (senv niceB [])) := by decide +kernel
  have h6 : (sent (clientReads niceB [1, 9, 9, 9, 9])).contains theSyn = true := by decide +kernel
  have h7 : allSent niceA (clientReads niceB [1, 9, 9, 9, 9]) = true := by decide +kernel
  have h8 : allSent niceB (serverSends niceA (([[1, 2], [3], [4]] : List Bytes).map .sendTo) [.flush, .close]) = true := by decide +kernel
  have h9 : ((results (senv niceB []) 20 ([1, 9, 9, 9, 9].map .recvFrom) (client (senv niceB []))).map Res.read).flatten = [1, 2, 3, 4] := by decide +kernel
  have h10 : (serverSends niceA (([[1, 2], [3], [4]] : List Bytes).map .sendTo) [.flush, .close]).s.state = .closed := by decide +kernel
  have h11 : (client (senv niceB [])).nNet = 1 := by decide +kernel
  have h := download_of (netA := niceA) (netB := niceB) (bufs := [[1, 2], [3], [4]]) (post := [.flush, .close]) (lens := [1, 9, 9, 9, 9]) h1 (by decide) h2 (by simp) h3 h4
    (by decide) h5 h6 h7 (by decide +kernel) h8
  rw [h9] at h
  exact ⟨_, _, _, _, h, nice_start, h10, h11⟩

-- three packets are read in spite of reordering and repetition: the hypotheses of C88
example : ∃ a0 a b0 b, Download (senv niceA []) (senv niceB []) SendsOk [[1, 2], [3], [4]] a0 a b0 b [1, 2, 3, 4] ∧ a0.s.seqNr ≠ 0 ∧
    a0.s.seqNr.toNat + 3 ≤ 65535 ∧ (∀ n, (senv niceB []).snd n = .ok) ∧
    ∀ j, DataAt (senv niceB []) j (a0.s.seqNr.toNat + 1) → ∃ i, b0.nNet ≤ i ∧ i < j ∧ DataAt (senv niceB []) i a0.s.seqNr.toNat := by
  obtain ⟨a0, a, b0, b, h, h1, _, h2⟩ := nice_download
  have e : (100 : U16).toNat = 100 := rfl
  refine ⟨a0, a, b0, b, h, by rw [h1]; decide, by rw [h1]; decide, senv_snd _, fun j hj => ⟨2, by rw [h2]; decide, ?_, ?_⟩⟩
  · rw [h1, e] at hj
    have := hj.num
    match j, this with
    | 0, h | 1, h | 2, h => exact absurd h (by decide +kernel)
    | _ + 3, _ => omega
  · rw [h1]
    exact ⟨_, _, _, rfl, rfl, rfl, rfl⟩

-- C88_flushed_partial applied: the server sends two pieces and flushes; the second one has arrived
example : ∃ pkt src, Received (senv (swapB.take 3) []) (clientReads (swapB.take 3) [9]) pkt src ∧ pkt.getType = some .data ∧ pkt.seqNr = 101 ∧ pkt.payload = some [3] := by
  have h1 : accept (senv (swapA.take 1) []) 1 (arr theSyn) (.ok here) = .made (.ok ()) (readerStart (swapA.take 1) []) peer := by decide +kernel
  have h2 : results (senv (swapA.take 1) []) 20 (([[1, 2], [3]] : List Bytes).map .sendTo) (readerStart (swapA.take 1) []) = ([[1, 2], [3]] : List Bytes).map (fun b => .ok (.count b.length)) := by
    decide +kernel
  have h3 : (runOp (senv (swapA.take 1) []) 20 .flush (runs (senv (swapA.take 1) []) 20 (([[1, 2], [3]] : List Bytes).map .sendTo) (readerStart (swapA.take 1) []))).1 = .ok .unit := by
    decide +kernel
  have h4 : (connectM (senv (swapB.take 3) []) 20 peer (freshWorld (senv (swapB.take 3) []) here ⟨false, 0⟩)).1 = .ok () := by decide +kernel
  have h5 : .panic ∉ results (senv (swapB.take 3) []) 20 ([9].map .recvFrom) (client (senv (swapB.take 3) [])) := by decide +kernel
  have h6 : (sent (clientReads (swapB.take 3) [9])).contains theSyn = true := by decide +kernel
  have h7 : allSent (swapA.take 1) (clientReads (swapB.take 3) [9]) = true := by decide +kernel
  have h8 : allSent (swapB.take 3) (serverSends (swapA.take 1) (([[1, 2], [3]] : List Bytes).map .sendTo) [.flush]) = true := by decide +kernel
  have h9 : (readerStart (swapA.take 1) []).s.seqNr = 100 := by decide +kernel
  have h3' : .panic ∉ results (senv (swapA.take 1) []) 20 [.flush] (runs (senv (swapA.take 1) []) 20 (([[1, 2], [3]] : List Bytes).map .sendTo) (readerStart (swapA.take 1) [])) := by
    simp only [results, h3]; simp
  have h := download_of (netA := swapA.take 1) (netB := swapB.take 3) (bufs := [[1, 2], [3]]) (post := [.flush]) (lens := [9]) h1 (by decide) h2 (by simp) h3' h4
    (by decide) h5 h6 h7 (by decide +kernel) h8
  have hrun : Run (senv (swapA.take 1) []) (readerStart (swapA.take 1) []) (runs (senv (swapA.take 1) []) 20 (([[1, 2], [3]] : List Bytes).map .sendTo) (readerStart (swapA.take 1) [])) :=
    run_runs 20 _ .refl (by rw [h2]; simp)
  have := C88_flushed_partial (a := runs (senv (swapA.take 1) []) 20 (([[1, 2], [3]] : List Bytes).map .sendTo) (readerStart (swapA.take 1) [])) (fuel := 20) (o := .unit)
    h hrun (Prod.ext h3 (by simp only [serverSends, runs])) (by rw [h9]; decide) (by rw [h9]; decide) 1 [3] (by decide) rfl
  rw [h9] at this
  exact this

end

end Utp
