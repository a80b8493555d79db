import Verif.Lemmas.CatStart
import Verif.Props.Shutdown
/-!
# The programs of examples/utpcat.rs and tests/stream.rs: C76
-/

namespace Utp
open M

section
variable {A B : Env} {a b : World}

theorem out_count {cs : List Bytes} {w : World} (h : OutAll a cs w) : (sentSince a w).length = cs.length + 1 := by
  obtain ⟨l, ps, h1, h2, h3, _⟩ := h
  rw [sentSince, h1, List.drop_left, h2, List.length_map, h3]

theorem in_count {k : U16} {cs : List Bytes} {w : World} (h : InAll b k cs w) : (sentSince b w).length = cs.length + 1 := by
  obtain ⟨_, _, l, ps, h1, h2, h3, _⟩ := h
  rw [sentSince, h1, List.drop_left, h2, List.length_map, h3]

/-- **C76.**  On an open connection with nothing outstanding, over a network that loses nothing: one side writes buffers, with a flush now and then, and closes, the
other reads until it gets no bytes.  All calls succeed, the reader gets exactly the bytes written, and the connection is over on both sides.  Each packet is sent
once. -/
theorem C76_stream {batches : List (List Bytes)} {last : List Bytes} {len : Bytes → Nat} (h : Linked a b) (hr : Ready a.s b.s) (hwin : b.s.sendWindow = [])
    (hA : ∀ n, A.snd n = .ok) (hB : ∀ n, B.snd n = .ok) (hfit : Fits a.s (last :: batches)) (hl : ∀ got, 0 < len got)
    (ha : Arrives (fun fuel => writeClose A fuel batches last) a B b) (hb : Arrives (fun fuel => readToEnd B len fuel) b A a) :
    ∃ a' b' F, (∀ fuel, F ≤ fuel → writeClose A fuel batches last a = (.ok (), a') ∧ readToEnd B len fuel b = (.ok (batches.flatten ++ last).flatten, b')) ∧
      Over A a' ∧ Over B b' ∧ (sentSince a a').length = ((batches.flatten ++ last).map packetsOf).sum + 1 ∧
      (sentSince b b').length = ((batches.flatten ++ last).map packetsOf).sum + 1 := by
  obtain ⟨cs, hcs⟩ : ∃ cs, cs = piecesOf batches.flatten ++ piecesOf last := ⟨_, rfl⟩
  have hcs' : cs = piecesOf (batches.flatten ++ last) := by rw [hcs]; simp [piecesOf]
  obtain ⟨a', b', F, h1, h2, h3, h4, h5⟩ := meet h (puts_writeClose h hr hA hcs hfit) (gets_readToEnd h hr hB hwin hl) ha hb
  have hflat : cs.flatten = (batches.flatten ++ last).flatten := by rw [hcs', piecesOf_flatten]
  rw [hflat] at h1
  refine ⟨a', b', F, h1, over_of h2 h3, over_of h5.1 h5.2.1, ?_, ?_⟩
  · rw [out_count h4, hcs', piecesOf_length]
  · rw [in_count h5, hcs', piecesOf_length]

/-- **C76.**  The programs of utpcat, and of the tests of the repository: the server binds a socket and reads until it gets no bytes; the client connects to it, writes
any buffers and closes.  Over a network that loses nothing, in every build, with any clock, any random numbers and any positive buffer lengths, `connect`, each
write, `close` and each read succeed, and the server gets exactly the bytes written, if there are at most 32768 packets between two flushes. -/
theorem C76_cat {resolved : Except ErrorKind (List Addr)} {bound : Except ErrorKind Addr} {la addr : Addr} {batches : List (List Bytes)} {last : List Bytes}
    {len : Bytes → Nat} {b0 : World} (hbind : Utp.bind B resolved bound = .ok b0) (hA : ∀ n, A.snd n = .ok) (hB : ∀ n, B.snd n = .ok)
    (hfit : ∀ bs ∈ last :: batches, (bs.map packetsOf).sum ≤ 32768) (hl : ∀ got, 0 < len got)
    (ha : Arrives (fun fuel => catClient A fuel addr batches last) (freshWorld A la { v6 := addr.v6, id := 0 }) B b0)
    (hb : Arrives (fun fuel => readToEnd B len fuel) b0 A (freshWorld A la { v6 := addr.v6, id := 0 })) :
    ∃ a a' b' F, (∀ fuel, F ≤ fuel → connect A fuel (.ok [addr]) (.ok la) = .ok (.ok (), a) ∧ writeClose A fuel batches last a = (.ok (), a') ∧
        readToEnd B len fuel b0 = (.ok (batches.flatten ++ last).flatten, b')) ∧
      Over A a' ∧ Over B b' ∧ (datagramsOf a'.log).length = ((batches.flatten ++ last).map packetsOf).sum + 2 ∧
      (datagramsOf b'.log).length = ((batches.flatten ++ last).map packetsOf).sum + 2 := by
  -- the bound socket
  obtain ⟨lb, sb, rfl⟩ : ∃ lb sb, b0 = freshWorld B lb sb := by
    unfold Utp.bind at hbind
    split at hbind
    · simp at hbind
    · split at hbind
      · simp at hbind
      · exact ⟨_, _, (Except.ok.inj hbind).symm⟩
  obtain ⟨a0, ha0⟩ : ∃ a0, a0 = freshWorld A la { v6 := addr.v6, id := 0 } := ⟨_, rfl⟩
  obtain ⟨b0, hb0⟩ : ∃ b0, b0 = freshWorld B lb sb := ⟨_, rfl⟩
  have hconn : ∀ fuel, connect A fuel (.ok [addr]) (.ok la) = .ok (connectM A fuel addr a0) := fun fuel => by rw [ha0]; rfl
  rw [← ha0, ← hb0] at ha
  rw [← ha0, ← hb0] at hb
  rw [← hb0]
  -- the SYN
  obtain ⟨p, hp⟩ : ∃ p, p = synPacket (Socket.fromRawParts la { v6 := addr.v6, id := 0 } (A.rand 0)) (A.now 0) := ⟨_, rfl⟩
  have hfirst : ∀ fuel, connectM A fuel addr a0 = awaitReply A fuel (synWorld A la { v6 := addr.v6, id := 0 } addr) := fun fuel => by
    rw [ha0]; exact connectM_first (hA 0) fuel _ _ _
  obtain ⟨src, hsyn⟩ : ∃ src, B.net b0.nNet = .dgram p.bytes src := by
    have hg : Grows (M.andThen (awaitReply A 0) fun _ => writeClose A 0 batches last) := .andThen (grows_awaitReply 0) fun _ => grows_writeClose 0 batches last
    obtain ⟨t, ht⟩ := hg (synWorld A la { v6 := addr.v6, id := 0 } addr)
    refine ha 0 0 p.bytes ?_
    have : catClient A 0 addr batches last a0 = M.andThen (awaitReply A 0) (fun _ => writeClose A 0 batches last) (synWorld A la { v6 := addr.v6, id := 0 } addr) := by
      unfold catClient M.andThen
      rw [hfirst]
    have hlog : a0.log = [] := by rw [ha0]; rfl
    show (datagramsOf ((catClient A 0 addr batches last a0).2.log.drop _))[0]? = _
    rw [this, ← ht, hlog, hp]
    rfl
  have hpp : Plain p .syn := hp ▸ synPacket_plain _ _
  obtain ⟨f1, f2⟩ := synPacket_facts (Socket.fromRawParts la { v6 := addr.v6, id := 0 } (A.rand 0)) (A.now 0)
  rw [← hp] at f1 f2
  have hpl : p.bytes.length = 20 := by rw [hp]; exact (synPacket_syn _ _).short
  have hd := C08_draw (A.rand 0)
  have hcid : p.connectionId ≠ 65535 := by
    intro h
    rw [f2] at h
    have h2 := (sequentialIdentifiers (A.rand 0)).2.isLt
    have h3 : (sequentialIdentifiers (A.rand 0)).1 = 65535 := h
    rw [h3] at hd
    have h4 : (65535 : U16).toNat = 65535 := rfl
    omega
  -- the reply
  obtain ⟨b, g1, ⟨td, g2⟩, g3, r, t, g4, g5⟩ := recv_syn (E := B) (w := b0) (p := p) (src := src) (by rw [hb0]; rfl) (by rw [hb0]; rfl) (by rw [hb0]; rfl)
    (by rw [hb0]; exact (by decide : 0 < MAX_RETRANSMISSION_RETRIES.toNat)) hsyn hpp hpl hcid (hB _)
  have hread : ∀ n, readToEnd B len (n + 2) b0 = readOn B len (n + 1) b := by
    intro n
    unfold readToEnd readOn
    rw [readEnd]
    have h1 : recvFrom B (n + 2) (len []) b0 = recvFromLoop B (n + 2) (len []) (n + 1) b := by
      have hq : flushIncoming B (len []) b0 = (.ok [], b0) := flush_settled ⟨by rw [hb0]; rfl, by rw [hb0]; rfl, by rw [hb0]; rfl⟩ _
      have hst : b0.s.state = .new := by rw [hb0]; rfl
      rw [recvFrom_quiet hq (by rw [hst]; simp), recvFromLoop]
      msimp
      rw [if_neg (by rw [hst]; simp), andThen_eq (g1 n _)]
      msimp
      rfl
    unfold M.andThen
    rw [h1]
    simp only [List.nil_append]
  have hreadGrows : ∀ n, Grows (readOn B len n) := fun n => .andThen (grows_recvFromLoop _ _ _) fun _ => .ite .ret (grows_readEnd _ _ _ _)
  obtain ⟨src', hrep⟩ : ∃ src', A.net a0.nNet = .dgram r.bytes src' := by
    obtain ⟨u, hu⟩ := hreadGrows 1 b
    refine hb 2 0 r.bytes ?_
    show (datagramsOf ((readToEnd B len (0 + 2) b0).2.log.drop _))[0]? = _
    rw [hread, ← hu, g5, List.append_assoc, List.drop_left]
    rfl
  obtain ⟨a, k1, ⟨td', ts, k2⟩, k3, k4⟩ := awaitReply_got (E := A) (r := r) (src := src') g4.plain g4.len (by rw [ha0] at hrep; exact hrep) la { v6 := addr.v6, id := 0 } addr
  -- the connection
  have hseq : p.seqNr = 1 := f1
  have hrid : p.connectionId = (sequentialIdentifiers (A.rand 0)).1 := f2
  have one : (1 : U16).toNat = 1 := rfl
  have hlink : Linked a b := by
    refine ⟨by rw [k2]; rfl, by rw [g2], by rw [k2]; exact (by decide : MAX_RETRANSMISSION_RETRIES ≠ 0), by rw [g2, hb0]; exact (by decide : MAX_RETRANSMISSION_RETRIES ≠ 0), ?_, ?_,
      by rw [k2]; exact ⟨rfl, rfl⟩, by rw [g2, hb0]; exact ⟨rfl, rfl⟩⟩
    · rw [k2, g2]
      show (sequentialIdentifiers (A.rand 0)).2 = p.connectionId + 1
      rw [hrid]
      apply BitVec.eq_of_toNat_eq
      rw [hd, BitVec.toNat_add, one]
      have := (sequentialIdentifiers (A.rand 0)).2.isLt
      omega
    · rw [k2, g2]
      exact hrid
  have hready : Ready a.s b.s := by
    refine ⟨by rw [k2]; exact ⟨rfl, rfl, rfl⟩, ?_, .inl ?_⟩
    · rw [k2]
      show r.ackNr ≠ 2
      rw [g4.ack, hseq]
      decide
    · rw [k2, g2]
      show p.seqNr + 1 = 2 ∧ p.seqNr + 1 = 2
      rw [hseq]
      decide
  have hlead : a.s.lead = 1 := by
    unfold Socket.lead
    rw [k2]
    show ((2 : U16) - r.ackNr).toNat = 1
    rw [g4.ack, hseq]
    decide
  have hwin : b.s.sendWindow = [] := by rw [g2, hb0]; rfl
  -- the rest
  have hal : a.log = a0.log ++ [.send addr p.bytes true, .wait (some 1000)] := by rw [k4, ha0, hp]; rfl
  have hcm : ∀ fuel, connectM A fuel addr a0 = (.ok (), a) := fun fuel => (hfirst fuel).trans (k1 fuel)
  have ha' : Arrives (fun fuel => writeClose A fuel batches last) a B b := by
    refine ha.later (fun f => ⟨f, ?_⟩) hal (fun f => grows_writeClose f batches last) g3
    show catClient A f addr batches last a0 = _
    unfold catClient
    rw [andThen_eq (hcm f)]
  have hb' : Arrives (fun fuel => readOn B len (fuel + 1)) b A a := by
    refine hb.later (fun f => ⟨f + 2, hread f⟩) g5 (fun f => hreadGrows _) ?_
    rw [k3, ha0]
    rfl
  obtain ⟨cs, hcs⟩ : ∃ cs, cs = piecesOf batches.flatten ++ piecesOf last := ⟨_, rfl⟩
  have hcs' : cs = piecesOf (batches.flatten ++ last) := by rw [hcs]; simp [piecesOf]
  have hS : Gets B b a.s.seqNr cs fun fuel => readOn B len (fuel + 1) := fun P h1 h2 h3 => (gets_readOn hlink hready hB hwin hl P h1 h2 h3).shift 1
  obtain ⟨a', b', F, m1, m2, m3, m4, m5⟩ := meet hlink (puts_writeClose hlink hready hA hcs fun bs hbs => by have := hfit bs hbs; omega) hS ha' hb'
  have hflat : cs.flatten = (batches.flatten ++ last).flatten := by rw [hcs', piecesOf_flatten]
  refine ⟨a, a', b', F + 2, fun fuel hf => ?_, over_of m2 m3, over_of m5.1 m5.2.1, ?_, ?_⟩
  · obtain ⟨n, rfl⟩ : ∃ n, fuel = n + 2 := ⟨fuel - 2, by omega⟩
    refine ⟨by rw [hconn, hcm], (m1 _ (by omega)).1, ?_⟩
    rw [hread, ← hflat]
    exact (m1 n (by omega)).2
  · have h1 := out_count m4
    obtain ⟨l, ps, n1, n2, n3, _⟩ := m4
    rw [n1, hal, datagramsOf_append, List.length_append, n2, List.length_map, n3, hcs', piecesOf_length, ha0]
    show 1 + _ = _
    omega
  · obtain ⟨_, _, l, ps, n1, n2, n3, _⟩ := m5
    rw [n1, g5, datagramsOf_append, List.length_append, n2, List.length_map, n3, hcs', piecesOf_length, hb0]
    show 1 + _ = _
    omega

end

/-! ### An example -/

theorem le_writeClose {E : Env} {f f' : Nat} (hf : f ≤ f') (batches : List (List Bytes)) (last : List Bytes) : Le (writeClose E f batches last) (writeClose E f' batches last) :=
  .andThen (le_transfer hf batches) fun _ => .andThen (le_sendAll hf last) fun _ => le_close hf

theorem le_catClient {E : Env} {f f' : Nat} (hf : f ≤ f') (addr : Addr) (batches : List (List Bytes)) (last : List Bytes) :
    Le (catClient E f addr batches last) (catClient E f' addr batches last) := by
  refine .andThen ?_ fun _ => le_writeClose hf batches last
  unfold connectM
  refine .bind (.refl _) fun _ => .bind (.refl _) fun s => .bind (.refl _) fun b => .bind (.refl _) fun s => .bind (.refl _) fun x => ?_
  cases x with
  | error e => exact .refl _
  | ok pkt => exact .bind (le_handlePacket hf (le_recv _ hf) pkt _) fun _ => .refl _

theorem le_readEnd {E : Env} {f f' : Nat} {len : Bytes → Nat} (hf : f ≤ f') : ∀ {n n' : Nat} (got : Bytes), n ≤ n' → Le (readEnd E f len n got) (readEnd E f' len n' got)
  | 0, _, _, _ => .never
  | n + 1, 0, _, h => absurd h (by omega)
  | n + 1, n' + 1, got, h => by
    unfold readEnd
    refine .andThen (le_recvFrom hf _) fun x => ?_
    split
    · exact .refl _
    · exact le_readEnd hf _ (by omega)

namespace Sample

/-- What arrives at the client: the answer to the SYN, two acknowledgements, and that of the FIN. -/
def catA : List NetEvent := [arr (dg .state 7 100 1), arr (dg .state 7 100 2), arr (dg .state 7 100 3), arr (dg .state 7 100 4)]
/-- What arrives at the server: the SYN, two data packets, the FIN. -/
def catB : List NetEvent := [arr theSyn, arr (dg .data 8 2 100 [1, 2] 0), arr (dg .data 8 3 100 [3] 0), arr (dg .fin 8 4 100 [] 0)]

/-- Two buffers, flushed in between; the server reads one byte and then two at a time. -/
example : ∃ a a' b' F, (∀ fuel, F ≤ fuel → connect (senv catA []) fuel (.ok [peer]) (.ok here) = .ok (.ok (), a) ∧ writeClose (senv catA []) fuel [[[1, 2]]] [[3]] a = (.ok (), a') ∧
    readToEnd (senv catB []) (fun got => if got = [] then 1 else 2) fuel (bound (senv catB [])) = (.ok [1, 2, 3], b')) ∧ Over (senv catA []) a' ∧ Over (senv catB []) b' := by
  have h1 : ((fun fuel => catClient (senv catA []) fuel peer [[[1, 2]]] [[3]]) 6 (freshWorld (senv catA []) here { v6 := peer.v6, id := 0 })).1 ≠ .pending := by decide +kernel
  have h2 : ((fun fuel => readToEnd (senv catB []) (fun got => if got = [] then 1 else 2) fuel) 6 (bound (senv catB []))).1 ≠ .pending := by decide +kernel
  have ha : Arrives (fun fuel => catClient (senv catA []) fuel peer [[[1, 2]]] [[3]]) (freshWorld (senv catA []) here { v6 := peer.v6, id := 0 }) (senv catB []) (bound (senv catB [])) :=
    arrives_of 6 (fun f h => le_catClient h _ _ _) h1 (by decide +kernel)
  have hb : Arrives (fun fuel => readToEnd (senv catB []) (fun got => if got = [] then 1 else 2) fuel) (bound (senv catB [])) (senv catA [])
      (freshWorld (senv catA []) here { v6 := peer.v6, id := 0 }) :=
    arrives_of 6 (fun f h => le_readEnd h _ h) h2 (by decide +kernel)
  obtain ⟨a, a', b', F, h3, h4, h5, _⟩ := C76_cat (resolved := .ok [peer]) (bound := .ok here) (la := here) rfl (fun n => by simp [senv, env]) (fun n => by simp [senv, env])
    (by decide) (fun got => by split <;> omega) ha hb
  exact ⟨a, a', b', F, h3, h4, h5⟩

end Sample

end Utp
