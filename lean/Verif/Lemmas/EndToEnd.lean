import Verif.Spec.EndToEnd
import Verif.Props.Order
import Verif.Props.Handshake
import Verif.Props.Window
import Verif.Props.Safety
import Verif.Props.Sending
/-!
# Two sockets
-/

namespace Utp
open M

variable {E : Env} {V : Ctx}

/-! ### Headers of truncated datagrams -/

theorem byteAt_take (b : Bytes) {n i : Nat} (h : i < n) : Packet.byteAt (b.take n) i = Packet.byteAt b i := by
  simp [Packet.byteAt, List.getD, List.getElem?_take, h]

/-- A packet decoded from a truncated datagram has the header of the datagram. -/
theorem decoded_header {b : Bytes} {n : Nat} {p q : Packet} (hn : 20 ≤ n) (hb : b = q.bytes) (h : Packet.tryFrom (b.take n) = some (.ok p)) :
    p.getType = q.getType ∧ p.connectionId = q.connectionId ∧ p.seqNr = q.seqNr ∧ p.ackNr = q.ackNr := by
  subst hb
  have hp := C02_lossless h
  refine ⟨?_, ?_, ?_, ?_⟩
  · simp only [Packet.getType, hp, byteAt_take _ (show 0 < n by omega)]
  · simp only [Packet.connectionId, Packet.be16, hp, Nat.reduceAdd, byteAt_take _ (show 2 < n by omega), byteAt_take _ (show 3 < n by omega)]
  · simp only [Packet.seqNr, Packet.be16, hp, Nat.reduceAdd, byteAt_take _ (show 16 < n by omega), byteAt_take _ (show 17 < n by omega)]
  · simp only [Packet.ackNr, Packet.be16, hp, Nat.reduceAdd, byteAt_take _ (show 18 < n by omega), byteAt_take _ (show 19 < n by omega)]

/-! ### Steps without closing -/

theorem steps_notFin (hc : ¬ V.ctl) {a b : World} (h : Steps E V a b) (ha : a.s.state ≠ .finSent) : b.s.state ≠ .finSent := by
  refine h.inv (I := fun w => w.s.state ≠ .finSent) (fun a b hs ha => ?_) ha
  cases hs with
  | measure pkt src i p t s' _ _ _ _ _ _ hm =>
    obtain ⟨_, _, _, _, _, _, _, rfl⟩ := onNewAck_shape hm
    exact ha
  | advance s' _ hm =>
    obtain ⟨_, _, rfl⟩ := advanceSendWindow_shape hm
    exact ha
  | finSent h => exact absurd h hc
  | _ => simp_all [Socket.insertIntoBuffer, Socket.halveWindow, Utp.enqueue]

/-! ### The reading side -/

/-- Only receiving. -/
def readCtx : Ctx := ⟨fun _ => False, False, False, False, True⟩

theorem readCtx_ok : VOk readCtx := ⟨fun _ _ h => h, fun _ _ h => h⟩

theorem reads_steps {w0 w : World} {bs : Bytes} (hi : Inv readCtx w0) (h : Reads E w0 w bs) : Steps E readCtx w0 w := by
  induction h with
  | refl => exact .refl _
  | @read w bs fuel len _ hl hp ih =>
    refine ih.trans ((at_runOp readCtx_ok fuel (.recvFrom len) (by simp) (by simp) (fun _ => trivial) (hi.steps readCtx_ok ih) (by simp)).1 hp)

/-- A socket that only reads sends State and Reset packets with its identifier and its acknowledgement number. -/
theorem reader_emits {w : World} {dst : Addr} {p : Packet} (h : Emitted E readCtx w dst p) (hf : w.s.state ≠ .finSent) :
    (p.getType = some .state ∨ p.getType = some .reset) ∧ p.connectionId = w.s.senderId ∧ p.ackNr = w.s.ackNr := by
  cases h with
  | data _ h => exact h.elim
  | fin t h _ _ _ => exact absurd h (by simp [readCtx, hf])
  | request t _ _ _ =>
    obtain ⟨h1, h2, h3⟩ := resendRequest_facts w.s t
    exact ⟨.inl (resendRequest_plain w.s t).ty, h3, h2⟩
  | reply src pkt reply _ hr _ =>
    obtain ⟨⟨t, h1, h2⟩, h3, h4, h5, _⟩ := hr.facts
    simp only [setWndSize_getType, setWndSize_connectionId, setWndSize_ackNr]
    refine ⟨?_, h5, h4⟩
    rcases h2 with rfl | rfl | ⟨_, h⟩
    · exact .inl h1
    · exact .inr h1
    · exact absurd h hf

/-- Everything that a reading socket sent, from the world `w0` on. -/
theorem reader_sent {w0 w : World} (hs : Steps E readCtx w0 w) (he : Established w0) (hf : w0.s.state ≠ .finSent) {dst : Addr} {d : Bytes}
    (h : Sent w dst d) : Sent w0 dst d ∨ ∃ (v : World) (p : Packet), Steps E readCtx w0 v ∧ Steps E readCtx v w ∧ d = p.bytes ∧
      (p.getType = some .state ∨ p.getType = some .reset) ∧ p.connectionId = w0.s.senderId ∧ p.ackNr = v.s.ackNr := by
  obtain ⟨l, hl, hall⟩ := hs.log
  obtain ⟨ok, hm⟩ := h
  rw [hl, List.mem_append] at hm
  rcases hm with hm | hm
  · exact .inl ⟨ok, hm⟩
  · right
    rcases hall _ hm with ⟨t, ht⟩ | ⟨v, dst', p, ok', h1, h2, hem, hact⟩
    · simp at ht
    · simp only [Act.send.injEq] at hact
      obtain ⟨rfl, rfl, rfl⟩ := hact
      obtain ⟨g1, g2, g3⟩ := reader_emits hem (steps_notFin (fun h => h) h1 hf)
      exact ⟨v, p, h1, h2, rfl, g1, by rw [g2, (steps_fixed (fun h => h) h1 he).2.1], g3⟩

/-! ### The sending side -/

/-- What arrives are State and Reset packets with the identifier `rid`. -/
def Quiet (E : Env) (rid : U16) : Prop :=
  ∀ n d src p k, E.net n = .dgram d src → (k = 1520 ∨ k = 1500) → Packet.tryFrom (d.take k) = some (.ok p) →
    (p.getType = some .state ∨ p.getType = some .reset) ∧ p.connectionId = rid

theorem Quiet.mute {rid : U16} (h : Quiet E rid) {w : World} (hr : w.s.receiverId = rid) {pkt : Packet} {src : Addr} (hg : Received E w pkt src) :
    ¬ Answerable w.s pkt := by
  obtain ⟨k, b, n, _, hn, hk, hp⟩ := hg
  obtain ⟨h1, h2⟩ := h k b src pkt n hk hn hp
  rintro (⟨g1, g2⟩ | g)
  · exact h1.elim g1 g2
  · exact g (.inr (h2.trans hr.symm))

/-- The datagrams of the sending side: those sent first (`F`), the data packets and, if `ct`, the FIN. -/
inductive FromSender (ct : Prop) (F : Bytes → Prop) (base sid : U16) (cs : List Bytes) (d : Bytes) : Prop
  | first : F d → FromSender ct F base sid cs d
  | data (p : Packet) : d = p.bytes → Plain p .data → Carries base sid cs p → FromSender ct F base sid cs d
  | fin (p : Packet) : ct → d = p.bytes → Plain p .fin → p.seqNr = base + BitVec.ofNat 16 cs.length → p.connectionId = sid → FromSender ct F base sid cs d

theorem FromSender.mono {F : Bytes → Prop} {base sid : U16} {cs new : List Bytes} {d : Bytes} (h : FromSender False F base sid cs d) : FromSender False F base sid (cs ++ new) d := by
  cases h with
  | first h => exact .first h
  | data p h1 h2 h3 => exact .data p h1 h2 h3.mono
  | fin p h => exact h.elim

theorem FromSender.close {F : Bytes → Prop} {base sid : U16} {cs : List Bytes} {d : Bytes} (h : FromSender False F base sid cs d) : FromSender True F base sid cs d := by
  cases h with
  | first h => exact .first h
  | data p h1 h2 h3 => exact .data p h1 h2 h3
  | fin p h => exact h.elim

theorem sender_steps {ct : Prop} {F : Bytes → Prop} {base sid : U16} {cs : List Bytes} {w1 w : World} (hs : Steps E (streamCtx base sid cs ct False) w1 w) (he : Established w1)
    (hq : Quiet E w1.s.receiverId) (hseq : w1.s.seqNr = base + BitVec.ofNat 16 cs.length) (hid : w1.s.senderId = sid)
    (hf : ¬ ct → w1.s.state ≠ .finSent) {dst : Addr} {d : Bytes} (h : Sent w dst d) :
    Sent w1 dst d ∨ FromSender ct F base sid cs d := by
  obtain ⟨l, hl, hall⟩ := hs.log
  obtain ⟨ok, hm⟩ := h
  rw [hl, List.mem_append] at hm
  rcases hm with hm | hm
  · exact .inl ⟨ok, hm⟩
  · right
    rcases hall _ hm with ⟨t, ht⟩ | ⟨v, dst', p, ok', h1, h2, hem, hact⟩
    · simp at ht
    · simp only [Act.send.injEq] at hact
      obtain ⟨rfl, rfl, rfl⟩ := hact
      obtain ⟨f1, f2, f3, f4⟩ := steps_fixed (fun h => h) h1 he
      cases hem with
      | data _ h => exact .data p rfl h.1 h.2
      | fin t h _ _ _ =>
        have hct : ct := by
          rcases h with h | h
          · exact h
          · rcases Classical.em ct with h' | h'
            · exact h'
            · exact absurd h (steps_notFin h' h1 (hf h'))
        obtain ⟨g1, g2, g3⟩ := finPacket_facts v.s t
        exact .fin _ hct rfl (finPacket_plain v.s t) (by rw [g1, f1, hseq]) (by rw [g3, f2, hid])
      | request t h _ _ => exact h.elim
      | reply src pkt reply hg _ ha => exact absurd ha (hq.mute f3 hg)

/-- The first part of the sending side: `send_to` and `flush`. -/
theorem sender_first {P : Op → Res Out → Prop} {F : Bytes → Prop} {rid base sid : U16} {peer : Addr} {w0 w : World} {cs : List Bytes}
    (h0 : StreamAt E False False base sid peer [] w0) (hst : w0.s.state ≠ .finSent) (hr : w0.s.receiverId = rid) (hq : Quiet E rid)
    (hlog : ∀ dst d, Sent w0 dst d → F d)
    (h : Exec E (fun op r => (op = .flush ∨ ∃ buf, op = .sendTo buf) ∧ P op r) w0 cs w) :
    StreamAt E False False base sid peer cs w ∧ w.s.state ≠ .finSent ∧ w.s.receiverId = rid ∧ ∀ dst d, Sent w dst d → FromSender False F base sid cs d := by
  induction h with
  | refl => exact ⟨h0, hst, hr, fun dst d h => .first (hlog dst d h)⟩
  | @op cs w fuel op new hx hp hP ha ih =>
    obtain ⟨i1, i2, i3, i4⟩ := ih
    obtain ⟨⟨w1, hs, ⟨u, n, hw1⟩, h1⟩, h2⟩ := op_stream i1 fuel op hp ha (by rintro (rfl | ⟨_, rfl⟩) <;> simp at hP) (by rintro ⟨_, rfl⟩; simp at hP)
    have hst1 : w1.s.state ≠ .finSent := by rw [hw1]; exact i2
    have hr1 : w1.s.receiverId = rid := by rw [hw1]; exact i3
    obtain ⟨f1, f2, f3, f4⟩ := steps_fixed (fun h => h) hs h1.est
    refine ⟨h2, steps_notFin (fun h => h) hs hst1, f3.trans hr1, fun dst d hd => ?_⟩
    rcases sender_steps hs h1.est (hr1 ▸ hq) h1.seq h1.sid (fun _ => hst1) hd with h | h
    · refine (i4 dst d ?_).mono
      obtain ⟨ok, h⟩ := h
      exact ⟨ok, by rw [hw1] at h; exact h⟩
    · exact h

/-- The second part: `close` and `flush`. -/
theorem sender_second {P : Op → Res Out → Prop} (hP : ∀ op r, P op r → op = .flush ∨ op = .close) {F : Bytes → Prop} {rid base sid : U16} {peer : Addr} {w0 w : World} {cs new : List Bytes}
    (h0 : StreamAt E True False base sid peer cs w0) (hr : w0.s.receiverId = rid) (hq : Quiet E rid)
    (hlog : ∀ dst d, Sent w0 dst d → FromSender True F base sid cs d) (h : Exec E P w0 new w) :
    new = [] ∧ StreamAt E True False base sid peer cs w ∧ w.s.receiverId = rid ∧ ∀ dst d, Sent w dst d → FromSender True F base sid cs d := by
  induction h with
  | refl => exact ⟨rfl, h0, hr, hlog⟩
  | @op old w fuel op new hx hp hPo ha ih =>
    obtain ⟨i0, i1, i3, i4⟩ := ih
    have hop := hP _ _ hPo
    have hnew : new = [] := by rcases hop with rfl | rfl <;> exact ha
    subst hnew
    subst i0
    obtain ⟨⟨w1, hs, ⟨u, n, hw1⟩, h1⟩, h2⟩ := op_stream i1 fuel op hp ha (fun _ => trivial) (by rintro ⟨_, rfl⟩; simp at hop)
    rw [List.append_nil] at hs h1 h2
    have hr1 : w1.s.receiverId = rid := by rw [hw1]; exact i3
    obtain ⟨f1, f2, f3, f4⟩ := steps_fixed (fun h => h) hs h1.est
    refine ⟨rfl, h2, f3.trans hr1, fun dst d hd => ?_⟩
    rcases sender_steps hs h1.est (hr1 ▸ hq) h1.seq h1.sid (fun h => absurd trivial h) hd with h | h
    · refine i4 dst d ?_
      obtain ⟨ok, h⟩ := h
      exact ⟨ok, by rw [hw1] at h; exact h⟩
    · exact h

theorem Exec.mono {P Q : Op → Res Out → Prop} (hPQ : ∀ op r, P op r → Q op r) {w0 w : World} {cs : List Bytes} (h : Exec E P w0 cs w) : Exec E Q w0 cs w := by
  induction h with
  | refl => exact .refl
  | op fuel op new _ hp hP ha ih => exact .op fuel op new ih hp (hPQ _ _ hP) ha

theorem Exec.trans {P : Op → Res Out → Prop} {w0 w1 w : World} {cs cs' : List Bytes} (h : Exec E P w0 cs w1) (h' : Exec E P w1 cs' w) :
    Exec E P w0 (cs ++ cs') w := by
  induction h' with
  | refl => simpa using h
  | op fuel op new _ hp hP ha ih => rw [← List.append_assoc]; exact .op fuel op new ih hp hP ha

/-- The pieces of a stream are not empty and have at most 1380 bytes. -/
theorem exec_pieces {P : Op → Res Out → Prop} {w0 w : World} {cs : List Bytes} (h : Exec E P w0 cs w) : ∀ c ∈ cs, c ≠ [] ∧ c.length ≤ 1380 := by
  induction h with
  | refl => simp
  | @op cs w fuel op new _ hp _ ha ih =>
    intro c hc
    rcases List.mem_append.mp hc with hc | hc
    · exact ih c hc
    · cases op with
      | sendTo buf =>
        simp only [Adds] at ha
        split at ha
        · simp [ha] at hc
        · exact ⟨ha.nonempty c hc, ha.bound c hc⟩
      | _ => simp only [Adds] at ha; simp [ha] at hc

/-- Only `connect` sends SYN packets. -/
theorem syn_from_connect {w0 w : World} (hm : Made E w0) (h : Run E w0 w) {dst : Addr} {d : Bytes} (hd : Sent w dst d) {n : Nat} {p : Packet} (hn : 20 ≤ n)
    (hp : Packet.tryFrom (d.take n) = some (.ok p)) (ht : p.getType = some .syn) : Sent w0 dst d := by
  have hi : Inv .any w0 := reach_any ⟨w0, hm, .refl⟩
  obtain ⟨l, hl, hall⟩ := (run_steps .any ⟨trivial, trivial⟩ trivial trivial dataPacket_any h hi).log
  obtain ⟨ok, hmem⟩ := hd
  rw [hl, List.mem_append] at hmem
  rcases hmem with hmem | hmem
  · exact ⟨ok, hmem⟩
  · rcases hall _ hmem with ⟨t, ht⟩ | ⟨v, dst', q, ok', h1, h2, hem, hact⟩
    · simp at ht
    · simp only [Act.send.injEq] at hact
      obtain ⟨rfl, rfl, rfl⟩ := hact
      have e := (decoded_header hn rfl hp).1
      rw [ht] at e
      cases hem with
      | data _ h => rw [h.1.ty] at e; simp at e
      | fin t _ _ _ _ => rw [(finPacket_plain _ _).ty] at e; simp at e
      | request t _ _ _ => rw [(resendRequest_plain _ _).ty] at e; simp at e
      | reply src pkt reply _ hr _ =>
        obtain ⟨⟨t, h1, h2⟩, _⟩ := hr.facts
        rw [setWndSize_getType, h1] at e
        simp only [Option.some.injEq] at e
        subst e
        simp at h2

/-- `connect` without SYN packets arriving. -/
theorem connect_facts {fuel : Nat} {resolved : Except ErrorKind (List Addr)} {wild : Except ErrorKind Addr} {w : World}
    (h : connect E fuel resolved wild = .ok (.ok (), w))
    (hs : ∀ n b src pkt, E.net n = .dgram b src → Packet.tryFrom (b.take 1500) = some (.ok pkt) → pkt.getType ≠ some .syn) :
    Fresh w ∧ w.s.state = .connected ∧ w.s.seqNr = 2 ∧ w.s.currWindow = 0 ∧ w.s.receiverId = (sequentialIdentifiers (E.rand 0)).1 ∧
      w.s.senderId = w.s.receiverId + 1 ∧ ∀ dst d, Sent w dst d → IsSyn 1 w.s.receiverId d := by
  obtain ⟨hst, -⟩ := C39_ok_partial h hs
  obtain ⟨addr, rest, la, blocks, tail, rfl, rfl, -⟩ := C39_connect_partial h
  obtain ⟨g1, -⟩ := C39_syns h
  simp only [connect, takeAddress, Except.ok.injEq] at h
  obtain ⟨n, b', src', pkt, td, ts, -, -, -, -, he⟩ := connected_socket (E := E) (fuel := fuel) (la := la) (addr := addr) (a0 := { v6 := addr.v6, id := 0 })
    (by rw [h]) (by rw [h]; exact hst)
  rw [h] at he
  simp only at he
  have hid : w.s.receiverId = (sequentialIdentifiers (E.rand 0)).1 ∧ w.s.senderId = (sequentialIdentifiers (E.rand 0)).2 := by
    rw [he]; exact ⟨rfl, rfl⟩
  refine ⟨⟨⟨by simp [hst], by simp [hst]⟩, by rw [he]; rfl, by rw [he]; rfl, by rw [he]; rfl⟩, hst, by rw [he]; rfl, by rw [he]; rfl, hid.1, ?_, ?_⟩
  · rw [hid.1, hid.2]
    have hd := C08_draw (E.rand 0)
    apply BitVec.eq_of_toNat_eq
    rw [hd, BitVec.toNat_add]
    have h1 : (1 : U16).toNat = 1 := rfl
    have := (sequentialIdentifiers (E.rand 0)).2.isLt
    rw [h1]
    omega
  · rintro dst d ⟨ok, hm⟩
    rw [hid.1]
    exact (g1 _ _ _ hm).2

theorem Fresh.streamFirst {w : World} (h : Fresh w) (hc : w.s.currWindow = 0) : StreamAt E False False w.s.seqNr w.s.senderId w.s.connectedTo [] w :=
  ⟨⟨by simp [h.win], by simp [h.uns], by simp [h.inc], .inr (by simp [hc, h.win, totalSize])⟩, h.est, by simp, rfl, rfl⟩

theorem StreamAt.close {base id : U16} {peer : Addr} {cs : List Bytes} {w : World} (h : StreamAt E False False base id peer cs w) :
    StreamAt E True False base id peer cs w := ⟨⟨h.inv.win, h.inv.uns, h.inv.inc, h.inv.fly⟩, h.est, h.seq, h.sid, h.dst⟩

/-- What both sides know. -/
structure Joined (A B : Env) (P : Op → Res Out → Prop) (cs : List Bytes) (a b : World) (bs : Bytes) (a0 b0 : World) : Prop where
  fresh : Fresh a0
  first : a0.s.seqNr = 2
  exec : Exec A (fun op r => ((op = .flush ∨ ∃ buf, op = .sendTo buf) ∧ P op r) ∨ op = .flush ∨ op = .close) a0 cs a
  quiet : Quiet A a0.s.receiverId
  sent : ∀ dst d, Sent a dst d → FromSender True (IsSyn 1 a0.s.receiverId) 2 a0.s.senderId cs d
  reads : Reads B b0 b bs
  bState : b0.s.state = .connected
  bAck : b0.s.ackNr = 1 ∧ b0.s.lastDropped = 1
  bEmpty : b0.s.pending = [] ∧ b0.s.incoming = [] ∧ b0.s.sendWindow = [] ∧ b0.s.unsent = []
  bIds : b0.s.senderId = a0.s.receiverId ∧ b0.s.receiverId = a0.s.senderId
  bSent : ∀ dst d, Sent b0 dst d → ∃ p : Packet, d = p.bytes ∧ p.getType = some .state ∧ p.connectionId = b0.s.senderId ∧ p.ackNr = 1
  bNet : b0.nNet = 0
  half : ∃ a1, Exec A (fun op r => (op = .flush ∨ ∃ buf, op = .sendTo buf) ∧ P op r) a0 cs a1 ∧ Exec A (fun op _ => op = .flush ∨ op = .close) a1 [] a ∧
    a1.s.receiverId = a0.s.receiverId ∧ ∀ dst d, Sent a1 dst d → FromSender False (IsSyn 1 a0.s.receiverId) 2 a0.s.senderId cs d

theorem joined_at {A B : Env} {P : Op → Res Out → Prop} {cs : List Bytes} {a0 a1 a b b0 : World} {fuel fuel' : Nat} {src : Addr} {bound : Except ErrorKind Addr} {resolved : Except ErrorKind (List Addr)}
    {wild : Except ErrorKind Addr} {bs d : Bytes} {dst : Addr} (hc : connect A fuel resolved wild = .ok (.ok (), a0))
    (hx1 : Exec A (fun op r => (op = .flush ∨ ∃ buf, op = .sendTo buf) ∧ P op r) a0 cs a1)
    (hx2 : Exec A (fun op _ => op = .flush ∨ op = .close) a1 [] a) (hacc : accept B fuel' (.dgram d src) bound = .made (.ok ()) b0 src)
    (hreads : Reads B b0 b bs) (hd : Sent a dst d) (hA : Delivers A b) : Joined A B P cs a b bs a0 b0 := by
  obtain ⟨d', p, reply, e1, e2, e3, e4, e5, e6, e7, eD, e8, e9, e10, e11, e12, e13, e14, e15, e16, e17, e18, e19, e20, e21⟩ := C41_socket hacc
  cases e1
  have hmade : Made A a0 := .connect fuel resolved wild hc (by simp)
  have hrun : Run A a0 a := by
    have h1 := hx1.run
    have h2 := hx2.run
    clear hx1 hx2 hd
    induction h2 with
    | refl => exact h1
    | op fuel op _ hp ih => exact .op fuel op ih hp
  -- the SYN
  have hsyn0 : Sent a0 dst d := syn_from_connect hmade hrun hd (by omega) e2 e3
  obtain ⟨addr, rest, la, blocks, tail, rfl, rfl, -⟩ := C39_connect_partial hc
  obtain ⟨ok, hm⟩ := hsyn0
  obtain ⟨-, ⟨q, hq, hqt, hqs, hqc⟩, hlen⟩ := (C39_syns hc).1 _ _ _ hm
  rw [List.take_of_length_le (by omega), hq] at e2
  cases e2
  -- what the reader sends
  have hbi : Inv readCtx b0 := ⟨by simp [e11], by simp [e12], by simp [e13], .inl trivial⟩
  have hbe : Established b0 := ⟨by simp [e4], by simp [e4]⟩
  have hbsent : ∀ dst d, Sent b0 dst d → ∃ p : Packet, d = p.bytes ∧ p.getType = some .state ∧ p.connectionId = b0.s.senderId ∧ p.ackNr = 1 := by
    rintro dst d ⟨ok, hm⟩
    rw [e15] at hm
    simp only [List.mem_singleton, Act.send.injEq] at hm
    exact ⟨reply, hm.2.1, e18, by rw [e20, e8], by rw [e19, hqs]⟩
  have hquiet : Quiet A (sequentialIdentifiers (A.rand 0)).1 := by
    intro n d src pkt k hnet hk hp
    obtain ⟨dst, hs⟩ := hA n d src hnet
    have hk' : 20 ≤ k := by rcases hk with rfl | rfl <;> omega
    rcases reader_sent (reads_steps hbi hreads) hbe (by simp [e4]) hs with h | ⟨v, r, _, _, h1, h2, h3, _⟩
    · obtain ⟨r, h1, h2, h3, _⟩ := hbsent _ _ h
      obtain ⟨g1, g2, _⟩ := decoded_header hk' h1 hp
      exact ⟨.inl (g1.trans h2), by rw [g2, h3, e8, hqc]⟩
    · obtain ⟨g1, g2, _⟩ := decoded_header hk' h1 hp
      rw [g1]
      exact ⟨h2, by rw [g2, h3, e8, hqc]⟩
  obtain ⟨c1, c2, c3, c4, c5, c6, c7⟩ := connect_facts hc (by
    intro n b src pkt hnet hp ht
    have := (hquiet n b src pkt 1500 hnet (.inr rfl) hp).1
    rw [ht] at this
    simp at this)
  rw [← c5] at hquiet hqc
  have h0 := c1.streamFirst (E := A) c4
  rw [c3] at h0
  obtain ⟨i1, i2, i3, i4⟩ := sender_first h0 (by simp [c2]) rfl hquiet c7 hx1
  obtain ⟨j1, j2, j3, j4⟩ := sender_second (fun _ _ h => h) i1.close i3 hquiet (fun dst d h => (i4 dst d h).close) hx2
  refine ⟨c1, c3, ?_, hquiet, j4, hreads, e4, ⟨by rw [e7, hqs], by rw [eD, hqs]⟩, ⟨e14, e13, e11, e12⟩,
    ⟨by rw [e8, hqc], by rw [e9, hqc, c6]⟩, hbsent, ?_, a1, hx1, hx2, i3, i4⟩
  rotate_left
  · obtain ⟨_, _, _, _, _, _, _, _, _, h7⟩ := accept_inv hacc (by simp)
    rw [h7]
  have := (hx1.mono (fun op r h => (.inl h : ((op = .flush ∨ ∃ buf, op = .sendTo buf) ∧ P op r) ∨ op = .flush ∨ op = .close))).trans
    (hx2.mono fun op r h => .inr h)
  simpa using this

theorem joined {A B : Env} {P : Op → Res Out → Prop} {cs : List Bytes} {a0 a1 a b : World} {fuel : Nat} {resolved : Except ErrorKind (List Addr)}
    {wild : Except ErrorKind Addr} {bs d : Bytes} {dst : Addr} (hc : connect A fuel resolved wild = .ok (.ok (), a0))
    (hx1 : Exec A (fun op r => (op = .flush ∨ ∃ buf, op = .sendTo buf) ∧ P op r) a0 cs a1)
    (hx2 : Exec A (fun op _ => op = .flush ∨ op = .close) a1 [] a) (hr : Receiver B d b bs) (hd : Sent a dst d) (hA : Delivers A b) :
    ∃ b0, Joined A B P cs a b bs a0 b0 := by
  obtain ⟨fuel', src, bound, b0, hacc, hreads⟩ := hr
  exact ⟨b0, joined_at hc hx1 hx2 hacc hreads hd hA⟩

theorem Session.joined {A B : Env} {P : Op → Res Out → Prop} {cs : List Bytes} {a b : World} {bs : Bytes} (h : Session A B P cs a b bs) :
    ∃ a0 b0, Joined A B P cs a b bs a0 b0 := by
  obtain ⟨⟨fuel, resolved, wild, a0, a1, hc, hx1, hx2⟩, ⟨d, dst, hr, hd⟩, hA, -⟩ := h
  exact ⟨a0, Utp.joined hc hx1 hx2 hr hd hA⟩

end Utp
