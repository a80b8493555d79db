import Verif.Props.EndToEnd
/-!
# C87: the end of the stream
-/

namespace Utp
open M

variable {A B : Env}

/-- Every call of `send_to` succeeded: the last piece is the last that became outstanding, or it was acknowledged. -/
theorem Front.all {E : Env} {base : U16} {N : Nat} {w w' : World} {cs : List Bytes} (h : Front E base N N w) (hx : Exec E SendsOk w cs w') :
    Front E base (N + cs.length) (N + cs.length) w' := by
  induction hx with
  | refl => exact h
  | @op cs w fuel op new _ hp hok ha ih =>
    rw [List.length_append, ← Nat.add_assoc]
    obtain ⟨h1, h2⟩ := ih.op fuel op hp ha
    by_cases hnew : new = []
    · subst hnew; exact h1
    · by_cases hop : ∃ buf, op = .sendTo buf
      · exact h2 hop (hok hop) hnew
      · exact absurd (by cases op <;> first | exact ha | exact absurd ⟨_, rfl⟩ hop) hnew

/-- The steps of `flush` and `close`. -/
theorem closing_steps {E : Env} {w w' : World} {new : List Bytes} (hi : Inv .any w) (hx : Exec E (fun op _ => op = .flush ∨ op = .close) w new w') :
    Steps E ⟨Ctx.any.ok, False, False, True, True⟩ w w' ∧ Inv .any w' := by
  induction hx with
  | refl => exact ⟨.refl _, hi⟩
  | @op old w fuel op new _ hp hop _ ih =>
    obtain ⟨i1, i2⟩ := ih
    have hno : ¬ ∃ buf, op = .sendTo buf := by
      rintro ⟨_, rfl⟩
      simp at hop
    have hat := (at_runOp (E := E) (V := ⟨Ctx.any.ok, False, False, True, True⟩) ⟨VOk.any.ts, VOk.any.td⟩ fuel op
      (fun buf e => absurd ⟨buf, e⟩ hno) (fun _ => trivial) (fun _ => trivial) ⟨i2.win, i2.uns, i2.inc, .inl trivial⟩ (fun buf e => absurd ⟨buf, e⟩ hno)).1 hp
    exact ⟨i1.trans hat, i2.steps .any (run_steps .any ⟨trivial, trivial⟩ trivial trivial dataPacket_any (.op fuel op .refl hp) i2)⟩

/-- When a FIN has been sent, the last piece was acknowledged. -/
theorem Joined.finished {cs : List Bytes} {a b : World} {bs : Bytes} {a0 b0 : World} (hj : Joined A B SendsOk cs a b bs a0 b0) (hne : cs ≠ [])
    {dst : Addr} {d : Bytes} {n : Nat} {p : Packet} (hs : Sent a dst d) (hn : 20 ≤ n) (hp : Packet.tryFrom (d.take n) = some (.ok p)) (ht : p.getType = some .fin) :
    ∃ pkt src, Received A a pkt src ∧ pkt.ackNr = 2 + BitVec.ofNat 16 (cs.length - 1) := by
  obtain ⟨a1, hx1, hx2, hr1, hsent⟩ := hj.half
  have hf := (hj.fresh.front (E := A)).all (hx1.mono fun _ _ h => h.2)
  rw [Nat.zero_add, hj.first] at hf
  have hpos := List.length_pos_iff.mpr hne
  obtain ⟨j, j1, j2, j3⟩ := hf.last hpos
  obtain rfl : j = cs.length - 1 := by omega
  obtain ⟨hst, -⟩ := closing_steps hf.inv hx2
  obtain ⟨l, hl, hall⟩ := hst.log
  obtain ⟨ok, hm⟩ := hs
  rw [hl, List.mem_append] at hm
  rcases hm with hm | hm
  · cases hsent dst d ⟨ok, hm⟩ with
    | first h =>
      obtain ⟨⟨q, hq, h1, _⟩, hlen⟩ := h
      rw [List.take_of_length_le (by omega), hq] at hp
      cases hp
      rw [h1] at ht; simp at ht
    | data q hd hpl _ =>
      have := (decoded_header hn hd hp).1
      rw [hpl.ty, ht] at this; simp at this
    | fin q h => exact h.elim
  · rcases hall _ hm with ⟨t, h⟩ | ⟨v, dst', q, ok', h1, h2, hem, hact⟩
    · simp at h
    · simp only [Act.send.injEq] at hact
      obtain ⟨rfl, rfl, rfl⟩ := hact
      have e := (decoded_header hn rfl hp).1
      rw [ht] at e
      have hlast := Last.steps (fun h => h) h1 j3
      cases hem with
      | data _ h => rw [h.1.ty] at e; simp at e
      | fin t _ hw _ _ =>
        rcases hlast with ⟨pre, x, g, _⟩ | ⟨pkt, src, g1, _, g3⟩
        · rw [hw] at g; simp at g
        · exact ⟨pkt, src, g1.mono h2.nNet, g3⟩
      | request t _ _ _ => rw [(resendRequest_plain _ _).ty] at e; simp at e
      | reply src pkt reply hg _ ha =>
        exact absurd ha (hj.quiet.mute ((steps_fixed (fun h => h) h1 hf.est).2.2.1.trans hr1) hg)

theorem Joined.start {cs : List Bytes} {P : Op → Res Out → Prop} {a b : World} {bs : Bytes} {a0 b0 : World} (hj : Joined A B P cs a b bs a0 b0) :
    Advanced B ⟨True, False, 0⟩ 2 cs b0.s b0 [] := by
  have hone : b0.s.lastDropped.toNat = 1 := by rw [hj.bAck.2]; rfl
  refine ⟨fun _ => ⟨?_, fun j h1 h2 => by omega, ?_, fun j k hk => ?_⟩, False.elim, ⟨rfl, rfl⟩, 0, 0,
    ⟨.inl hj.bState, Nat.zero_le _, .inl (by omega), ?_, ?_⟩, ⟨Nat.le_refl _, ?_⟩, .inl rfl, .inl ⟨hj.bEmpty.1, .inl ⟨?_, False.elim⟩⟩⟩
  · simp [hj.bEmpty.2.1]
  · simp [hj.bEmpty.2.1]
  · rw [hj.bNet] at hk; omega
  · rw [hj.bEmpty.2.1]; exact .nil
  · simp [hj.bEmpty.2.1]
  · simp [hj.bEmpty.1]
  · rw [hj.bAck.1]; rfl

/-- After the FIN was sent and when nothing more can be read, everything was read. -/
theorem Joined.complete {cs : List Bytes} {a b : World} {bs : Bytes} {a0 b0 : World} (hj : Joined A B SendsOk cs a b bs a0 b0) (hA : Delivers A b) (hB : Delivers B a)
    (hn : cs.length ≤ 65533) (hok : ∀ n, B.snd n = .ok) (hno : NoLate B) {dst : Addr} {d : Bytes} {p : Packet} (hs : Sent a dst d)
    (hp : Packet.tryFrom (d.take 1520) = some (.ok p)) (ht : p.getType = some .fin) (hpe : b.s.pending = []) (hq : Quiet1 b.s) : bs = cs.flatten := by
  obtain ⟨htidy, -, -, D, k, hR, hP, hk, hBM⟩ := reads_advanced (by omega) (by omega) (fun c hc => (exec_pieces hj.exec c hc).1) (fun _ => ⟨hno, id⟩) hok (hj.peerNet hB).fromNet hj.start hj.reads
  have htidy := htidy trivial
  have hbet := hBM.resolve_right fun h => h.elim (fun h => h.1 hpe) fun h => h.1
  obtain rfl : k = 0 := hk.resolve_right fun h => h.1
  have hbs : bs = (cs.take D).flatten := by simpa [hpe] using hP.2
  have hD : D = cs.length := by
    have hle := hR.le
    have hdr := hR.dropped.resolve_right fun h => h.1
    rcases hbet.2 with ⟨h, _⟩ | ⟨_, q, rest, h1, h2⟩ | ⟨_, _, h⟩
    · by_cases hlt : D < cs.length
      · exfalso
        have hne : cs ≠ [] := by rintro rfl; simp at hlt
        obtain ⟨pkt, src', g1, g2⟩ := hj.finished hne hs (by omega) hp ht
        obtain ⟨c, hc⟩ : ∃ c, cs[D]? = some c := ⟨_, List.getElem?_eq_getElem hlt⟩
        obtain ⟨q, src'', ⟨l, d', m, hl, hm, hnet, hdec⟩, hty, hseq, hpay⟩ := hj.honest hA hB hn g1 (j := cs.length - 1) (by omega) g2 D c (by omega) hc
        have hnum : q.seqNr.toNat = 2 + D := by rw [hseq, BitVec.toNat_ofNat]; omega
        have hat : DataAt B l (2 + D) := by
          refine ⟨d', src'', q, hnet, ?_, hty, hnum⟩
          obtain ⟨dst', hs'⟩ := hB l d' src'' hnet
          have hlen : d'.length ≤ 1400 := by
            cases hj.sent dst' d' hs' with
            | first h => have := h.2; omega
            | data x hx hpl hca =>
              obtain ⟨i, c', e1, e2, e3, e4, e5⟩ := hca
              have hb := (exec_pieces hj.exec c' (List.mem_of_getElem? e1)).2
              rw [hx]; omega
            | fin x _ hx hpl _ _ =>
              have h1 := (decoded_header (by omega) hx hdec).1
              rw [hpl.ty, hty] at h1; simp at h1
          rw [List.take_of_length_le (by rcases hm with rfl | rfl <;> omega)] at hdec
          rw [List.take_of_length_le (by omega)]
          exact hdec
        rcases htidy.kept _ _ hl hat with g | ⟨x, hx, hxs⟩
        · omega
        · rcases hi : b.s.incoming with _ | ⟨y, rest⟩
          · simp [hi] at hx
          · have hy := htidy.clean y (by simp [hi])
            have hle' : y.seqNr.toNat ≤ x.seqNr.toNat := by
              rw [hi] at hx
              rcases List.mem_cons.mp hx with rfl | hx
              · exact Nat.le_refl _
              · have hso := hR.sorted
                rw [hi] at hso
                exact Nat.le_of_lt ((List.pairwise_cons.mp hso).1 x hx)
            refine (hq y rest hi).2 (BitVec.eq_of_toNat_eq ?_)
            rw [BitVec.toNat_add]
            have h1 : (1 : U16).toNat = 1 := rfl
            rw [h1]
            omega
      · omega
    · have := htidy.clean q (by simp [h1])
      omega
    · exact h.resolve_right fun h => h.1
  rw [hbs, hD, List.take_length]

/-- **C87.**  When `recv_from` returns no bytes (the end of the stream), and no call failed before, then everything that was given to
`send_to` has been read.  Datagrams may be lost, delayed and reordered, and the sender may repeat them.

Partial: a data packet does not arrive again after one with a larger number (otherwise it is false, `C87_counterexample`), all `send_to` succeeded, at most 65533
packets, and the replies of the reader are taken by its operating system.  After a call that failed the end of the stream means nothing
(`C87_counterexample_timeout`). -/
theorem C87_partial {cs : List Bytes} {a b : World} {bs d : Bytes} {dst : Addr} (hs : Sender A SendsOk cs a) (hr : ReadToEnd B d b bs) (hd : Sent a dst d)
    (hA : Delivers A b) (hB : Delivers B a) (hn : cs.length ≤ 65533) (hok : ∀ n, B.snd n = .ok) (hno : NoLate B) : bs = cs.flatten := by
  obtain ⟨f0, resolved, wild, a0, a1, hc, hx1, hx2⟩ := hs
  obtain ⟨fuel, src, bound, b0, b1, fuel', len, src', hacc, hreads, hlen, hlast⟩ := hr
  have hlp : (runOp B fuel' (.recvFrom len) b1).1 ≠ .panic := by rw [hlast]; simp
  have hle : ∀ e, (runOp B fuel' (.recvFrom len) b1).1 ≠ .err e := by rw [hlast]; simp
  have hall := ReadsOk.read fuel' len hreads hlen hlp hle
  rw [hlast] at hall
  have hall' : ReadsOk B b0 b bs := by simpa [Res.read] using hall
  have hj := joined_at hc hx1 hx2 hacc hall'.reads hd hA
  have hne : ∀ c ∈ cs, c ≠ [] := fun c hc => (exec_pieces hj.exec c hc).1
  have hadv := reads_advanced (by omega) (by omega) hne (fun _ => ⟨hno, id⟩) hok (hj.peerNet hB).fromNet hj.start hreads.reads
  have htell := (op_reading (by omega) (by omega) hne (fun _ => ⟨hno, id⟩) hok (hj.peerNet hB).fromNet hlen hadv hlp).2.1 ⟨src', by rw [hlast]⟩
  have hends := readsOk_ends (by omega) (by omega) hne (fun _ => ⟨hno, id⟩) hok (hj.peerNet hB).fromNet hj.start hj.bState hall'
  rw [hlast] at htell
  obtain ⟨k, d', src'', p, _, h1, h2, h3⟩ := hends htell.2.2
  obtain ⟨dst', hs'⟩ := hB k d' src'' h1
  exact hj.complete hA hB hn hok hno hs' h2 h3 htell.1 htell.2.1

/-- **C87**, calls of the reader may have failed: if the sender has sent its FIN, and `recv_from` returns no bytes, then everything has been read.
Partial as `C87_partial`. -/
theorem C87_closed_partial {cs : List Bytes} {a b b' : World} {bs d f : Bytes} {dst dst' : Addr} {fuel len : Nat} {src : Addr} {fin : Packet}
    (hs : Sender A SendsOk cs a) (hr : Receiver B d b bs) (hl : 0 < len) (he : runOp B fuel (.recvFrom len) b = (.ok (.bytes [] src), b')) (hd : Sent a dst d)
    (hf : Sent a dst' f) (hp : Packet.tryFrom (f.take 1520) = some (.ok fin)) (ht : fin.getType = some .fin)
    (hA : Delivers A b') (hB : Delivers B a) (hn : cs.length ≤ 65533) (hok : ∀ n, B.snd n = .ok) (hno : NoLate B) : bs = cs.flatten := by
  obtain ⟨f0, resolved, wild, a0, a1, hc, hx1, hx2⟩ := hs
  obtain ⟨fuel', src', bound, b0, hacc, hreads⟩ := hr
  have hlp : (runOp B fuel (.recvFrom len) b).1 ≠ .panic := by rw [he]; simp
  have hall := Reads.read fuel len hreads hl hlp
  rw [he] at hall
  have hall' : Reads B b0 b' bs := by simpa [Res.read] using hall
  have hj := joined_at hc hx1 hx2 hacc hall' hd hA
  have hne : ∀ c ∈ cs, c ≠ [] := fun c hc => (exec_pieces hj.exec c hc).1
  have hadv := reads_advanced (by omega) (by omega) hne (fun _ => ⟨hno, id⟩) hok (hj.peerNet hB).fromNet hj.start hreads
  have htell := (op_reading (by omega) (by omega) hne (fun _ => ⟨hno, id⟩) hok (hj.peerNet hB).fromNet hl hadv hlp).2.1 ⟨src, by rw [he]⟩
  rw [he] at htell
  exact hj.complete hA hB hn hok hno hf hp ht htell.1 htell.2.1

/-! ### Samples -/

section
open Sample

/-- The number of a data packet. -/
def dataNum : NetEvent → Option Nat
  | .dgram d _ => match Packet.tryFrom (d.take 1520) with
    | some (.ok p) => if p.getType = some .data then some p.seqNr.toNat else none
    | _ => none
  | _ => none

theorem DataAt.num {E : Env} {k x : Nat} (h : DataAt E k x) : dataNum (E.net k) = some x := by
  obtain ⟨d, src, p, h1, h2, h3, h4⟩ := h
  simp only [dataNum, h1, h2, h3, if_true, h4]

/-- `NoLate` for the events of a list. -/
def noLate (nums : List (Option Nat)) : Bool :=
  (List.range nums.length).all fun l => (List.range l).all fun k => (List.range l).all fun m =>
    match nums.getD k none, nums.getD l none, nums.getD m none with
    | some x, some x', some y => x ≠ x' || y ≤ x
    | _, _, _ => true

theorem noLate_net {E : Env} {net : List NetEvent} (hE : ∀ k, E.net k = net.getD k .never) (h : noLate (net.map dataNum) = true) : NoLate E := by
  have hnum : ∀ k x, DataAt E k x → k < net.length ∧ (net.map dataNum).getD k none = some x := by
    intro k x hk
    have := hk.num
    rw [hE] at this
    by_cases hlt : k < net.length
    · refine ⟨hlt, ?_⟩
      simp only [List.getD_eq_getElem?_getD, List.getElem?_eq_getElem hlt, Option.getD_some] at this
      simp [List.getD_eq_getElem?_getD, List.getElem?_map, List.getElem?_eq_getElem hlt, this]
    · simp [List.getD_eq_getElem?_getD, List.getElem?_eq_none (Nat.le_of_not_lt hlt), dataNum] at this
  intro k l m x y hkl hml hk hl hm
  obtain ⟨_, k2⟩ := hnum k x hk
  obtain ⟨l1, l2⟩ := hnum l x hl
  obtain ⟨_, m2⟩ := hnum m y hm
  simp only [noLate, List.all_eq_true, List.mem_range, List.length_map] at h
  have := h l l1 k hkl m hml
  rw [k2, l2, m2] at this
  simpa using this

theorem noLate_of {net : List NetEvent} {snd : List SendRes} (h : noLate (net.map dataNum) = true) : NoLate (senv net snd) := noLate_net (fun _ => rfl) h

/-- Calls of `recv_from` in a row that do not fail. -/
theorem readsOk_of {E : Env} (fuel : Nat) {w0 : World} : ∀ (lens : List Nat) {w : World} {bs : Bytes}, ReadsOk E w0 w bs → (∀ n ∈ lens, 0 < n) →
    ((results E fuel (lens.map .recvFrom) w).all fun r => match r with | .ok _ => true | _ => false) = true →
    ReadsOk E w0 (runs E fuel (lens.map .recvFrom) w) (bs ++ ((results E fuel (lens.map .recvFrom) w).map Res.read).flatten)
  | [], _, _, h, _, _ => by simpa [results, runs] using h
  | n :: lens, w, bs, h, hn, hp => by
    simp only [List.map_cons, results, List.all_cons, Bool.and_eq_true] at hp
    have h1 : (runOp E fuel (.recvFrom n) w).1 ≠ .panic := by intro e; rw [e] at hp; simp at hp
    have h2 : ∀ e, (runOp E fuel (.recvFrom n) w).1 ≠ .err e := by intro x e; rw [e] at hp; simp at hp
    have := readsOk_of fuel lens (.read fuel n h (hn n (by simp)) h1 h2) (fun m hm => hn m (by simp [hm])) hp.2
    simpa [results, runs] using this

theorem readToEnd_of {net : List NetEvent} {lens : List Nat} {bs : Bytes}
    (hacc : accept (senv net []) 1 (arr theSyn) (.ok here) = .made (.ok ()) (readerStart net []) peer) (hl : ∀ n ∈ lens, 0 < n)
    (hr : ((results (senv net []) 20 (lens.map .recvFrom) (readerStart net [])).all fun r => match r with | .ok _ => true | _ => false) = true)
    (hb : ((results (senv net []) 20 (lens.map .recvFrom) (readerStart net [])).map Res.read).flatten = bs)
    (he : (runOp (senv net []) 20 (.recvFrom 9) (readerAfter net [] lens)).1 = .ok (.bytes [] peer)) :
    ReadToEnd (senv net []) theSyn (runOp (senv net []) 20 (.recvFrom 9) (readerAfter net [] lens)).2 bs := by
  have := readsOk_of (E := senv net []) 20 lens (bs := []) .refl hl hr
  rw [hb, List.nil_append] at this
  exact ⟨1, peer, .ok here, _, _, 20, 9, peer, hacc, this, by omega, Prod.ext he rfl⟩

theorem senv_snd (net : List NetEvent) (n : Nat) : (senv net []).snd n = .ok := by simp [senv, env]

/-- The hypotheses of `C87_partial` hold for two packets that arrive in the wrong order, one of them twice, and a FIN. -/
example : ∃ a b, Sender (senv goodA []) SendsOk [[1, 2], [3]] a ∧ ReadToEnd (senv goodB []) theSyn b [1, 2, 3] ∧ (∃ dst, Sent a dst theSyn) ∧
    Delivers (senv goodA []) b ∧ Delivers (senv goodB []) a ∧ (∀ n, (senv goodB []).snd n = .ok) ∧ NoLate (senv goodB []) := by
  have h1 : (connectM (senv goodA []) 20 peer (freshWorld (senv goodA []) here ⟨false, 0⟩)).1 = .ok () := by decide +kernel
  have h2 : results (senv goodA []) 20 (([[1, 2], [3]] : List Bytes).map .sendTo) (client (senv goodA [])) = ([[1,2],[3]] : List Bytes).map (fun b => .ok (.count b.length)) := by
    decide +kernel
  have h3 : .panic ∉ results (senv goodA []) 20 [.flush, .close] (runs (senv goodA []) 20 (([[1, 2], [3]] : List Bytes).map .sendTo) (client (senv goodA []))) := by decide +kernel
  have h4 : accept (senv goodB []) 1 (arr theSyn) (.ok here) = .made (.ok ()) (readerStart goodB []) peer := by decide +kernel
  have h6 : (sent (senderAfter goodA [] (([[1, 2], [3]] : List Bytes).map .sendTo) [.flush, .close])).contains theSyn = true := by decide +kernel
  have h7 : allSent goodA (runOp (senv goodB []) 20 (.recvFrom 9) (readerAfter goodB [] [1, 9, 9])).2 = true := by decide +kernel
  have h8 : allSent goodB (senderAfter goodA [] (([[1, 2], [3]] : List Bytes).map .sendTo) [.flush, .close]) = true := by decide +kernel
  refine ⟨_, _, ⟨20, .ok [peer], .ok here, _, _, connect_client [] h1, exec_sends 20 _ (cs := []) .refl (by decide) h2, exec_post 20 [.flush, .close] .refl (by simp) h3⟩,
    readToEnd_of (lens := [1, 9, 9]) h4 (by decide) (by decide +kernel) (by decide +kernel) (by decide +kernel), sent_of h6, delivers_of h7, delivers_of h8, senv_snd _,
    noLate_of (by decide +kernel)⟩

/-- Three packets and the FIN are acknowledged one after the other. -/
def lateA : List NetEvent := [arr (dg .state 7 100 1 [] 0), arr (dg .state 7 100 2), arr (dg .state 7 100 3), arr (dg .state 7 100 4), arr (dg .state 7 100 5)]

/-- The first packet arrives again after the second one. -/
def lateB : List NetEvent := [arr (dg .data 8 2 100 [1] 0), arr (dg .data 8 3 100 [2] 0), arr (dg .data 8 2 100 [1] 0), arr (dg .data 8 4 100 [3] 0),
  arr (dg .fin 8 5 100 [] 0)]

/-- C87 is false if a packet arrives again: the first packet arrives again after the second one, it blocks the third one, and the reader is told
that the stream has ended after two of three bytes.  All calls of both sides succeed, `close` of the sender included. -/
theorem C87_counterexample : ∃ A B w a b dst, Sender A SendsOk [[1], [2], [3]] w ∧ runOp A 20 .close w = (.ok .unit, a) ∧
    ReadToEnd B theSyn b [1, 2] ∧ Sent a dst theSyn ∧ Delivers A b ∧ Delivers B a ∧ ∀ n, B.snd n = .ok := by
  have h1 : (connectM (senv lateA []) 20 peer (freshWorld (senv lateA []) here ⟨false, 0⟩)).1 = .ok () := by decide +kernel
  have h2 : results (senv lateA []) 20 (([[1], [2], [3]] : List Bytes).map .sendTo) (client (senv lateA [])) = ([[1], [2], [3]] : List Bytes).map (fun b => .ok (.count b.length)) := by
    decide +kernel
  have h3 : (runOp (senv lateA []) 20 .close (senderAfter lateA [] (([[1], [2], [3]] : List Bytes).map .sendTo) [])).1 = .ok .unit := by decide +kernel
  have h4 : accept (senv lateB []) 1 (arr theSyn) (.ok here) = .made (.ok ()) (readerStart lateB []) peer := by decide +kernel
  have h6 : (sent (runOp (senv lateA []) 20 .close (senderAfter lateA [] (([[1], [2], [3]] : List Bytes).map .sendTo) [])).2).contains theSyn = true := by decide +kernel
  have h7 : allSent lateA (runOp (senv lateB []) 20 (.recvFrom 9) (readerAfter lateB [] [9, 9])).2 = true := by decide +kernel
  have h8 : allSent lateB (runOp (senv lateA []) 20 .close (senderAfter lateA [] (([[1], [2], [3]] : List Bytes).map .sendTo) [])).2 = true := by decide +kernel
  obtain ⟨dst, hs⟩ := sent_of h6
  have g1 : Sender (senv lateA []) SendsOk [[1], [2], [3]] (senderAfter lateA [] (([[1], [2], [3]] : List Bytes).map .sendTo) []) :=
    ⟨20, .ok [peer], .ok here, _, _, connect_client [] h1, exec_sends 20 _ (cs := []) .refl (by decide) h2, exec_post 20 [] .refl (by simp) (by simp [results])⟩
  have g2 := readToEnd_of (net := lateB) (lens := [9, 9]) (bs := [1, 2]) h4 (by decide) (by decide +kernel) (by decide +kernel) (by decide +kernel)
  refine ⟨senv lateA [], senv lateB [], _, _, _, dst, g1, ?_, g2, hs, delivers_of h7, delivers_of h8, senv_snd _⟩
  rw [← h3]

/-- The second packet is lost and the reader waits until it gives up. -/
def lostB : List NetEvent := arr (dg .data 8 2 100 [1] 0) :: List.replicate 10 (.fail .timedOut)

/-- After a call that failed, the end of the stream means nothing: the reader gives up waiting for the second packet, `recv_from` fails, and the
next call returns no bytes. -/
theorem C87_counterexample_timeout : ∃ A B a b bs, Session A B SendsOk [[1], [2]] a b bs ∧ NoLate B ∧ (∀ n, B.snd n = .ok) ∧
    runOp B 20 (.recvFrom 9) b = (.ok (.bytes [] peer), b) ∧ bs = [1] := by
  have h1 : (connectM (senv failA []) 20 peer (freshWorld (senv failA []) here ⟨false, 0⟩)).1 = .ok () := by decide +kernel
  have h2 : results (senv failA []) 20 (([[1], [2]] : List Bytes).map .sendTo) (client (senv failA [])) = ([[1], [2]] : List Bytes).map (fun b => .ok (.count b.length)) := by
    decide +kernel
  have h4 : accept (senv lostB []) 1 (arr theSyn) (.ok here) = .made (.ok ()) (readerStart lostB []) peer := by decide +kernel
  have h5 : .panic ∉ results (senv lostB []) 20 ([9, 9].map .recvFrom) (readerStart lostB []) := by decide +kernel
  have h6 : (sent (senderAfter failA [] (([[1], [2]] : List Bytes).map .sendTo) [])).contains theSyn = true := by decide +kernel
  have h7 : allSent failA (readerAfter lostB [] [9, 9]) = true := by decide +kernel
  have h8 : allSent lostB (senderAfter failA [] (([[1], [2]] : List Bytes).map .sendTo) []) = true := by decide +kernel
  have h9 : ((results (senv lostB []) 20 ([9, 9].map .recvFrom) (readerStart lostB [])).map Res.read).flatten = [1] := by decide +kernel
  have h10 : runOp (senv lostB []) 20 (.recvFrom 9) (readerAfter lostB [] [9, 9]) = (.ok (.bytes [] peer), readerAfter lostB [] [9, 9]) := by decide +kernel
  have h := session_of h1 (by decide) h2 (by simp) (by simp [results]) h4 (by decide) h5 h6 h7 h8
  exact ⟨_, _, _, _, _, h, noLate_of (by decide +kernel), senv_snd _, h10, h9⟩

end

end Utp
