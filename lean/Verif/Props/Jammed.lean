import Verif.Spec.Jammed
import Verif.Spec.Strangers
import Verif.Props.EmptyBuffer
import Verif.Props.Receive
import Verif.Lemmas.Reorder
/-!
# C104: an old packet blocks the stream
-/

namespace Utp
open M Sample

variable {E : Env} {V : Ctx}

/-- `Jammed`, with what its preservation needs. -/
structure JammedIn (w : World) : Prop where
  est : Established w
  srt : Sorted w.s.incoming
  stk : Jammed w.s

theorem JammedIn.step {a b : World} (h : Step E V a b) (hn : ∀ pkt src, Received E b pkt src → pkt.seqNr ≠ 65535) (hi : JammedIn a) : JammedIn b := by
  refine ⟨Established.steps (.single h) hi.est, step_sorted h hi.srt, ?_⟩
  have hm : a.nNet ≤ b.nNet := (Steps.single h).nNet
  obtain ⟨h1, h2, q, rest, h3, h4⟩ := hi.stk
  cases h with
  | arrive pkt src hg =>
    have hne := hn pkt src (hg.mono hm)
    have : pkt.seqNr.toNat ≠ 65535 := fun e => hne (BitVec.eq_of_toNat_eq e)
    simp only [World.setS, Socket.bumpAck]
    split
    · have c1 : (1 : U16).toNat = 1 := rfl
      have e : pkt.seqNr = a.s.ackNr + 1 := by bv_omega
      have e' : pkt.seqNr.toNat = a.s.ackNr.toNat + 1 := by rw [e, BitVec.toNat_add, c1]; omega
      exact ⟨h1, by show pkt.seqNr.toNat < _; omega, q, rest, h3, by show _ < pkt.seqNr.toNat; omega⟩
    · exact ⟨h1, h2, q, rest, h3, h4⟩
  | syn pkt src r _ _ hs => exact absurd hs hi.est.1
  | synAck pkt src t _ _ hs => exact absurd hs hi.est.2
  | measure pkt src i p t s' _ _ _ _ _ _ hms =>
    obtain ⟨_, _, _, _, _, _, _, rfl⟩ := onNewAck_shape hms
    exact ⟨h1, h2, q, rest, h3, h4⟩
  | advance s' _ hms =>
    obtain ⟨n, c, rfl⟩ := advanceSendWindow_shape hms
    exact ⟨h1, h2, q, rest, h3, h4⟩
  | insert pkt src _ _ _ =>
    obtain ⟨q', rest', e, hle⟩ := head_insert hi.srt pkt h3
    exact ⟨h1, h2, q', rest', e, Nat.lt_of_le_of_lt hle h4⟩
  | deliverPending len hp => exact absurd h1 hp
  | deliverHead p r pl len _ hinc hg _ =>
    rw [h3, List.cons.injEq] at hinc
    obtain ⟨rfl, rfl⟩ := hinc
    have c1 : (1 : U16).toNat = 1 := rfl
    rcases hg with hg | hg
    · rw [hg] at h4; omega
    · have e : q.seqNr.toNat = a.s.ackNr.toNat + 1 := by rw [← hg, BitVec.toNat_add, c1]; omega
      omega
  | _ => exact ⟨h1, h2, q, rest, h3, h4⟩

theorem JammedIn.steps {a b : World} (h : Steps E V a b) (hn : ∀ pkt src, Received E b pkt src → pkt.seqNr ≠ 65535) (hi : JammedIn a) : JammedIn b := by
  induction h with
  | refl => exact hi
  | tail _ hs ih => exact (ih fun pkt src hr => hn pkt src (hr.mono (Steps.single hs).nNet)).step hs hn

/-- In such a state nothing can be read. -/
theorem jammed_flush {w : World} (hs : Jammed w.s) (len : Nat) : flushIncoming E len w = (.ok [], w) := by
  obtain ⟨h1, h2, q, rest, h3, h4⟩ := hs
  have c1 : (1 : U16).toNat = 1 := rfl
  have n1 : w.s.ackNr ≠ q.seqNr := fun e => by rw [e] at h4; omega
  have n2 : ¬ (w.s.ackNr = q.seqNr ∨ w.s.ackNr + 1 = q.seqNr) := fun e => by
    rcases e with e | e
    · exact n1 e
    · have : q.seqNr.toNat = w.s.ackNr.toNat + 1 := by rw [← e, BitVec.toNat_add, c1]; omega
      omega
  have n3 : w.s.ackNr ≠ 65535 := fun e => by rw [e] at h2; exact absurd h2 (by decide)
  unfold flushIncoming
  msimp
  simp only [h1, h3, ne_eq, not_true, if_false, n3, and_false, decide_false]
  rw [overflowIf_false]
  msimp
  rw [if_neg n2]

/-- What a call did, as steps. -/
theorem At.steps_ok {α : Type} {m : M α} {w w' : World} {a : α} {Q : α → World → Prop} (h : At E V m w Q) (hm : m w = (.ok a, w')) : Steps E V w w' ∧ Q a w' := by
  have h1 := h.1 (by rw [hm]; simp)
  have h2 := h.2.2 a (by rw [hm])
  rw [hm] at h1 h2
  exact ⟨h1, h2⟩

theorem jammed_recv {fuel len : Nat} {w w' : World} {out : Bytes} {a : Addr} (hi : Inv .any w) (hs : JammedIn w)
    (hn : ∀ pkt src, Received E w' pkt src → pkt.seqNr ≠ 65535) (h : recv E fuel len w = (.ok (out, a), w')) : out = [] ∧ JammedIn w' ∧ Inv .any w' := by
  have hall := ((recv_ok (E := E) (V := .any) .any fuel len w hi (.inl trivial)).steps_ok h).1
  refine ⟨?_, hs.steps hall hn, hi.steps .any hall⟩
  obtain ⟨f, b, src, w1, rfl, h1, h2⟩ := recv_inv h
  rcases h2 with ⟨e, -, h2, -⟩ | ⟨pkt, reply, w2, w3, ty, hp, h2, h3, ht, h4⟩
  · exact h2
  · obtain ⟨s1, -, k, b0, hk, hnet, hb⟩ := (at_recvWait (E := E) (V := .any) .any f 0 hi (.inl trivial) ⟨w.nNet, rfl, fun j _ _ => by omega⟩ (Nat.zero_le _)).steps_ok h1
    simp only at hnet hb
    have hg : Received E w1 pkt src := ⟨k, b0, 1520, hk, .inl rfl, hnet, by rw [← hb]; exact hp⟩
    obtain ⟨s2, -⟩ := (at_handlePacket (E := E) (V := .any) .any (recv_ok .any f BUF_SIZE) f (hi.steps .any s1) hg).steps_ok h2
    obtain ⟨n, l, rfl⟩ := sendReply_ok h3
    have hs2 : ∀ {v : World}, v.nNet ≤ w'.nNet → ∀ pkt src, Received E v pkt src → pkt.seqNr ≠ 65535 := fun hv pkt src hr => hn pkt src (hr.mono hv)
    have hnn : w2.nNet = w'.nNet := by
      have := (flushIncoming_effect (E := E) len ({ w2 with nSnd := n, log := l }.setS (w2.s.keep ty pkt))).2.1
      rw [h4] at this
      exact this.symm
    have hst2 := (hs.steps s1 (hs2 (by rw [← hnn]; exact s2.nNet))).steps s2 (hs2 (Nat.le_of_eq hnn))
    have hst3 : JammedIn (({ w2 with nSnd := n, log := l } : World).setS (w2.s.keep ty pkt)) := by
      unfold Socket.keep
      split
      · rename_i hc
        have hst : Step E .any w2 (w2.setS (w2.s.insertIntoBuffer pkt)) := .insert w2 pkt src (hg.mono s2.nNet) (hc.1 ▸ ht) (by
          intro e; rw [e] at hc; simp at hc)
        have := hst2.step hst (hs2 (Nat.le_of_eq hnn))
        exact ⟨this.1, this.2, this.3⟩
      · exact ⟨hst2.1, hst2.2, hst2.3⟩
    rw [jammed_flush hst3.stk] at h4
    simp only [Prod.mk.injEq, Res.ok.injEq] at h4
    exact h4.1.symm

theorem jammed_loop {fuel len : Nat} : ∀ n {w w' : World} {out : Bytes} {a : Addr}, Inv .any w → JammedIn w →
    (∀ pkt src, Received E w' pkt src → pkt.seqNr ≠ 65535) → recvFromLoop E fuel len n w = (.ok (out, a), w') → out = []
  | 0, w, w', out, a, _, _, _, h => by simp [recvFromLoop, M.never] at h
  | n + 1, w, w', out, a, hi, hs, hn, h => by
    have hm := ((at_recvFromLoop (E := E) (V := .any) .any trivial fuel len (n + 1) hi).steps_ok h).1
    unfold recvFromLoop at h
    msimp at h
    split at h
    · simp only [Prod.mk.injEq, Res.ok.injEq] at h
      exact h.1.1.symm
    · obtain ⟨⟨o, src⟩, w1, h1, h⟩ := andThen_ok h
      have hi1 := hi.steps .any ((recv_ok (E := E) (V := .any) .any fuel len w hi (.inl trivial)).steps_ok h1).1
      simp only at h
      split at h
      · have hm1 := ((at_recvFromLoop (E := E) (V := .any) .any trivial fuel len n hi1).steps_ok h).1
        obtain ⟨-, k2, k3⟩ := jammed_recv hi hs (fun pkt src hr => hn pkt src (hr.mono hm1.nNet)) h1
        exact jammed_loop n k3 k2 hn h
      · simp only [M.ret, Prod.mk.injEq, Res.ok.injEq] at h
        obtain ⟨⟨rfl, rfl⟩, rfl⟩ := h
        exact (jammed_recv hi hs hn h1).1

/-- **C104**, how it begins: a data packet of the connection arrives whose number is below the one acknowledged last, and which is not the one read last.  It is acknowledged as if
nothing were wrong, no bytes are returned, and from then on the socket is jammed. -/
theorem C104_enters (hc : E.checks = false) {w : World} (hw : Reach E w) (hs : w.s.state = .connected ∨ w.s.state = .finSent)
    {b : Bytes} {src : Addr} {pkt : Packet} (hn : E.net w.nNet = .dgram b src)
    (hp : Packet.tryFrom (b.take 1520) = some (.ok pkt)) (ht : pkt.getType = some .data)
    (hid : pkt.connectionId = w.s.senderId ∨ pkt.connectionId = w.s.receiverId) (hr : 0 < w.s.maxRetries.toNat) (hok : E.snd w.nSnd = .ok)
    (hpd : w.s.pending = []) (hold : pkt.seqNr.toNat < w.s.ackNr.toNat) (h6 : w.s.ackNr.toNat < 65535) (hld : pkt.seqNr ≠ w.s.lastDropped) :
    ∃ w1, (∀ fuel len, recv E (fuel + 2) len w = (.ok ([], src), w1)) ∧ Jammed w1.s ∧ w1.s.ackNr = w.s.ackNr ∧ w1.s.state = w.s.state ∧
      ∃ t, ∃ reply : Packet, w1.log = w.log ++ [.wait t, .send src reply.bytes true] ∧ reply.ackNr = w.s.ackNr := by
  obtain ⟨reply, v, sack, t, h1, _, h3, _, _, h5⟩ := recv_data hc hs hn hp ht hid hr hok
  have hseq : pkt.seqNr ≠ w.s.ackNr + 1 := by
    intro e
    have c1 : (1 : U16).toNat = 1 := rfl
    rw [e, BitVec.toNat_add, c1] at hold
    omega
  have hvs : v.s = { w.s with remoteWnd := pkt.wndSize, theirDelay := absDiff (E.now w.nNow) pkt.timestamp } := by
    rw [h1]
    simp only [World.heard, World.setS]
    rw [show (w.waited w.s.patience).s = w.s from rfl, bumpAck_of_ne hseq]
    rfl
  have hk : v.s.keep .data pkt = v.s.insertIntoBuffer pkt := by
    unfold Socket.keep
    rw [if_pos]
    refine ⟨rfl, ?_⟩
    rw [hvs]
    show 0 < (pkt.seqNr - w.s.lastDropped).toNat
    bv_omega
  have hst : Jammed (v.s.insertIntoBuffer pkt) := by
    refine ⟨by rw [hvs]; exact hpd, by rw [hvs]; exact h6, ?_⟩
    have hh : ∃ q' rest', Socket.insertPkt w.s.incoming pkt = q' :: rest' ∧ q'.seqNr.toNat < w.s.ackNr.toNat := by
      rcases insertPkt_spec (C28_sorted hw).1 pkt with ⟨⟨q, hq, e⟩, e'⟩ | ⟨a, c, e1, e2, e3, e4⟩
      · rw [e']
        cases hb : w.s.incoming with
        | nil => rw [hb] at hq; simp at hq
        | cons x r =>
          refine ⟨x, r, rfl, ?_⟩
          have hsr := (C28_sorted hw).1
          rw [hb, List.pairwise_cons] at hsr
          rw [hb, List.mem_cons] at hq
          rcases hq with rfl | hq
          · rw [e]; exact hold
          · have := hsr.1 q hq
            rw [e] at this
            omega
      · rw [e4]
        cases a with
        | nil => exact ⟨pkt, c, rfl, hold⟩
        | cons x a => exact ⟨x, a ++ pkt :: c, rfl, Nat.lt_trans (e2 x (by simp)) hold⟩
    obtain ⟨q', rest', g1, g2⟩ := hh
    exact ⟨q', rest', by rw [hvs]; exact g1, by rw [hvs]; exact g2⟩
  obtain ⟨w1, hw1⟩ : ∃ w1 : World, w1 = { (v.setS (v.s.keep .data pkt)) with
      nNow := v.nNow + 1, nSnd := v.nSnd + 1, log := v.log ++ [.send src (reply.setWndSize WINDOW_SIZE).bytes true] } := ⟨_, rfl⟩
  have hs1 : w1.s = v.s.insertIntoBuffer pkt := by rw [hw1, hk]; rfl
  rw [← hw1] at h5
  refine ⟨w1, fun fuel len => ?_, by rw [hs1]; exact hst, by rw [hs1, hvs]; rfl, by rw [hs1, hvs]; rfl, w.s.patience, reply.setWndSize WINDOW_SIZE, ?_, ?_⟩
  · rw [h5, andThen_eq (jammed_flush (by rw [hs1]; exact hst) len)]
    rfl
  · rw [hw1, h1]; simp [World.heard, World.waited]
  · rw [setWndSize_ackNr, h3.facts.2.2.1, hvs]

/-- **C104**, that it lasts: whatever the application calls and whatever the network does, the socket stays jammed as long as no packet numbered 65535 is received, and every
`recv_from` that returns Ok returns no bytes, which it does only once the connection is closed. -/
theorem C104_stays {w v : World} (hw : Reach E w) (he : w.s.Established) (hs : Jammed w.s) (hr : Run E w v)
    (hn : ∀ pkt src, Received E v pkt src → pkt.seqNr ≠ 65535) :
    Jammed v.s ∧ ∀ fuel len out a v', runOp E fuel (.recvFrom len) v = (.ok (.bytes out a), v') →
      (∀ pkt src, Received E v' pkt src → pkt.seqNr ≠ 65535) → out = [] ∧ v'.s.state = .closed := by
  have hi := reach_any hw
  have hsw : JammedIn w := ⟨he, (C28_sorted hw).1, hs⟩
  have hst := run_steps (V := .any) .any ⟨trivial, trivial⟩ trivial trivial dataPacket_any hr hi
  have hv := hsw.steps hst hn
  have hiv := hi.steps .any hst
  refine ⟨hv.stk, fun fuel len out a v' h hn' => ?_⟩
  have ho : out = [] := by
    unfold runOp at h
    rw [bind_def] at h
    obtain ⟨⟨o, b⟩, w1, h1, h⟩ := andThen_ok h
    simp only [pure_def, M.ret, Prod.mk.injEq, Res.ok.injEq, Out.bytes.injEq] at h
    obtain ⟨⟨rfl, rfl⟩, rfl⟩ := h
    unfold recvFrom at h1
    rw [bind_def] at h1
    obtain ⟨o', w2, h2, h⟩ := andThen_ok h1
    rw [jammed_flush hv.stk] at h2
    simp only [Prod.mk.injEq, Res.ok.injEq] at h2
    obtain ⟨rfl, rfl⟩ := h2
    msimp at h
    rw [if_neg (by simp)] at h
    split at h
    · simp at h
    · exact jammed_loop _ hiv hv hn' h
  subst ho
  exact ⟨rfl, (C103_nothing h).1⟩

section

/-- **C104** happens: packets 2 and 3 were read, a delayed copy of 2 arrives; 4 and 5 are received and acknowledged but never read. -/
theorem C104_happens : let w := runs oldDuplicate 10 [.recvFrom 9, .recvFrom 9] (server oldDuplicate)
    Reach oldDuplicate w ∧ w.s.Established ∧ w.s.pending = [] ∧ w.s.ackNr = 3 ∧ w.s.lastDropped = 3 ∧
    oldDuplicate.net w.nNet = arr (dg .data 6 2 100 [2]) ∧
    results oldDuplicate 10 [.recvFrom 9] w = [.pending] ∧ (runs oldDuplicate 10 [.recvFrom 9] w).s.ackNr = 5 :=
  ⟨reach_server _ _ (by decide +kernel) (by decide +kernel), ⟨by decide +kernel, by decide +kernel⟩, by decide +kernel⟩

theorem oldDuplicate_numbers (w : World) : ∀ pkt src, Received oldDuplicate w pkt src → pkt.seqNr ≠ 65535 := by
  rintro pkt src ⟨k, b, n, -, hn, hk, hp⟩
  have e := C02_lossless hp
  have hk' : oldDuplicate.net k ∈ [arr (dg .data 6 2 100 [2]), arr (dg .data 6 3 100 [3]), arr (dg .data 6 2 100 [2]), arr (dg .data 6 4 100 [4]),
      arr (dg .data 6 5 100 [5]), .never] := by
    rcases k with _ | _ | _ | _ | _ | k <;> simp [oldDuplicate, env]
  rw [hk] at hk'
  simp only [arr, List.mem_cons, NetEvent.dgram.injEq, List.not_mem_nil, or_false, reduceCtorEq] at hk'
  obtain ⟨pb⟩ := pkt
  simp only at e
  subst e
  rcases hk' with ⟨rfl, rfl⟩ | ⟨rfl, rfl⟩ | ⟨rfl, rfl⟩ | ⟨rfl, rfl⟩ | ⟨rfl, rfl⟩ <;> rcases hn with rfl | rfl <;> decide +kernel

/-- A case of `C104_enters` and of `C104_stays`: whatever the application does from here, no byte is ever returned. -/
example : ∃ w1, Jammed (World.s w1) ∧ (∀ fuel len, recv oldDuplicate (fuel + 2) len (runs oldDuplicate 10 [.recvFrom 9, .recvFrom 9] (server oldDuplicate)) =
    (.ok ([], peer), w1)) ∧ (Reach oldDuplicate w1 → ∀ v, Run oldDuplicate w1 v → ∀ fuel len out a v', runOp oldDuplicate fuel (.recvFrom len) v = (.ok (.bytes out a), v') → out = []) := by
  obtain ⟨h1, h2, h3, h4, h5, h6, -⟩ := C104_happens
  have g1 : (runs oldDuplicate 10 [.recvFrom 9, .recvFrom 9] (server oldDuplicate)).s.state = .connected := by decide +kernel
  have g2 : (6 : U16) = (runs oldDuplicate 10 [.recvFrom 9, .recvFrom 9] (server oldDuplicate)).s.receiverId := by decide +kernel
  have g3 : 0 < (runs oldDuplicate 10 [.recvFrom 9, .recvFrom 9] (server oldDuplicate)).s.maxRetries.toNat := by decide +kernel
  generalize runs oldDuplicate 10 [.recvFrom 9, .recvFrom 9] (server oldDuplicate) = w at *
  have hsnd : oldDuplicate.snd w.nSnd = .ok := by simp [oldDuplicate, env]
  have hp : Packet.tryFrom ((dg .data 6 2 100 [2]).take 1520) = some (.ok ⟨dg .data 6 2 100 [2]⟩) := rfl
  obtain ⟨w1, k1, k2, -, k3, -⟩ := C104_enters (E := oldDuplicate) rfl h1 (.inl g1) h6 hp (by decide +kernel) (.inr ((by decide +kernel : _ = (6 : U16)).trans g2)) g3 hsnd h3
    (by rw [h4]; decide +kernel) (by rw [h4]; decide) (by rw [h5]; decide +kernel)
  refine ⟨w1, k2, k1, fun hw v hr fuel len out a v' h => ?_⟩
  exact ((C104_stays hw ⟨by rw [k3, g1]; decide, by rw [k3, g1]; decide⟩ k2 hr (oldDuplicate_numbers v)).2 fuel len out a v' h (oldDuplicate_numbers v')).1

end

end Utp
