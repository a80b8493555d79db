import Verif.Spec.Echo
import Verif.Lemmas.CatStart
import Verif.Lemmas.LossySend
/-!
# The program of examples/echo-server.rs
-/

namespace Utp
open M

variable {E : Env}

theorem chunks_short {buf : Bytes} (hb1 : 0 < buf.length) (hb2 : buf.length ≤ 1380) : chunks buf.length buf = [buf] := by
  obtain ⟨m, hm⟩ : ∃ m, buf.length = m + 1 := ⟨buf.length - 1, by omega⟩
  have hne : buf ≠ [] := List.length_pos_iff.mp hb1
  have hd : buf.drop CHUNK = [] := List.drop_eq_nil_of_le (by show _ ≤ 1380; omega)
  have ht : buf.take CHUNK = buf := List.take_of_length_le (by show _ ≤ 1380; omega)
  rw [hm, chunks, if_neg hne, hd, ht]
  cases m <;> simp [chunks]

/-- `send_to` of a buffer that fits into one packet, on a socket with nothing outstanding, sends the packet and returns. -/
theorem sendTo_single {a b : World} (h : Linked a b) (hr : Ready a.s b.s) (hok : ∀ n, E.snd n = .ok) {buf : Bytes} (hb1 : 0 < buf.length) (hb2 : buf.length ≤ 1380)
    (hlead : a.s.lead ≤ 32768) :
    ∃ p w', (∀ fuel, sendTo E (fuel + 2) buf a = (.ok buf.length, w')) ∧ SenderAt a b.s.seqNr [buf] 0 [p] w' ∧ w'.log = a.log ++ [.send a.s.connectedTo p.bytes true] ∧
      w'.s.unsent = [] ∧ w'.s.seqNr = a.s.seqNr + 1 ∧ w'.s.congTimeout = a.s.congTimeout := by
  obtain ⟨p, hp⟩ : ∃ p, p = dataPacket a.s buf := ⟨_, rfl⟩
  have hq : queued a buf = a.setS { a.s with unsent := [p], seqNr := a.s.seqNr + 1 } := by
    unfold queued
    rw [chunks_short hb1 hb2, fold_enqueue, hr.sent.2.1, hp]
    rfl
  have hpi : Piece a.s.seqNr a.s.senderId buf p := by
    have hf := dataPacket_facts a.s buf
    rw [hp]
    exact ⟨dataPacket_plain _ _, hf.1, hf.2.2.1, hf.2.2.2.1, hf.2.2.2.2, hb1, hb2⟩
  obtain ⟨v, hv⟩ : ∃ v, v = a.setS { a.s with unsent := [], seqNr := a.s.seqNr + 1 } := ⟨_, rfl⟩
  have hvs : v.s = { a.s with unsent := [], seqNr := a.s.seqNr + 1 } := by rw [hv]; rfl
  obtain ⟨p', hp'⟩ : ∃ p', p' = stamped E { v with nNow := v.nNow + 1 } p := ⟨_, rfl⟩
  have hpi' : Piece a.s.seqNr a.s.senderId buf p' := by rw [hp']; exact hpi.stamped _ _
  obtain ⟨v2, hv2⟩ : ∃ v2 : World, v2 = { v with nNow := v.nNow + 2, nSnd := v.nSnd + 1, log := v.log ++ [.send v.s.connectedTo p'.bytes true] } := ⟨_, rfl⟩
  have hcw : v.s.currWindow = 0 := by rw [hvs]; exact hr.sent.2.2
  have hfar : ¬ TooFar v.s p.seqNr := by
    unfold TooFar
    rw [hvs, hpi.seq]
    show ¬ 32768 < a.s.lead
    omega
  have e1 : ∀ fuel rec, sendPacket E (fuel + 1) rec p v = (.ok p', v2) := by
    intro fuel rec
    rw [sendPacket_room (small_window (by rw [hcw]; simp)) hfar, andThen_eq (udpSend_ok (hok _)), hv2, hp']
    rfl
  have hv2s : v2.s = v.s := by rw [hv2]
  have hst : a.s.state ≠ .closed := by rw [h.aOpen]; simp
  have hlen : p'.len = 20 + buf.length := hpi'.len
  refine ⟨p', v2.setS { v2.s with currWindow := v2.s.currWindow + BitVec.ofNat 32 p'.len, sendWindow := v2.s.sendWindow ++ [p'] }, fun fuel => ?_, ?_, ?_, ?_, ?_, ?_⟩
  · have e2 : sendQueue E (fuel + 2) (fuel + 2) (queued a buf) =
        (.ok (), v2.setS { v2.s with currWindow := v2.s.currWindow + BitVec.ofNat 32 p'.len, sendWindow := v2.s.sendWindow ++ [p'] }) := by
      rw [hq, sendQueue]
      msimp
      simp only [World.setS]
      rw [andThen_eq (m := modS _) (w' := v) (a := ()) (by rw [hv]; rfl), andThen_eq (e1 _ _)]
      msimp
      have hov : overflowIf E (decide (v2.s.currWindow.toNat + (BitVec.ofNat 32 p'.len).toNat ≥ 2 ^ 32)) v2 = (.ok (), v2) := by
        rw [overflowIf_run, if_neg]
        simp only [Bool.and_eq_true, decide_eq_true_eq, not_and]
        intro _
        rw [hv2s, hcw, BitVec.toNat_ofNat]
        simp
        omega
      rw [andThen_eq hov]
      msimp
      rw [sendQueue]
      msimp
      simp only [World.setS, hv2s, hvs]
      rfl
    rw [sendTo_eq _ _ hst, andThen_eq e2]
    rfl
  · have hlog : v2.log = a.log ++ [.send v.s.connectedTo p'.bytes true] := by rw [hv2, hv]; rfl
    constructor
    case log => exact ⟨[.send v.s.connectedTo p'.bytes true], hlog, rfl⟩
    case net => rw [Nat.add_zero]; show v2.nNet = _; rw [hv2, hv]; rfl
    all_goals try simp only [World.setS, hv2s, hvs]
    case state => exact h.aOpen
    case pieces =>
      intro i r hr
      cases i with
      | zero => cases hr; exact ⟨buf, rfl, by simpa using hpi'⟩
      | succ i => simp at hr
    case le => simp
    case window => rw [hr.sent.1]; rfl
    case size =>
      rw [hr.sent.2.2]
      simp [totalSize, Packet.len]
    case room => simp
    case acked => simp
    case quiet => exact h.aRead
    case takes => exact id
  · show v2.log = _
    rw [hv2, hv]
    rfl
  · show v2.s.unsent = _
    rw [hv2s, hvs]
  · show v2.s.seqNr = _
    rw [hv2s, hvs]
  · show v2.s.congTimeout = _
    rw [hv2s, hvs]

theorem Prog.ignoreErr {α : Type} {B : World → Prop} {m : Nat → M α} {w : World} {Q : α → World → Prop} (h : Prog B m w Q) :
    Prog B (fun n => M.ignoreErr (m n)) w fun _ w' => ∃ x, Q x w' := by
  rcases h with ⟨x, w', hq, F, hF⟩ | ⟨F, hF⟩
  · exact .inl ⟨(), w', ⟨x, hq⟩, F, fun n hn => by simp [M.ignoreErr, hF n hn]⟩
  · refine .inr ⟨F, fun n hn => ?_⟩
    have := hF n hn
    show B (M.ignoreErr (m n) w).2
    unfold M.ignoreErr
    rcases hm : m n w with ⟨r, w'⟩
    rw [hm] at this
    cases r <;> exact this

/-- The rest of `handle_client`, after `recv_from` returned the bytes `msg`. -/
def replyOn (E : Env) (msg : Bytes) (n : Nat) : M Unit := M.andThen (M.ignoreErr (sendTo E n msg)) fun _ => dropSocket E n

theorem grows_replyOn (msg : Bytes) (n : Nat) : Grows (replyOn E msg n) := .andThen (.ignoreErr (grows_sendTo n msg)) fun _ => .ignoreErr (grows_close n)

theorem ignoreErr_twice {α : Type} (m : M α) : M.ignoreErr (M.ignoreErr m) = M.ignoreErr m := by
  funext w
  unfold M.ignoreErr
  rcases m w with ⟨r, w'⟩
  cases r <;> rfl

section
variable {B : World → Prop} {a0 : World} {q0 : U16} {cs : List Bytes}

theorem prog_replyOn (hB : Lasting B) (hs : Served E a0 q0 cs B) (hok : ∀ n, E.snd n = .ok) (ht0 : a0.s.maxRetries ≠ 0) (hla : a0.s.lastAcked ≠ a0.s.seqNr)
    {msg : Bytes} (hcs : cs = chunks msg.length msg) (hfit : a0.s.lead + cs.length ≤ 32769)
    (hfin : ∀ w1, OutAll a0 cs w1 → Acks a0.s.receiverId q0 (a0.s.seqNr + BitVec.ofNat 16 cs.length) (E.net (a0.nNet + cs.length)) ∨ B w1)
    {w : World} (h : IdleAt a0 q0 cs 0 0 w) :
    Prog B (fun n => replyOn E msg n) w fun _ w' => w'.s.state = .closed ∧ Settled w'.s ∧ OutAll a0 cs w' := by
  refine .andThen hB (prog_sendTo (rest := []) hB hs hok ht0 hla (by rw [List.drop_zero, hcs, List.append_nil]) (by rw [← hcs]; omega) h).ignoreErr
    (fun n _ => .ignoreErr (grows_close n)) ?_
  rintro _ w1 ⟨_, h1⟩
  rw [Nat.zero_add, ← hcs] at h1
  have hst : w1.s.state = .connected := by
    obtain ⟨_, _, _, _, h2, _⟩ := h1
    exact h2.state
  refine .mono (Prog.ignoreErr (m := fun n => close E n) (.congr (m := fun n => M.andThen (flush E n) fun _ => closeTail E n) (w1 := w1) ?_ fun n => close_open hst n))
    fun _ _ ⟨_, h⟩ => h
  refine .andThen hB (prog_flush hB hs ht0 hla h1) (fun n _ => ?_) fun _ w3 h3 => prog_closeTail hok hB ht0 h3 hfin
  exact .bind .getS fun _ => .bind .now fun _ => .bind .udpSend fun _ => .bind .modS fun _ => grows_closeLoop n

end

section
variable {A B : Env} {a b : World} {msg : Bytes} {len : Bytes → Nat}

theorem echo_run (h : Linked a b) (hr : Ready a.s b.s) (hr' : Ready b.s a.s) (hA : ∀ n, A.snd n = .ok) (hB : ∀ n, B.snd n = .ok)
    (hm1 : 0 < msg.length) (hm2 : msg.length ≤ 1380) (hla : a.s.lead ≤ 32768) (hlb : b.s.lead ≤ 32768) (hl : ∀ got, 0 < len got)
    (ha : Arrives (fun n => echoClient A msg len n) a B b) (hb : Arrives (fun n => handleClient B n) b A a) :
    ∃ a' b' F, (∀ fuel, F ≤ fuel → echoClient A msg len fuel a = (.ok msg, a') ∧ handleClient B fuel b = (.ok (), b')) ∧
      (a'.s.state = .closed ∧ Settled a'.s ∧ (datagramsOf (a'.log.drop a.log.length)).length = 3) ∧
      (b'.s.state = .closed ∧ Settled b'.s ∧ (datagramsOf (b'.log.drop b.log.length)).length = 3) := by
  have one : (1 : U16).toNat = 1 := rfl
  -- the client sends the message
  obtain ⟨p, a1, s1, s2, s3, s4, s5, _⟩ := sendTo_single (E := A) h hr hA hm1 hm2 hla
  have hclient : ∀ n, echoClient A msg len (n + 2) a = readToEnd A len (n + 2) a1 := fun n => by
    unfold echoClient
    rw [andThen_eq (s1 n)]
  have hgr : ∀ n, Grows (readToEnd A len n) := fun n => grows_readEnd n len n []
  have hpc : Piece a.s.seqNr b.s.receiverId msg p := by
    obtain ⟨c, h1, h2⟩ := s2.pieces 0 p rfl
    cases h1
    rw [← h.toB]
    simpa using h2
  obtain ⟨src, hdata⟩ : ∃ src, B.net b.nNet = .dgram p.bytes src := by
    obtain ⟨t, ht⟩ := hgr 2 a1
    refine ha 2 0 p.bytes ?_
    show (datagramsOf ((echoClient A msg len (0 + 2) a).2.log.drop _))[0]? = _
    rw [hclient, ← ht, s3, List.append_assoc, List.drop_left]
    rfl
  -- the server reads it
  obtain ⟨d, hx⟩ := (h.reader hr).exp
  rw [show a.s.seqNr + BitVec.ofNat 16 0 = a.s.seqNr by simp] at hx
  have hdec : Packet.tryFrom (p.bytes.take 1520) = some (.ok p) := by
    rw [List.take_of_length_le (by rw [hpc.len]; omega)]
    exact hpc.plain.accepted
  obtain ⟨b1, r1, r2, r3, r4, ⟨t, dst, r, r5, r6, r7, r8, r9, r10⟩, r11⟩ := recv_one (p := p) (c := msg) hx ⟨hpc.plain.ty, hpc.seq, hpc.payload, .inr hpc.id⟩ hdata hdec (hB _) 1500
  rw [List.take_of_length_le (by omega : msg.length ≤ 1500)] at r1
  rw [List.drop_eq_nil_of_le (by omega : msg.length ≤ 1500)] at r2
  have hne : msg ≠ [] := List.length_pos_iff.mp hm1
  have hread : ∀ n, recvFrom B (n + 2) 1500 b = (.ok (msg, src), b1) := by
    intro n
    rw [recvFrom_quiet (flush_settled ⟨h.bRead.1, h.bRead.2, hr'.sent.1⟩ _) (by rw [h.bOpen]; simp), recvFromLoop]
    msimp
    rw [if_neg (by rw [h.bOpen]; simp), andThen_eq (r1 n)]
    msimp
    rw [if_neg hne]
  have hserver : ∀ n, handleClient B (n + 2) b = replyOn B msg (n + 2) b1 := by
    intro n
    have : M.ignoreErr (M.andThen (recvFrom B (n + 2) 1500) fun x => M.ignoreErr (sendTo B (n + 2) x.1)) b = M.ignoreErr (sendTo B (n + 2) msg) b1 := by
      have e : M.andThen (recvFrom B (n + 2) 1500) (fun x => M.ignoreErr (sendTo B (n + 2) x.1)) b = M.ignoreErr (sendTo B (n + 2) msg) b1 := andThen_eq (hread n)
      rw [← ignoreErr_twice (sendTo B (n + 2) msg)]
      unfold M.ignoreErr at e ⊢
      simp only [e]
    unfold handleClient replyOn M.andThen at *
    rw [this]
  have hack : AckPkt b.s.seqNr a.s.seqNr a.s.receiverId r := ⟨r6, r7, r8, r9.trans h.toA, r10⟩
  obtain ⟨src', hackd⟩ : ∃ src', A.net a.nNet = .dgram r.bytes src' := by
    obtain ⟨u, hu⟩ := grows_replyOn (E := B) msg 2 b1
    refine hb 2 0 r.bytes ?_
    show (datagramsOf ((handleClient B (0 + 2) b).2.log.drop _))[0]? = _
    rw [hserver, ← hu, r5, List.append_assoc, List.drop_left]
    rfl
  -- the client gets the acknowledgement
  obtain ⟨x, a2, k1, k2, k3, k4, k5, k6⟩ := recv_ack (E := A) s2 (by simp) h.aTries hr.acked (by simpa using ⟨r, src', hackd, hack⟩)
  have ha1 : a1.s.state = .connected := s2.state
  have hreadOn : ∀ n, readToEnd A len (n + 2) a1 = readOn A len (n + 1) a2 := by
    intro n
    unfold readToEnd readOn
    rw [readEnd]
    have h1 : recvFrom A (n + 2) (len []) a1 = recvFromLoop A (n + 2) (len []) (n + 1) a2 := by
      have hq : flushIncoming A (len []) a1 = (.ok [], a1) := by
        unfold flushIncoming
        msimp
        simp only [s2.quiet.1, s2.quiet.2, ne_eq, not_true_eq_false, if_false]
        rfl
      rw [recvFrom_quiet hq (by rw [ha1]; simp), recvFromLoop]
      msimp
      rw [if_neg (by rw [ha1]; simp), andThen_eq (k1 n _)]
      msimp
      rw [if_pos k5]
    unfold M.andThen
    rw [h1]
    simp only [List.nil_append]
  have hgrOn : ∀ n, Grows (readOn A len n) := fun n => .andThen (grows_recvFromLoop _ _ _) fun _ => .ite .ret (grows_readEnd _ _ _ _)
  -- the way back
  have hwin : a2.s.sendWindow = [] := by rw [k2.window]; rfl
  have hlink : Linked b1 a2 := by
    refine ⟨r2.state, k2.state, ?_, ?_, ?_, ?_, ⟨r2.empty rfl, r2.pending⟩, k2.quiet⟩
    · rw [r11.maxRetries]; exact h.bTries
    · rw [k2.tries]; exact h.aTries
    · rw [r3.1, k2.rid]; exact h.toA
    · rw [k2.sid, r3.2]; exact h.toB
  have hready : Ready b1.s a2.s := by
    refine ⟨by rw [r11.sendWindow, r11.unsent, r11.currWindow]; exact hr'.sent, by rw [r11.lastAcked, r11.seqNr]; exact hr'.acked, ?_⟩
    rw [r11.seqNr]
    exact k2.takes hr'.next
  obtain ⟨lw, hlw⟩ := k6
  have ha' : Arrives (fun n => readOn A len (n + 1)) a2 B b1 := by
    refine ha.later (l := [.send a.s.connectedTo p.bytes true, .wait lw]) (fun f => ⟨f + 2, (hclient f).trans (hreadOn f)⟩) (by rw [hlw, s3, List.append_assoc]; rfl) (fun f => hgrOn _) ?_
    rw [r4]
    rfl
  have hb' : Arrives (fun n => replyOn B msg (n + 2)) b1 A a2 := by
    refine hb.later (fun f => ⟨f + 2, hserver f⟩) r5 (fun f => grows_replyOn _ _) ?_
    rw [k2.net]
    rfl
  have hch := chunks_short hm1 hm2
  have hC : Puts B b1 a2.s.seqNr [msg] fun n => replyOn B msg (n + 2) := by
    intro P hP hs hfin
    refine (prog_replyOn hP hs hB hlink.aTries hready.acked hch.symm ?_ hfin (hlink.idle hready _)).shift 2
    have : b1.s.lead = b.s.lead := by unfold Socket.lead; rw [r11.seqNr, r11.lastAcked]
    rw [this]
    simp
    omega
  have hS : Gets A a2 b1.s.seqNr [msg] fun n => readOn A len (n + 1) := fun P h1 h2 h3 => (gets_readOn hlink hready hA hwin hl P h1 h2 h3).shift 1
  obtain ⟨b', a', F, m1, m2, m3, ⟨l, ps, n1, n2, n3, _⟩, m5, m6, l', ps', n1', n2', n3', _⟩ := meet hlink hC hS hb' ha'
  refine ⟨a', b', F + 2, fun fuel hf => ?_, ⟨m5, m6, ?_⟩, m2, m3, ?_⟩
  · obtain ⟨n, rfl⟩ : ∃ n, fuel = n + 2 := ⟨fuel - 2, by omega⟩
    obtain ⟨e1, e2⟩ := m1 n (by omega)
    refine ⟨?_, (hserver n).trans e1⟩
    rw [hclient, hreadOn, e2]
    simp
  · rw [n1', hlw, s3, List.append_assoc, List.append_assoc, List.drop_left, datagramsOf_append, datagramsOf_append, n2', List.length_append, List.length_append, List.length_map, n3']
    rfl
  · rw [n1, r5, List.append_assoc, List.drop_left, datagramsOf_append, n2, List.length_append, List.length_map, n3]
    rfl

end

end Utp
