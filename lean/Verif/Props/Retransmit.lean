import Verif.Props.Sending
import Verif.Props.Bits
/-!
# C19: fast retransmission
-/

namespace Utp
open M Packet Sample Spec

variable {E : Env}

/-- The effects `acts` are transmissions to `dst` of the packets `ps`, in this order and once each, changed only in the two
timestamp fields. -/
inductive Retransmits (dst : Addr) : List Packet → List Act → Prop
  | nil : Retransmits dst [] []
  | cons {p : Packet} {b : Bytes} {ok : Bool} {ps : List Packet} {acts : List Act} : SameBut 4 12 p.bytes b →
      Retransmits dst ps acts → Retransmits dst (p :: ps) (.send dst b ok :: acts)

theorem Retransmits.append {dst : Addr} {ps qs : List Packet} {as bs : List Act} (h : Retransmits dst ps as)
    (h' : Retransmits dst qs bs) : Retransmits dst (ps ++ qs) (as ++ bs) := by
  induction h with
  | nil => exact h'
  | cons h1 _ ih => exact .cons h1 ih

/-- The packets that are retransmitted because of a selective ack with the bitmap `data` for the acknowledged number `ack`: the
one after it if the bitmap reports at least three packets received, then each one the bitmap reports missing that comes
before the last outstanding one. -/
def sackLost (window : List Packet) (ack last : U16) (data : Bytes) : List Packet :=
  (if 3 ≤ ((List.range (8 * data.length)).filter (bitAt data)).length
    then (window.find? fun p => p.seqNr.toNat == ack.toNat + 1).toList else []) ++
  ((List.range (8 * data.length)).filter fun i => !bitAt data i && decide (ack.toNat + 2 + i < last.toNat)).filterMap fun i =>
    window.find? fun p => p.seqNr.toNat == ack.toNat + 2 + i

theorem sameBut_stamped (E : Env) (w : World) (p : Packet) : SameBut 4 12 p.bytes (stamped E w p).bytes := by
  refine ⟨by simp [stamped], fun i h => ?_⟩
  unfold stamped
  have h1 := (sameBut_setTimestamp p (E.now w.nNow)).2 i (by omega)
  have h2 : ((p.setTimestamp (E.now w.nNow)).setTimestampDifference w.s.theirDelay).bytes[i]? = (p.setTimestamp (E.now w.nNow)).bytes[i]? :=
    put32_other _ 8 _ i (by omega)
  rw [h2, h1]

/-- The world after `ps` were retransmitted. -/
structure Resent (w : World) (ps : List Packet) (w' : World) : Prop where
  s : w'.s = w.s
  nNet : w'.nNet = w.nNet
  log : ∃ acts, w'.log = w.log ++ acts ∧ Retransmits w.s.connectedTo ps acts

theorem Resent.refl (w : World) : Resent w [] w := ⟨rfl, rfl, [], by simp, .nil⟩

theorem Resent.trans {a b c : World} {ps qs : List Packet} (h : Resent a ps b) (h' : Resent b qs c) : Resent a (ps ++ qs) c := by
  obtain ⟨l, hl, hr⟩ := h.log
  obtain ⟨l', hl', hr'⟩ := h'.log
  refine ⟨h'.s.trans h.s, h'.nNet.trans h.nNet, l ++ l', by rw [hl', hl, List.append_assoc], ?_⟩
  rw [h.s] at hr'
  exact hr.append hr'

theorem sendPacket_room {fuel : Nat} {rec : M (Bytes × Addr)} {p : Packet} {w : World} (hroom : w.s.currWindow.toNat < sendLimit w.s)
    (hnf : ¬ TooFar w.s p.seqNr) : sendPacket E (fuel + 1) rec p w =
      M.andThen (udpSend E w.s.connectedTo (stamped E { w with nNow := w.nNow + 1 } p).bytes)
        (fun _ => ret (stamped E { w with nNow := w.nNow + 1 } p)) { w with nNow := w.nNow + 2 } := by
  have hle : ¬ limitOf w.s ≤ w.s.currWindow := by
    rw [BitVec.le_def, limitOf_toNat]; omega
  rw [sendPacket_eq, andThen_eq (w' := { w with nNow := w.nNow + 1 }) (a := ())]
  · msimp
    rw [if_neg (fun h => hnf ((tooFar_iff _ _).mp h))]
    rfl
  · rw [whileM, waitMore]
    msimp
    simp only [if_neg hle]
    rfl

theorem resendLost_none {fuel : Nat} {rec : M (Bytes × Addr)} {w : World} {nr : U16}
    (h : (w.s.sendWindow.find? fun p => p.seqNr == nr) = none) : resendLost E fuel rec nr w = (.ok (), w) := by
  simp [resendLost, bind_def, pure_def, M.andThen, getS, M.ret, h]

theorem resendLost_some {fuel : Nat} {rec : M (Bytes × Addr)} {w : World} {nr : U16} {p : Packet}
    (h : (w.s.sendWindow.find? fun p => p.seqNr == nr) = some p) :
    resendLost E fuel rec nr w = ignoreErr (sendPacket E fuel rec p) w := by
  simp [resendLost, bind_def, M.andThen, getS, h]

theorem resendLost_room (hs : ∀ k, E.snd k ≠ .never) {fuel : Nat} {rec : M (Bytes × Addr)} {w : World}
    (hroom : w.s.currWindow.toNat < sendLimit w.s) {nr : U16} (hnf : ¬ TooFar w.s nr) :
    ∃ w', resendLost E (fuel + 1) rec nr w = (.ok (), w') ∧ Resent w (w.s.sendWindow.find? fun p => p.seqNr == nr).toList w' := by
  rcases hf : w.s.sendWindow.find? fun p => p.seqNr == nr with _ | p
  · exact ⟨w, resendLost_none hf, by rw [hf]; exact .refl w⟩
  · have hseq : p.seqNr = nr := by simpa using List.find?_some hf
    rw [resendLost_some hf, hf, Option.toList_some]
    unfold ignoreErr
    rw [sendPacket_room hroom (by rw [hseq]; exact hnf)]
    rcases hk : E.snd ({ w with nNow := w.nNow + 2 } : World).nSnd with _ | k | _
    · rw [andThen_eq (udpSend_ok hk)]
      exact ⟨_, rfl, rfl, rfl, _, rfl, .cons (sameBut_stamped _ _ _) .nil⟩
    · rw [andThen_err (udpSend_fail hk)]
      exact ⟨_, rfl, rfl, rfl, _, rfl, .cons (sameBut_stamped _ _ _) .nil⟩
    · exact absurd hk (hs _)

theorem resendMissing_room (hs : ∀ k, E.snd k ≠ .never) {fuel : Nat} {rec : M (Bytes × Addr)} {ack last : U16} {data : Bytes} :
    ∀ (L : List Nat) (loss : Bool) {w : World}, w.s.lastAcked = ack → w.s.currWindow.toNat < sendLimit w.s → L.Pairwise (· < ·) →
      (∀ i ∈ L, i + 2 ≤ 32768 ∧ ack.toNat + 2 + i < 65536) →
      ∃ loss' w', resendMissing E (fuel + 1) rec ack last (L.map fun i => (i, bitAt data i)) loss w = (.ok loss', w') ∧
        loss' = (loss || L.any fun i => !bitAt data i && decide (ack.toNat + 2 + i < last.toNat)) ∧
        Resent w ((L.filter fun i => !bitAt data i && decide (ack.toNat + 2 + i < last.toNat)).filterMap fun i =>
          w.s.sendWindow.find? fun p => p.seqNr.toNat == ack.toNat + 2 + i) w' := by
  intro L
  induction L with
  | nil => intro loss w _ _ _ _; exact ⟨loss, w, rfl, by simp, .refl w⟩
  | cons i L ih =>
    intro loss w hla hroom hp hb
    rw [List.pairwise_cons] at hp
    obtain ⟨hb1, hb2⟩ := hb i (by simp)
    have hb' : ∀ j ∈ L, j + 2 ≤ 32768 ∧ ack.toNat + 2 + j < 65536 := fun j hj => hb j (by simp [hj])
    simp only [List.map_cons]
    unfold resendMissing
    by_cases hbit : bitAt data i = true
    · simp only [hbit, if_true]
      obtain ⟨loss', w', h1, hl, h2⟩ := ih loss hla hroom hp.2 hb'
      exact ⟨loss', w', h1, by rw [hl, List.any_cons, hbit]; simp, by simpa [List.filter_cons, hbit] using h2⟩
    · have hbit' : bitAt data i = false := by simpa using hbit
      have hi : (BitVec.ofNat 16 i : U16).toNat = i := by simp only [BitVec.toNat_ofNat]; omega
      have h2 : (2 : U16).toNat = 2 := rfl
      have hnr : (ack + 2 + BitVec.ofNat 16 i : U16).toNat = ack.toNat + 2 + i := by
        simp only [BitVec.toNat_add, hi, h2]; omega
      simp only [hbit', Bool.false_eq_true, if_false]
      rw [bind_def, hi, decide_eq_false (by omega), overflowIf_false, andThen_ret]
      by_cases hlt : ack + 2 + BitVec.ofNat 16 i < last
      · rw [if_pos hlt]
        have hlt' : ack.toNat + 2 + i < last.toNat := by rw [BitVec.lt_def, hnr] at hlt; exact hlt
        obtain ⟨w1, e1, r1⟩ := resendLost_room (E := E) hs (fuel := fuel) (rec := rec) hroom (nr := ack + 2 + BitVec.ofNat 16 i) (by
          unfold TooFar
          rw [hla, BitVec.toNat_sub, hnr]
          have := ack.isLt
          omega)
        rw [bind_def, andThen_eq e1]
        obtain ⟨loss', w', e2, hl, r2⟩ := ih true (w := w1) (by rw [r1.s]; exact hla) (by rw [r1.s]; exact hroom) hp.2 hb'
        refine ⟨loss', w', e2, by rw [hl, List.any_cons, hbit', decide_eq_true hlt']; simp, ?_⟩
        rw [r1.s] at r2
        have := r1.trans r2
        have hfe : (w.s.sendWindow.find? fun p => p.seqNr == ack + 2 + BitVec.ofNat 16 i) =
            w.s.sendWindow.find? fun p => p.seqNr.toNat == ack.toNat + 2 + i := by
          congr 1
          funext p
          rw [← hnr, Bool.eq_iff_iff]
          simp only [beq_iff_eq]
          exact BitVec.toNat_inj.symm
        rw [hfe] at this
        simp only [List.filter_cons, hbit', hlt', decide_true, Bool.not_false, Bool.and_true, if_true, List.filterMap_cons]
        cases hh : w.s.sendWindow.find? fun p => p.seqNr.toNat == ack.toNat + 2 + i with
        | none => simpa [hh] using this
        | some p => simpa [hh] using this
      · rw [if_neg hlt]
        have hlt' : ¬ ack.toNat + 2 + i < last.toNat := by rw [BitVec.lt_def, hnr] at hlt; exact hlt
        have : ((i :: L).filter fun i => !bitAt data i && decide (ack.toNat + 2 + i < last.toNat)) = [] := by
          rw [List.filter_eq_nil_iff]
          intro j hj
          rw [List.mem_cons] at hj
          have : ¬ ack.toNat + 2 + j < last.toNat := by
            rcases hj with rfl | hj
            · exact hlt'
            · have := hp.1 j hj; omega
          simp [this]
        have hany : ((i :: L).any fun i => !bitAt data i && decide (ack.toNat + 2 + i < last.toNat)) = false := by
          rw [List.any_eq_false]
          exact List.filter_eq_nil_iff.mp this
        refine ⟨loss, w, rfl, by rw [hany, Bool.or_false], ?_⟩
        rw [this]
        exact .refl w

theorem flushIncoming_log (len : Nat) (w : World) : (flushIncoming E len w).2.log = w.log := by
  unfold flushIncoming
  msimp
  split
  · rfl
  · rcases hi : w.s.incoming with _ | ⟨p, rest⟩
    · rfl
    · simp only
      by_cases ho : (E.checks && decide (w.s.ackNr ≠ p.seqNr ∧ w.s.ackNr = 65535)) = true
      · rw [andThen_eq_panic (w' := w) (by rw [overflowIf_run, if_pos ho])]
      · rw [andThen_eq (w' := w) (a := ()) (by rw [overflowIf_run, if_neg ho])]
        split
        · cases p.payload <;> rfl
        · rfl

theorem andThen_log {α β : Type} {m : M α} {f : α → M β} (hf : ∀ a w, (f a w).2.log = w.log) (w : World) :
    (M.andThen m f w).2.log = (m w).2.log := by
  unfold M.andThen
  rcases m w with ⟨r, w'⟩
  cases r <;> simp [hf]

/-- What a State packet of an open connection makes `recv` do on the network is what `handle_state_packet` does. -/
theorem recv_state_log {w : World} {b : Bytes} {src : Addr} (hn : E.net w.nNet = .dgram b src) {fuel len : Nat}
    (hr : 0 < w.s.maxRetries.toNat) {pkt : Packet} (hp : Packet.tryFrom (b.take 1520) = some (.ok pkt))
    (ht : pkt.getType = some .state) (hst : w.s.state = .connected)
    (hid : pkt.connectionId = w.s.senderId ∨ pkt.connectionId = w.s.receiverId) :
    (recv E (fuel + 2) len w).2.log =
      (handleState E (fuel + 1) (recv E (fuel + 1) BUF_SIZE) pkt ((w.waited w.s.patience).heard E pkt)).2.log := by
  rw [recv_dgram hn hr hp]
  unfold recvPacket
  have hh : handlePacket E (fuel + 1) (recv E (fuel + 1) BUF_SIZE) pkt src (w.waited w.s.patience) =
      M.andThen (handleState E (fuel + 1) (recv E (fuel + 1) BUF_SIZE) pkt) (fun _ => ret none) ((w.waited w.s.patience).heard E pkt) := by
    rw [handlePacket_takes ht (by
      rcases hid with h | h
      · exact .inr (.inr (.inl h))
      · exact .inr (.inr (.inr h)))]
    simp only [World.waited, hst]
    rfl
  rw [bind_def]
  rcases hm : handleState E (fuel + 1) (recv E (fuel + 1) BUF_SIZE) pkt ((w.waited w.s.patience).heard E pkt) with ⟨r, w'⟩
  cases r with
  | ok u =>
    rw [andThen_eq hm, ret_run] at hh
    rw [andThen_eq hh, bind_def, ht]
    simp only [sendReply]
    msimp
    simp only [reduceCtorEq, false_and, if_false]
    rw [andThen_log (fun _ _ => rfl), flushIncoming_log]
    rfl
  | err e => rw [andThen_err hm] at hh; rw [andThen_err hh]
  | pending => rw [andThen_pending hm] at hh; rw [andThen_pending hh]
  | panic => rw [andThen_eq_panic hm] at hh; rw [andThen_eq_panic hh]

theorem processExtensions_other {fuel : Nat} {rec : M (Bytes × Addr)} {ack : U16} : ∀ (exts : List Extension) (loss : Bool) (w : World),
    (∀ e ∈ exts, e.ty ≠ .selectiveAck) → processExtensions E fuel rec ack exts loss w = (.ok loss, w)
  | [], _, _, _ => rfl
  | e :: exts, loss, w, h => by
    unfold processExtensions
    rw [if_neg (h e (by simp))]
    exact processExtensions_other exts loss w fun x hx => h x (by simp [hx])

theorem handleState_tail (loss : Bool) (w : World) : ((do
    modS fun s => if loss then s.halveWindow else s
    let s ← getS
    let s' ← orPanic (s.advanceSendWindow E)
    modS fun _ => s' : M Unit) w).2.log = w.log := by
  msimp
  cases Socket.advanceSendWindow E (w.setS (if loss then w.s.halveWindow else w.s)).s with
  | none => rfl
  | some s' => rfl

/-- The third State packet in a row that acknowledges the number `ackNr`, while the next packet `p` is outstanding and there is
room in the window, and which carries no selective ack, makes the socket retransmit `p` at once, with the same content. -/
theorem C19_fast {w : World} {b : Bytes} {src : Addr} {pkt p : Packet} {exts : List Extension} {fuel len : Nat}
    (hn : E.net w.nNet = .dgram b src) (hr : 0 < w.s.maxRetries.toNat) (hp : Packet.tryFrom (b.take 1520) = some (.ok pkt))
    (ht : pkt.getType = some .state) (hst : w.s.state = .connected)
    (hid : pkt.connectionId = w.s.senderId ∨ pkt.connectionId = w.s.receiverId)
    (hack : w.s.lastAcked = pkt.ackNr) (hdup : w.s.dupAcks = 2) (hne : ∀ q ∈ w.s.sendWindow, q.seqNr ≠ pkt.ackNr)
    (hout : w.s.sendWindow.find? (fun q => q.seqNr == pkt.ackNr + 1) = some p)
    (hroom : w.s.currWindow.toNat < max 2800 (min w.s.cwnd.toNat pkt.wndSize.toNat))
    (hext : pkt.extensions = some exts) (hnos : ∀ e ∈ exts, e.ty ≠ .selectiveAck)
    (hw : E.checks = true → pkt.ackNr ≠ 65535) (hs : ∀ k, E.snd k ≠ .never) :
    ∃ t b' ok, (recv E (fuel + 2) len w).2.log = w.log ++ [.wait t, .send w.s.connectedTo b' ok] ∧ SameBut 4 12 p.bytes b' := by
  rw [recv_state_log hn hr hp ht hst hid]
  unfold handleState
  generalize hw1 : (w.waited w.s.patience).heard E pkt = w1
  have e1 : w1.s.lastAcked = pkt.ackNr := by rw [← hw1, ← hack]; simp [World.heard, World.waited, World.setS]
  have e2 : w1.s.dupAcks = 2 := by rw [← hw1, ← hdup]; simp [World.heard, World.waited, World.setS]
  have e3 : w1.s.sendWindow = w.s.sendWindow := by rw [← hw1]; simp [World.heard, World.waited, World.setS]
  have e4 : w1.s.currWindow = w.s.currWindow := by rw [← hw1]; simp [World.heard, World.waited, World.setS]
  have e5 : sendLimit w1.s = max 2800 (min w.s.cwnd.toNat pkt.wndSize.toNat) := by
    rw [← hw1]; simp [World.heard, World.waited, World.setS, sendLimit]
  have e6 : w1.log = w.log ++ [.wait w.s.patience] := by rw [← hw1]; simp [World.heard, World.waited, World.setS]
  have e7 : w1.s.connectedTo = w.s.connectedTo := by rw [← hw1]; simp [World.heard, World.waited, World.setS]
  clear hw1
  have hc : countAck E pkt w1 = (.ok (), w1.setS { w1.s with dupAcks := 3 }) := by
    unfold countAck
    msimp
    rw [if_pos e1.symm, e2, decide_eq_false (by decide), overflowIf_false, andThen_ret]
    simp only [modS, setS_s, e2]
    rfl
  rw [bind_def, andThen_eq hc]
  have hme : measureAck E pkt (w1.setS { w1.s with dupAcks := 3 }) = (.ok (), w1.setS { w1.s with dupAcks := 3 }) := by
    have : (w1.s.sendWindow.findIdx? fun q => pkt.ackNr == q.seqNr) = none := by
      rw [List.findIdx?_eq_none_iff, e3]
      intro q hq
      simpa using (hne q hq).symm
    simp [measureAck, bind_def, pure_def, M.andThen, getS, M.ret, World.setS, this]
  rw [bind_def, andThen_eq hme, bind_def, andThen_getS, bind_def, hext, andThen_some, bind_def,
    andThen_eq (processExtensions_other _ _ _ hnos), bind_def]
  have hwin : w1.s.sendWindow ≠ [] := by
    rw [e3]
    intro h
    rw [h] at hout
    simp at hout
  obtain ⟨w2, h2, hres⟩ := resendLost_room (E := E) hs (fuel := fuel) (rec := recv E (fuel + 1) BUF_SIZE)
    (w := w1.setS { w1.s with dupAcks := 3 }) (nr := pkt.ackNr + 1) (by
      have : sendLimit (w1.setS { w1.s with dupAcks := 3 }).s = sendLimit w1.s := rfl
      rw [this, e5]; simp only [setS_s, e4]; exact hroom) (by
      unfold TooFar
      simp only [setS_s, e1]
      have h1 : (1 : U16).toNat = 1 := rfl
      rw [BitVec.toNat_sub, BitVec.toNat_add, h1]
      have := pkt.ackNr.isLt
      omega)
  have hfr : fastRetransmit E (fuel + 1) (recv E (fuel + 1) BUF_SIZE) pkt exts (w1.setS { w1.s with dupAcks := 3 }) = (.ok (), w2) := by
    unfold fastRetransmit
    msimp
    rw [if_pos]
    · have ho : (E.checks && decide (pkt.ackNr = 65535)) = false := by
        cases hcx : E.checks with
        | false => rfl
        | true => simpa using hw hcx
      rw [andThen_eq (w' := w1.setS { w1.s with dupAcks := 3 }) (a := ()) (by rw [overflowIf_run, ho]; rfl)]
      exact h2
    · refine ⟨hwin, rfl, ?_⟩
      simpa using hnos
  rw [andThen_eq hfr, handleState_tail]
  obtain ⟨acts, hl, hre⟩ := hres.log
  simp only [setS_s, e3, hout, Option.toList_some] at hre
  cases hre with
  | @cons _ b' ok _ _ hsame hnil =>
    cases hnil
    exact ⟨w.s.patience, b', ok, by rw [hl]; simp [e6, e7], hsame⟩

/-- Four one-byte packets, two acknowledgements of the first one, then data, then the third acknowledgement. -/
def fastEnv : Env := env [arr (dg .state 6 2 100), arr (dg .state 6 2 100), arr (dg .data 6 2 100 [9]), arr (dg .state 6 2 100)]
def fastOps : List Op := [.sendTo [1], .sendTo [2], .sendTo [3], .sendTo [4], .recvFrom 9]

/-- A case of `C19_fast`: a reachable state with three packets outstanding; the packet numbered 101 is sent again. -/
example : ∃ (w : World) (p : Packet), Reach fastEnv w ∧ p.seqNr = 101 ∧ p.payload = some [2] ∧
    ∃ t b' ok, (recv fastEnv 5 9 w).2.log = w.log ++ [.wait t, .send w.s.connectedTo b' ok] ∧ SameBut 4 12 p.bytes b' := by
  have hw : Reach fastEnv (runs fastEnv 20 fastOps (server fastEnv)) := reach_server 20 fastOps (by decide +kernel) (by decide +kernel)
  have h1 : fastEnv.net (runs fastEnv 20 fastOps (server fastEnv)).nNet = .dgram (dg .state 6 2 100) peer := by decide +kernel
  have h2 : 0 < (runs fastEnv 20 fastOps (server fastEnv)).s.maxRetries.toNat := by decide +kernel
  have h3 : (runs fastEnv 20 fastOps (server fastEnv)).s.state = .connected := by decide +kernel
  have h4 : (6 : U16) = (runs fastEnv 20 fastOps (server fastEnv)).s.receiverId := by decide +kernel
  have h5 : (runs fastEnv 20 fastOps (server fastEnv)).s.lastAcked = 100 := by decide +kernel
  have h6 : (runs fastEnv 20 fastOps (server fastEnv)).s.dupAcks = 2 := by decide +kernel
  have h7 : ∀ q ∈ (runs fastEnv 20 fastOps (server fastEnv)).s.sendWindow, q.seqNr ≠ 100 := by decide +kernel
  have h8 : ∃ p, (runs fastEnv 20 fastOps (server fastEnv)).s.sendWindow.find? (fun q => q.seqNr == 100 + 1) = some p ∧
      p.seqNr = 101 ∧ p.payload = some [2] :=
    ⟨(runs fastEnv 20 fastOps (server fastEnv)).s.sendWindow.head?.getD Packet.new, by decide +kernel, by decide +kernel, by decide +kernel⟩
  have h9 : (runs fastEnv 20 fastOps (server fastEnv)).s.currWindow.toNat < 2800 := by decide +kernel
  generalize runs fastEnv 20 fastOps (server fastEnv) = w at *
  obtain ⟨p, hp, hs, hb⟩ := h8
  refine ⟨w, p, hw, hs, hb, ?_⟩
  have ha : (Packet.mk (dg .state 6 2 100)).ackNr = 100 := by decide
  exact C19_fast (fuel := 3) (len := 9) (b := dg .state 6 2 100) (src := peer) (pkt := ⟨dg .state 6 2 100⟩) (exts := [])
    h1 h2 (by rfl) (by decide) h3 (.inr h4) (by rw [ha, h5]) h6 (by rw [ha]; exact h7) (by rw [ha]; exact hp) (by omega)
    (by decide) (by decide) (by decide) (fun k h => by simp [fastEnv, env] at h)

/-- In a debug build the third acknowledgement of the number 65535 panics instead. -/
theorem C19_counterexample : ∃ E w, E.checks = true ∧ Reach E w ∧ E.net w.nNet = arr (dg .state 6 2 65535) ∧
    w.s.lastAcked = 65535 ∧ w.s.dupAcks = 2 ∧ w.s.sendWindow.map (·.seqNr) = [0] ∧ w.s.state = .connected ∧
    (recv E 20 9 w).1 = .panic := by
  let E := env (checks := true) (rand := [7, 65535])
    [arr (dg .state 6 2 65535), arr (dg .state 6 2 65535), arr (dg .data 6 2 100 [9]), arr (dg .state 6 2 65535)]
  let ops : List Op := [.sendTo [1], .sendTo [2], .recvFrom 9]
  exact ⟨E, runs E 20 ops (server E), rfl, reach_server 20 ops (by decide +kernel) (by decide +kernel), by decide +kernel,
    by decide +kernel, by decide +kernel, by decide +kernel, by decide +kernel, by decide +kernel⟩

/-- What counting and measuring an acknowledgement leaves alone in a release build. -/
theorem ack_counted (hc : E.checks = false) (pkt : Packet) (w : World) : ∃ w1 w2, countAck E pkt w = (.ok (), w1) ∧
    measureAck E pkt w1 = (.ok (), w2) ∧ w2.log = w.log ∧ w2.s.lastAcked = pkt.ackNr ∧ w2.s.sendWindow = w.s.sendWindow ∧
    w2.s.currWindow = w.s.currWindow ∧ w2.s.remoteWnd = w.s.remoteWnd ∧ w2.s.connectedTo = w.s.connectedTo ∧
    ((∀ q ∈ w.s.sendWindow, q.seqNr ≠ pkt.ackNr) → w2.s.cwnd = w.s.cwnd) := by
  have h1 : ∃ w1, countAck E pkt w = (.ok (), w1) ∧ w1.log = w.log ∧ w1.s.lastAcked = pkt.ackNr ∧
      w1.s.sendWindow = w.s.sendWindow ∧ w1.s.currWindow = w.s.currWindow ∧ w1.s.remoteWnd = w.s.remoteWnd ∧
      w1.s.connectedTo = w.s.connectedTo ∧ w1.s.cwnd = w.s.cwnd := by
    unfold countAck
    msimp
    split
    · next h =>
      rw [overflowIf_release hc, andThen_ret]
      exact ⟨_, rfl, rfl, h.symm, rfl, rfl, rfl, rfl, rfl⟩
    · exact ⟨_, rfl, rfl, rfl, rfl, rfl, rfl, rfl, rfl⟩
  obtain ⟨w1, e1, l1, a1, s1, c1, r1, t1, d1⟩ := h1
  refine ⟨w1, ?_⟩
  rcases hf : w1.s.sendWindow.findIdx? fun p => pkt.ackNr == p.seqNr with _ | i
  · refine ⟨w1, e1, ?_, l1, a1, s1, c1, r1, t1, fun _ => d1⟩
    simp [measureAck, bind_def, pure_def, M.andThen, getS, M.ret, hf]
  · obtain ⟨hi, hp, -⟩ := List.findIdx?_eq_some_iff_getElem.mp hf
    rcases hn : w1.s.onNewAck E i w1.s.sendWindow[i] (E.now w1.nNow) with _ | s'
    · exact absurd hn (onNewAck_release hc _ _ _ _)
    · refine ⟨({ w1 with nNow := w1.nNow + 1 } : World).setS s', e1, ?_, ?_, ?_, ?_, ?_, ?_, ?_, ?_⟩
      · simp [measureAck, bind_def, pure_def, M.andThen, getS, M.ret, hf, now, orPanic, hi, hn, modS, World.setS]
      · rw [setS_log]; exact l1
      · simp only [setS_s, onNewAck_lastAcked hn, a1]
      · simp only [setS_s, onNewAck_sendWindow hn, s1]
      · simp only [setS_s, onNewAck_currWindow hn, c1]
      · simp only [setS_s, onNewAck_remoteWnd hn, r1]
      · simp only [setS_s, onNewAck_connectedTo hn, t1]
      · intro hno
        rw [← s1] at hno
        exact absurd (beq_iff_eq.mp hp).symm (hno _ (List.getElem_mem hi))

theorem resendFirst_room (hc : E.checks = false) (hs : ∀ k, E.snd k ≠ .never) {fuel : Nat} {rec : M (Bytes × Addr)} {ack : U16}
    {data : Bytes} (loss : Bool) {w : World} (hla : w.s.lastAcked = ack) (hroom : w.s.currWindow.toNat < sendLimit w.s)
    (hnw : ack.toNat + 1 < 65536) : ∃ loss' w', resendFirst E (fuel + 1) rec ack data loss w = (.ok loss', w') ∧
      loss' = (loss || decide (3 ≤ ((List.range (8 * data.length)).filter (bitAt data)).length)) ∧
      Resent w (if 3 ≤ ((List.range (8 * data.length)).filter (bitAt data)).length
        then (w.s.sendWindow.find? fun p => p.seqNr.toNat == ack.toNat + 1).toList else []) w' := by
  unfold resendFirst
  rw [C05_count_ones]
  by_cases h3 : 3 ≤ ((List.range (8 * data.length)).filter (bitAt data)).length
  · rw [if_pos h3, if_pos h3, bind_def, overflowIf_release hc, andThen_ret, bind_def]
    have h1 : (1 : U16).toNat = 1 := rfl
    have hnr : (ack + 1 : U16).toNat = ack.toNat + 1 := by rw [BitVec.toNat_add, h1]; omega
    obtain ⟨w', e, r⟩ := resendLost_room (E := E) hs (fuel := fuel) (rec := rec) hroom (nr := ack + 1) (by
      unfold TooFar
      rw [hla, BitVec.toNat_sub, hnr]
      have := ack.isLt
      omega)
    rw [andThen_eq e]
    refine ⟨true, w', rfl, by rw [decide_eq_true h3, Bool.or_true], ?_⟩
    have hfe : (w.s.sendWindow.find? fun p => p.seqNr == ack + 1) = w.s.sendWindow.find? fun p => p.seqNr.toNat == ack.toNat + 1 := by
      congr 1
      funext p
      rw [← hnr, Bool.eq_iff_iff]
      simp only [beq_iff_eq]
      exact BitVec.toNat_inj.symm
    rw [← hfe]
    exact r
  · rw [if_neg h3, if_neg h3]
    exact ⟨loss, w, rfl, by rw [decide_eq_false h3, Bool.or_false], .refl w⟩

/-- A State packet with one selective ack makes the socket retransmit, in order and with the same content, the packets
`sackLost` describes: the first after the acknowledged one when three later ones arrived, and each one the bitmap reports
missing that is before the last outstanding one.  There has to be room in the window, and the numbers the bitmap covers must
not wrap around (see `C19_wrap_counterexample`). -/
theorem C19_sack_partial (hc : E.checks = false) {w : World} {b : Bytes} {src : Addr} {pkt last : Packet} {e : Extension} {fuel len : Nat}
    (hn : E.net w.nNet = .dgram b src) (hr : 0 < w.s.maxRetries.toNat) (hp : Packet.tryFrom (b.take 1520) = some (.ok pkt))
    (ht : pkt.getType = some .state) (hst : w.s.state = .connected)
    (hid : pkt.connectionId = w.s.senderId ∨ pkt.connectionId = w.s.receiverId)
    (hroom : w.s.currWindow.toNat < 2800 ∨ (∀ q ∈ w.s.sendWindow, q.seqNr ≠ pkt.ackNr) ∧
      w.s.currWindow.toNat < max 2800 (min w.s.cwnd.toNat pkt.wndSize.toNat))
    (hlast : w.s.sendWindow.getLast? = some last)
    (hext : pkt.extensions = some [e]) (hsel : e.ty = .selectiveAck) (hnw : pkt.ackNr.toNat + 2 + 8 * e.data.length ≤ 65536)
    (hs : ∀ k, E.snd k ≠ .never) :
    ∃ t acts, (recv E (fuel + 2) len w).2.log = w.log ++ .wait t :: acts ∧
      Retransmits w.s.connectedTo (sackLost w.s.sendWindow pkt.ackNr last.seqNr e.data) acts := by
  have hlen : e.data.length ≤ 255 := by
    obtain ⟨d, hd, -, -, l, hl, hm⟩ := C03_accepted hp
    rw [hext] at hl
    injection hl with hl
    subst hl
    have hmem : (e.ty.toU8, e.data) ∈ d.exts.map (fun e => (e.code, e.data)) := by rw [← hm]; simp
    obtain ⟨x, hx, hxe⟩ := List.mem_map.mp hmem
    have := (hd.extsOk x hx).2
    injection hxe with _ h2
    rw [← h2]; omega
  rw [recv_state_log hn hr hp ht hst hid]
  unfold handleState
  generalize hw1 : (w.waited w.s.patience).heard E pkt = w0
  have e3 : w0.s.sendWindow = w.s.sendWindow := by rw [← hw1]; simp [World.heard, World.waited, World.setS]
  have e4 : w0.s.currWindow = w.s.currWindow := by rw [← hw1]; simp [World.heard, World.waited, World.setS]
  have e5 : w0.s.remoteWnd = pkt.wndSize := by rw [← hw1]; simp [World.heard, World.waited, World.setS]
  have e8 : w0.s.cwnd = w.s.cwnd := by rw [← hw1]; simp [World.heard, World.waited, World.setS]
  have e6 : w0.log = w.log ++ [.wait w.s.patience] := by rw [← hw1]; simp [World.heard, World.waited, World.setS]
  have e7 : w0.s.connectedTo = w.s.connectedTo := by rw [← hw1]; simp [World.heard, World.waited, World.setS]
  clear hw1
  obtain ⟨w1, w2, ha, hb, l2, a2, s2, c2, r2, t2, d2⟩ := ack_counted hc pkt w0
  have hroom2 : w2.s.currWindow.toNat < sendLimit w2.s := by
    unfold sendLimit
    rw [c2, e4]
    rcases hroom with h | ⟨h1, h2⟩
    · omega
    · rw [d2 (by rw [e3]; exact h1), r2, e8, e5]; exact h2
  rw [bind_def, andThen_eq ha, bind_def, andThen_eq hb, bind_def, andThen_getS, bind_def, hext, andThen_some, bind_def]
  obtain ⟨loss1, w3, f1, -, g1⟩ := resendFirst_room (E := E) (fuel := fuel) (rec := recv E (fuel + 1) BUF_SIZE) (data := e.data)
    hc hs (decide (w2.s.sendWindow ≠ [] ∧ w2.s.dupAcks = 3)) a2 hroom2 (by omega)
  obtain ⟨loss2, w4, f2, -, g2⟩ := resendMissing_room (E := E) hs (fuel := fuel) (rec := recv E (fuel + 1) BUF_SIZE) (ack := pkt.ackNr)
    (last := last.seqNr) (data := e.data) (List.range (8 * e.data.length)) loss1 (w := w3) (by rw [g1.s]; exact a2)
    (by rw [g1.s]; exact hroom2) List.pairwise_lt_range (by
      intro i hi
      rw [List.mem_range] at hi
      omega)
  have hpe : processExtensions E (fuel + 1) (recv E (fuel + 1) BUF_SIZE) pkt.ackNr [e] (decide (w2.s.sendWindow ≠ [] ∧ w2.s.dupAcks = 3)) w2 =
      (.ok loss2, w4) := by
    unfold processExtensions
    rw [if_pos hsel, bind_def, andThen_eq f1, bind_def, andThen_getS]
    have hl3 : w3.s.sendWindow.getLast? = some last := by rw [g1.s, s2, e3, hlast]
    simp only [hl3]
    rw [bind_def, C05_items, andThen_some, bind_def]
    have hz : (List.range ((List.range (8 * e.data.length)).map (bitAt e.data)).length).zip ((List.range (8 * e.data.length)).map (bitAt e.data)) =
        (List.range (8 * e.data.length)).map fun i => (i, bitAt e.data i) := by
      rw [List.length_map, List.length_range]
      apply List.ext_getElem
      · simp
      · intro i h1 h2; simp
    rw [hz, andThen_eq f2]
    rfl
  rw [andThen_eq hpe, bind_def]
  have hfr : fastRetransmit E (fuel + 1) (recv E (fuel + 1) BUF_SIZE) pkt [e] w4 = (.ok (), w4) := by
    unfold fastRetransmit
    msimp
    rw [if_neg (by simp [hsel])]
  rw [andThen_eq hfr, handleState_tail]
  have g := g1.trans g2
  obtain ⟨acts, hl, hre⟩ := g.log
  refine ⟨w.s.patience, acts, by rw [hl, l2, e6]; simp, ?_⟩
  rw [g1.s, s2, e3, t2, e7] at hre
  exact hre

def sackEnv : Env := env [arr (sackDg 6 2 100 [0x16, 0, 0, 0])]
def sackOps : List Op := [.sendTo [1], .sendTo [2], .sendTo [3], .sendTo [4], .sendTo [5], .sendTo [6], .sendTo [7], .sendTo [8]]

/-- A case of `C19_sack_partial`: 100 to 107 are outstanding, 100 is acknowledged, 103, 104 and 106 are reported received; so
101, 102 and 105 are retransmitted. -/
example : ∃ (w : World) (ps : List Packet), Reach sackEnv w ∧ ps.map Packet.seqNr = [101, 102, 105] ∧
    ps.map Packet.payload = [some [2], some [3], some [6]] ∧
    ∃ t acts, (recv sackEnv 5 9 w).2.log = w.log ++ .wait t :: acts ∧ Retransmits peer ps acts := by
  have hw : Reach sackEnv (runs sackEnv 20 sackOps (server sackEnv)) := reach_server 20 sackOps (by decide +kernel) (by decide +kernel)
  have h1 : sackEnv.net (runs sackEnv 20 sackOps (server sackEnv)).nNet = .dgram (sackDg 6 2 100 [0x16, 0, 0, 0]) peer := by decide +kernel
  have h2 : 0 < (runs sackEnv 20 sackOps (server sackEnv)).s.maxRetries.toNat := by decide +kernel
  have h3 : (runs sackEnv 20 sackOps (server sackEnv)).s.state = .connected := by decide +kernel
  have h4 : (6 : U16) = (runs sackEnv 20 sackOps (server sackEnv)).s.receiverId := by decide +kernel
  have h5 : (runs sackEnv 20 sackOps (server sackEnv)).s.currWindow.toNat < 2800 := by decide +kernel
  have h6 : ∃ l, (runs sackEnv 20 sackOps (server sackEnv)).s.sendWindow.getLast? = some l ∧ l.seqNr = 107 :=
    ⟨(runs sackEnv 20 sackOps (server sackEnv)).s.sendWindow.getLast?.getD Packet.new, by decide +kernel, by decide +kernel⟩
  have h7 : (sackLost (runs sackEnv 20 sackOps (server sackEnv)).s.sendWindow 100 107 [0x16, 0, 0, 0]).map Packet.seqNr = [101, 102, 105] := by
    decide +kernel
  have h8 : (sackLost (runs sackEnv 20 sackOps (server sackEnv)).s.sendWindow 100 107 [0x16, 0, 0, 0]).map Packet.payload =
      [some [2], some [3], some [6]] := by
    decide +kernel
  have h9 : (runs sackEnv 20 sackOps (server sackEnv)).s.connectedTo = peer := by decide +kernel
  generalize runs sackEnv 20 sackOps (server sackEnv) = w at *
  obtain ⟨l, hl, hls⟩ := h6
  refine ⟨w, _, hw, h7, h8, ?_⟩
  have ha : (Packet.mk (sackDg 6 2 100 [0x16, 0, 0, 0])).ackNr = 100 := by decide +kernel
  have := C19_sack_partial (E := sackEnv) rfl (w := w) (fuel := 3) (len := 9) (b := sackDg 6 2 100 [0x16, 0, 0, 0]) (src := peer)
    (pkt := ⟨sackDg 6 2 100 [0x16, 0, 0, 0]⟩) (last := l) (e := ⟨.selectiveAck, [0x16, 0, 0, 0]⟩)
    h1 h2 (by rfl) (by decide +kernel) h3 (.inr h4) (.inl h5) hl (by decide +kernel) rfl (by decide +kernel)
    (fun k h => by simp [sackEnv, env] at h)
  rw [ha, hls, h9] at this
  exact this

/-- When the numbers wrap around, a packet reported missing is not retransmitted: 65534, 65535, 0, 1 are outstanding, 65533 is
acknowledged, the bitmap reports that 65535 is missing and 0 and 1 arrived, but nothing is sent. -/
theorem C19_wrap_counterexample : ∃ E w p, E.checks = false ∧ Reach E w ∧
    E.net w.nNet = arr (sackDg 6 2 65533 [0x06, 0, 0, 0]) ∧ w.s.state = .connected ∧ p ∈ w.s.sendWindow ∧ p.seqNr = 65535 ∧
    bitAt [0x06, 0, 0, 0] 0 = false ∧ (w.s.sendWindow.map (·.seqNr)).getLast? = some 1 ∧
    (∃ out, (recv E 20 9 w).1 = .ok out) ∧ sent (recv E 20 9 w).2 = sent w := by
  let E := env [arr (sackDg 6 2 65533 [0x06, 0, 0, 0])] (rand := [7, 65533])
  let ops : List Op := [.sendTo [1], .sendTo [2], .sendTo [3], .sendTo [4], .sendTo [5]]
  exact ⟨E, runs E 20 ops (server E), (runs E 20 ops (server E)).s.sendWindow[2]?.getD Packet.new, rfl,
    reach_server 20 ops (by decide +kernel) (by decide +kernel), by decide +kernel,
    by decide +kernel, by decide +kernel, by decide +kernel, by decide +kernel, by decide +kernel, ⟨([], peer), by decide +kernel⟩, by decide +kernel⟩

end Utp
