import Verif.Spec.SplitWrite
import Verif.Lemmas.Sending
import Verif.Lemmas.Queue
import Verif.Lemmas.LossyBase
import Verif.Lemmas.Fuel
import Verif.Props.Stream
/-!
# Sending without waiting does not depend on what is queued behind
-/

namespace Utp
open M

variable {E : Env}

theorem Waitless.split {w u v : World} (h : Waitless w v) (h1 : w.log <+: u.log) (h2 : u.log <+: v.log) : Waitless w u ∧ Waitless u v := by
  obtain ⟨l, hl, hn⟩ := h
  obtain ⟨a, ha⟩ := h1
  obtain ⟨b, hb⟩ := h2
  have e : l = a ++ b := by
    rw [← hb, ← ha, List.append_assoc] at hl
    exact (List.append_cancel_left hl).symm
  subst e
  exact ⟨⟨a, ha.symm, fun t ht => hn t (List.mem_append_left _ ht)⟩, ⟨b, hb.symm, fun t ht => hn t (List.mem_append_right _ ht)⟩⟩

/-- A receive that succeeds has waited. -/
theorem recv_waits {fuel len : Nat} {w v : World} {x : Bytes × Addr} (h : recv E fuel len w = (.ok x, v)) : ¬ Waitless w v := by
  intro hw
  cases fuel with
  | zero => cases h
  | succ fuel =>
    have hg : ∀ x : Bytes × Addr, Grows (match x with
        | (b, src) => do
          match ← orPanic (Packet.tryFrom b) with
          | .error _ => do
            let s ← getS
            return ([], s.connectedTo)
          | .ok pkt => recvPacket E fuel (recv E fuel BUF_SIZE) len pkt src : M (Bytes × Addr)) := by
      rintro ⟨b, src⟩
      refine .bind .orPanic fun r => ?_
      cases r with
      | error e => exact .bind .getS fun _ => .pure
      | ok p => exact grows_recvPacket (grows_recv _ _) _ _ _ _
    have e : recv E (fuel + 1) len w = M.andThen (recvWait E fuel 0) (fun x => match x with
        | (b, src) => do
          match ← orPanic (Packet.tryFrom b) with
          | .error _ => do
            let s ← getS
            return ([], s.connectedTo)
          | .ok pkt => recvPacket E fuel (recv E fuel BUF_SIZE) len pkt src) w := rfl
    rw [e] at h
    unfold M.andThen at h
    rcases hm : recvWait E fuel 0 w with ⟨r, u⟩
    rw [hm] at h
    cases r with
    | err e => cases h
    | panic => cases h
    | pending => cases h
    | ok y =>
      have h2 : u.log <+: v.log := Eq.mp (congrArg (fun z : Res (Bytes × Addr) × World => u.log <+: z.2.log) h) (hg y u)
      cases fuel with
      | zero => cases hm
      | succ fuel =>
        by_cases hr : 0 < w.s.maxRetries.toNat
        · have h1 := recvWait_waits (E := E) fuel hr
          rw [hm] at h1
          obtain ⟨a, ha⟩ := h1.trans h2
          obtain ⟨l, hl, hn⟩ := hw
          rw [← ha, List.append_assoc] at hl
          have := List.append_cancel_left hl
          exact hn _ (by rw [← this]; exact List.mem_cons_self ..)
        · rw [recvWait] at hm
          have h0 : w.s.maxRetries.toNat ≤ 0 := by omega
          simp only [bind_def, M.andThen, getS, if_pos h0, modS, M.throw] at hm
          cases hm

/-- The same world with more packets queued and another next number. -/
def World.behind (q : List Packet) (n : U16) (w : World) : World := { w with s := { w.s with unsent := w.s.unsent ++ q, seqNr := n } }

/-- A datagram that is sent. -/
theorem datagram_sent {a : Addr} {b : Bytes} {w : World} (e : E.snd w.nSnd = .ok) :
    udpSend E a b w = (.ok (), { w with nSnd := w.nSnd + 1, log := w.log ++ [.send a b true] }) := by
  simp only [udpSend, e]

/-- A packet sent without waiting. -/
theorem sendPacket_behind (q : List Packet) (n : U16) {fuel : Nat} {p p' : Packet} {w v : World}
    (h : sendPacket E fuel (recv E fuel BUF_SIZE) p w = (.ok p', v)) (hw : Waitless w v) :
    sendPacket E fuel (recv E fuel BUF_SIZE) p (w.behind q n) = (.ok p', v.behind q n) ∧ v.s = w.s := by
  rw [sendPacket_eq] at h ⊢
  cases fuel with
  | zero => cases h
  | succ fuel =>
    obtain ⟨go, u, hu, hu', hus, hul⟩ : ∃ go u, waitMore E (limitOf w.s) (E.now w.nNow) { w with nNow := w.nNow + 1 } = (.ok go, u) ∧
        waitMore E (limitOf (w.behind q n).s) (E.now (w.behind q n).nNow) { (w.behind q n) with nNow := (w.behind q n).nNow + 1 } = (.ok go, u.behind q n) ∧ u.s = w.s ∧ u.log = w.log := by
      by_cases hc : limitOf w.s ≤ w.s.currWindow
      · refine ⟨decide (tsSub (E.now (w.nNow + 1)) (E.now w.nNow) < PRE_SEND_TIMEOUT), { w with nNow := w.nNow + 1 + 1 }, ?_, ?_, rfl, rfl⟩
        · unfold waitMore
          simp only [bind_def, M.andThen, getS]
          rw [if_pos hc]
          rfl
        · unfold waitMore
          simp only [bind_def, M.andThen, getS]
          rw [if_pos (show limitOf (w.behind q n).s ≤ (w.behind q n).s.currWindow from hc)]
          rfl
      · refine ⟨false, { w with nNow := w.nNow + 1 }, ?_, ?_, rfl, rfl⟩
        · unfold waitMore
          simp only [bind_def, M.andThen, getS]
          rw [if_neg hc]
          rfl
        · unfold waitMore
          simp only [bind_def, M.andThen, getS]
          rw [if_neg (show ¬ limitOf (w.behind q n).s ≤ (w.behind q n).s.currWindow from hc)]
          rfl
    cases go with
    | true =>
      exfalso
      have hb : Grows (andThen (recv E (fuel + 1) BUF_SIZE) fun _ => ret ()) := .andThen (grows_recv _ _) fun _ => .ret
      have hc : Grows (waitMore E (limitOf w.s) (E.now w.nNow)) := .bind .getS fun s => .ite (.bind .now fun _ => .pure) .pure
      have hk : Grows (M.andThen (whileM fuel (waitMore E (limitOf w.s) (E.now w.nNow)) (andThen (recv E (fuel + 1) BUF_SIZE) fun _ => ret ()))
        (fun _ => M.andThen getS fun s => if s.lastAcked - p.seqNr < p.seqNr - s.lastAcked then ret p
          else M.andThen (now E) fun t => M.andThen
            (udpSend E s.connectedTo ((p.setTimestamp t).setTimestampDifference s.theirDelay).bytes)
            fun _ => ret ((p.setTimestamp t).setTimestampDifference s.theirDelay))) :=
        .andThen (.whileM hc hb fuel) fun _ => .andThen .getS fun s => .ite .ret (.andThen .now fun _ => .andThen .udpSend fun _ => .ret)
      rw [whileM, M.andThen, andThen_eq hu, if_pos rfl] at h
      rcases hm : recv E (fuel + 1) BUF_SIZE u with ⟨r, v1⟩
      have hr : ∀ a, r = .ok a → False := by
        rintro a rfl
        have hb' : (andThen (recv E (fuel + 1) BUF_SIZE) fun _ => ret ()) u = (.ok (), v1) := andThen_eq hm
        rw [andThen_eq hb'] at h
        have h1 : u.log <+: v1.log := by
          have := grows_recv (E := E) (fuel + 1) BUF_SIZE u
          rw [hm] at this
          exact this
        have h2 : v1.log <+: v.log := Eq.mp (congrArg (fun z : Res Packet × World => v1.log <+: z.2.log) h) (hk v1)
        obtain ⟨l, hl, hn⟩ := hw
        exact recv_waits hm (Waitless.split (w := u) (v := v) ⟨l, by rw [hul]; exact hl, hn⟩ h1 h2).1
      cases r with
      | ok a => exact hr a rfl
      | err e =>
        have hb' : (andThen (recv E (fuel + 1) BUF_SIZE) fun _ => ret ()) u = (.err e, v1) := by unfold M.andThen; rw [hm]
        simp only [M.andThen, hm] at h
        cases h
      | panic => simp only [M.andThen, hm] at h; cases h
      | pending => simp only [M.andThen, hm] at h; cases h
    | false =>
      rw [whileM, M.andThen, andThen_eq hu, if_neg (by decide)] at h
      rw [whileM, M.andThen, andThen_eq hu', if_neg (by decide)]
      simp only [M.ret, M.andThen, getS] at h ⊢
      by_cases hf : u.s.lastAcked - p.seqNr < p.seqNr - u.s.lastAcked
      · rw [if_pos hf] at h
        rw [if_pos (show (u.behind q n).s.lastAcked - p.seqNr < p.seqNr - (u.behind q n).s.lastAcked from hf)]
        cases h
        exact ⟨rfl, hus⟩
      · rw [if_neg hf] at h
        rw [if_neg (show ¬ (u.behind q n).s.lastAcked - p.seqNr < p.seqNr - (u.behind q n).s.lastAcked from hf)]
        rw [andThen_eq (show now E u = (.ok (E.now u.nNow), { u with nNow := u.nNow + 1 }) from rfl)] at h
        rw [andThen_eq (show now E (u.behind q n) = (.ok (E.now u.nNow), World.behind q n { u with nNow := u.nNow + 1 }) from rfl)]
        cases e : E.snd u.nSnd with
        | ok =>
          rw [andThen_eq (datagram_sent (w := { u with nNow := u.nNow + 1 }) e)] at h
          rw [andThen_eq (datagram_sent (w := World.behind q n { u with nNow := u.nNow + 1 }) e)]
          cases h
          exact ⟨rfl, hus⟩
        | fail k =>
          simp only [M.andThen, udpSend, e] at h
          cases h
        | never =>
          simp only [M.andThen, udpSend, e] at h
          cases h

/-- One packet of the queue sent. -/
theorem sendQueue_next {fuel k : Nat} {w u : World} {p p' : Packet} {rest : List Packet} (e : w.s.unsent = p :: rest)
    (hm : sendPacket E fuel (recv E fuel BUF_SIZE) p { w with s := { w.s with unsent := rest } } = (.ok p', u))
    (ho : ¬ (E.checks && decide (u.s.currWindow.toNat + (BitVec.ofNat 32 p'.len : U32).toNat ≥ 2 ^ 32)) = true) :
    sendQueue E fuel (k + 1) w = sendQueue E fuel k { u with s := { u.s with currWindow := u.s.currWindow + BitVec.ofNat 32 p'.len, sendWindow := u.s.sendWindow ++ [p'] } } := by
  rw [sendQueue]
  simp only [bind_def, M.andThen, getS, e, modS, hm, overflowIf, if_neg ho, M.ret]

/-- Sending the queue without waiting: what is queued behind is sent afterwards. -/
theorem sendQueue_behind (q : List Packet) (n : U16) {fuel : Nat} : ∀ {k : Nat} {w v : World}, sendQueue E fuel k w = (.ok (), v) → Waitless w v →
    (∀ m, sendQueue E fuel (m + w.s.unsent.length) (w.behind q n) = sendQueue E fuel m (v.behind q n)) ∧ v.s.seqNr = w.s.seqNr ∧ v.s.ackNr = w.s.ackNr ∧
      v.s.senderId = w.s.senderId ∧ v.s.state = w.s.state
  | 0, _, _, h, _ => by cases h
  | k + 1, w, v, h, hw => by
    cases e : w.s.unsent with
    | nil =>
      simp only [sendQueue, bind_def, M.andThen, getS, e] at h
      cases h
      exact ⟨fun m => rfl, rfl, rfl, rfl, rfl⟩
    | cons p rest =>
      rw [sendQueue] at h
      simp only [bind_def, M.andThen, getS, e, modS] at h
      rcases hm : sendPacket E fuel (recv E fuel BUF_SIZE) p { w with s := { w.s with unsent := rest } } with ⟨r, u⟩
      rw [hm] at h
      cases r with
      | err x => cases h
      | panic => cases h
      | pending => cases h
      | ok p' =>
        simp only at h
        have h1 : w.log <+: u.log := by
          have := grows_sendPacket (E := E) (grows_recv (E := E) fuel BUF_SIZE) fuel p { w with s := { w.s with unsent := rest } }
          rw [hm] at this
          exact this
        by_cases ho : (E.checks && decide (u.s.currWindow.toNat + (BitVec.ofNat 32 p'.len : U32).toNat ≥ 2 ^ 32)) = true
        · simp only [overflowIf, ho] at h
          cases h
        · simp only [overflowIf, if_neg ho, M.ret] at h
          have h2 : u.log <+: v.log := by
            have := grows_sendQueue (E := E) fuel k { u with s := { u.s with currWindow := u.s.currWindow + BitVec.ofNat 32 p'.len, sendWindow := u.s.sendWindow ++ [p'] } }
            rw [h] at this
            exact this
          obtain ⟨w1, w2⟩ := hw.split h1 h2
          obtain ⟨a1, a2⟩ := sendPacket_behind q n hm w1
          obtain ⟨b1, b2, b3, b4, b5⟩ := sendQueue_behind q n h w2
          have hu : u.s.unsent = rest := by rw [a2]
          simp only [a2] at b2 b3 b4 b5
          refine ⟨fun m => ?_, b2, b3, b4, b5⟩
          rw [List.length_cons, ← Nat.add_assoc, sendQueue_next (w := w.behind q n) (rest := rest ++ q) (by simp only [World.behind, e, List.cons_append]) a1 ho, ← b1 m]
          show sendQueue E fuel (m + rest.length) _ = sendQueue E fuel (m + u.s.unsent.length) _
          rw [show rest.length = u.s.unsent.length by rw [hu]]
          rfl

/-- Cutting does not depend on the fuel. -/
theorem chunks_fuel : ∀ (n m : Nat) (b : Bytes), b.length ≤ n → b.length ≤ m → chunks n b = chunks m b
  | 0, m, b, h, _ => by
    have : b = [] := List.length_eq_zero_iff.mp (by omega)
    subst this
    cases m <;> rfl
  | n + 1, 0, b, _, h => by
    have : b = [] := List.length_eq_zero_iff.mp (by omega)
    subst this
    rfl
  | n + 1, m + 1, b, h, h' => by
    simp only [chunks]
    by_cases hb : b = []
    · rw [if_pos hb, if_pos hb]
    · have hl := List.length_pos_iff.mpr hb
      have hd : (b.drop CHUNK).length = b.length - 1380 := List.length_drop ..
      rw [if_neg hb, if_neg hb, chunks_fuel n m (b.drop CHUNK) (by omega) (by omega)]

/-- Cutting two buffers in turn, if the first is cut without a remainder. -/
theorem chunks_append : ∀ (k : Nat) (a b : Bytes), a.length = k * 1380 →
    chunks (a ++ b).length (a ++ b) = chunks a.length a ++ chunks b.length b
  | 0, a, b, h => by
    have : a = [] := List.length_eq_zero_iff.mp (by omega)
    subst this
    rfl
  | k + 1, a, b, h => by
    have hd : (a.drop CHUNK).length = k * 1380 := by
      rw [List.length_drop]
      show a.length - 1380 = _
      omega
    have ih := chunks_append k (a.drop CHUNK) b hd
    obtain ⟨x, hx⟩ : ∃ x, a.length = x + 1 := ⟨a.length - 1, by omega⟩
    have hne : a ≠ [] := List.length_pos_iff.mp (by omega)
    have hle : CHUNK ≤ a.length := by show 1380 ≤ _; omega
    have hb : (a ++ b).length = x + b.length + 1 := by rw [List.length_append]; omega
    rw [hb, hx, chunks, chunks, if_neg hne, if_neg (by simp [hne]), List.take_append_of_le_length hle, List.drop_append_of_le_length hle,
      chunks_fuel (x + b.length) _ _ (by rw [List.length_append]; omega) (Nat.le_refl _), ih,
      chunks_fuel x (a.drop CHUNK).length (a.drop CHUNK) (by omega) (Nat.le_refl _)]
    rfl

end Utp
