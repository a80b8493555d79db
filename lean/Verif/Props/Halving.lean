import Verif.Spec.Halving
import Verif.Props.Ack
/-!
# C102: one loss halves the congestion window once
-/

namespace Utp
open M Packet Sample Spec

variable {E : Env}

theorem sack_counted (hc : E.checks = false) {pkt : Packet} {w : World} (hne : ∀ q ∈ w.s.sendWindow, q.seqNr ≠ pkt.ackNr) :
    ∃ w2 t d, countAck E pkt w = (.ok (), w2) ∧ measureAck E pkt w2 = (.ok (), w2) ∧ w2.log = w.log ∧ w2.nNet = w.nNet ∧
      w2.s = { w.s with lastAcked := pkt.ackNr, lastAckedTs := t, dupAcks := d } ∧
      d = if w.s.lastAcked = pkt.ackNr then w.s.dupAcks + 1 else 1 := by
  have hm : ∀ w2 : World, w2.s.sendWindow = w.s.sendWindow → measureAck E pkt w2 = (.ok (), w2) := by
    intro w2 h2
    have : (w2.s.sendWindow.findIdx? fun q => pkt.ackNr == q.seqNr) = none := by
      rw [List.findIdx?_eq_none_iff, h2]
      intro q hq
      simpa using (hne q hq).symm
    simp [measureAck, bind_def, pure_def, M.andThen, getS, M.ret, this]
  by_cases hack : w.s.lastAcked = pkt.ackNr
  · refine ⟨w.setS { w.s with dupAcks := w.s.dupAcks + 1 }, w.s.lastAckedTs, w.s.dupAcks + 1, (dup_counted hc hack hne).1, hm _ rfl, rfl, rfl, ?_, by rw [if_pos hack]⟩
    rw [setS_s, ← hack]
  · refine ⟨{ w with nNow := w.nNow + 1, s := { w.s with lastAcked := pkt.ackNr, lastAckedTs := E.now w.nNow, dupAcks := 1 } }, E.now w.nNow, 1, ?_, hm _ rfl, rfl, rfl,
      rfl, by rw [if_neg hack]⟩
    unfold countAck
    msimp
    rw [if_neg (fun h => hack h.symm)]
    rfl

/-- The packets a bitmap makes the socket send again change nothing but the history; the value returned says whether there was a sign of loss. -/
theorem processExtensions_sack (hc : E.checks = false) (hs : ∀ k, E.snd k ≠ .never) {fuel : Nat} {rec : M (Bytes × Addr)} {ack : U16} {e : Extension} {w : World}
    (hsel : e.ty = .selectiveAck) (hlen : e.data.length ≤ 255) (hla : w.s.lastAcked = ack) (hroom : w.s.currWindow.toNat < sendLimit w.s)
    (hnw : ack.toNat + 2 + 8 * e.data.length ≤ 65536) (loss : Bool) :
    ∃ l w', processExtensions E (fuel + 1) rec ack [e] loss w = (.ok l, w') ∧ w'.s = w.s ∧ w'.nNet = w.nNet ∧
      (l = true ↔ loss = true ∨ SaysLost w.s.sendWindow ack e.data) := by
  obtain ⟨loss1, w3, f1, hl1, g1⟩ := resendFirst_room (E := E) (fuel := fuel) (rec := rec) (data := e.data) hc hs loss hla hroom (by omega)
  unfold processExtensions
  rw [if_pos hsel, bind_def, andThen_eq f1, bind_def, andThen_getS]
  rcases hlast : w3.s.sendWindow.getLast? with _ | last
  · refine ⟨loss1, w3, rfl, g1.s, g1.nNet, ?_⟩
    rw [hl1, Bool.or_eq_true, decide_eq_true_iff]
    refine or_congr Iff.rfl ⟨.inl, ?_⟩
    rintro (h | ⟨last, h, -⟩)
    · exact h
    · rw [← g1.s, hlast] at h; cases h
  · simp only
    obtain ⟨loss2, w4, f2, hl2, g2⟩ := resendMissing_room (E := E) hs (fuel := fuel) (rec := rec) (ack := ack)
      (last := last.seqNr) (data := e.data) (List.range (8 * e.data.length)) loss1 (w := w3) (by rw [g1.s]; exact hla)
      (by rw [g1.s]; exact hroom) List.pairwise_lt_range (by
        intro i hi
        rw [List.mem_range] at hi
        omega)
    have hz : (List.range ((List.range (8 * e.data.length)).map (bitAt e.data)).length).zip ((List.range (8 * e.data.length)).map (bitAt e.data)) =
        (List.range (8 * e.data.length)).map fun i => (i, bitAt e.data i) := by
      rw [List.length_map, List.length_range]
      apply List.ext_getElem
      · simp
      · intro i h1 h2; simp
    rw [bind_def, C05_items, andThen_some, bind_def, hz, andThen_eq f2]
    refine ⟨loss2, w4, rfl, g2.s.trans g1.s, g2.nNet.trans g1.nNet, ?_⟩
    rw [hl2, hl1, Bool.or_eq_true, Bool.or_eq_true, decide_eq_true_iff, or_assoc]
    refine or_congr Iff.rfl (or_congr Iff.rfl ?_)
    rw [List.any_eq_true]
    constructor
    · rintro ⟨i, hi, h⟩
      rw [Bool.and_eq_true, Bool.not_eq_true', decide_eq_true_iff] at h
      exact ⟨last, by rw [← g1.s]; exact hlast, i, List.mem_range.mp hi, h.1, h.2⟩
    · rintro ⟨l, hl, i, hi, h1, h2⟩
      rw [← g1.s, hlast] at hl
      cases hl
      exact ⟨i, List.mem_range.mpr hi, by rw [h1, decide_eq_true h2]; rfl⟩

theorem sack_release (hc : E.checks = false) {w : World} {b : Bytes} {src : Addr} {pkt : Packet} {e : Extension} {fuel len : Nat}
    (hn : E.net w.nNet = .dgram b src) (hr : 0 < w.s.maxRetries.toNat) (h : SackOnly w.s b pkt e) (hst : w.s.state = .connected)
    (hroom : w.s.currWindow.toNat < max 2800 (min w.s.cwnd.toNat pkt.wndSize.toNat)) (hs : ∀ k, E.snd k ≠ .never) :
    ∃ w', (recv E (fuel + 2) len w).2 = w' ∧ w'.nNet = w.nNet + 1 ∧
      ∃ t d td c pe inc ack ld, w'.s = { w.s with
        lastAcked := pkt.ackNr, lastAckedTs := t, dupAcks := d, cwnd := c, remoteWnd := pkt.wndSize, theirDelay := td
        pending := pe, incoming := inc, ackNr := ack, lastDropped := ld } ∧
      d = (if w.s.lastAcked = pkt.ackNr then w.s.dupAcks + 1 else 1) ∧
      ((w.s.sendWindow ≠ [] ∧ d = 3) ∨ SaysLost w.s.sendWindow pkt.ackNr e.data → c.toNat = max 2800 (w.s.cwnd.toNat / 2)) ∧
      (¬ ((w.s.sendWindow ≠ [] ∧ d = 3) ∨ SaysLost w.s.sendWindow pkt.ackNr e.data) → c = w.s.cwnd) := by
  obtain ⟨hp, ht, hid, hne, hext, hsel, hnw⟩ := h
  have hlen : e.data.length ≤ 255 := by
    obtain ⟨d, hd, -, -, l, hl, hm⟩ := C03_accepted hp
    rw [hext] at hl
    injection hl with hl
    subst hl
    have hmem : (e.ty.toU8, e.data) ∈ d.exts.map (fun e => (e.code, e.data)) := by rw [← hm]; simp
    obtain ⟨x, hx, hxe⟩ := List.mem_map.mp hmem
    have := (hd.extsOk x hx).2
    injection hxe with _ h2
    rw [← h2]; omega
  obtain ⟨ack, hs1⟩ := heard_s (E := E) w pkt
  have hn1 : ((w.waited w.s.patience).heard E pkt).nNet = w.nNet + 1 := by simp [World.heard, World.waited, World.setS]
  generalize hw1 : (w.waited w.s.patience).heard E pkt = w1 at hs1 hn1
  obtain ⟨w2, t, d, hcnt, hmeas, -, hn2, hs2, hd⟩ := sack_counted (E := E) hc (pkt := pkt) (w := w1) (by rw [hs1]; exact hne)
  rw [hs1] at hs2 hd
  simp only at hd
  obtain ⟨l, w3, hpe, hs3, hn3, hl⟩ := processExtensions_sack (E := E) hc hs (fuel := fuel) (rec := recv E (fuel + 1) BUF_SIZE) (ack := pkt.ackNr) (e := e) (w := w2)
    hsel hlen (by rw [hs2]) (by rw [hs2]; exact hroom) hnw (decide (w2.s.sendWindow ≠ [] ∧ w2.s.dupAcks = 3))
  obtain ⟨s4, hs4⟩ : ∃ s4, s4 = if l then w3.s.halveWindow else w3.s := ⟨_, rfl⟩
  have hs4' : s4 = { w2.s with cwnd := s4.cwnd } := by
    rw [hs4, hs3]
    cases l <;> rfl
  have hadv : s4.advanceSendWindow E = some s4 := by
    unfold Socket.advanceSendWindow
    have : (s4.sendWindow.findIdx? fun q => q.seqNr == s4.lastAcked) = none := by
      rw [List.findIdx?_eq_none_iff, hs4', hs2]
      intro q hq
      simpa using hne q hq
    rw [this]
  have hhs : handleState E (fuel + 1) (recv E (fuel + 1) BUF_SIZE) pkt w1 = (.ok (), w3.setS s4) := by
    unfold handleState
    rw [bind_def, andThen_eq hcnt, bind_def, andThen_eq hmeas, bind_def, andThen_getS, bind_def, hext, andThen_some, bind_def,
      andThen_eq hpe, bind_def]
    have hfr : fastRetransmit E (fuel + 1) (recv E (fuel + 1) BUF_SIZE) pkt [e] w3 = (.ok (), w3) := by
      unfold fastRetransmit
      msimp
      rw [if_neg (by simp [hsel])]
    rw [andThen_eq hfr]
    msimp
    simp only [setS_s, ← hs4, hadv]
    rfl
  rw [← hw1] at hhs
  obtain ⟨pe, inc, ack', ld, hrec⟩ := recv_state (len := len) hn hr hp ht hst hid hhs
  refine ⟨_, rfl, ?_, t, d, absDiff (E.now w.nNow) pkt.timestamp, s4.cwnd, pe, inc, ack', ld, ?_, hd, ?_, ?_⟩
  · rw [hrec]
    show w3.nNet = _
    rw [hn3, hn2, hn1]
  · rw [hrec, setS_s, setS_s, hs4', hs2]
  · intro h
    have : l = true := hl.mpr (by rw [hs2]; simpa using h)
    rw [hs4, this, hs3, hs2]
    simp only [if_true, Socket.halveWindow]
    rw [toNat_atLeast, BitVec.toNat_udiv]
    rfl
  · intro h
    have : l = false := by
      cases l with
      | false => rfl
      | true => exact absurd (by have := hl.mp rfl; rw [hs2] at this; simpa using this) h
    rw [hs4, this, hs3, hs2]
    rfl

/-- The complete effect of a State packet with a selective acknowledgement that acknowledges no outstanding packet: the congestion window is halved, but not below two
segments, exactly if the packet is the third of its kind or its bitmap tells of a loss. -/
theorem C102_effect {w : World} {b : Bytes} {src : Addr} {pkt : Packet} {e : Extension} {fuel len : Nat}
    (hn : E.net w.nNet = .dgram b src) (hr : 0 < w.s.maxRetries.toNat) (h : SackOnly w.s b pkt e) (hst : w.s.state = .connected)
    (hroom : w.s.currWindow.toNat < max 2800 (min w.s.cwnd.toNat pkt.wndSize.toNat)) (hs : ∀ k, E.snd k ≠ .never)
    (hnp : (recv E (fuel + 2) len w).1 ≠ .panic) :
    ∃ w', (recv E (fuel + 2) len w).2 = w' ∧ w'.nNet = w.nNet + 1 ∧
      ∃ t d td c pe inc ack ld, w'.s = { w.s with
        lastAcked := pkt.ackNr, lastAckedTs := t, dupAcks := d, cwnd := c, remoteWnd := pkt.wndSize, theirDelay := td
        pending := pe, incoming := inc, ackNr := ack, lastDropped := ld } ∧
      d = (if w.s.lastAcked = pkt.ackNr then w.s.dupAcks + 1 else 1) ∧
      ((w.s.sendWindow ≠ [] ∧ d = 3) ∨ SaysLost w.s.sendWindow pkt.ackNr e.data → c.toNat = max 2800 (w.s.cwnd.toNat / 2)) ∧
      (¬ ((w.s.sendWindow ≠ [] ∧ d = 3) ∨ SaysLost w.s.sendWindow pkt.ackNr e.data) → c = w.s.cwnd) := by
  have h' := sack_release (E := E.release) (fuel := fuel) (len := len) rfl hn hr h hst hroom hs
  rw [recv_release hnp] at h'
  exact h'

/-- **C102**, the part that holds: acknowledgements without a bitmap that repeat the same number halve the window at most once, for the third of them; all further
ones, up to the four thousand millionth, leave it alone.

Partial: with bitmaps every one halves it again, see `C102_times`. -/
theorem C102_partial {w : World} {b : Bytes} {src : Addr} {pkt : Packet} {exts : List Extension} {fuel len : Nat}
    (hn : E.net w.nNet = .dgram b src) (hr : 0 < w.s.maxRetries.toNat) (hp : Packet.tryFrom (b.take 1520) = some (.ok pkt))
    (ht : pkt.getType = some .state) (hst : w.s.state = .connected)
    (hid : pkt.connectionId = w.s.senderId ∨ pkt.connectionId = w.s.receiverId)
    (hack : w.s.lastAcked = pkt.ackNr) (hne : ∀ q ∈ w.s.sendWindow, q.seqNr ≠ pkt.ackNr) (hdup : 3 ≤ w.s.dupAcks.toNat ∧ w.s.dupAcks.toNat + 1 < 2 ^ 32)
    (hext : pkt.extensions = some exts) (hnos : ∀ e ∈ exts, e.ty ≠ .selectiveAck) (hnp : (recv E (fuel + 2) len w).1 ≠ .panic) :
    (recv E (fuel + 2) len w).2.s.cwnd = w.s.cwnd ∧ (recv E (fuel + 2) len w).2.s.dupAcks.toNat = w.s.dupAcks.toNat + 1 := by
  obtain ⟨w', e1, -, td, pe, inc, ack, ld, e2⟩ := C63_repeated hn hr hp ht hst hid hack hne (.inl (fun h => by
    rw [h] at hdup
    exact absurd hdup.1 (by decide))) hext hnos hnp
  rw [e1, e2]
  refine ⟨rfl, ?_⟩
  show (w.s.dupAcks + 1).toNat = _
  have h1 : (1 : U32).toNat = 1 := rfl
  rw [BitVec.toNat_add, h1]
  omega

/-- `n` receives in a row. -/
def receives (E : Env) (fuel len : Nat) : Nat → World → World
  | 0, w => w
  | n + 1, w => receives E fuel len n (recv E fuel len w).2

/-- **C102 is false**: of `n` selective acknowledgements that tell of the same loss each one halves the window. -/
theorem C102_times (hc : E.checks = false) {b : Bytes} {src : Addr} {pkt : Packet} {e : Extension} (hs : ∀ k, E.snd k ≠ .never) (fuel len : Nat) :
    ∀ (n : Nat) {w : World}, (∀ i, i < n + 1 → E.net (w.nNet + i) = .dgram b src) → 0 < w.s.maxRetries.toNat → SackOnly w.s b pkt e →
      w.s.state = .connected → w.s.currWindow.toNat < 2800 → SaysLost w.s.sendWindow pkt.ackNr e.data →
      (receives E (fuel + 2) len (n + 1) w).s.cwnd.toNat = max 2800 (w.s.cwnd.toNat / 2 ^ (n + 1)) ∧
      (receives E (fuel + 2) len (n + 1) w).s.sendWindow = w.s.sendWindow := by
  intro n
  induction n with
  | zero =>
    intro w hn hr h hst hcw hl
    obtain ⟨w', e1, -, t, d, td, c, pe, inc, ack, ld, e2, -, e3, -⟩ := sack_release (fuel := fuel) (len := len) hc (by simpa using hn 0 (by omega)) hr h hst (by omega) hs
    show (recv E (fuel + 2) len w).2.s.cwnd.toNat = _ ∧ (recv E (fuel + 2) len w).2.s.sendWindow = _
    rw [e1, e2]
    exact ⟨by simpa using e3 (.inr hl), rfl⟩
  | succ n ih =>
    intro w hn hr h hst hcw hl
    obtain ⟨w', e1, e0, t, d, td, c, pe, inc, ack, ld, e2, -, e3, -⟩ := sack_release (fuel := fuel) (len := len) hc (by simpa using hn 0 (by omega)) hr h hst (by omega) hs
    have hw : w'.s.sendWindow = w.s.sendWindow := by rw [e2]
    obtain ⟨g1, g2⟩ := ih (w := w') (fun i hi => by rw [e0, Nat.add_assoc, Nat.add_comm 1]; exact hn (i + 1) (by omega)) (by rw [e2]; exact hr)
      (by rw [e2]; exact ⟨h.1, h.2, h.3, h.4, h.5, h.6, h.7⟩) (by rw [e2]; exact hst) (by rw [e2]; exact hcw) (by rw [hw]; exact hl)
    show (receives E (fuel + 2) len (n + 1) (recv E (fuel + 2) len w).2).s.cwnd.toNat = _ ∧ (receives E (fuel + 2) len (n + 1) (recv E (fuel + 2) len w).2).s.sendWindow = _
    rw [e1, g1, g2, hw]
    refine ⟨?_, rfl⟩
    have hcw' : w'.s.cwnd.toNat = max 2800 (w.s.cwnd.toNat / 2) := by rw [e2]; exact e3 (.inr hl)
    have h2 : w.s.cwnd.toNat / 2 ^ (n + 1 + 1) = w.s.cwnd.toNat / 2 / 2 ^ (n + 1) := by
      rw [Nat.pow_succ' (n := n + 1), Nat.div_div_eq_div_mul]
    rw [hcw', h2]
    have h3 : 2800 / 2 ^ (n + 1) ≤ 2800 := Nat.div_le_self _ _
    rcases Nat.le_total 2800 (w.s.cwnd.toNat / 2) with hh | hh
    · rw [Nat.max_eq_right hh]
    · rw [Nat.max_eq_left hh]
      have := Nat.div_le_div_right (c := 2 ^ (n + 1)) hh
      omega

section

/-- The window grows to 7000 bytes (2, 3 and 4 full packets are acknowledged); then four packets are sent, the first is lost, and the receiver answers each of the other three. -/
def missesOne : Env :=
  { env ([arr (dg .state 6 2 101), arr (dg .state 6 2 104), arr (dg .state 6 2 108)] ++
      [arr (sackDg 6 2 108 [1, 0, 0, 0]), arr (sackDg 6 2 108 [3, 0, 0, 0]), arr (sackDg 6 2 108 [7, 0, 0, 0]), arr (dg .data 6 2 108 [9])]) with
    cwndStep := fun c _ b => BitVec.ofNat 32 (c.toNat + b.toNat * 1400 / c.toNat) }

def fullPackets (n : Nat) : Bytes := List.replicate (1380 * n) 0

def missesOneOps : List Op := [.sendTo (fullPackets 2), .flush, .sendTo (fullPackets 3), .flush, .sendTo (fullPackets 4), .flush, .sendTo [1], .sendTo [2], .sendTo [3], .sendTo [4]]

/-- **C102 is false**: one packet of four is lost and the window is halved twice, from 7000 bytes to its minimum (1750 would be less); the first time before three packets
have arrived behind the missing one, because those that are still on their way count as lost. -/
theorem C102_counterexample : ∃ w, Reach missesOne w ∧ w.s.cwnd = 7000 ∧ w.s.sendWindow.map (·.seqNr) = [109, 110, 111, 112] ∧
    (receives missesOne 30 9 1 w).s.cwnd = 3500 ∧ (receives missesOne 30 9 2 w).s.cwnd = 2800 ∧
    results missesOne 30 [.recvFrom 9] w = [.ok (.bytes [9] peer)] ∧ (runs missesOne 30 [.recvFrom 9] w).s.cwnd = 2800 :=
  ⟨runs missesOne 30 missesOneOps (server missesOne), reach_server 30 missesOneOps (by decide +kernel) (by decide +kernel), by decide +kernel, by decide +kernel,
    by decide +kernel, by decide +kernel, by decide +kernel, by decide +kernel⟩

/-- Three acknowledgements without a bitmap halve it once. -/
example : let E := { missesOne with net := fun k => if k < 3 then missesOne.net k else if k < 8 then arr (dg .state 6 2 108) else arr (dg .data 6 2 108 [9]) }
    let w := runs E 30 missesOneOps (server E)
    results E 30 [.recvFrom 9] w = [.ok (.bytes [9] peer)] ∧ (runs E 30 [.recvFrom 9] w).s.cwnd = 3500 ∧ (runs E 30 [.recvFrom 9] w).s.dupAcks = 6 := by
  decide +kernel

/-- The same selective acknowledgement comes again and again. -/
def sackAgain : Env := { missesOne with net := fun k => if k < 3 then missesOne.net k else arr (sackDg 6 2 108 [7, 0, 0, 0]) }

/-- `C102_times` applies: however many come. -/
example (n : Nat) : (receives sackAgain 30 9 (n + 1) (runs sackAgain 30 missesOneOps (server sackAgain))).s.cwnd.toNat = max 2800 (7000 / 2 ^ (n + 1)) := by
  have h0 : (runs sackAgain 30 missesOneOps (server sackAgain)).nNet = 3 := by decide +kernel
  have h1 : 0 < (runs sackAgain 30 missesOneOps (server sackAgain)).s.maxRetries.toNat := by decide +kernel
  have h2 : (runs sackAgain 30 missesOneOps (server sackAgain)).s.state = .connected := by decide +kernel
  have h3 : (6 : U16) = (runs sackAgain 30 missesOneOps (server sackAgain)).s.receiverId := by decide +kernel
  have h4 : ∀ q ∈ (runs sackAgain 30 missesOneOps (server sackAgain)).s.sendWindow, q.seqNr ≠ 108 := by decide +kernel
  have h5 : (runs sackAgain 30 missesOneOps (server sackAgain)).s.currWindow.toNat < 2800 := by decide +kernel
  have h6 : (runs sackAgain 30 missesOneOps (server sackAgain)).s.cwnd.toNat = 7000 := by decide +kernel
  have ha : (Packet.mk (sackDg 6 2 108 [7, 0, 0, 0])).ackNr = 108 := by decide +kernel
  have h7 : ∀ i, i < n + 1 → sackAgain.net ((runs sackAgain 30 missesOneOps (server sackAgain)).nNet + i) = .dgram (sackDg 6 2 108 [7, 0, 0, 0]) peer := by
    intro i _
    rw [h0]
    show (if 3 + i < 3 then missesOne.net (3 + i) else arr (sackDg 6 2 108 [7, 0, 0, 0])) = _
    rw [if_neg (by omega)]
    rfl
  generalize runs sackAgain 30 missesOneOps (server sackAgain) = w at *
  have := (C102_times (E := sackAgain) rfl (b := sackDg 6 2 108 [7, 0, 0, 0]) (src := peer) (pkt := ⟨sackDg 6 2 108 [7, 0, 0, 0]⟩)
    (e := ⟨.selectiveAck, [7, 0, 0, 0]⟩) (fun k h => by simp [sackAgain, missesOne, env] at h) 28 9 n (w := w) h7 h1
    ⟨by rfl, by decide +kernel, .inr h3, by rw [ha]; exact h4, by decide +kernel, rfl, by decide +kernel⟩ h2 h5 (.inl (by decide +kernel))).1
  rw [h6] at this
  exact this

end

end Utp
