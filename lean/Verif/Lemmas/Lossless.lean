import Verif.Spec.Lossless
import Verif.Spec.Progress
import Verif.Lemmas.Grows
import Verif.Lemmas.Progress
import Verif.Lemmas.Ops
import Verif.Lemmas.Queue
import Verif.Props.Order
/-!
# Two programs and a network that loses nothing
-/

namespace Utp
open M

variable {E : Env} {α β : Type}

/-! ### An acknowledgement of the oldest packet -/

theorem processExtensions_none (fuel : Nat) (rec : M (Bytes × Addr)) (ack : U16) (loss : Bool) (w : World) :
    ∀ exts : List Extension, (∀ e ∈ exts, e.ty ≠ .selectiveAck) → processExtensions E fuel rec ack exts loss w = (.ok loss, w)
  | [], _ => rfl
  | e :: rest, h => by
    unfold processExtensions
    rw [if_neg (h e (by simp))]
    exact processExtensions_none fuel rec ack loss w rest fun e he => h e (by simp [he])

theorem onNewAck_some {s : Socket} (i : Nat) (p : Packet) (t : U32) (h : s.currWindow.toNat + 1400 < 2 ^ 32) : ∃ s', s.onNewAck E i p t = some s' := by
  have h1 : ∃ s1 bd lr, s.updateBaseDelay (tsSub t p.timestamp) t = some s1 ∧ s1 = { s with baseDelays := bd, lastRollover := lr } := by
    unfold Socket.updateBaseDelay
    simp only
    split
    · exact ⟨_, _, _, rfl, rfl⟩
    · rename_i hc
      have hne : s.baseDelays ≠ [] := fun h0 => hc (.inl (by simp [h0]))
      rw [List.getLast?_eq_some_getLast hne]
      simp only
      split
      · exact ⟨_, _, s.lastRollover, rfl, rfl⟩
      · exact ⟨_, s.baseDelays, s.lastRollover, rfl, rfl⟩
  obtain ⟨s1, bd, lr, h1, rfl⟩ := h1
  unfold Socket.onNewAck
  simp only [h1]
  unfold Socket.updateCongestionWindow
  rw [if_neg (by
    rintro ⟨_, h2⟩
    simp only [Socket.updateCurrentDelay] at h2
    omega)]
  exact ⟨_, rfl⟩

/-- What `handle_state_packet` does with an acknowledgement of the oldest packet, which was not acknowledged before: only this packet leaves the window. -/
theorem handleState_first {w : World} {p pkt : Packet} {rest : List Packet} {exts : List Extension} (hw : w.s.sendWindow = p :: rest)
    (ha : pkt.ackNr = p.seqNr) (hl : pkt.ackNr ≠ w.s.lastAcked) (hx : pkt.extensions = some exts) (hxs : ∀ e ∈ exts, e.ty ≠ .selectiveAck)
    (hc1 : p.len ≤ w.s.currWindow.toNat) (hc2 : w.s.currWindow.toNat + 1400 < 2 ^ 32) :
    ∃ w', (∀ fuel rec, handleState E fuel rec pkt w = (.ok (), w')) ∧ w'.nNet = w.nNet ∧ w'.log = w.log ∧
      ∃ ts bd cd lr cw rt rv ct, w'.s = { w.s with
        lastAcked := pkt.ackNr, lastAckedTs := ts, dupAcks := 1, baseDelays := bd, currDelays := cd, lastRollover := lr, cwnd := cw, rtt := rt, rttVar := rv
        congTimeout := ct, sendWindow := rest, currWindow := w.s.currWindow - BitVec.ofNat 32 p.len } := by
  obtain ⟨w1, hw1⟩ : ∃ w1 : World, w1 = { w.setS { w.s with lastAcked := pkt.ackNr, lastAckedTs := E.now w.nNow, dupAcks := 1 } with nNow := w.nNow + 1 } := ⟨_, rfl⟩
  have e1 : countAck E pkt w = (.ok (), w1) := by
    unfold countAck
    msimp
    rw [if_neg hl, hw1]
    rfl
  have hw1s : w1.s.sendWindow = p :: rest := by rw [hw1]; exact hw
  obtain ⟨s2, hs2⟩ := onNewAck_some (E := E) (s := w1.s) 0 p (E.now w1.nNow) (by rw [hw1]; exact hc2)
  have e2 : measureAck E pkt w1 = (.ok (), { w1.setS s2 with nNow := w1.nNow + 1 }) := by
    unfold measureAck
    msimp
    simp only [hw1s, List.findIdx?_cons, ha, beq_self_eq_true, if_true]
    simp only [M.andThen, M.now, M.orPanic, M.ret, M.modS, List.getElem?_cons_zero, hs2]
    rfl
  obtain ⟨bd, cd, lr, cw, rt, rv, ct, hsh⟩ := onNewAck_shape hs2
  have e2w : s2.sendWindow = p :: rest := by rw [hsh]; exact hw1s
  have e2d : s2.dupAcks = 1 := by rw [hsh, hw1]; rfl
  have e2l : s2.lastAcked = p.seqNr := by rw [hsh, hw1]; exact ha
  have e2c : s2.currWindow = w.s.currWindow := by rw [hsh, hw1]; rfl
  have e3 : s2.advanceSendWindow E = some { s2 with sendWindow := rest, currWindow := w.s.currWindow - BitVec.ofNat 32 p.len } := by
    unfold Socket.advanceSendWindow
    simp only [e2w, List.findIdx?_cons, e2l, beq_self_eq_true, if_true]
    simp only [List.take_succ_cons, List.take_zero, Socket.subLens, e2c]
    rw [if_neg]
    · simp
    · rintro ⟨_, h⟩
      rw [BitVec.lt_def, BitVec.toNat_ofNat] at h
      have := Nat.mod_le p.len (2 ^ 32)
      omega
  refine ⟨{ w1.setS { s2 with sendWindow := rest, currWindow := w.s.currWindow - BitVec.ofNat 32 p.len } with nNow := w1.nNow + 1 }, ?_, ?_, ?_, ?_⟩
  · intro fuel rec
    unfold handleState
    rw [bind_def, andThen_eq e1, bind_def, andThen_eq e2]
    msimp
    simp only [hx]
    msimp
    have hd : ¬ (s2.sendWindow ≠ [] ∧ s2.dupAcks = 3) := by rw [e2d]; simp
    simp only [World.setS]
    rw [andThen_eq (processExtensions_none fuel rec pkt.ackNr _ _ exts hxs)]
    have hf : ∀ v : World, v.s = s2 → fastRetransmit E fuel rec pkt exts v = (.ok (), v) := by
      intro v hv
      unfold fastRetransmit
      msimp
      rw [if_neg (by rw [hv, e2d]; simp)]
    rw [andThen_eq (hf _ rfl)]
    msimp
    simp only [World.setS, hd, decide_false, Bool.false_eq_true, if_false, e3]
    rfl
  · rw [hw1]; rfl
  · rw [hw1]; rfl
  · refine ⟨E.now w.nNow, bd, cd, lr, cw, rt, rv, ct, ?_⟩
    simp only [World.setS, hsh, hw1]

/-! ### Computations that succeed, or get beyond some point -/

/-- With enough fuel, the computation returns a value of which `Q` holds, always the same, or it gets into a world of which `B` holds. -/
def Prog (B : World → Prop) (m : Nat → M α) (w : World) (Q : α → World → Prop) : Prop :=
  (∃ a w', Q a w' ∧ ∃ F, ∀ n, F ≤ n → m n w = (.ok a, w')) ∨ ∃ F, ∀ n, F ≤ n → B (m n w).2

/-- Growing logs keep `B`. -/
def Lasting (B : World → Prop) : Prop := ∀ w w' : World, w.log <+: w'.log → B w → B w'

namespace Prog

variable {B : World → Prop}

theorem returns {m : Nat → M α} {w w' : World} {Q : α → World → Prop} {a : α} {F : Nat} (h : ∀ n, F ≤ n → m n w = (.ok a, w')) (hq : Q a w') : Prog B m w Q :=
  .inl ⟨a, w', hq, F, h⟩

theorem beyond (hB : Lasting B) {m : Nat → M α} (hg : ∀ n, Grows (m n)) {w : World} (h : B w) (Q : α → World → Prop) : Prog B m w Q :=
  .inr ⟨0, fun n _ => hB _ _ (hg n w) h⟩

theorem mono {m : Nat → M α} {w : World} {Q Q' : α → World → Prop} (h : Prog B m w Q) (hq : ∀ a w', Q a w' → Q' a w') : Prog B m w Q' :=
  h.imp_left fun ⟨a, w', h1, h2⟩ => ⟨a, w', hq a w' h1, h2⟩

theorem congr {m m' : Nat → M α} {w w1 : World} {Q : α → World → Prop} (h : Prog B m w1 Q) (hm : ∀ n, m' n w = m n w1) : Prog B m' w Q := by
  rcases h with ⟨a, w', h1, F, h2⟩ | ⟨F, h⟩
  · exact .inl ⟨a, w', h1, F, fun n hn => (hm n).trans (h2 n hn)⟩
  · exact .inr ⟨F, fun n hn => by rw [hm]; exact h n hn⟩

theorem succ {m : Nat → M α} {w : World} {Q : α → World → Prop} (h : Prog B (fun n => m (n + 1)) w Q) : Prog B m w Q := by
  have hn : ∀ {F n}, F + 1 ≤ n → ∃ k, n = k + 1 ∧ F ≤ k := fun {F n} h => ⟨n - 1, by omega, by omega⟩
  rcases h with ⟨a, w', h1, F, h2⟩ | ⟨F, h⟩
  · refine .inl ⟨a, w', h1, F + 1, fun n h => ?_⟩
    obtain ⟨k, rfl, hk⟩ := hn h
    exact h2 k hk
  · refine .inr ⟨F + 1, fun n h' => ?_⟩
    obtain ⟨k, rfl, hk⟩ := hn h'
    exact h k hk

theorem shift {m : Nat → M α} {w : World} {Q : α → World → Prop} (h : Prog B m w Q) (k : Nat) : Prog B (fun n => m (n + k)) w Q :=
  h.imp (fun ⟨a, w', h1, F, h2⟩ => ⟨a, w', h1, F, fun n hn => h2 (n + k) (by omega)⟩) fun ⟨F, h⟩ => ⟨F, fun n hn => h (n + k) (by omega)⟩

theorem andThen (hB : Lasting B) {m : Nat → M α} {f : Nat → α → M β} {w : World} {Q : α → World → Prop} {Q' : β → World → Prop} (h : Prog B m w Q)
    (hg : ∀ n a, Grows (f n a)) (hf : ∀ a w', Q a w' → Prog B (fun n => f n a) w' Q') : Prog B (fun n => M.andThen (m n) (f n)) w Q' := by
  rcases h with ⟨a, w', hq, F, h2⟩ | ⟨F, h⟩
  · have key : ∀ n, F ≤ n → M.andThen (m n) (f n) w = f n a w' := fun n hn => andThen_eq (h2 n hn)
    rcases hf a w' hq with ⟨b, w'', g1, G, g2⟩ | ⟨G, g⟩
    · exact .inl ⟨b, w'', g1, F + G, fun n hn => (key n (by omega)).trans (g2 n (by omega))⟩
    · exact .inr ⟨F + G, fun n hn => by show B (M.andThen (m n) (f n) w).2; rw [key n (by omega)]; exact g n (by omega)⟩
  · refine .inr ⟨F, fun n hn => ?_⟩
    have h := h n hn
    show B (M.andThen (m n) (f n) w).2
    unfold M.andThen
    rcases hm : m n w with ⟨r, w'⟩
    rw [hm] at h
    cases r with
    | ok a => exact hB _ _ (hg n a w') h
    | err e => exact h
    | panic => exact h
    | pending => exact h

theorem ret {a : α} {w : World} {Q : α → World → Prop} (h : Q a w) : Prog B (fun _ => M.ret a) w Q := returns (F := 0) (fun _ _ => rfl) h

/-- A loop with an invariant `X`; its body starts with `Y` and gets nearer to a bound on the number of waits. -/
theorem whileM (hB : Lasting B) {c : M Bool} {b : Nat → M Unit} {N : Nat} {X Y : World → Prop} {Q : Unit → World → Prop} (hgc : Grows c) (hgb : ∀ n, Grows (b n))
    (hc : ∀ w, X w → ∃ go w', c w = (.ok go, w') ∧ w'.nNet = w.nNet ∧ if go then Y w' else Q () w')
    (hy : ∀ w, Y w → w.nNet ≤ N) (hb : ∀ w, Y w → Prog B b w fun _ w' => X w' ∧ w.nNet < w'.nNet) {w : World} (hx : X w) :
    Prog B (fun n => M.whileM n c (b n)) w Q := by
  have key : ∀ k i w, N + 1 - w.nNet ≤ k → X w → Prog B (fun n => M.whileM n c (b (n + i))) w Q := by
    intro k
    induction k with
    | zero =>
      intro i w hk hx
      obtain ⟨go, w1, h1, h2, h3⟩ := hc w hx
      refine .succ (.congr (m := fun n => if go then M.andThen (b (n + 1 + i)) fun _ => M.whileM n c (b (n + 1 + i)) else M.ret ()) (w1 := w1) ?_ fun n => andThen_eq h1)
      cases go with
      | false => exact .ret h3
      | true => have := hy w1 h3; omega
    | succ k ih =>
      intro i w hk hx
      obtain ⟨go, w1, h1, h2, h3⟩ := hc w hx
      refine .succ (.congr (m := fun n => if go then M.andThen (b (n + 1 + i)) fun _ => M.whileM n c (b (n + 1 + i)) else M.ret ()) (w1 := w1) ?_ fun n => andThen_eq h1)
      cases go with
      | false => exact .ret h3
      | true =>
        have := hy w1 h3
        refine .congr (m := fun n => M.andThen (b (n + (1 + i))) fun _ => M.whileM n c (b (n + (1 + i)))) (w1 := w1) ?_ fun n => by rw [Nat.add_assoc]; rfl
        exact .andThen hB ((hb w1 h3).shift (1 + i)) (fun n _ => .whileM hgc (hgb _) n) fun _ w2 h4 => ih (1 + i) w2 (by omega) h4.1
  exact key _ 0 w (Nat.le_refl _) hx

end Prog

/-! ### The sender -/

/-- A data packet of the connection with the id `sid` that carries the piece `c` with the number `k`. -/
structure Piece (k sid : U16) (c : Bytes) (p : Packet) : Prop where
  plain : Plain p .data
  seq : p.seqNr = k
  id : p.connectionId = sid
  payload : p.payload = some c
  len : p.bytes.length = 20 + c.length
  pos : 0 < c.length
  bound : c.length ≤ 1380

theorem Piece.stamped {k sid : U16} {c : Bytes} {p : Packet} (h : Piece k sid c p) (t : U32) (d : Int) : Piece k sid c ((p.setTimestamp t).setTimestampDifference d) :=
  ⟨(h.plain.setTimestamp t).setTimestampDifference d, by simp [h.seq], by simp [h.id], by simp [h.payload], by simp [h.len], h.pos, h.bound⟩

/-- A State packet without extensions, of the connection with the id `id` and with the number `q`, that acknowledges the number `k`. -/
structure AckPkt (q k id : U16) (r : Packet) : Prop where
  plain : Plain r .state
  len : r.bytes.length = 20
  ack : r.ackNr = k
  id : r.connectionId = id
  seq : r.seqNr = q

/-- The socket `s` takes the packet number `k` next. -/
def Takes (s : Socket) (k : U16) : Prop := s.ackNr + 1 = k ∧ s.lastDropped + 1 = k ∨ s.ackNr = k ∧ s.lastDropped ≠ k

theorem Plain.extensions {p : Packet} {t : PacketType} (h : Plain p t) : p.extensions = some [] := by
  have h' := h.datagram
  obtain ⟨l, h1, h2⟩ := C03_extensions h'.1
  rw [← h'.2] at h1
  have : l = [] := by simpa using h2
  rw [this] at h1
  exact h1

theorem datagramsOf_append (l l' : List Act) : datagramsOf (l ++ l') = datagramsOf l ++ datagramsOf l' := by simp [datagramsOf]

/-- The socket that was in the world `a0` is sending the pieces `cs`: it has sent the packets `ps`, and `j` of them were acknowledged. -/
structure SenderAt (a0 : World) (q0 : U16) (cs : List Bytes) (j : Nat) (ps : List Packet) (w : World) : Prop where
  state : w.s.state = .connected
  tries : w.s.maxRetries = a0.s.maxRetries
  sid : w.s.senderId = a0.s.senderId
  rid : w.s.receiverId = a0.s.receiverId
  net : w.nNet = a0.nNet + j
  log : ∃ l, w.log = a0.log ++ l ∧ datagramsOf l = ps.map Packet.bytes
  pieces : ∀ i p, ps[i]? = some p → ∃ c, cs[i]? = some c ∧ Piece (a0.s.seqNr + BitVec.ofNat 16 i) a0.s.senderId c p
  le : j ≤ ps.length
  window : w.s.sendWindow = ps.drop j
  size : w.s.currWindow = BitVec.ofNat 32 (totalSize (ps.drop j))
  room : ps.length ≤ j + 32768
  acked : if j = 0 then w.s.lastAcked = a0.s.lastAcked else w.s.lastAcked + 1 = a0.s.seqNr + BitVec.ofNat 16 j
  quiet : w.s.incoming = [] ∧ w.s.pending = []
  takes : Takes a0.s q0 → Takes w.s q0

theorem totalSize_le {l : List Packet} (h : ∀ p ∈ l, p.bytes.length ≤ 1400) : totalSize l ≤ 1400 * l.length := by
  induction l with
  | nil => simp [totalSize]
  | cons p l ih =>
    have h1 := ih fun q hq => h q (by simp [hq])
    have h2 := h p (by simp)
    simp only [totalSize, List.map_cons, List.sum_cons, List.length_cons] at h1 ⊢
    omega

theorem SenderAt.small {a0 w : World} {q0 : U16} {cs : List Bytes} {j : Nat} {ps : List Packet} (h : SenderAt a0 q0 cs j ps w) : totalSize (ps.drop j) ≤ 1400 * 32768 := by
  have h1 : ∀ p ∈ ps.drop j, p.bytes.length ≤ 1400 := by
    intro p hp
    obtain ⟨i, hi⟩ := List.mem_iff_getElem?.mp (List.mem_of_mem_drop hp)
    obtain ⟨c, _, hc⟩ := h.pieces i p hi
    have := hc.bound
    rw [hc.len]; omega
  have h2 := totalSize_le h1
  have h3 := h.room
  simp only [List.length_drop] at h2
  omega

theorem SenderAt.windowSize {a0 w : World} {q0 : U16} {cs : List Bytes} {j : Nat} {ps : List Packet} (h : SenderAt a0 q0 cs j ps w) :
    w.s.currWindow.toNat = totalSize (ps.drop j) := by
  rw [h.size, BitVec.toNat_ofNat]
  have := h.small
  omega

/-- A State packet of the connection with the id `id` and with the number `q` arrives, which acknowledges the number `k`. -/
def Acks (id q k : U16) (ev : NetEvent) : Prop := ∃ r src, ev = .dgram r.bytes src ∧ AckPkt q k id r

/-- `recv` of the acknowledgement of the oldest outstanding packet. -/
theorem recv_ack {a0 w : World} {q0 : U16} {cs : List Bytes} {j : Nat} {ps : List Packet} (h : SenderAt a0 q0 cs j ps w) (hj : j < ps.length) (ht0 : a0.s.maxRetries ≠ 0) (hla : a0.s.lastAcked ≠ a0.s.seqNr)
    (ha : Acks a0.s.receiverId q0 (a0.s.seqNr + BitVec.ofNat 16 j) (E.net (a0.nNet + j))) :
    ∃ x w', (∀ fuel len, recv E (fuel + 2) len w = (.ok x, w')) ∧ SenderAt a0 q0 cs (j + 1) ps w' ∧ w'.s.unsent = w.s.unsent ∧ w'.s.seqNr = w.s.seqNr ∧
      x.1 = [] ∧ ∃ t, w'.log = w.log ++ [.wait t] := by
  obtain ⟨pkt, src, hn, hpk⟩ := ha
  have hp : Packet.tryFrom (pkt.bytes.take 1520) = some (.ok pkt) := by
    rw [List.take_of_length_le (by rw [hpk.len]; omega)]
    exact hpk.plain.accepted
  have ht := hpk.plain.ty
  have hid : pkt.connectionId = w.s.senderId ∨ pkt.connectionId = w.s.receiverId := .inr (by rw [hpk.id, h.rid])
  have hack := hpk.ack
  rw [← h.net] at hn
  have htr : 0 < w.s.maxRetries.toNat := by
    rw [h.tries]
    have : a0.s.maxRetries.toNat ≠ 0 := fun e => ht0 (BitVec.eq_of_toNat_eq e)
    omega
  obtain ⟨v, hv⟩ : ∃ v, v = (w.waited w.s.patience).heard E pkt := ⟨_, rfl⟩
  have one : (1 : U16).toNat = 1 := rfl
  obtain ⟨an, rw', td, hvs, htk⟩ : ∃ an rw' td, v.s = { w.s with ackNr := an, remoteWnd := rw', theirDelay := td } ∧ (Takes a0.s q0 → Takes v.s q0) := by
    rw [hv]
    obtain ⟨a, ha⟩ := bumpAck_eq w.s pkt
    refine ⟨a, pkt.wndSize, absDiff (E.now w.nNow) pkt.timestamp, ?_, ?_⟩
    · simp only [World.heard, World.waited, World.setS, ha]
    · intro h0
      show Takes (w.s.bumpAck pkt) q0
      unfold Takes Socket.bumpAck
      rw [hpk.seq]
      rcases h.takes h0 with ⟨t1, t2⟩ | ⟨t1, t2⟩
      · rw [if_pos (by rw [← t1]; bv_omega)]
        refine .inr ⟨rfl, ?_⟩
        show w.s.lastDropped ≠ q0
        rw [← t2]
        intro h'
        bv_omega
      · rw [if_neg (by rw [t1]; intro h'; bv_omega)]
        exact .inr ⟨t1, t2⟩
  have hdrop : ps.drop j = ps[j] :: ps.drop (j + 1) := List.drop_eq_getElem_cons hj
  obtain ⟨c, _, hpc⟩ := h.pieces j ps[j] (List.getElem?_eq_getElem hj)
  have hsz := h.windowSize
  have hsm := h.small
  have htot : totalSize (ps.drop j) = ps[j].bytes.length + totalSize (ps.drop (j + 1)) := by rw [hdrop]; rfl
  obtain ⟨w1, h1, h2, h3, ts, bd, cd, lr, cw, rt, rv, ct, h4⟩ := handleState_first (E := E) (w := v) (p := ps[j]) (pkt := pkt) (rest := ps.drop (j + 1)) (exts := [])
    (by rw [hvs]; exact h.window.trans hdrop) (by rw [hack, hpc.seq]) (by
      rw [hvs, hack]
      show _ ≠ w.s.lastAcked
      have hq := h.acked
      split at hq
      · rename_i hj0
        rw [hq, hj0]
        intro h'
        apply hla
        rw [← h']
        simp
      · rw [← hq]
        intro h'
        bv_omega) hpk.plain.extensions (by simp) (by
      rw [hvs]
      show ps[j].bytes.length ≤ w.s.currWindow.toNat
      omega) (by
      rw [hvs]
      show w.s.currWindow.toNat + 1400 < 2 ^ 32
      omega)
  have h5 : w1.s.incoming = [] ∧ w1.s.pending = [] := by rw [h4, hvs]; exact h.quiet
  have hfl : ∀ len, flushIncoming E len w1 = (.ok [], w1) := by
    intro len
    unfold flushIncoming
    msimp
    simp only [h5.1, h5.2, ne_eq, not_true_eq_false, if_false]
    rfl
  refine ⟨([], src), w1, fun fuel len => ?_, ?_, by rw [h4, hvs], by rw [h4, hvs], rfl, w.s.patience, by rw [h3, hv]; rfl⟩
  · have hh : handlePacket E (fuel + 1) (recv E (fuel + 1) BUF_SIZE) pkt src (w.waited w.s.patience) = (.ok none, w1) := by
      rw [handlePacket_takes (w := w.waited w.s.patience) ht (.inr (.inr hid)), ← hv]
      have : (w.waited w.s.patience).s.state = .connected := h.state
      rw [this]
      unfold dispatch
      msimp
      rw [andThen_eq (h1 _ _)]
      rfl
    rw [recv_dgram hn htr hp, recvPacket_eq hh (show sendReply E src none w1 = (.ok (), w1) from rfl) ht]
    have hk : w1.setS (w1.s.keep .state pkt) = w1 := by simp [Socket.keep, World.setS]
    rw [hk, andThen_eq (hfl len)]
    rfl
  · have hvl : v.log = w.log ++ [.wait w.s.patience] := by rw [hv]; rfl
    have hvn : v.nNet = w.nNet + 1 := by rw [hv]; rfl
    obtain ⟨l, hl1, hl2⟩ := h.log
    refine ⟨?_, ?_, ?_, ?_, ?_, ⟨l ++ [.wait w.s.patience], ?_, ?_⟩, h.pieces, hj, ?_, ?_, ?_, ?_, h5, ?_⟩
    · rw [h4, hvs]; exact h.state
    · rw [h4, hvs]; exact h.tries
    · rw [h4, hvs]; exact h.sid
    · rw [h4, hvs]; exact h.rid
    · rw [h2, hvn, h.net]; omega
    · rw [h3, hvl, hl1]; simp
    · rw [datagramsOf_append, hl2]; simp [datagramsOf]
    · rw [h4]
    · rw [h4, hvs]
      show w.s.currWindow - BitVec.ofNat 32 ps[j].bytes.length = _
      rw [h.size, htot]
      apply BitVec.eq_of_toNat_eq
      simp only [BitVec.toNat_sub, BitVec.toNat_ofNat]
      omega
    · have := h.room; omega
    · rw [if_neg (by omega), h4]
      show pkt.ackNr + 1 = _
      rw [hack]
      apply BitVec.eq_of_toNat_eq
      simp only [BitVec.toNat_add, BitVec.toNat_ofNat, one]
      omega
    · rw [hvs] at htk
      rw [h4, hvs]
      exact htk

/-- The acknowledgements arrive in order, unless the sender is beyond the point `B`. -/
def Served (E : Env) (a0 : World) (q0 : U16) (cs : List Bytes) (B : World → Prop) : Prop :=
  ∀ j ps w, SenderAt a0 q0 cs j ps w → j < ps.length → Acks a0.s.receiverId q0 (a0.s.seqNr + BitVec.ofNat 16 j) (E.net (a0.nNet + j)) ∨ B w

section
variable {B : World → Prop} {a0 : World} {q0 : U16} {cs : List Bytes}

theorem SenderAt.step {j : Nat} {ps : List Packet} {w : World} (h : SenderAt a0 q0 cs j ps w) {n : Nat} : SenderAt a0 q0 cs j ps { w with nNow := n } :=
  ⟨h.state, h.tries, h.sid, h.rid, h.net, h.log, h.pieces, h.le, h.window, h.size, h.room, h.acked, h.quiet, h.takes⟩

theorem lead_pos {s : Socket} (h : s.lastAcked ≠ s.seqNr) : 1 ≤ s.lead := by
  unfold Socket.lead
  have : s.lastAcked.toNat ≠ s.seqNr.toNat := fun h' => h (BitVec.eq_of_toNat_eq h')
  rw [BitVec.toNat_sub]
  have := s.lastAcked.isLt
  have := s.seqNr.isLt
  omega

/-- A socket that has sent the packets `ps`; it has the packets `us` to send, and `q` is its next number. -/
def SendingAt (a0 : World) (q0 : U16) (cs : List Bytes) (lo : Nat) (ps us : List Packet) (q : U16) (w : World) : Prop :=
  ∃ j, lo ≤ j ∧ SenderAt a0 q0 cs j ps w ∧ w.s.unsent = us ∧ w.s.seqNr = q

theorem SendingAt.step {lo : Nat} {ps us : List Packet} {q : U16} {w : World} (h : SendingAt a0 q0 cs lo ps us q w) {n : Nat} :
    SendingAt a0 q0 cs lo ps us q { w with nNow := n } := by
  obtain ⟨j, h1, h2, h3⟩ := h
  exact ⟨j, h1, h2.step, h3⟩

theorem prog_recv (hB : Lasting B) (hs : Served E a0 q0 cs B) (ht0 : a0.s.maxRetries ≠ 0) (hla : a0.s.lastAcked ≠ a0.s.seqNr) {lo : Nat} {ps us : List Packet} {q : U16} {w : World}
    (h : SendingAt a0 q0 cs lo ps us q w) (hne : w.s.sendWindow ≠ []) (len : Nat) :
    Prog B (fun n => recv E n len) w fun _ w' => SendingAt a0 q0 cs lo ps us q w' ∧ w.nNet < w'.nNet := by
  obtain ⟨j, h1, h2, h3, h4⟩ := h
  have hj : j < ps.length := by
    rw [h2.window] at hne
    exact Nat.lt_of_not_le fun hc => hne (List.drop_eq_nil_of_le hc)
  rcases hs j ps w h2 hj with ha | hb
  · obtain ⟨x, w', g1, g2, g3, g4, _⟩ := recv_ack h2 hj ht0 hla ha
    refine .returns (F := 2) (a := x) (w' := w') (fun n hn => ?_) ⟨⟨j + 1, by omega, g2, g3.trans h3, g4.trans h4⟩, by rw [g2.net, h2.net]; omega⟩
    obtain ⟨k, rfl⟩ : ∃ k, n = k + 2 := ⟨n - 2, by omega⟩
    exact g1 k len
  · exact .beyond hB (fun n => grows_recv n len) hb _

theorem SenderAt.nonempty {j : Nat} {ps : List Packet} {w : World} (h : SenderAt a0 q0 cs j ps w) (m : U32)
    (hm : (if m < MIN_WND then MIN_WND else m) ≤ w.s.currWindow) : w.s.sendWindow ≠ [] := by
  intro h0
  refine maxInflight_pos m ?_
  have : w.s.currWindow = 0 := by
    rw [h.size, ← h.window, h0]; rfl
  rw [← this]
  exact hm

theorem prog_sendPacket (hB : Lasting B) (hs : Served E a0 q0 cs B) (hok : ∀ n, E.snd n = .ok) (ht0 : a0.s.maxRetries ≠ 0) (hla : a0.s.lastAcked ≠ a0.s.seqNr) {lo : Nat} {ps us : List Packet} {q : U16}
    {w : World} (h : SendingAt a0 q0 cs lo ps us q w) {p : Packet} {c : Bytes} (hp : Piece (a0.s.seqNr + BitVec.ofNat 16 ps.length) a0.s.senderId c p)
    (hroom : a0.s.lead + ps.length ≤ lo + 32768) :
    Prog B (fun n => sendPacket E n (recv E n BUF_SIZE) p) w fun p' w' =>
      Piece (a0.s.seqNr + BitVec.ofNat 16 ps.length) a0.s.senderId c p' ∧
        ∃ v : World, SendingAt a0 q0 cs lo ps us q v ∧ w'.s = v.s ∧ w'.nNet = v.nNet ∧ ∃ dst, w'.log = v.log ++ [.send dst p'.bytes true] := by
  unfold sendPacket
  obtain ⟨m, hm⟩ : ∃ m, m = if w.s.remoteWnd < w.s.cwnd then w.s.remoteWnd else w.s.cwnd := ⟨_, rfl⟩
  obtain ⟨mi, hmi⟩ : ∃ mi, mi = if m < MIN_WND then MIN_WND else m := ⟨_, rfl⟩
  obtain ⟨st, hst⟩ : ∃ st, st = E.now w.nNow := ⟨_, rfl⟩
  refine .congr (w1 := { w with nNow := w.nNow + 1 }) (m := fun n => M.andThen (M.whileM n
    (do
      let s ← getS
      if mi ≤ s.currWindow then
        let t ← now E
        return decide (tsSub t st < PRE_SEND_TIMEOUT)
      else return false)
    (M.andThen (recv E n BUF_SIZE) fun _ => M.ret ())) fun _ => (do
      let s ← getS
      if s.lastAcked - p.seqNr < p.seqNr - s.lastAcked then return p
      else
        let t ← now E
        let p' := (p.setTimestamp t).setTimestampDifference s.theirDelay
        udpSend E s.connectedTo p'.bytes
        return p')) ?_ ?_
  · have hg : Grows (do
        let s ← getS
        if mi ≤ s.currWindow then
          let t ← now E
          return decide (tsSub t st < PRE_SEND_TIMEOUT)
        else return false) := .bind .getS fun _ => .ite (.bind .now fun _ => .ret) .ret
    refine .andThen hB (Q := fun _ w' => SendingAt a0 q0 cs lo ps us q w')
      (.whileM hB (N := a0.nNet + ps.length) (X := SendingAt a0 q0 cs lo ps us q) (Y := fun w => SendingAt a0 q0 cs lo ps us q w ∧ w.s.sendWindow ≠ []) hg
        (fun n => .andThen (grows_recv n _) fun _ => .ret) ?_ ?_ ?_ h.step)
      (fun n _ => .bind .getS fun _ => .ite .ret (.bind .now fun _ => .bind .udpSend fun _ => .ret)) ?_
    · intro w hw
      msimp
      by_cases hc : mi ≤ w.s.currWindow
      · rw [if_pos hc]
        refine ⟨_, _, rfl, rfl, ?_⟩
        split
        · obtain ⟨j, h1, h2, h3⟩ := hw
          exact ⟨⟨j, h1, h2.step, h3⟩, h2.nonempty m (by rw [← hmi]; exact hc)⟩
        · exact hw.step
      · rw [if_neg hc]
        exact ⟨_, _, rfl, rfl, by simpa using hw⟩
    · rintro w ⟨⟨j, h1, h2, h3⟩, _⟩
      rw [h2.net]
      have := h2.le
      omega
    · rintro w ⟨hw, hne⟩
      refine .andThen hB (prog_recv hB hs ht0 hla hw hne BUF_SIZE) (fun n _ => .ret) fun _ w' hw' => .ret hw'
    · intro _ v hv
      obtain ⟨j, h1, h2, h3⟩ := hv
      have hfar : ¬ (v.s.lastAcked - p.seqNr < p.seqNr - v.s.lastAcked) := by
        have hq := h2.acked
        have hle := h2.le
        have one : (1 : U16).toNat = 1 := rfl
        have hle0 := lead_pos hla
        unfold Socket.lead at hroom hle0
        rw [BitVec.toNat_sub] at hroom hle0
        rw [hp.seq, BitVec.lt_def, BitVec.toNat_sub, BitVec.toNat_sub]
        have := v.s.lastAcked.isLt
        have := a0.s.seqNr.isLt
        split at hq
        · rw [hq]
          have := a0.s.lastAcked.isLt
          simp only [BitVec.toNat_add, BitVec.toNat_ofNat]
          omega
        · have hq' := congrArg BitVec.toNat hq
          simp only [BitVec.toNat_add, BitVec.toNat_ofNat, one] at hq' ⊢
          omega
      refine .returns (F := 0) (fun n _ => ?_) ?_ (a := (p.setTimestamp (E.now v.nNow)).setTimestampDifference v.s.theirDelay)
        (w' := { v with nNow := v.nNow + 1, nSnd := v.nSnd + 1, log := v.log ++ [.send v.s.connectedTo ((p.setTimestamp (E.now v.nNow)).setTimestampDifference v.s.theirDelay).bytes true] })
      · msimp
        rw [if_neg hfar]
        rw [andThen_eq (udpSend_ok (hok _))]
        rfl
      · exact ⟨hp.stamped _ _, v, ⟨j, h1, h2, h3⟩, rfl, rfl, v.s.connectedTo, rfl⟩
  · intro n
    msimp
    rw [hmi, hm, hst]

/-- The packets `us` carry the pieces from number `n` on. -/
def SenderIdles (a0 : World) (cs : List Bytes) (n : Nat) (us : List Packet) : Prop :=
  ∀ i p, us[i]? = some p → ∃ c, cs[n + i]? = some c ∧ Piece (a0.s.seqNr + BitVec.ofNat 16 (n + i)) a0.s.senderId c p

theorem prog_sendQueue (hB : Lasting B) (hs : Served E a0 q0 cs B) (hok : ∀ n, E.snd n = .ok) (ht0 : a0.s.maxRetries ≠ 0) (hla : a0.s.lastAcked ≠ a0.s.seqNr) {lo : Nat} {q : U16} :
    ∀ (us ps : List Packet) (k : Nat) (w : World), SendingAt a0 q0 cs lo ps us q w → SenderIdles a0 cs ps.length us → a0.s.lead + ps.length + us.length ≤ lo + 32769 →
    Prog B (fun n => sendQueue E (n + k) n) w fun _ w' => ∃ ps', ps'.length = ps.length + us.length ∧ SendingAt a0 q0 cs lo ps' [] q w' := by
  intro us
  induction us with
  | nil =>
    intro ps k w h hw hr
    refine .succ (.returns (F := 0) (a := ()) (w' := w) (fun n _ => ?_) ⟨ps, rfl, h⟩)
    obtain ⟨j, h1, h2, h3, h4⟩ := h
    rw [sendQueue]
    msimp
    rw [h3]
    rfl
  | cons p us ih =>
    intro ps k w h hw hr
    simp only [List.length_cons] at hr
    obtain ⟨c, hc, hp⟩ := hw 0 p rfl
    simp only [Nat.add_zero] at hc hp
    have hun : w.s.unsent = p :: us := by obtain ⟨j, h1, h2, h3, h4⟩ := h; exact h3
    have h' : SendingAt a0 q0 cs lo ps us q (w.setS { w.s with unsent := us }) := by
      obtain ⟨j, h1, h2, h3, h4⟩ := h
      exact ⟨j, h1, ⟨h2.state, h2.tries, h2.sid, h2.rid, h2.net, h2.log, h2.pieces, h2.le, h2.window, h2.size, h2.room, h2.acked, h2.quiet, h2.takes⟩, rfl, h4⟩
    refine .succ (.congr (w1 := w.setS { w.s with unsent := us }) (m := fun n => M.andThen (sendPacket E (n + (1 + k)) (recv E (n + (1 + k)) BUF_SIZE) p) fun p' => (do
      let s ← getS
      let l : U32 := BitVec.ofNat 32 p'.len
      overflowIf E (s.currWindow.toNat + l.toNat ≥ 2 ^ 32)
      modS fun s => { s with currWindow := s.currWindow + l, sendWindow := s.sendWindow ++ [p'] }
      sendQueue E (n + (1 + k)) n)) ?_ ?_)
    · refine .andThen hB ((prog_sendPacket hB hs hok ht0 hla h' hp (by omega)).shift (1 + k))
        (fun n _ => .bind .getS fun _ => .bind .overflowIf fun _ => .bind .modS fun _ => grows_sendQueue _ _) ?_
      rintro p' w1 ⟨hp', v, ⟨j, h1, h2, h3, h4⟩, hs1, hn1, dst, hl1⟩
      have hsz := h2.windowSize
      have hsm := h2.small
      have hpl : p'.len ≤ 1400 := by
        have := hp'.bound
        show p'.bytes.length ≤ 1400
        rw [hp'.len]; omega
      have hle := h2.le
      have hda : (ps ++ [p']).drop j = ps.drop j ++ [p'] := List.drop_append_of_le_length hle
      have hnew : SendingAt a0 q0 cs lo (ps ++ [p']) us q
          (w1.setS { w1.s with currWindow := w1.s.currWindow + BitVec.ofNat 32 p'.len, sendWindow := w1.s.sendWindow ++ [p'] }) := by
        obtain ⟨l, hl2, hl3⟩ := h2.log
        refine ⟨j, h1, ⟨?_, ?_, ?_, ?_, ?_, ⟨l ++ [.send dst p'.bytes true], ?_, ?_⟩, ?_, ?_, ?_, ?_, ?_, ?_, ?_, ?_⟩, ?_, ?_⟩ <;> try simp only [World.setS, hs1]
        · exact h2.state
        · exact h2.tries
        · exact h2.sid
        · exact h2.rid
        · exact hn1.trans h2.net
        · rw [hl1, hl2]; simp
        · rw [datagramsOf_append, hl3]; simp [datagramsOf]
        · intro i r hr'
          by_cases hi : i < ps.length
          · rw [List.getElem?_append_left hi] at hr'
            exact h2.pieces i r hr'
          · rw [List.getElem?_append_right (by omega)] at hr'
            have h0 : i - ps.length = 0 := by
              have := (List.getElem?_eq_some_iff.mp hr').1
              simp at this
              omega
            have hi' : i = ps.length := by omega
            rw [h0] at hr'
            simp only [List.getElem?_cons_zero, Option.some.injEq] at hr'
            subst hr' hi'
            exact ⟨c, hc, hp'⟩
        · simp; omega
        · rw [h2.window, hda]
        · rw [h2.size, hda, totalSize_append]
          show _ + BitVec.ofNat 32 p'.bytes.length = _
          simp only [totalSize, List.map_cons, List.map_nil, List.sum_cons, List.sum_nil, Nat.add_zero]
          apply BitVec.eq_of_toNat_eq
          simp only [BitVec.toNat_add, BitVec.toNat_ofNat]
          omega
        · have := lead_pos hla
          simp; omega
        · exact h2.acked
        · exact h2.quiet
        · exact h2.takes
        · exact h3
        · exact h4
      refine .congr ((ih (ps ++ [p']) (1 + k) _ hnew ?_ (by simp; omega)).mono ?_) ?_
      · intro i r hr'
        have := hw (i + 1) r hr'
        simp only [List.length_append, List.length_cons, List.length_nil, Nat.zero_add]
        rw [show ps.length + 1 + i = ps.length + (i + 1) by omega]
        exact this
      · rintro _ w' ⟨ps', g1, g2⟩
        refine ⟨ps', ?_, g2⟩
        simp at g1 ⊢
        omega
      · intro n
        msimp
        have hov : overflowIf E (decide (w1.s.currWindow.toNat + (BitVec.ofNat 32 p'.len).toNat ≥ 2 ^ 32)) w1 = (.ok (), w1) := by
          rw [overflowIf_run, if_neg]
          simp only [Bool.and_eq_true, decide_eq_true_eq, not_and]
          intro _
          rw [hs1, BitVec.toNat_ofNat]
          have := Nat.mod_le p'.len (2 ^ 32)
          omega
        rw [andThen_eq hov]
        msimp
    · intro n
      rw [sendQueue, show n + 1 + k = n + (1 + k) by omega]
      msimp
      rw [hun]
      rfl

/-- The socket has sent `n` packets and has no others to send. -/
def IdleAt (a0 : World) (q0 : U16) (cs : List Bytes) (lo n : Nat) (w : World) : Prop :=
  ∃ ps, ps.length = n ∧ SendingAt a0 q0 cs lo ps [] (a0.s.seqNr + BitVec.ofNat 16 n) w

/-- The pieces of some buffers. -/
def piecesOf (bufs : List Bytes) : List Bytes := bufs.flatMap fun b => chunks b.length b

theorem prog_sendTo (hB : Lasting B) (hs : Served E a0 q0 cs B) (hok : ∀ n, E.snd n = .ok) (ht0 : a0.s.maxRetries ≠ 0) (hla : a0.s.lastAcked ≠ a0.s.seqNr) {lo n : Nat} {buf : Bytes} {rest : List Bytes}
    (hcs : cs.drop n = chunks buf.length buf ++ rest) (hr : a0.s.lead + n + (chunks buf.length buf).length ≤ lo + 32769) {w : World} (h : IdleAt a0 q0 cs lo n w) :
    Prog B (fun f => sendTo E f buf) w fun _ w' => IdleAt a0 q0 cs lo (n + (chunks buf.length buf).length) w' := by
  obtain ⟨ps, hn, j, h1, h2, h3, h4⟩ := h
  obtain ⟨l, hl⟩ : ∃ l, l = chunks buf.length buf := ⟨_, rfl⟩
  have hfr := chunks_framing buf.length buf (Nat.le_refl _)
  rw [← hl] at hcs hr hfr ⊢
  have hq : queued w buf = w.setS { w.s with unsent := framed w.s l, seqNr := a0.s.seqNr + BitVec.ofNat 16 (n + l.length) } := by
    unfold queued
    rw [← hl, fold_enqueue, h3, h4, List.nil_append, BitVec.add_assoc, BitVec.ofNat_add]
  have hst : w.s.state ≠ .closed := by rw [h2.state]; simp
  refine .congr (w1 := queued w buf) (m := fun f => M.andThen (sendQueue E f f) fun _ => M.ret buf.length) ?_ fun f => sendTo_eq f buf hst
  rw [hq]
  refine .andThen hB (prog_sendQueue hB hs hok ht0 hla (lo := lo) (q := a0.s.seqNr + BitVec.ofNat 16 (n + l.length)) (framed w.s l) ps 0 _ ?_ ?_ ?_) (fun _ _ => .ret) ?_
  · exact ⟨j, h1, ⟨h2.state, h2.tries, h2.sid, h2.rid, h2.net, h2.log, h2.pieces, h2.le, h2.window, h2.size, h2.room, h2.acked, h2.quiet, h2.takes⟩, rfl, rfl⟩
  · intro i p hp
    rw [framed_getElem?] at hp
    rcases hc : l[i]? with _ | c
    · rw [hc] at hp; simp at hp
    · rw [hc] at hp
      simp only [Option.map_some, Option.some.injEq] at hp
      have hm := List.mem_of_getElem? hc
      refine ⟨c, ?_, ?_⟩
      · rw [hn, ← List.getElem?_drop, hcs, List.getElem?_append_left (List.getElem?_eq_some_iff.mp hc).1, hc]
      · have hf := dataPacket_facts { w.s with seqNr := w.s.seqNr + BitVec.ofNat 16 i } c
        rw [← hp]
        refine ⟨dataPacket_plain _ _, ?_, ?_, hf.2.2.2.1, hf.2.2.2.2, List.length_pos_iff.mpr (hfr.nonempty c hm), hfr.bound c hm⟩
        · rw [hf.1, hn, BitVec.ofNat_add, ← BitVec.add_assoc, ← h4]
        · rw [hf.2.2.1]; exact h2.sid
  · rw [framed_length, hn]; exact hr
  · rintro _ w' ⟨ps', g1, g2⟩
    rw [framed_length, hn] at g1
    exact .ret ⟨ps', g1, g2⟩

theorem grows_sendAll (fuel : Nat) : ∀ bufs, Grows (sendAll E fuel bufs)
  | [] => .ret
  | b :: rest => .andThen (grows_sendTo fuel b) fun _ => grows_sendAll fuel rest

theorem prog_sendAll (hB : Lasting B) (hs : Served E a0 q0 cs B) (hok : ∀ n, E.snd n = .ok) (ht0 : a0.s.maxRetries ≠ 0) (hla : a0.s.lastAcked ≠ a0.s.seqNr) {lo : Nat} :
    ∀ (bufs : List Bytes) (n : Nat) (rest : List Bytes) (w : World), cs.drop n = piecesOf bufs ++ rest → a0.s.lead + n + (piecesOf bufs).length ≤ lo + 32769 →
    IdleAt a0 q0 cs lo n w → Prog B (fun f => sendAll E f bufs) w fun _ w' => IdleAt a0 q0 cs lo (n + (piecesOf bufs).length) w' := by
  intro bufs
  induction bufs with
  | nil => intro n rest w _ _ h; exact .ret h
  | cons b bufs ih =>
    intro n rest w hcs hr h
    have he : piecesOf (b :: bufs) = chunks b.length b ++ piecesOf bufs := rfl
    rw [he, List.append_assoc] at hcs
    rw [he, List.length_append] at hr ⊢
    refine .andThen hB (prog_sendTo hB hs hok ht0 hla hcs (by omega) h) (fun f _ => grows_sendAll f bufs) fun _ w' hw => ?_
    rw [← Nat.add_assoc]
    refine ih _ rest w' ?_ (by omega) hw
    rw [← List.drop_drop, hcs, List.drop_left]

theorem prog_flush (hB : Lasting B) (hs : Served E a0 q0 cs B) (ht0 : a0.s.maxRetries ≠ 0) (hla : a0.s.lastAcked ≠ a0.s.seqNr) {lo n : Nat} {w : World} (h : IdleAt a0 q0 cs lo n w) :
    Prog B (fun f => flush E f) w fun _ w' => IdleAt a0 q0 cs n n w' := by
  obtain ⟨ps, hn, h⟩ := h
  unfold flush
  refine .whileM hB (N := a0.nNet + ps.length) (X := SendingAt a0 q0 cs lo ps [] (a0.s.seqNr + BitVec.ofNat 16 n))
    (Y := fun w => SendingAt a0 q0 cs lo ps [] (a0.s.seqNr + BitVec.ofNat 16 n) w ∧ w.s.sendWindow ≠ []) (.bind .getS fun _ => .ret)
    (fun n => .bind (grows_recv n _) fun _ => .ret) ?_ ?_ ?_ h
  · intro w hw
    refine ⟨decide (w.s.sendWindow ≠ []), w, rfl, rfl, ?_⟩
    split
    · rename_i hd
      exact ⟨hw, of_decide_eq_true hd⟩
    · rename_i hd
      obtain ⟨j, h1, h2, h3⟩ := hw
      refine ⟨ps, hn, j, ?_, h2, h3⟩
      have hd : w.s.sendWindow = [] := by simpa using hd
      rw [h2.window, List.drop_eq_nil_iff] at hd
      omega
  · rintro w ⟨⟨j, h1, h2, h3⟩, _⟩
    rw [h2.net]
    have := h2.le
    omega
  · rintro w ⟨hw, hne⟩
    exact .andThen hB (prog_recv hB hs ht0 hla hw hne BUF_SIZE) (fun n _ => .ret) fun _ w' hw' => .ret hw'

theorem grows_transfer (fuel : Nat) : ∀ batches, Grows (transfer E fuel batches)
  | [] => .ret
  | b :: rest => .andThen (grows_sendAll fuel b) fun _ => .andThen (grows_flush fuel) fun _ => grows_transfer fuel rest

theorem prog_transfer (hB : Lasting B) (hs : Served E a0 q0 cs B) (hok : ∀ n, E.snd n = .ok) (ht0 : a0.s.maxRetries ≠ 0) (hla : a0.s.lastAcked ≠ a0.s.seqNr) :
    ∀ (batches : List (List Bytes)) (n : Nat) (rest : List Bytes) (w : World), cs.drop n = piecesOf batches.flatten ++ rest → (∀ b ∈ batches, a0.s.lead + (piecesOf b).length ≤ 32769) →
    IdleAt a0 q0 cs n n w → Prog B (fun f => transfer E f batches) w fun _ w' => IdleAt a0 q0 cs (n + (piecesOf batches.flatten).length) (n + (piecesOf batches.flatten).length) w' := by
  intro batches
  induction batches with
  | nil => intro n rest w _ _ h; exact .ret h
  | cons b batches ih =>
    intro n rest w hcs hr h
    have he : piecesOf (b :: batches).flatten = piecesOf b ++ piecesOf batches.flatten := by simp [piecesOf]
    rw [he, List.append_assoc] at hcs
    rw [he, List.length_append]
    have := hr b (by simp)
    refine .andThen hB (prog_sendAll hB hs hok ht0 hla b n _ w hcs (by omega) h) (fun f _ => .andThen (grows_flush f) fun _ => grows_transfer f batches) fun _ w1 hw1 => ?_
    refine .andThen hB (prog_flush hB hs ht0 hla hw1) (fun f _ => grows_transfer f batches) fun _ w2 hw2 => ?_
    rw [← Nat.add_assoc]
    refine ih _ rest w2 ?_ (fun b hb => hr b (by simp [hb])) hw2
    rw [← List.drop_drop, hcs, List.drop_left]

end

/-! ### The reader -/

/-- The socket that was in the world `b0` has received and acknowledged `i` packets, the first with the number `k`; `u` is the unread rest of the last. -/
structure ReaderAt (b0 : World) (k : U16) (i : Nat) (u : Bytes) (w : World) : Prop where
  exp : ∃ d, Expects w.s d (k + BitVec.ofNat 16 i) u
  sid : w.s.senderId = b0.s.senderId
  rid : w.s.receiverId = b0.s.receiverId
  net : w.nNet = b0.nNet + i
  kept : Kept b0.s w.s
  log : ∃ (l : List Act) (rs : List Packet), w.log = b0.log ++ l ∧ datagramsOf l = rs.map Packet.bytes ∧ rs.length = i ∧
    ∀ t r, rs[t]? = some r → AckPkt b0.s.seqNr (k + BitVec.ofNat 16 t) b0.s.senderId r

theorem Kept.trans {a b c : Socket} (h : Kept a b) (h' : Kept b c) : Kept a c :=
  ⟨h'.seqNr.trans h.seqNr, h'.sendWindow.trans h.sendWindow, h'.unsent.trans h.unsent, h'.currWindow.trans h.currWindow, h'.lastAcked.trans h.lastAcked,
    h'.maxRetries.trans h.maxRetries⟩

/-- The packets arrive in order, unless the reader is beyond the point `B`. -/
def Supplied (E : Env) (b0 : World) (k : U16) (cs : List Bytes) (B : World → Prop) : Prop :=
  ∀ i u w c, ReaderAt b0 k i u w → cs[i]? = some c → (∃ p src, E.net (b0.nNet + i) = .dgram p.bytes src ∧ Piece (k + BitVec.ofNat 16 i) b0.s.receiverId c p) ∨ B w

section
variable {B : World → Prop} {b0 : World} {k : U16} {cs : List Bytes}

/-- The loop of `recv_from`, when nothing is left of an earlier packet. -/
theorem prog_recvFromLoop (hB : Lasting B) (hs : Supplied E b0 k cs B) (hok : ∀ n, E.snd n = .ok) {len : Nat} (hl : 0 < len) {i : Nat} {got : Bytes} {w : World}
    (h : ReaderAt b0 k i [] w) (hg : got = (cs.take i).flatten) (hi : i < cs.length) (x y : Nat) :
    Prog B (fun n => recvFromLoop E (n + x) len (n + y)) w fun x w' =>
      x.1 ≠ [] ∧ ∃ i' u', ReaderAt b0 k i' u' w' ∧ i' ≤ cs.length ∧ got ++ x.1 ++ u' = (cs.take i').flatten := by
  obtain ⟨d, hx⟩ := h.exp
  obtain ⟨c, hc⟩ : ∃ c, cs[i]? = some c := ⟨_, List.getElem?_eq_getElem hi⟩
  rcases hs i [] w c h hc with ⟨p, src, hn, hp⟩ | hb
  · have hcn : c ≠ [] := List.length_pos_iff.mp hp.pos
    have hdec : Packet.tryFrom (p.bytes.take 1520) = some (.ok p) := by
      rw [List.take_of_length_le (by rw [hp.len]; have := hp.bound; omega)]
      exact hp.plain.accepted
    rw [← h.net] at hn
    obtain ⟨w', g1, g2, g3, g4, ⟨t, dst, r, g5, g6, g7, g8, g9, g10⟩, g11⟩ := recv_one (p := p) (c := c) hx ⟨hp.plain.ty, hp.seq, hp.payload, .inr (by rw [hp.id, h.rid])⟩ hn hdec (hok _) len
    have hne : c.take len ≠ [] := by
      rw [ne_eq, List.take_eq_nil_iff]
      rintro (h | h)
      · omega
      · exact hcn h
    have hst : w.s.state ≠ .closed := by rw [hx.state]; simp
    refine .returns (F := 2) (a := (c.take len, src)) (w' := w') (fun n hn' => ?_) ⟨hne, i + 1, c.drop len, ⟨⟨true, ?_⟩, g3.1.trans h.sid, g3.2.trans h.rid, ?_, h.kept.trans g11, ?_⟩, hi, ?_⟩
    · obtain ⟨m, rfl⟩ : ∃ m, n = m + 2 := ⟨n - 2, by omega⟩
      rw [show m + 2 + y = m + 1 + y + 1 by omega, show m + 2 + x = m + x + 2 by omega, recvFromLoop]
      msimp
      rw [if_neg hst, andThen_eq (g1 (m + x))]
      msimp
      rw [if_neg hne]
    · rw [BitVec.ofNat_add, ← BitVec.add_assoc]; exact g2
    · rw [g4, h.net]; omega
    · obtain ⟨l, rs, l1, l2, l3, l4⟩ := h.log
      refine ⟨l ++ [.wait t, .send dst r.bytes true], rs ++ [r], by rw [g5, l1, List.append_assoc], ?_, by simp [l3], ?_⟩
      · rw [datagramsOf_append, l2]; simp [datagramsOf]
      · intro t' r' hr'
        by_cases ht : t' < rs.length
        · rw [List.getElem?_append_left ht] at hr'
          exact l4 t' r' hr'
        · rw [List.getElem?_append_right (by omega)] at hr'
          have h0 : t' - rs.length = 0 := by
            have := (List.getElem?_eq_some_iff.mp hr').1
            simp at this
            omega
          have ht' : t' = i := by omega
          rw [h0] at hr'
          simp only [List.getElem?_cons_zero, Option.some.injEq] at hr'
          subst hr' ht'
          exact ⟨g6, g7, g8, g9.trans h.sid, g10.trans h.kept.seqNr⟩
    · rw [List.take_add_one, hc, List.flatten_append, ← hg]
      simp
  · exact .beyond hB (fun n => grows_recvFromLoop _ len _) hb _

theorem ReaderAt.quiet {i : Nat} {w : World} (h : ReaderAt b0 k i [] w) (n len : Nat) : recvFrom E n len w = recvFromLoop E n len n w := by
  obtain ⟨d, hx⟩ := h.exp
  refine recvFrom_quiet ?_ (by rw [hx.state]; simp)
  unfold flushIncoming
  msimp
  rw [if_neg (by simp [hx.pending]), hx.empty rfl]
  rfl

theorem prog_recvFrom (hB : Lasting B) (hs : Supplied E b0 k cs B) (hok : ∀ n, E.snd n = .ok) {len : Nat} (hl : 0 < len) {i : Nat} {u got : Bytes} {w : World}
    (h : ReaderAt b0 k i u w) (hg : got ++ u = (cs.take i).flatten) (hm : u = [] → i < cs.length) (hle : i ≤ cs.length) :
    Prog B (fun n => recvFrom E n len) w fun x w' => x.1 ≠ [] ∧ ∃ i' u', ReaderAt b0 k i' u' w' ∧ i' ≤ cs.length ∧ got ++ x.1 ++ u' = (cs.take i').flatten := by
  by_cases hu : u = []
  · subst hu
    rw [List.append_nil] at hg
    exact .congr (prog_recvFromLoop hB hs hok hl h hg (hm rfl) 0 0) fun n => h.quiet n len
  · obtain ⟨d, hx⟩ := h.exp
    obtain ⟨w', g1, g2, g3, g4, g5, g6⟩ := read_rest (E := E) hx hu hl
    refine .returns (F := 0) (a := (u.take len, w.s.connectedTo)) (w' := w') (fun n _ => g1 n) ⟨?_, i, u.drop len, ⟨⟨true, g2⟩, g3.1.trans h.sid, g3.2.trans h.rid, g4.trans h.net, h.kept.trans g6, ?_⟩, hle, ?_⟩
    · show u.take len ≠ []
      rw [ne_eq, List.take_eq_nil_iff]
      rintro (h | h)
      · omega
      · exact hu h
    · rw [g5]; exact h.log
    · rw [← hg]; simp

theorem grows_readLoop (fuel len total : Nat) : ∀ n got, Grows (readLoop E fuel len total n got)
  | 0, _ => .never
  | n + 1, _ => .ite .ret (.andThen (grows_recvFrom fuel len) fun _ => grows_readLoop fuel len total n _)

theorem prog_readLoop (hB : Lasting B) (hs : Supplied E b0 k cs B) (hok : ∀ n, E.snd n = .ok) {len : Nat} (hl : 0 < len) :
    ∀ (d : Nat) (j i : Nat) (u got : Bytes) (w : World), cs.flatten.length ≤ got.length + d → ReaderAt b0 k i u w → i ≤ cs.length → got ++ u = (cs.take i).flatten →
    Prog B (fun n => readLoop E (n + j) len cs.flatten.length n got) w fun x w' => x = cs.flatten ∧ ∃ i', ReaderAt b0 k i' [] w' ∧ i' ≤ cs.length ∧ (cs.take i').flatten = cs.flatten := by
  intro d
  have hpre : ∀ {got u : Bytes} {i : Nat}, got ++ u = (cs.take i).flatten → got.length + u.length ≤ cs.flatten.length ∧
      (cs.flatten.length ≤ got.length → got = cs.flatten ∧ u = []) ∧ (u = [] → ¬ cs.flatten.length ≤ got.length → i < cs.length) := by
    intro got u i hg
    have h1 : got ++ u ++ (cs.drop i).flatten = cs.flatten := by rw [hg, ← List.flatten_append, List.take_append_drop]
    have h2 := congrArg List.length h1
    simp only [List.length_append] at h2
    refine ⟨by omega, fun hle => ?_, fun hu hlt => ?_⟩
    · have hu : u = [] := List.eq_nil_of_length_eq_zero (by omega)
      have hd : (cs.drop i).flatten = [] := List.eq_nil_of_length_eq_zero (by omega)
      rw [hu, hd] at h1
      exact ⟨by simpa using h1, hu⟩
    · refine Nat.lt_of_not_le fun hle => hlt ?_
      rw [List.drop_eq_nil_of_le hle, hu] at h2
      simp only [List.flatten_nil, List.length_nil] at h2
      omega
  induction d with
  | zero =>
    intro j i u got w hd h hil hg
    obtain ⟨_, h2, _⟩ := hpre hg
    obtain ⟨h2, h3⟩ := h2 (by omega)
    refine .succ (.congr (m := fun _ => M.ret got) (w1 := w) (.ret ⟨h2, i, h3 ▸ h, hil, by rw [← hg, h2, h3, List.append_nil]⟩) fun n => ?_)
    rw [readLoop, if_pos (by omega)]
  | succ d ih =>
    intro j i u got w hd h hil hg
    obtain ⟨_, h2, h4⟩ := hpre hg
    by_cases hle : cs.flatten.length ≤ got.length
    · obtain ⟨h2, h3⟩ := h2 hle
      refine .succ (.congr (m := fun _ => M.ret got) (w1 := w) (.ret ⟨h2, i, h3 ▸ h, hil, by rw [← hg, h2, h3, List.append_nil]⟩) fun n => ?_)
      rw [readLoop, if_pos hle]
    · refine .succ (.congr (m := fun n => M.andThen (recvFrom E (n + (1 + j)) len) fun x => readLoop E (n + (1 + j)) len cs.flatten.length n (got ++ x.1)) (w1 := w) ?_ fun n => ?_)
      · refine .andThen hB ((prog_recvFrom hB hs hok hl h hg (fun hu => h4 hu hle) hil).shift (1 + j)) (fun n _ => grows_readLoop _ _ _ _ _) ?_
        rintro x w' ⟨hx, i', u', h5, h7, h6⟩
        refine ih (1 + j) i' u' (got ++ x.1) w' ?_ h5 h7 h6
        have := List.length_pos_iff.mpr hx
        simp only [List.length_append]
        omega
      · rw [readLoop, if_neg hle, show n + 1 + j = n + (1 + j) by omega]

end

/-! ### Both together -/

/-- The effects after `w0` begin with effects whose datagrams are the packets `ps`, more than `k` of them, each as `P` says. -/
def Beyond (w0 : World) (P : Nat → Packet → Prop) (k : Nat) (w : World) : Prop :=
  ∃ (l : List Act) (ps : List Packet), w0.log ++ l <+: w.log ∧ datagramsOf l = ps.map Packet.bytes ∧ k < ps.length ∧ ∀ i p, ps[i]? = some p → P i p

theorem Beyond.lasting (w0 : World) (P : Nat → Packet → Prop) (k : Nat) : Lasting (Beyond w0 P k) := by
  rintro w w' h ⟨l, ps, h1, h2⟩
  exact ⟨l, ps, h1.trans h, h2⟩

theorem Beyond.arrives {m : Nat → M α} {x y : World} {Y : Env} (ha : Arrives m x Y y) {P : Nat → Packet → Prop} {k fuel : Nat} (h : Beyond x P k (m fuel x).2) {i : Nat} (hi : i ≤ k) :
    ∃ p src, Y.net (y.nNet + i) = .dgram p.bytes src ∧ P i p := by
  obtain ⟨l, ps, ⟨r, h1⟩, h2, h3, h4⟩ := h
  have hp : ps[i]? = some ps[i] := List.getElem?_eq_getElem (by omega)
  obtain ⟨src, hs⟩ := ha fuel i ps[i].bytes (by
    rw [← h1, List.append_assoc, List.drop_left, datagramsOf_append, h2, List.getElem?_append_left (by rw [List.length_map]; omega), List.getElem?_map, hp]
    rfl)
  exact ⟨ps[i], src, hs, h4 i _ hp⟩

section
variable {A B : Env} {a b : World} {batches : List (List Bytes)} {len : Nat}

/-- What the first `k` datagrams for the reader must be. -/
def Fed (B : Env) (a b : World) (cs : List Bytes) (k : Nat) : Prop :=
  ∀ i c, i < k → cs[i]? = some c → ∃ p src, B.net (b.nNet + i) = .dgram p.bytes src ∧ Piece (a.s.seqNr + BitVec.ofNat 16 i) b.s.receiverId c p

/-- What the first `k` datagrams for the sender must be. -/
def Told (A : Env) (a b : World) (k : Nat) : Prop :=
  ∀ i, i < k → Acks a.s.receiverId b.s.seqNr (a.s.seqNr + BitVec.ofNat 16 i) (A.net (a.nNet + i))

theorem Linked.idle (h : Linked a b) (hr : Ready a.s b.s) (cs : List Bytes) : IdleAt a b.s.seqNr cs 0 0 a :=
  ⟨[], rfl, 0, Nat.le_refl _, ⟨h.aOpen, rfl, rfl, rfl, rfl, ⟨[], by simp, rfl⟩, by simp, Nat.le_refl _, hr.sent.1, hr.sent.2.2, by simp, rfl, h.aRead, id⟩,
    hr.sent.2.1, by simp⟩

theorem Linked.reader (h : Linked a b) (hr : Ready a.s b.s) : ReaderAt b a.s.seqNr 0 [] b := by
  have one : (1 : U16).toNat = 1 := rfl
  have htr : 0 < b.s.maxRetries.toNat := by
    have : b.s.maxRetries.toNat ≠ 0 := fun e => h.bTries (BitVec.eq_of_toNat_eq e)
    omega
  refine ⟨?_, rfl, rfl, rfl, ⟨rfl, rfl, rfl, rfl, rfl, rfl⟩, ⟨[], [], by simp, rfl, rfl, by simp⟩⟩
  rcases hr.next with ⟨h1, h2⟩ | ⟨h1, h2⟩
  · refine ⟨true, h.bOpen, htr, h.bRead.2, fun _ => h.bRead.1, fun _ => ?_, fun h => absurd rfl h⟩
    rw [if_pos rfl]
    rw [← h1] at h2 ⊢
    constructor <;> bv_omega
  · refine ⟨false, h.bOpen, htr, h.bRead.2, fun _ => h.bRead.1, fun _ => ?_, fun h => absurd rfl h⟩
    simpa using ⟨h1, h2⟩

theorem fed_of_told (h : Linked a b) (hr : Ready a.s b.s) (hA : ∀ n, A.snd n = .ok) (hfit : ∀ bs ∈ batches, a.s.lead + (piecesOf bs).length ≤ 32769)
    (ha : Arrives (fun fuel => transfer A fuel batches) a B b) {k : Nat} (ht : Told A a b k) : Fed B a b (piecesOf batches.flatten) (k + 1) := by
  obtain ⟨cs, hcs⟩ : ∃ cs, cs = piecesOf batches.flatten := ⟨_, rfl⟩
  rw [← hcs]
  obtain ⟨P, hP⟩ : ∃ P : Nat → Packet → Prop, P = fun i p => ∃ c, cs[i]? = some c ∧ Piece (a.s.seqNr + BitVec.ofNat 16 i) a.s.senderId c p := ⟨_, rfl⟩
  have hserved : Served A a b.s.seqNr cs (Beyond a P k) := by
    intro j ps w hw hj
    by_cases hk : j < k
    · exact .inl (ht j hk)
    · obtain ⟨l, h1, h2⟩ := hw.log
      exact .inr ⟨l, ps, h1 ▸ List.prefix_refl _, h2, by omega, by rw [hP]; exact hw.pieces⟩
  have hrun := prog_transfer (Beyond.lasting a P k) hserved hA h.aTries hr.acked batches 0 [] a (by simpa using hcs) hfit (h.idle hr cs)
  intro i c hi hc
  have hlt := (List.getElem?_eq_some_iff.mp hc).1
  have key : ∃ k', i ≤ k' ∧ ∃ fuel, Beyond a P k' (transfer A fuel batches a).2 := by
    rcases hrun with ⟨_, w', ⟨ps, hn, j, _, hw, _⟩, F, hF⟩ | ⟨F, hF⟩
    · obtain ⟨l, h1, h2⟩ := hw.log
      refine ⟨i, Nat.le_refl _, F, l, ps, ?_, h2, ?_, by rw [hP]; exact hw.pieces⟩
      · have hF : transfer A F batches a = _ := hF F (Nat.le_refl _)
        rw [hF, h1]; exact List.prefix_refl _
      · rw [hn, ← hcs]; omega
    · exact ⟨k, by omega, F, hF F (Nat.le_refl _)⟩
  obtain ⟨k', hk', fuel, hb⟩ := key
  obtain ⟨p, src, h1, h2⟩ := hb.arrives (m := fun fuel => transfer A fuel batches) ha hk'
  rw [hP] at h2
  obtain ⟨c', hc', h2⟩ := h2
  rw [hc] at hc'
  cases hc'
  exact ⟨p, src, h1, h.toB ▸ h2⟩

theorem take_all {cs : List Bytes} (hne : ∀ c ∈ cs, c ≠ []) {i : Nat} (h : (cs.take i).flatten = cs.flatten) : cs.length ≤ i := by
  refine Nat.le_of_not_lt fun hi => ?_
  have h1 : (cs.take i).flatten ++ (cs.drop i).flatten = cs.flatten := by rw [← List.flatten_append, List.take_append_drop]
  rw [h] at h1
  have h2 : (cs.drop i).flatten = [] := List.append_right_eq_self.mp h1
  rw [List.drop_eq_getElem_cons hi, List.flatten_cons, List.append_eq_nil_iff] at h2
  exact hne _ (List.getElem_mem hi) h2.1

theorem told_of_fed (h : Linked a b) (hr : Ready a.s b.s) (hB : ∀ n, B.snd n = .ok) {cs : List Bytes} (hne : ∀ c ∈ cs, c ≠ []) (hl : 0 < len)
    (hb : Arrives (fun fuel => readUntil B len cs.flatten.length fuel) b A a) {k : Nat} (hk : k < cs.length) (hf : Fed B a b cs (k + 1)) : Told A a b (k + 1) := by
  obtain ⟨P, hP⟩ : ∃ P : Nat → Packet → Prop, P = fun i p => AckPkt b.s.seqNr (a.s.seqNr + BitVec.ofNat 16 i) b.s.senderId p := ⟨_, rfl⟩
  have hsup : Supplied B b a.s.seqNr cs (Beyond b P k) := by
    intro i u w c hw hc
    by_cases hi : i < k + 1
    · exact .inl (hf i c hi hc)
    · obtain ⟨l, rs, h1, h2, h3, h4⟩ := hw.log
      exact .inr ⟨l, rs, h1 ▸ List.prefix_refl _, h2, by omega, by rw [hP]; exact h4⟩
  have hrun := prog_readLoop (Beyond.lasting b P k) hsup hB hl cs.flatten.length 0 0 [] [] b (by omega) (h.reader hr) (Nat.zero_le _) (by simp)
  have key : ∃ fuel, Beyond b P k (readUntil B len cs.flatten.length fuel b).2 := by
    rcases hrun with ⟨_, w', ⟨_, i', hw, _, hi'⟩, F, hF⟩ | ⟨F, hF⟩
    · obtain ⟨l, rs, h1, h2, h3, h4⟩ := hw.log
      refine ⟨F, l, rs, ?_, h2, ?_, by rw [hP]; exact h4⟩
      · have hF : readUntil B len cs.flatten.length F b = _ := hF F (Nat.le_refl _)
        rw [hF, h1]; exact List.prefix_refl _
      · have := take_all hne hi'
        omega
    · exact ⟨F, hF F (Nat.le_refl _)⟩
  obtain ⟨fuel, hb'⟩ := key
  intro i hi
  obtain ⟨p, src, h1, h2⟩ := hb'.arrives (m := fun fuel => readUntil B len cs.flatten.length fuel) hb (i := i) (by omega)
  rw [hP] at h2
  exact ⟨p, src, h1, h.toA ▸ h2⟩

theorem piecesOf_flatten : ∀ bufs, (piecesOf bufs).flatten = bufs.flatten
  | [] => rfl
  | b :: rest => by
    have := piecesOf_flatten rest
    simp only [piecesOf, List.flatMap_cons, List.flatten_append, List.flatten_cons] at this ⊢
    rw [this, (chunks_framing b.length b (Nat.le_refl _)).whole]

theorem piecesOf_nonempty (bufs : List Bytes) : ∀ c ∈ piecesOf bufs, c ≠ [] := by
  intro c hc
  obtain ⟨b, _, hb⟩ := List.mem_flatMap.mp hc
  exact (chunks_framing b.length b (Nat.le_refl _)).nonempty c hb

theorem chunks_length : ∀ n (b : Bytes), b.length ≤ n → (chunks n b).length = (b.length + 1379) / 1380
  | 0, b, h => by
    have : b.length = 0 := by omega
    rw [this]
    rfl
  | n + 1, b, h => by
    unfold chunks
    split
    · rename_i h0; rw [h0]; rfl
    · rename_i h0
      have := List.length_pos_iff.mpr h0
      rw [List.length_cons, chunks_length n _ (by simp [CHUNK]; omega), List.length_drop]
      simp only [CHUNK]
      omega

theorem piecesOf_length : ∀ bufs, (piecesOf bufs).length = (bufs.map packetsOf).sum
  | [] => rfl
  | b :: rest => by
    have := piecesOf_length rest
    simp only [piecesOf, List.flatMap_cons, List.length_append, List.map_cons, List.sum_cons] at this ⊢
    rw [this, chunks_length _ _ (Nat.le_refl _)]
    rfl

theorem all_told (h : Linked a b) (hr : Ready a.s b.s) (hA : ∀ n, A.snd n = .ok) (hB : ∀ n, B.snd n = .ok) (hfit : ∀ bs ∈ batches, a.s.lead + (piecesOf bs).length ≤ 32769) (hl : 0 < len)
    (ha : Arrives (fun fuel => transfer A fuel batches) a B b) (hb : Arrives (fun fuel => readUntil B len batches.flatten.flatten.length fuel) b A a) :
    ∀ k, k ≤ (piecesOf batches.flatten).length → Told A a b k
  | 0, _ => fun i hi => absurd hi (by omega)
  | k + 1, hk => by
    rw [← piecesOf_flatten] at hb
    refine told_of_fed h hr hB (piecesOf_nonempty _) hl hb (by omega) (fed_of_told h hr hA hfit ha ?_)
    rw [piecesOf_flatten] at hb
    exact all_told h hr hA hB hfit hl ha hb k (by omega)

end

end Utp
