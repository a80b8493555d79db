import Verif.Spec.Resend
import Verif.Lemmas.Timely
import Verif.Lemmas.Lossless
import Verif.Props.Karn
/-!
# Without a sign of loss nothing is sent twice, through all functions
-/

namespace Utp
open M Packet Spec

variable {E : Env} {α β : Type} {sid rid : U16} {m k j : Nat} {l0 : List Act} {G : List Nat} {U : List U16} {nr : U16}

theorem NoLossSign.mono {n n' : Nat} (h : NoLossSign E sid rid m n') (hn : n ≤ n') : NoLossSign E sid rid m n :=
  ⟨fun k h1 h2 => h.timeout k h1 (by omega), fun k p d h1 h2 => h.sack k p d h1 (by omega), fun i j k p q r h1 h2 h3 h4 => h.acks i j k p q r h1 h2 h3 (by omega)⟩

theorem dataNumbers_append (a b : List Act) : dataNumbers (a ++ b) = dataNumbers a ++ dataNumbers b := by
  induction a with
  | nil => rfl
  | cons x a ih =>
    cases x with
    | wait t => exact ih
    | send d c o =>
      simp only [List.cons_append, dataNumbers]
      split
      · rw [ih]; rfl
      · exact ih

/-- Different State packets, all received before number `j`, that acknowledge `a`. -/
def AckedAt (E : Env) (sid rid : U16) (m j : Nat) (a : U16) (is : List Nat) : Prop :=
  is.Pairwise (· < ·) ∧ ∀ i ∈ is, m ≤ i ∧ i < j ∧ ∃ pkt, StateAt E sid rid i pkt ∧ pkt.ackNr = a

theorem AckedAt.later {j' : Nat} {a : U16} {is : List Nat} (h : AckedAt E sid rid m j a is) (hj : j ≤ j') : AckedAt E sid rid m j' a is :=
  ⟨h.1, fun i hi => ⟨(h.2 i hi).1, by have := (h.2 i hi).2.1; omega, (h.2 i hi).2.2⟩⟩

theorem AckedAt.three {a : U16} {is : List Nat} (h : AckedAt E sid rid m j a is) (h3 : 3 ≤ is.length) : ¬ NoLossSign E sid rid m j := by
  intro hn
  match is, h3 with
  | x :: y :: z :: _, _ =>
    obtain ⟨h1, h2⟩ := h
    simp only [List.pairwise_cons, List.mem_cons] at h1
    obtain ⟨hx, _, p, hp, ep⟩ := h2 x (by simp)
    obtain ⟨_, _, q, hq, eq⟩ := h2 y (by simp)
    obtain ⟨_, hz, r, hr, er⟩ := h2 z (by simp)
    exact hn.acks x y z p q r hx (h1.1 y (by simp)) (h1.2.1 z (by simp)) hz hp hq hr ⟨by rw [ep, eq], by rw [eq, er]⟩

/-- What is known at `w`: without a sign of loss, the numbers in the log since `l0` are some of `G`, in this order; the numbers in the queue are `U`.  The duplicate
acknowledgements counted were received before number `j`. -/
structure Calm (E : Env) (sid rid : U16) (m k : Nat) (l0 : List Act) (G : List Nat) (U : List U16) (nr : U16) (j : Nat) (w : World) : Prop where
  lo : m ≤ w.nNet
  net : k ≤ w.nNet
  opened : w.s.state ≠ .new ∧ w.s.state ≠ .synSent
  ids : w.s.senderId = sid ∧ w.s.receiverId = rid
  seq : w.s.seqNr = nr
  uns : w.s.unsent.map Packet.seqNr = U
  dup : ∃ is, AckedAt E sid rid m j w.s.lastAcked is ∧ w.s.dupAcks.toNat ≤ is.length
  log : ∃ l, w.log = l0 ++ l ∧ (NoLossSign E sid rid m w.nNet → (dataNumbers l).Sublist G)

/-- Everything received so far counted. -/
abbrev Cal (E : Env) (sid rid : U16) (m k : Nat) (l0 : List Act) (G : List Nat) (U : List U16) (nr : U16) (w : World) : Prop :=
  Calm E sid rid m k l0 G U nr w.nNet w

/-- A function that sends nothing twice without a sign of loss. -/
abbrev KeepsCalm (E : Env) (sid rid : U16) (m k : Nat) (l0 : List Act) (G : List Nat) (U : List U16) (nr : U16) (f : M α) : Prop :=
  Holds (Cal E sid rid m k l0 G U nr) (Cal E sid rid m k l0 G U nr) f (fun _ => Cal E sid rid m k l0 G U nr)

/-- A change of the socket that does not matter here. -/
structure SameCalm (s s' : Socket) : Prop where
  sid : s'.senderId = s.senderId
  rid : s'.receiverId = s.receiverId
  seq : s'.seqNr = s.seqNr
  uns : s'.unsent = s.unsent
  dup : s'.dupAcks = s.dupAcks
  last : s'.lastAcked = s.lastAcked
  opened : s.state ≠ .new ∧ s.state ≠ .synSent → s'.state ≠ .new ∧ s'.state ≠ .synSent

theorem SameCalm.of {s s' : Socket} (h1 : s'.senderId = s.senderId) (h2 : s'.receiverId = s.receiverId) (h3 : s'.seqNr = s.seqNr)
    (h4 : s'.unsent = s.unsent) (h5 : s'.dupAcks = s.dupAcks) (h6 : s'.lastAcked = s.lastAcked) (h7 : s'.state = s.state) : SameCalm s s' :=
  ⟨h1, h2, h3, h4, h5, h6, fun h => by rw [h7]; exact h⟩

theorem Calm.same {w : World} (h : Calm E sid rid m k l0 G U nr j w) {s : Socket} (hs : SameCalm w.s s) : Calm E sid rid m k l0 G U nr j { w with s := s } :=
  ⟨h.lo, h.net, hs.opened h.opened, ⟨hs.sid.trans h.ids.1, hs.rid.trans h.ids.2⟩, hs.seq.trans h.seq, by
    show s.unsent.map _ = U
    rw [hs.uns]; exact h.uns, by
    show ∃ is, AckedAt E sid rid m j s.lastAcked is ∧ s.dupAcks.toNat ≤ _
    rw [hs.dup, hs.last]; exact h.dup, h.log⟩

theorem Calm.later {j' : Nat} {w : World} (h : Calm E sid rid m k l0 G U nr j w) (hj : j ≤ j') : Calm E sid rid m k l0 G U nr j' w :=
  ⟨h.lo, h.net, h.opened, h.ids, h.seq, h.uns, h.dup.imp fun _ h => ⟨h.1.later hj, h.2⟩, h.log⟩

theorem Calm.lower {k' : Nat} {w : World} (h : Calm E sid rid m k l0 G U nr j w) (hk : k' ≤ w.nNet) : Calm E sid rid m k' l0 G U nr j w :=
  ⟨h.lo, hk, h.opened, h.ids, h.seq, h.uns, h.dup, h.log⟩

theorem Calm.tick {w : World} (h : Calm E sid rid m k l0 G U nr j w) : Calm E sid rid m k l0 G U nr j { w with nNow := w.nNow + 1 } :=
  ⟨h.lo, h.net, h.opened, h.ids, h.seq, h.uns, h.dup, h.log⟩

theorem Calm.more {G' : List Nat} {w : World} (h : Calm E sid rid m k l0 G U nr j w) (hG : G.Sublist G') : Calm E sid rid m k l0 G' U nr j w :=
  ⟨h.lo, h.net, h.opened, h.ids, h.seq, h.uns, h.dup, h.log.imp fun _ h => ⟨h.1, fun hn => (h.2 hn).trans hG⟩⟩

/-- `KeepsCalm` from the number of receives made so far on. -/
theorem KeepsCalm.from_here {f : M α} {P : World → Prop} {k' : Nat} (hP : ∀ w, P w → Cal E sid rid m k' l0 G U nr w)
    (h : ∀ w, P w → KeepsCalm E sid rid m w.nNet l0 G U nr f) : Holds (Cal E sid rid m k' l0 G U nr) P f (fun _ => Cal E sid rid m k' l0 G U nr) := by
  intro w hw
  have hc := hP w hw
  have h1 := h w hw w (hc.lower (Nat.le_refl _))
  have hl := hc.net
  rcases e : f w with ⟨r, v⟩
  rw [e] at h1
  cases r with
  | panic => trivial
  | _ => exact h1.lower (Nat.le_trans hl h1.net)

theorem calm_now : KeepsCalm E sid rid m k l0 G U nr (M.now E) := fun _ hw => hw.tick

theorem calm_modS {f : Socket → Socket} (h : ∀ s, SameCalm s (f s)) : KeepsCalm E sid rid m k l0 G U nr (M.modS f) :=
  Holds.modS fun w hw => hw.same (h w.s)

/-- Sending. -/
theorem Calm.sent {w : World} (h : Cal E sid rid m k l0 G U nr w) {dst : Addr} {b : Bytes} {G' : List Nat}
    (hb : NoLossSign E sid rid m w.nNet → ∀ l, List.Sublist l G → List.Sublist (l ++ dataNumbers [.send dst b true]) G') (ok : Bool) :
    Cal E sid rid m k l0 G' U nr { w with nSnd := w.nSnd + 1, log := w.log ++ [.send dst b ok] } := by
  refine ⟨h.lo, h.net, h.opened, h.ids, h.seq, h.uns, h.dup, ?_⟩
  obtain ⟨l, e, hl⟩ := h.log
  refine ⟨l ++ [.send dst b ok], by rw [e, List.append_assoc], fun hn => ?_⟩
  rw [dataNumbers_append]
  exact hb hn _ (hl hn)

theorem calm_udpSend {dst : Addr} {b : Bytes} (hb : kind b ≠ 0 ∨ ¬ NoLossSign E sid rid m k) : KeepsCalm E sid rid m k l0 G U nr (M.udpSend E dst b) := by
  intro w hw
  have key := hw.sent (dst := dst) (b := b) (G' := G) (fun hn l hl => by
    rcases hb with hb | hb
    · rw [dataNumbers, if_neg hb]
      simpa [dataNumbers] using hl
    · exact absurd (hn.mono hw.net) hb)
  unfold M.udpSend
  dsimp only
  cases E.snd w.nSnd <;> exact key _

theorem calm_flushIncoming (len : Nat) : KeepsCalm E sid rid m k l0 G U nr (flushIncoming E len) := by
  unfold flushIncoming
  refine Holds.get fun s => ?_
  split
  · refine Holds.seq (Q := fun _ => Cal E sid rid m k l0 G U nr) (Holds.modS fun w hw => hw.1.same ?_) fun _ => Holds.pure fun _ h => h
    unfold Socket.takePending Socket.advanceIncoming; dsimp only; split
    · split <;> exact .of rfl rfl rfl rfl rfl rfl rfl
    · exact .of rfl rfl rfl rfl rfl rfl rfl
  · split
    · exact Holds.pure fun _ h => h.1
    · refine Holds.seq Holds.overflowIf fun _ => ?_
      split
      · refine Holds.seq (Q := fun _ => Cal E sid rid m k l0 G U nr) (Holds.orPanic fun _ _ w hw => hw.1) fun pl =>
          Holds.seq (calm_modS fun s => ?_) fun _ => Holds.pure fun _ h => h
        unfold Socket.takeHead Socket.advanceIncoming; split
        · split <;> exact .of rfl rfl rfl rfl rfl rfl rfl
        · exact .of rfl rfl rfl rfl rfl rfl rfl
      · exact Holds.pure fun _ h => h.1

theorem calm_fastResendRequest (hk : ¬ NoLossSign E sid rid m k) : KeepsCalm E sid rid m k l0 G U nr (fastResendRequest E) := by
  have hf : KeepsCalm E sid rid m k l0 G U nr (fastResendOne E) := by
    unfold fastResendOne
    exact Holds.get fun s => Holds.seq (Q := fun _ => Cal E sid rid m k l0 G U nr) (calm_now.pre fun _ h => h.1) fun t =>
      Holds.ignoreErr (Q := fun _ => Cal E sid rid m k l0 G U nr) (calm_udpSend (.inr hk)) fun _ h => h
  exact Holds.seq hf fun _ => Holds.seq hf fun _ => hf

theorem calm_handleReceiveTimeout (hk : ¬ NoLossSign E sid rid m k) : KeepsCalm E sid rid m k l0 G U nr (handleReceiveTimeout E) := by
  unfold handleReceiveTimeout
  refine Holds.get fun s => Holds.seq Holds.overflowIf fun _ =>
    Holds.seq (Q := fun _ => Cal E sid rid m k l0 G U nr) (Holds.modS fun w hw => hw.1.same (.of rfl rfl rfl rfl rfl rfl rfl)) fun _ => ?_
  rcases e : s.sendWindow with _ | ⟨p, rest⟩
  · dsimp only
    split
    · exact Holds.seq calm_now fun t => calm_udpSend (.inr hk)
    · split
      · exact calm_fastResendRequest hk
      · exact Holds.pure fun w hw => hw
  · exact Holds.seq calm_now fun t => Holds.seq (calm_modS fun s => .of rfl rfl rfl rfl rfl rfl rfl) fun _ => calm_udpSend (.inr hk)

/-- A datagram just arrived; it is not yet counted. -/
def NewDgram (E : Env) (sid rid : U16) (m k : Nat) (l0 : List Act) (G : List Nat) (U : List U16) (nr : U16) (b : Bytes) (src : Addr) (w : World) : Prop :=
  ∃ n c, w.nNet = n + 1 ∧ m ≤ n ∧ E.net n = .dgram c src ∧ b = c.take 1520 ∧ Calm E sid rid m k l0 G U nr n w

theorem Calm.waited {w : World} (h : Cal E sid rid m k l0 G U nr w) (t : Option U64) :
    Calm E sid rid m k l0 G U nr w.nNet { w with nNet := w.nNet + 1, log := w.log ++ [.wait t] } := by
  refine ⟨Nat.le_succ_of_le h.lo, Nat.le_succ_of_le h.net, h.opened, h.ids, h.seq, h.uns, h.dup, ?_⟩
  obtain ⟨l, e, hl⟩ := h.log
  refine ⟨l ++ [.wait t], by rw [e, List.append_assoc], fun hn => ?_⟩
  rw [dataNumbers_append]
  simpa [dataNumbers] using hl (hn.mono (Nat.le_succ _))

theorem calm_recvWait : ∀ fuel retries, Holds (Cal E sid rid m k l0 G U nr) (Cal E sid rid m k l0 G U nr) (recvWait E fuel retries)
    (fun r w => NewDgram E sid rid m k l0 G U nr r.1 r.2 w)
  | 0, _ => Holds.never fun _ h => h
  | fuel + 1, retries => by
    unfold recvWait
    refine Holds.get fun s => ?_
    split
    · exact Holds.seq (Q := fun _ => Cal E sid rid m k l0 G U nr) (Holds.modS fun w hw => hw.1.same ⟨rfl, rfl, rfl, rfl, rfl, rfl, fun _ => by simp⟩) fun _ => Holds.throw fun _ h => h
    · refine Holds.seq (Q := fun r w => match r with
        | .ok (b, src) => NewDgram E sid rid m k l0 G U nr b src w
        | .error e => Cal E sid rid m k l0 G U nr w ∧ (isTimeout e = true → ¬ NoLossSign E sid rid m w.nNet)) ?_ fun r => ?_
      · intro w ⟨hw, _⟩
        unfold M.udpRecv
        dsimp only
        have hx := fun t => hw.waited t
        rcases e : E.net w.nNet with ⟨b, src⟩ | kk | _
        · exact ⟨w.nNet, b, rfl, hw.lo, e, rfl, hx _⟩
        · refine ⟨(hx _).later (Nat.le_succ _), fun ht hn => hn.timeout w.nNet hw.lo (Nat.lt_succ_self _) ?_⟩
          rw [e]
          unfold NetEvent.isTimeout
          cases kk <;> simp_all [isTimeout]
        · exact (hx _).later (Nat.le_succ _)
      · rcases r with e | ⟨b, src⟩
        · dsimp only
          split
          · rename_i ht
            exact Holds.seq (Q := fun _ => Cal E sid rid m k l0 G U nr) (KeepsCalm.from_here (fun _ h => h.1) fun w hw => calm_handleReceiveTimeout (hw.2 ht)) fun _ => calm_recvWait fuel (retries + 1)
          · exact Holds.throw fun _ h => h.1
        · exact Holds.pure fun w hw => hw

section
variable {rec : M (Bytes × Addr)} (hr : ∀ k, KeepsCalm E sid rid m k l0 G U nr rec)
include hr

/-- The wait of `send_packet`. -/
theorem calm_room (fuel : Nat) (x : U32) (start : U32) : KeepsCalm E sid rid m k l0 G U nr (whileM fuel
    (do
      let s ← getS
      if x ≤ s.currWindow then
        let t ← now E
        return decide (tsSub t start < PRE_SEND_TIMEOUT)
      else return false)
    (andThen rec fun _ => ret ())) := by
  refine Holds.whileM ?_ (Holds.andThen (hr k) fun _ => Holds.ret fun _ h => h) (fun _ h => h) _
  refine Holds.get fun s1 => ?_
  split
  · exact Holds.seq (Q := fun _ => Cal E sid rid m k l0 G U nr) (calm_now.pre fun w hw => hw.1) fun t => Holds.pure fun _ h => h
  · exact Holds.pure fun _ h => h.1

theorem calm_resend (fuel : Nat) (p : Packet) (hk : ¬ NoLossSign E sid rid m k) : KeepsCalm E sid rid m k l0 G U nr (sendPacket E fuel rec p) := by
  unfold sendPacket
  refine Holds.get fun s => Holds.seq (Q := fun _ => Cal E sid rid m k l0 G U nr) (calm_now.pre fun w hw => hw.1) fun t =>
    Holds.seq (calm_room hr fuel _ t) fun _ => Holds.get fun s => ?_
  split
  · exact Holds.pure fun _ h => h.1
  · exact Holds.seq (Q := fun _ => Cal E sid rid m k l0 G U nr) (calm_now.pre fun w hw => hw.1) fun t => Holds.seq (calm_udpSend (.inr hk)) fun _ => Holds.pure fun _ h => h

/-- A packet that is sent for the first time. -/
theorem calm_sendPacket (fuel : Nat) {p : Packet} : Holds (Cal E sid rid m k l0 (G ++ [p.seqNr.toNat]) U nr) (Cal E sid rid m k l0 G U nr) (sendPacket E fuel rec p)
    (fun _ => Cal E sid rid m k l0 (G ++ [p.seqNr.toNat]) U nr) := by
  have hm : ∀ w, Cal E sid rid m k l0 G U nr w → Cal E sid rid m k l0 (G ++ [p.seqNr.toNat]) U nr w := fun w h => h.more (List.sublist_append_left _ _)
  unfold sendPacket
  refine Holds.get fun s => Holds.seq (Q := fun _ => Cal E sid rid m k l0 G U nr) (fun w hw => hw.1.tick) fun t =>
    Holds.seq (Holds.fails (calm_room hr fuel _ t) hm) fun _ => Holds.get fun s => ?_
  split
  · exact Holds.pure fun w h => hm w h.1
  · refine Holds.seq (Q := fun _ => Cal E sid rid m k l0 G U nr) (fun w hw => hw.1.tick) fun t => Holds.seq (Q := fun _ => Cal E sid rid m k l0 (G ++ [p.seqNr.toNat]) U nr) ?_ fun _ => Holds.pure fun _ h => h
    intro w hw
    have key := hw.sent (dst := s.connectedTo) (b := ((p.setTimestamp t).setTimestampDifference s.theirDelay).bytes) (G' := G ++ [p.seqNr.toNat]) (fun hn l hl => by
      simp only [dataNumbers]
      split
      · rw [seqNr_bytes, setTimestampDifference_seqNr, setTimestamp_seqNr]
        exact List.Sublist.append_right hl _
      · simpa using hl.trans (List.sublist_append_left _ _))
    unfold M.udpSend
    dsimp only
    cases E.snd w.nSnd <;> exact key _

theorem calm_resendLost (fuel : Nat) (x : U16) (hk : ¬ NoLossSign E sid rid m k) : KeepsCalm E sid rid m k l0 G U nr (resendLost E fuel rec x) := by
  unfold resendLost
  refine Holds.get fun s => ?_
  split
  · exact Holds.pure fun _ h => h.1
  · rename_i p e
    exact Holds.ignoreErr (Q := fun _ => Cal E sid rid m k l0 G U nr) ((calm_resend hr fuel p hk).pre fun _ h => h.1) fun _ h => h

theorem calm_resendMissing (fuel : Nat) (ack last : U16) (hk : ¬ NoLossSign E sid rid m k) :
    ∀ bits loss, KeepsCalm E sid rid m k l0 G U nr (resendMissing E fuel rec ack last bits loss) := by
  intro bits
  induction bits with
  | nil => intro loss; exact Holds.pure fun _ h => h
  | cons x rest ih =>
    intro loss
    obtain ⟨idx, received⟩ := x
    unfold resendMissing
    split
    · exact ih _
    · refine Holds.seq Holds.overflowIf fun _ => ?_
      dsimp only
      split
      · exact Holds.seq (calm_resendLost hr _ _ hk) fun _ => ih _
      · exact Holds.pure fun _ h => h

theorem calm_processExtensions (fuel : Nat) (ack : U16) : ∀ exts loss, (∀ e ∈ exts, e.ty = .selectiveAck → ¬ NoLossSign E sid rid m k) →
    KeepsCalm E sid rid m k l0 G U nr (processExtensions E fuel rec ack exts loss) := by
  intro exts
  induction exts with
  | nil => intro loss _; exact Holds.pure fun _ h => h
  | cons e rest ih =>
    intro loss hx
    have ih := fun loss => ih loss fun e he => hx e (List.mem_cons_of_mem _ he)
    unfold processExtensions
    split
    · rename_i he
      have hk := hx e List.mem_cons_self he
      refine Holds.seq (Q := fun _ => Cal E sid rid m k l0 G U nr) ?_ fun loss1 => Holds.get fun s => ?_
      · unfold resendFirst
        split
        · exact Holds.seq Holds.overflowIf fun _ => Holds.seq (calm_resendLost hr _ _ hk) fun _ => Holds.pure fun _ h => h
        · exact Holds.pure fun _ h => h
      · split
        · exact (ih _).pre fun _ h => h.1
        · exact Holds.seq (Q := fun _ => Cal E sid rid m k l0 G U nr) (Holds.orPanic fun _ _ _ h => h.1) fun bits => Holds.seq (calm_resendMissing hr _ _ _ hk _ _) fun _ => ih _
    · exact ih _

omit hr in
/-- A selective ack is a sign of loss. -/
theorem sack_sign {n : Nat} {pkt : Packet} (hm : m ≤ n) (hs : StateAt E sid rid n pkt) {exts : List Extension} (he : pkt.extensions = some exts)
    {e : Extension} (h1 : e ∈ exts) (h2 : e.ty = .selectiveAck) : ¬ NoLossSign E sid rid m (n + 1) := by
  intro hn
  obtain ⟨b, src, _, hb, _⟩ := id hs
  obtain ⟨d, hd, hbd, _, l, hl, hmap⟩ := C03_accepted hb
  rw [he] at hl
  cases hl
  have hmem : (e.ty.toU8, e.data) ∈ d.exts.map (fun e => (e.code, e.data)) := by rw [← hmap]; exact List.mem_map_of_mem h1
  obtain ⟨x, hx, hxe⟩ := List.mem_map.mp hmem
  refine hn.sack n pkt d hm (Nat.lt_succ_self _) hs hd (by rw [C02_lossless hb, hbd]) x hx ?_
  have := congrArg Prod.fst hxe
  simp only at this
  rw [this, h2]
  rfl

theorem calm_handleState (fuel n : Nat) {pkt : Packet} (hm : m ≤ n) (hs : StateAt E sid rid n pkt) :
    Holds (Cal E sid rid m k l0 G U nr) (fun w => Calm E sid rid m k l0 G U nr n w ∧ w.nNet = n + 1) (handleState E fuel rec pkt) (fun _ => Cal E sid rid m k l0 G U nr) := by
  suffices h : Holds (Cal E sid rid m (n + 1) l0 G U nr) (fun w => Calm E sid rid m (n + 1) l0 G U nr n w ∧ w.nNet = n + 1) (handleState E fuel rec pkt) (fun _ => Cal E sid rid m (n + 1) l0 G U nr) by
    intro w ⟨hw, hn⟩
    have h1 := h w ⟨hw.lower (by omega), hn⟩
    have hl := hw.net
    rcases e : handleState E fuel rec pkt w with ⟨r, v⟩
    rw [e] at h1
    cases r with
    | panic => trivial
    | _ => exact h1.lower (by have := h1.net; omega)
  unfold handleState
  refine Holds.seq (Q := fun _ => Cal E sid rid m (n + 1) l0 G U nr) ?_ fun _ => Holds.seq (Q := fun _ => Cal E sid rid m (n + 1) l0 G U nr) ?_ fun _ => Holds.get fun s =>
    Holds.seq (Q := fun exts w => Cal E sid rid m (n + 1) l0 G U nr w ∧ pkt.extensions = some exts) (Holds.orPanic fun _ e _ h => ⟨h.1, e⟩) fun exts => ?_
  · unfold countAck
    have grow : ∀ w is a, Calm E sid rid m (n + 1) l0 G U nr n w → w.nNet = n + 1 → AckedAt E sid rid m n a is → pkt.ackNr = a → AckedAt E sid rid m w.nNet a (is ++ [n]) := by
      intro w is a _ hn ⟨h1, h2⟩ ha
      refine ⟨List.pairwise_append.mpr ⟨h1, by simp, fun x hx y hy => ?_⟩, fun i hi => ?_⟩
      · rw [List.mem_singleton.mp hy]; exact (h2 x hx).2.1
      · rcases List.mem_append.mp hi with hi | hi
        · exact ⟨(h2 i hi).1, by have := (h2 i hi).2.1; omega, (h2 i hi).2.2⟩
        · rw [List.mem_singleton.mp hi]; exact ⟨hm, by omega, pkt, hs, ha⟩
    refine Holds.get fun s => ?_
    split
    · rename_i ha
      refine Holds.seq Holds.overflowIf fun _ => Holds.modS fun w ⟨⟨hw, hn⟩, e⟩ => ?_
      obtain ⟨is, h1, h2⟩ := hw.dup
      refine ⟨hw.lo, hw.net, hw.opened, hw.ids, hw.seq, hw.uns, ⟨is ++ [n], grow w is _ hw hn h1 (by rw [e]; exact ha), ?_⟩, hw.log⟩
      show (w.s.dupAcks + 1).toNat ≤ _
      rw [List.length_append, List.length_singleton, BitVec.toNat_add]
      exact Nat.le_trans (Nat.mod_le _ _) (Nat.add_le_add_right h2 1)
    · refine Holds.seq (Q := fun _ w => Calm E sid rid m (n + 1) l0 G U nr n w ∧ w.nNet = n + 1) (fun w hw => ⟨hw.1.1.tick, hw.1.2⟩) fun t => Holds.modS fun w ⟨hw, hn⟩ => ?_
      exact ⟨hw.lo, hw.net, hw.opened, hw.ids, hw.seq, hw.uns, ⟨[] ++ [n], grow w [] _ hw hn ⟨by simp, by simp⟩ rfl, by simp⟩, hw.log⟩
  · unfold measureAck
    refine Holds.get fun s => ?_
    split
    · exact Holds.pure fun _ h => h.1
    · refine Holds.seq (Q := fun _ w => Cal E sid rid m (n + 1) l0 G U nr w ∧ w.s = s) (fun w hw => ⟨hw.1.tick, hw.2⟩) fun t =>
        Holds.seq (Q := fun _ w => Cal E sid rid m (n + 1) l0 G U nr w ∧ w.s = s) (Holds.orPanic fun _ _ _ h => h) fun p =>
        Holds.seq (Q := fun s' w => (Cal E sid rid m (n + 1) l0 G U nr w ∧ w.s = s) ∧ SameCalm s s') (Holds.orPanic fun s' e w h => ⟨h, ?_⟩) fun s' =>
        Holds.modS fun w hw => hw.1.1.same (by rw [hw.1.2]; exact hw.2)
      exact .of (onNewAck_senderId e) (onNewAck_receiverId e) (onNewAck_seqNr e) (onNewAck_unsent e) (onNewAck_dupAcks e) (onNewAck_lastAcked e) (onNewAck_state e)
  · intro w0 hw0
    have hx : ∀ e ∈ exts, e.ty = .selectiveAck → ¬ NoLossSign E sid rid m (n + 1) := fun e h1 h2 => sack_sign hm hs hw0.2 h1 h2
    refine Holds.seq (P := Cal E sid rid m (n + 1) l0 G U nr) (calm_processExtensions hr fuel _ _ _ hx) (fun loss =>
      Holds.seq (Q := fun _ => Cal E sid rid m (n + 1) l0 G U nr) ?_ fun _ => Holds.seq (calm_modS fun s => ?_) fun _ => Holds.get fun s => ?_) w0 hw0.1
    · unfold fastRetransmit
      refine Holds.get fun s => ?_
      split
      · rename_i hc
        refine Holds.seq Holds.overflowIf fun _ => KeepsCalm.from_here (fun _ h => h.1) fun w hw => calm_resendLost hr _ _ ?_
        obtain ⟨is, h1, h2⟩ := hw.1.dup
        refine h1.three (Nat.le_trans ?_ h2)
        rw [hw.2, hc.2.1]
        decide
      · exact Holds.pure fun _ h => h.1
    · split
      · exact .of rfl rfl rfl rfl rfl rfl rfl
      · exact .of rfl rfl rfl rfl rfl rfl rfl
    · refine Holds.seq (Q := fun s' w => (Cal E sid rid m (n + 1) l0 G U nr w ∧ w.s = s) ∧ SameCalm s s') (Holds.orPanic fun s' e w h => ⟨h, ?_⟩) fun s' =>
        Holds.modS fun w hw => hw.1.1.same (by rw [hw.1.2]; exact hw.2)
      exact .of (advanceSendWindow_senderId e) (advanceSendWindow_receiverId e) (advanceSendWindow_seqNr e) (advanceSendWindow_unsent e) (advanceSendWindow_dupAcks e) (advanceSendWindow_lastAcked e) (advanceSendWindow_state e)

/-- A reply is no Data packet. -/
def NoDataReply (r : Option Packet) : Prop := ∀ reply, r = some reply → ∃ ty, reply.getType = some ty ∧ ty ≠ .data

omit hr in
theorem prepared_noData {s : Socket} {t : U32} {pkt : Packet} {ty : PacketType} (h : ty ≠ .data) : NoDataReply (some (s.prepareReply t pkt ty)) := by
  intro reply hr
  cases hr
  exact ⟨ty, (prepareReply_plain s t pkt ty).ty, h⟩

omit hr in
theorem calm_replyWith {pkt : Packet} {ty : PacketType} (h : ty ≠ .data) :
    Holds (Cal E sid rid m k l0 G U nr) (Cal E sid rid m k l0 G U nr) (replyWith E pkt ty) (fun r w => Cal E sid rid m k l0 G U nr w ∧ NoDataReply r) := by
  unfold replyWith
  exact Holds.get fun s => Holds.seq (Q := fun _ => Cal E sid rid m k l0 G U nr) (calm_now.pre fun _ h => h.1) fun t => Holds.pure fun w hw => ⟨hw, prepared_noData h⟩

omit hr in
theorem calm_withSack {s : Socket} {t : U32} {pkt : Packet} {ty : PacketType} (h : ty ≠ .data) :
    Holds (Cal E sid rid m k l0 G U nr) (Cal E sid rid m k l0 G U nr) (withSack E s pkt (s.prepareReply t pkt ty)) (fun r w => Cal E sid rid m k l0 G U nr w ∧ NoDataReply (some r)) := by
  unfold withSack
  split
  · refine Holds.seq (Q := fun sack w => Cal E sid rid m k l0 G U nr w ∧ s.buildSack E = some sack) (Holds.orPanic fun _ e _ h => ⟨h, e⟩) fun sack => ?_
    split
    · rename_i hne
      refine Holds.orPanic fun r e w hw => ⟨hw.1, fun reply hr => ?_⟩
      cases hr
      exact ⟨ty, (setSack_reply (prepareReply_bytes s t pkt ty).1 (prepareReply_bytes s t pkt ty).2 (buildSack_len hw.2) hne e).1.trans (prepareReply_plain s t pkt ty).ty, h⟩
    · exact Holds.pure fun w hw => ⟨hw.1, prepared_noData h⟩
  · exact Holds.pure fun w hw => ⟨hw, prepared_noData h⟩

omit hr in
theorem calm_handleData {pkt : Packet} :
    Holds (Cal E sid rid m k l0 G U nr) (Cal E sid rid m k l0 G U nr) (handleData E pkt) (fun r w => Cal E sid rid m k l0 G U nr w ∧ NoDataReply (some r)) := by
  unfold handleData
  refine Holds.get fun s => Holds.seq (Q := fun _ => Cal E sid rid m k l0 G U nr) (calm_now.pre fun _ h => h.1) fun t => calm_withSack ?_
  split <;> simp

omit hr in
theorem calm_onFin {pkt : Packet} :
    Holds (Cal E sid rid m k l0 G U nr) (Cal E sid rid m k l0 G U nr) (onFin E pkt) (fun r w => Cal E sid rid m k l0 G U nr w ∧ NoDataReply r) := by
  unfold onFin
  exact Holds.get fun s => Holds.seq (Q := fun _ => Cal E sid rid m k l0 G U nr) (calm_now.pre fun _ h => h.1) fun t => Holds.seq (calm_withSack (by simp)) fun r =>
    Holds.seq (Q := fun _ w => Cal E sid rid m k l0 G U nr w ∧ NoDataReply (some r)) (Holds.modS fun w hw => ⟨hw.1.same ⟨rfl, rfl, rfl, rfl, rfl, rfl, fun _ => by simp⟩, hw.2⟩) fun _ => Holds.pure fun _ h => h

theorem calm_dispatch (fuel n : Nat) {pkt : Packet} (src : Addr) (st : SocketState) (ty : PacketType) (hm : m ≤ n) (hs : ty = .state → st = .connected → StateAt E sid rid n pkt) :
    Holds (Cal E sid rid m k l0 G U nr) (fun w => Calm E sid rid m k l0 G U nr n w ∧ w.nNet = n + 1 ∧ w.s.state = st) (dispatch E fuel rec pkt src st ty)
      (fun r w => Cal E sid rid m k l0 G U nr w ∧ NoDataReply r) := by
  have H : ∀ w, (Calm E sid rid m k l0 G U nr n w ∧ w.nNet = n + 1 ∧ w.s.state = st) → Cal E sid rid m k l0 G U nr w := fun w h => h.1.later (by omega)
  have none : ∀ w, Cal E sid rid m k l0 G U nr w → Cal E sid rid m k l0 G U nr w ∧ NoDataReply none := fun w h => ⟨h, fun _ h => by cases h⟩
  unfold dispatch
  split
  · exact fun w hw => absurd hw.2.2 hw.1.opened.1
  · exact (calm_replyWith (by simp)).pre H
  · exact fun w hw => absurd hw.2.2 hw.1.opened.2
  · exact fun w hw => absurd hw.2.2 hw.1.opened.2
  · exact Holds.seq (calm_handleData.pre H) fun r => Holds.pure fun _ h => h
  · exact Holds.seq (calm_handleData.pre H) fun r => Holds.pure fun _ h => h
  · exact Holds.seq ((calm_handleState hr fuel n hm (hs rfl rfl)).pre fun _ h => ⟨h.1, h.2.1⟩) fun r => Holds.pure none
  · exact calm_onFin.pre H
  · exact calm_onFin.pre H
  · exact (calm_replyWith (by simp)).pre H
  · unfold onFinAck
    refine Holds.seq (Q := fun _ => Cal E sid rid m k l0 G U nr) (Holds.modS fun w hw => (H w hw).same ?_) fun _ => Holds.pure none
    split
    · exact ⟨rfl, rfl, rfl, rfl, rfl, rfl, fun _ => by simp⟩
    · exact .of rfl rfl rfl rfl rfl rfl rfl
  · unfold onReset
    exact Holds.seq (Q := fun _ => Cal E sid rid m k l0 G U nr) (Holds.modS fun w hw => (H w hw).same ⟨rfl, rfl, rfl, rfl, rfl, rfl, fun _ => by simp⟩) fun _ => Holds.throw fun _ h => h
  · exact Holds.throw H

theorem calm_handlePacket (fuel n : Nat) {pkt : Packet} {c : Bytes} (src : Addr) (hm : m ≤ n) (hc : E.net n = .dgram c src) (hp : Packet.tryFrom (c.take 1520) = some (.ok pkt)) :
    Holds (Cal E sid rid m k l0 G U nr) (fun w => Calm E sid rid m k l0 G U nr n w ∧ w.nNet = n + 1) (handlePacket E fuel rec pkt src)
      (fun r w => Cal E sid rid m k l0 G U nr w ∧ NoDataReply r) := by
  unfold handlePacket
  refine Holds.seq (Q := fun _ w => Calm E sid rid m k l0 G U nr n w ∧ w.nNet = n + 1) (Holds.modS fun w hw => ⟨hw.1.same ?_, hw.2⟩) fun _ => Holds.get fun s =>
    Holds.seq (Q := fun ty w => ((Calm E sid rid m k l0 G U nr n w ∧ w.nNet = n + 1) ∧ w.s = s) ∧ pkt.getType = some ty) (Holds.orPanic fun _ e _ h => ⟨h, e⟩) fun ty => ?_
  · unfold Socket.bumpAck
    split <;> exact .of rfl rfl rfl rfl rfl rfl rfl
  · split
    · exact (calm_replyWith (by simp)).pre fun w hw => hw.1.1.1.later (by omega)
    · rename_i hh
      intro w0 hw0
      have hs : ty = .state → s.state = .connected → StateAt E sid rid n pkt := by
        intro h1 h2
        refine ⟨c, src, hc, hp, by rw [hw0.2, h1], ?_⟩
        by_contra h3
        refine hh ⟨by rw [h1]; simp, by rw [h2]; simp, ?_⟩
        rw [← hw0.1.2, hw0.1.1.1.ids.1, hw0.1.1.1.ids.2]
        exact h3
      refine Holds.seq (P := fun w => (Calm E sid rid m k l0 G U nr n w ∧ w.nNet = n + 1) ∧ w.s = s) (Q := fun _ w => (Calm E sid rid m k l0 G U nr n w ∧ w.nNet = n + 1) ∧ w.s = s)
        (show Holds _ _ (M.now E) _ from fun w hw => ⟨⟨hw.1.1.tick, hw.1.2⟩, hw.2⟩) (fun t => Holds.seq (Q := fun _ w => Calm E sid rid m k l0 G U nr n w ∧ w.nNet = n + 1 ∧ w.s.state = s.state) (Holds.modS fun w hw => ?_) fun _ =>
        calm_dispatch hr fuel n src s.state ty hm hs) w0 hw0.1
      exact ⟨hw.1.1.same (.of rfl rfl rfl rfl rfl rfl rfl), hw.1.2, by rw [← hw.2]⟩

theorem calm_recvPacket (fuel len n : Nat) {pkt : Packet} {c : Bytes} (src : Addr) (hm : m ≤ n) (hc : E.net n = .dgram c src) (hp : Packet.tryFrom (c.take 1520) = some (.ok pkt)) :
    Holds (Cal E sid rid m k l0 G U nr) (fun w => Calm E sid rid m k l0 G U nr n w ∧ w.nNet = n + 1) (recvPacket E fuel rec len pkt src) (fun _ => Cal E sid rid m k l0 G U nr) := by
  unfold recvPacket
  refine Holds.seq (calm_handlePacket hr fuel n src hm hc hp) fun r => Holds.seq (Q := fun _ => Cal E sid rid m k l0 G U nr) ?_ fun _ =>
    Holds.seq (Q := fun _ => Cal E sid rid m k l0 G U nr) (Holds.orPanic fun _ _ _ h => h) fun ty => Holds.seq (calm_modS fun s => ?_) fun _ =>
    Holds.seq (calm_flushIncoming len) fun _ => Holds.pure fun _ h => h
  · unfold sendReply
    split
    · rename_i reply
      intro v hv
      obtain ⟨ty, g1, g2⟩ := hv.2 reply rfl
      refine calm_udpSend (.inl ?_) v hv.1
      rw [getType_kind (t := ty) (by rw [setWndSize_getType]; exact g1)]
      cases ty <;> simp_all <;> decide
    · exact Holds.pure fun _ h => h.1
  · split
    · exact .of rfl rfl rfl rfl rfl rfl rfl
    · exact .of rfl rfl rfl rfl rfl rfl rfl

theorem calm_recvBody (fuel len : Nat) : KeepsCalm E sid rid m k l0 G U nr (recvBody E fuel rec len) := by
  unfold recvBody
  refine Holds.seq (calm_recvWait fuel 0) fun ⟨b, src⟩ => ?_
  dsimp only
  refine Holds.seq (Q := fun r w => NewDgram E sid rid m k l0 G U nr b src w ∧ Packet.tryFrom b = some r) (Holds.orPanic fun _ e _ h => ⟨h, e⟩) fun r => ?_
  rcases r with e | pkt
  · refine Holds.get fun s => Holds.pure ?_
    rintro w ⟨⟨⟨n, c, h1, _, _, _, h4⟩, _⟩, _⟩
    exact h4.later (by omega)
  · intro w hw
    obtain ⟨⟨n, c, h1, h2, h3, rfl, h5⟩, hp⟩ := hw
    exact calm_recvPacket hr fuel len n src h2 h3 hp w ⟨h5, h1⟩

end

theorem calm_recv : ∀ fuel len k, KeepsCalm E sid rid m k l0 G U nr (recv E fuel len)
  | 0, _, _ => Holds.never fun _ h => h
  | fuel + 1, len, _ => calm_recvBody (fun k => calm_recv fuel BUF_SIZE k) fuel len

theorem calm_recvFromLoop (fuel len : Nat) : ∀ n, KeepsCalm E sid rid m k l0 G U nr (recvFromLoop E fuel len n)
  | 0 => Holds.never fun _ h => h
  | n + 1 => by
    unfold recvFromLoop
    refine Holds.get fun s => ?_
    split
    · exact Holds.pure fun _ h => h.1
    · refine Holds.seq ((calm_recv fuel len k).pre fun _ h => h.1) fun ⟨out, src⟩ => ?_
      dsimp only
      split
      · exact calm_recvFromLoop fuel len n
      · exact Holds.pure fun _ h => h

theorem calm_recvFrom (fuel len : Nat) : KeepsCalm E sid rid m k l0 G U nr (recvFrom E fuel len) := by
  unfold recvFrom
  refine Holds.seq (calm_flushIncoming len) fun out => Holds.get fun s => ?_
  split
  · exact Holds.pure fun _ h => h.1
  · split
    · exact Holds.throw fun _ h => h.1
    · exact (calm_recvFromLoop fuel len fuel).pre fun _ h => h.1

theorem calm_scratchRecv (fuel : Nat) : KeepsCalm E sid rid m k l0 G U nr (scratchRecv E fuel) :=
  Holds.seq (calm_recv fuel BUF_SIZE k) fun _ => Holds.pure fun _ h => h

theorem calm_flush (fuel : Nat) : KeepsCalm E sid rid m k l0 G U nr (flush E fuel) :=
  Holds.whileM (Holds.get fun _ => Holds.pure fun _ h => h.1) (calm_scratchRecv fuel) (fun _ h => h) fuel

theorem calm_close (fuel : Nat) : KeepsCalm E sid rid m k l0 G U nr (close E fuel) := by
  unfold close
  refine Holds.get fun s => ?_
  split
  · exact Holds.pure fun _ h => h.1
  · refine Holds.seq ((calm_flush fuel).pre fun _ h => h.1) fun _ => Holds.get fun s => Holds.seq (Q := fun _ => Cal E sid rid m k l0 G U nr) (calm_now.pre fun _ h => h.1) fun t =>
      Holds.seq (calm_udpSend (.inl ?_)) fun _ => Holds.seq (calm_modS fun s => ⟨rfl, rfl, rfl, rfl, rfl, rfl, fun _ => by simp⟩) fun _ =>
      Holds.whileM (Holds.get fun s => Holds.pure fun _ h => h.1) (calm_scratchRecv fuel) (fun _ h => h) fuel
    rw [(finPacket_times s t).2.2]
    decide

/-- Without a sign of loss, the numbers sent since `l0` are some of `A`, and those in the queue are at the end of `A`. -/
def Orderly (E : Env) (sid rid : U16) (m : Nat) (l0 : List Act) (A : List Nat) (nr : U16) (w : World) : Prop :=
  ∃ G U, G ++ U.map BitVec.toNat = A ∧ Cal E sid rid m 0 l0 G U nr w

theorem calm_sendQueue {A : List Nat} (fuel : Nat) : ∀ n, Holds (Orderly E sid rid m l0 A nr) (Orderly E sid rid m l0 A nr) (sendQueue E fuel n) (fun _ => Orderly E sid rid m l0 A nr)
  | 0 => Holds.never fun _ h => h
  | n + 1 => by
    unfold sendQueue
    refine Holds.get fun s => ?_
    split
    · exact Holds.pure fun _ h => h.1
    · rename_i p rest e
      intro w ⟨⟨G, U, hA, hw⟩, hs⟩
      have hU : U = p.seqNr :: rest.map Packet.seqNr := by rw [← hw.uns, hs, e]; rfl
      have hfin : ∀ v, Cal E sid rid m 0 l0 (G ++ [p.seqNr.toNat]) (rest.map Packet.seqNr) nr v → Orderly E sid rid m l0 A nr v :=
        fun v hv => ⟨_, _, by rw [← hA, hU]; simp, hv⟩
      refine Holds.seq (P := fun w => Cal E sid rid m 0 l0 G U nr w ∧ w.s = s) (Q := fun _ => Cal E sid rid m 0 l0 G (rest.map Packet.seqNr) nr) (Holds.modS fun w hw => ?_) (fun _ =>
        Holds.seq (Holds.fails (calm_sendPacket (fun k => calm_recv fuel BUF_SIZE k) fuel) hfin) fun p' => Holds.get fun s1 => Holds.seq Holds.overflowIf fun _ =>
        Holds.seq (Q := fun _ => Orderly E sid rid m l0 A nr) (Holds.modS fun w hw => hfin _ (hw.1.same (.of rfl rfl rfl rfl rfl rfl rfl))) fun _ => calm_sendQueue fuel n) w ⟨hw, hs⟩
      exact ⟨hw.1.lo, hw.1.net, hw.1.opened, hw.1.ids, hw.1.seq, rfl, hw.1.dup, hw.1.log⟩

theorem consecutive_succ (a n : Nat) : consecutive a (n + 1) = consecutive a n ++ [(a + n) % 65536] := by
  simp [consecutive, List.range_succ]

theorem Orderly.enqueued {A : List Nat} {a : Nat} : ∀ (cs : List Bytes) {w : World} {N : Nat} {nr : U16}, Orderly E sid rid m l0 (A ++ consecutive a N) nr w → nr.toNat = (a + N) % 65536 →
    ∃ nr' : U16, nr'.toNat = (a + (N + cs.length)) % 65536 ∧ Orderly E sid rid m l0 (A ++ consecutive a (N + cs.length)) nr' { w with s := cs.foldl enqueue w.s }
  | [], w, N, nr, h, hn => ⟨nr, hn, h⟩
  | c :: cs, w, N, nr, h, hn => by
    obtain ⟨G, U, hA, hw⟩ := h
    have h1 : Orderly E sid rid m l0 (A ++ consecutive a (N + 1)) (nr + 1) { w with s := enqueue w.s c } := by
      refine ⟨G, U ++ [nr], ?_, hw.lo, hw.net, hw.opened, hw.ids, ?_, ?_, hw.dup, hw.log⟩
      · rw [consecutive_succ, ← List.append_assoc, ← hA, List.map_append, List.append_assoc, ← hn]
        rfl
      · show w.s.seqNr + 1 = _
        rw [hw.seq]
      · simp only [enqueue, List.map_append, hw.uns, List.map_cons, List.map_nil]
        rw [setConnectionId_seqNr, setAckNr_seqNr, setSeqNr_seqNr (h := by simp [Packet.withPayload, Packet.defaultHeader]), hw.seq]
    obtain ⟨nr', e1, e2⟩ := Orderly.enqueued cs h1 (by rw [BitVec.toNat_add, hn]; simp; omega)
    rw [show N + 1 + cs.length = N + (c :: cs).length by simp; omega] at e1 e2
    exact ⟨nr', e1, e2⟩

/-- `Orderly`, with the list given by a bound on the number of packets put into the queue so far. -/
def Order (E : Env) (sid rid : U16) (m : Nat) (l0 : List Act) (A : List Nat) (a N : Nat) (w : World) : Prop :=
  ∃ n, n ≤ N ∧ ∃ nr : U16, nr.toNat = (a + n) % 65536 ∧ Orderly E sid rid m l0 (A ++ consecutive a n) nr w

theorem Order.more {A : List Nat} {a N N' : Nat} {w : World} (h : Order E sid rid m l0 A a N w) (hN : N ≤ N') : Order E sid rid m l0 A a N' w :=
  h.imp fun _ h => ⟨by omega, h.2⟩

/-- A function that keeps `Calm` for any queue keeps `Order`. -/
theorem Order.of_calm {A : List Nat} {a N : Nat} {f : M α} (h : ∀ G U nr, KeepsCalm E sid rid m 0 l0 G U nr f) :
    Holds (Order E sid rid m l0 A a N) (Order E sid rid m l0 A a N) f (fun _ => Order E sid rid m l0 A a N) := by
  rintro w ⟨n, hn, nr, e, G, U, hA, hw⟩
  have h1 := h G U nr w hw
  rcases e : f w with ⟨r, v⟩
  rw [e] at h1
  cases r with
  | panic => trivial
  | _ => exact ⟨n, hn, nr, by assumption, G, U, hA, h1⟩

theorem order_sendTo {A : List Nat} {a N : Nat} (fuel : Nat) (buf : Bytes) :
    Holds (Order E sid rid m l0 A a (N + (buf.length + 1379) / 1380)) (Order E sid rid m l0 A a N) (sendTo E fuel buf) (fun _ => Order E sid rid m l0 A a (N + (buf.length + 1379) / 1380)) := by
  unfold sendTo
  refine Holds.get fun s => ?_
  split
  · exact Holds.throw fun _ h => h.1.more (Nat.le_add_right _ _)
  · rintro w ⟨⟨n, hn, nr, e, h⟩, _⟩
    obtain ⟨nr', e', h'⟩ := h.enqueued (chunks buf.length buf) e
    rw [chunks_length _ _ (Nat.le_refl _)] at e' h'
    have h2 : ∀ v, Orderly E sid rid m l0 (A ++ consecutive a (n + (buf.length + 1379) / 1380)) nr' v → Order E sid rid m l0 A a (N + (buf.length + 1379) / 1380) v :=
      fun v hv => ⟨_, by omega, nr', e', hv⟩
    have h3 : Holds (Order E sid rid m l0 A a (N + (buf.length + 1379) / 1380)) (Orderly E sid rid m l0 (A ++ consecutive a (n + (buf.length + 1379) / 1380)) nr')
        (M.andThen (sendQueue E fuel fuel) fun _ => M.ret buf.length) (fun _ => Order E sid rid m l0 A a (N + (buf.length + 1379) / 1380)) :=
      Holds.andThen ((Holds.fails (calm_sendQueue fuel fuel) h2).post fun _ v hv => h2 v hv) fun _ => Holds.ret fun _ h => h
    exact h3 _ h'

theorem order_runOp {A : List Nat} {a N : Nat} (fuel : Nat) (op : Op) :
    Holds (Order E sid rid m l0 A a (N + opPackets op)) (Order E sid rid m l0 A a N) (runOp E fuel op) (fun _ => Order E sid rid m l0 A a (N + opPackets op)) := by
  cases op with
  | recvFrom len => exact Order.of_calm fun _ _ _ => Holds.seq (calm_recvFrom fuel len) fun _ => Holds.pure fun _ h => h
  | sendTo buf => exact Holds.seq (order_sendTo fuel buf) fun _ => Holds.pure fun _ h => h
  | flush => exact Order.of_calm fun _ _ _ => Holds.seq (calm_flush fuel) fun _ => Holds.pure fun _ h => h
  | close => exact Order.of_calm fun _ _ _ => Holds.seq (calm_close fuel) fun _ => Holds.pure fun _ h => h
  | setMaxRetries n => exact Order.of_calm fun _ _ _ => Holds.seq (calm_modS fun _ => .of rfl rfl rfl rfl rfl rfl rfl) fun _ => Holds.pure fun _ h => h

/-- Where it begins. -/
theorem Calm.init {w : World} (hs : w.s.state ≠ .new ∧ w.s.state ≠ .synSent) (hd : w.s.dupAcks = 0) :
    Cal E w.s.senderId w.s.receiverId w.nNet 0 w.log [] (w.s.unsent.map Packet.seqNr) w.s.seqNr w :=
  ⟨Nat.le_refl _, Nat.zero_le _, hs, ⟨rfl, rfl⟩, rfl, rfl, ⟨[], ⟨.nil, fun _ h => by cases h⟩, by rw [hd]; exact Nat.le_refl _⟩, [], by simp, fun _ => by simp [dataNumbers]⟩

theorem Order.init {w : World} (hs : w.s.state ≠ .new ∧ w.s.state ≠ .synSent) (hd : w.s.dupAcks = 0) :
    Order E w.s.senderId w.s.receiverId w.nNet w.log (w.s.unsent.map fun p => p.seqNr.toNat) w.s.seqNr.toNat 0 w :=
  ⟨0, Nat.le_refl _, w.s.seqNr, by have := w.s.seqNr.isLt; omega, [], _, by simp [consecutive], Calm.init hs hd⟩

theorem Order.out {A : List Nat} {a N : Nat} {w : World} (h : Order E sid rid m l0 A a N w) (hn : NoLossSign E sid rid m w.nNet) :
    ∃ l, w.log = l0 ++ l ∧ (dataNumbers l).Sublist (A ++ consecutive a N) := by
  obtain ⟨n, hN, nr, _, G, U, hA, hw⟩ := h
  obtain ⟨l, e, hl⟩ := hw.log
  refine ⟨l, e, (hl hn).trans ((List.sublist_append_left G (U.map BitVec.toNat)).trans ?_)⟩
  rw [hA]
  refine List.Sublist.append_left (List.Sublist.map _ ?_) _
  have : List.range N = List.range n ++ (List.range (N - n)).map (n + ·) := by
    rw [← List.range_add]; congr 1; omega
  rw [this]
  exact List.sublist_append_left _ _

theorem consecutive_nodup {a n : Nat} (h : n ≤ 65536) : (consecutive a n).Nodup := by
  refine List.Nodup.map_on ?_ List.nodup_range
  intro x hx y hy e
  simp only [List.mem_range] at hx hy
  omega

/-! ### A socket just connected -/

/-- No duplicate acknowledgement counted and nothing in the queue or in the buffers. -/
def Blank (w : World) : Prop := w.s.dupAcks = 0 ∧ w.s.unsent = [] ∧ w.s.pending = [] ∧ w.s.incoming = []

def Unmet (w : World) : Prop := Blank w ∧ (w.s.state = .new ∨ w.s.state = .synSent)

theorem blank_udpSend {P : World → Prop} (hP : ∀ w n l, P w → P { w with nSnd := n, log := l }) {dst : Addr} {b : Bytes} : Holds P P (M.udpSend E dst b) (fun _ => P) := by
  intro w hw
  unfold M.udpSend
  dsimp only
  cases E.snd w.nSnd <;> exact hP _ _ _ hw

theorem blank_synLoop : ∀ n t, Holds Unmet Unmet (synLoop E n t) (fun _ => Unmet)
  | 0, _ => Holds.pure fun _ h => h
  | n + 1, t => by
    unfold synLoop
    refine Holds.get fun s => Holds.seq (Q := fun _ => Unmet) (fun w hw => hw.1) fun t => Holds.seq (blank_udpSend fun w _ _ h => h) fun _ =>
      Holds.seq (Q := fun _ => Unmet) (Holds.modS fun w hw => ⟨hw.1, .inr rfl⟩) fun _ => Holds.seq (Q := fun _ => Unmet) ?_ fun r => ?_
    · intro w hw
      unfold M.udpRecv
      dsimp only
      rcases e : E.net w.nNet with ⟨b, src⟩ | kk | _ <;> exact hw
    · split
      · exact Holds.seq (Q := fun _ => Unmet) (Holds.modS fun w hw => hw) fun _ => Holds.pure fun _ h => h
      · split
        · exact blank_synLoop n _
        · exact Holds.throw fun _ h => h

theorem blank_replyWith {pkt : Packet} {ty : PacketType} : Holds Blank Blank (replyWith E pkt ty) (fun _ => Blank) := by
  unfold replyWith
  exact Holds.get fun s => Holds.seq (Q := fun _ => Blank) (fun w hw => hw.1) fun t => Holds.pure fun _ h => h

theorem blank_handlePacket (fuel : Nat) {rec : M (Bytes × Addr)} (pkt : Packet) (src : Addr) : Holds Blank Unmet (handlePacket E fuel rec pkt src) (fun _ => Blank) := by
  unfold handlePacket
  refine Holds.seq (Q := fun _ => Unmet) (Holds.modS fun w hw => ⟨?_, ?_⟩) fun _ => Holds.get fun s =>
    Holds.seq (Q := fun _ w => Unmet w ∧ w.s = s) (Holds.orPanic fun _ e _ h => h) fun ty => ?_
  · unfold Socket.bumpAck; split <;> exact hw.1
  · unfold Socket.bumpAck; split <;> exact hw.2
  · split
    · exact blank_replyWith.pre fun w hw => hw.1.1
    · refine Holds.seq (Q := fun _ w => Unmet w ∧ w.s = s) (fun w hw => hw) fun t => Holds.seq (Q := fun _ w => Blank w ∧ (s.state = .new ∨ s.state = .synSent))
        (Holds.modS fun w hw => ⟨hw.1.1, by rw [← hw.2]; exact hw.1.2⟩) fun _ => ?_
      unfold dispatch
      split
      · unfold onSyn
        exact Holds.seq (Q := fun _ => Blank) (fun w hw => hw.1) fun r => Holds.seq Holds.overflowIf fun _ => Holds.seq (Q := fun _ => Blank) (Holds.modS fun w hw => hw) fun _ =>
          Holds.get fun s => Holds.seq (Q := fun _ => Blank) (fun w hw => hw.1) fun t => Holds.pure fun _ h => h
      · exact blank_replyWith.pre fun _ h => h.1
      · unfold onSynAck
        exact Holds.get fun s => Holds.seq Holds.overflowIf fun _ => Holds.seq (Q := fun _ => Blank) (fun w hw => hw.1.1) fun t => Holds.seq (Q := fun _ => Blank) (Holds.modS fun w hw => hw) fun _ =>
          Holds.pure fun _ h => h
      · exact Holds.throw fun _ h => h.1
      · exact fun w hw => absurd hw.2 (by simp_all)
      · exact fun w hw => absurd hw.2 (by simp_all)
      · exact fun w hw => absurd hw.2 (by simp_all)
      · exact fun w hw => absurd hw.2 (by simp_all)
      · exact fun w hw => absurd hw.2 (by simp_all)
      · exact fun w hw => absurd hw.2 (by simp_all)
      · exact fun w hw => absurd hw.2 (by simp_all)
      · unfold onReset
        exact Holds.seq (Q := fun _ => Blank) (Holds.modS fun w hw => hw.1) fun _ => Holds.throw fun _ h => h
      · exact Holds.throw fun _ h => h.1

theorem blank_connectM (fuel : Nat) (addr : Addr) : Holds Blank Unmet (connectM E fuel addr) (fun _ => Blank) := by
  unfold connectM
  refine Holds.seq (Q := fun _ => Unmet) (Holds.modS fun w hw => hw) fun _ => Holds.get fun s => Holds.seq (Q := fun _ => Unmet)
    ((Holds.fails (blank_synLoop _ _) fun _ h => h.1).pre fun _ h => h.1) fun b => Holds.get fun s => Holds.seq (Q := fun _ => Unmet) (Holds.orPanic fun _ _ _ h => h.1) fun x => ?_
  split
  · exact Holds.throw fun _ h => h.1
  · exact Holds.seq (blank_handlePacket fuel _ _) fun _ => Holds.pure fun _ h => h

/-- A socket just made has counted no duplicate acknowledgement and has nothing in its queue or in its buffers. -/
theorem made_blank {w : World} (h : Made E w) : Blank w := by
  cases h with
  | bind resolved bound h =>
    unfold Utp.bind at h
    split at h
    · simp at h
    · split at h
      · simp at h
      · simp only [Except.ok.injEq] at h
        rw [← h]
        exact ⟨rfl, rfl, rfl, rfl⟩
  | @connect fuel resolved wild r _ h hp =>
    unfold Utp.connect at h
    split at h
    · simp at h
    · split at h
      · simp at h
      · rename_i addr _ _ la
        have h1 := blank_connectM (E := E) fuel addr (freshWorld E la { v6 := addr.v6, id := 0 }) ⟨⟨rfl, rfl, rfl, rfl⟩, .inl rfl⟩
        simp only [Except.ok.injEq] at h
        rw [h] at h1
        cases r with
        | panic => exact absurd rfl hp
        | _ => exact h1
  | accept fuel ev bound h hp =>
    obtain ⟨b, pkt, la, _, _, _, _, _, _, rfl⟩ := accept_inv h hp
    exact ⟨rfl, rfl, rfl, rfl⟩

end Utp
