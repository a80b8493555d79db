import Verif.Lemmas.OtherStart
import Verif.Lemmas.Lossless
import Verif.Props.Bits
/-!
# Two runs that differ only in where our sequence numbers begin, and in which they do not wrap around
-/

namespace Utp
open M Packet Shf

variable {E : Env} {d : U16} {α β : Type} {B : Nat}

theorem overflowSame {P : Socket → Prop} (b : Bool) : Shf d P Eq (M.overflowIf E b) (M.overflowIf (E.later d) b) := by
  unfold M.overflowIf
  rw [show (E.later d).checks = E.checks from rfl]
  split
  · exact fun _ hw => ⟨.panic, rfl, hw⟩
  · exact ret rfl

theorem overflowEq {P : Socket → Prop} {b b' : Bool} (h : b' = b) : Shf d P Eq (M.overflowIf E b) (M.overflowIf (E.later d) b') := by
  subst h
  exact overflowSame _

/-- The packet has a whole header, and its number is at most `B`. -/
def HeadTo (B : Nat) (p : Packet) : Prop := 20 ≤ p.bytes.length ∧ p.seqNr.toNat ≤ B

theorem HeadTo.mono {p : Packet} {B' : Nat} (h : HeadTo B p) (hb : B ≤ B') : HeadTo B' p := ⟨h.1, Nat.le_trans h.2 hb⟩
theorem HeadTo.setTimestamp {p : Packet} (h : HeadTo B p) (t : U32) : HeadTo B (p.setTimestamp t) := ⟨by simpa using h.1, by simpa using h.2⟩
theorem HeadTo.setTimestampDifference {p : Packet} (h : HeadTo B p) (t : Int) : HeadTo B (p.setTimestampDifference t) := ⟨by simpa using h.1, by simpa using h.2⟩

/-- The socket is established or beyond, and our numbers go up to `B`. -/
def UpTo (B : Nat) (s : Socket) : Prop :=
  s.state ≠ .new ∧ s.state ≠ .synSent ∧ s.seqNr.toNat ≤ B ∧ (∀ p ∈ s.sendWindow, HeadTo B p) ∧ ∀ p ∈ s.unsent, HeadTo B p

theorem UpTo.mono {s : Socket} {B' : Nat} (h : UpTo B s) (hb : B ≤ B') : UpTo B' s :=
  ⟨h.1, h.2.1, Nat.le_trans h.2.2.1 hb, fun p m => (h.2.2.2.1 p m).mono hb, fun p m => (h.2.2.2.2 p m).mono hb⟩

/-- The acknowledgement number, and what a selective acknowledgement can name after it, stay below 65536 when `d` is added. -/
def AckFits (d : U16) (p : Packet) : Prop := p.ackNr.toNat + d.toNat + 2041 < 65536

theorem ack_ne {a : U16} (ha : a.toNat + d.toNat + 2041 < 65536) : a ≠ 65535 ∧ a + d ≠ 65535 := by
  have h1 : (65535 : U16).toNat = 65535 := rfl
  constructor
  · intro h
    rw [h, h1] at ha
    omega
  · intro h
    have := congrArg BitVec.toNat h
    rw [BitVec.toNat_add, h1, Nat.mod_eq_of_lt (by omega)] at this
    omega

/-! ### The operations -/

theorem low_later_fastResendOne : Shf d (UpTo B) Eq (fastResendOne E) (fastResendOne (E.later d)) :=
  get fun s _ => seqE now fun t => ignoreErr (R := Eq) (udpSend s.connectedTo (later_resendRequest s t).symm)

theorem low_later_flushIncoming (len : Nat) : Shf d (UpTo B) Eq (flushIncoming E len) (flushIncoming (E.later d) len) := by
  unfold flushIncoming
  refine get fun s _ => ?_
  refine ite Iff.rfl (fun _ => seqE (modS fun s hs => ?_) fun _ => pure ?_) fun _ => ?_
  · rw [later_takePending]
    exact ⟨rfl, by simpa [UpTo] using hs⟩
  · rw [later_takePending]
  · simp only [show (s.later d).incoming = s.incoming.map (Packet.laterAck d) from rfl]
    cases s.incoming with
    | nil => exact pure rfl
    | cons q rest =>
      simp only [List.map_cons, laterAck_seqNr, laterAck_payload]
      refine seqE (overflowSame _) fun _ => ite Iff.rfl (fun _ => seqE (orPanic _) fun pl => seqE (modS fun s hs => ?_) fun _ => pure rfl) fun _ => pure rfl
      exact ⟨later_takeHead s pl len, by simpa [UpTo] using hs⟩

theorem low_later_timeout : Shf d (UpTo B) Eq (handleReceiveTimeout E) (handleReceiveTimeout (E.later d)) := by
  unfold handleReceiveTimeout
  refine get fun s hs => seqE (overflowSame _) fun _ => seqE (modS fun s hs => ⟨rfl, hs⟩) fun _ => ?_
  simp only [show (s.later d).sendWindow = s.sendWindow.map (Packet.laterSeq d) from rfl]
  have hl := hs.2.2.2.1
  revert hl
  cases s.sendWindow with
  | nil =>
    intro _
    simp only [List.map_nil]
    refine ite Iff.rfl (fun _ => seqE now fun t => udpSend s.connectedTo (later_finPacket s t).symm) fun _ => ite Iff.rfl (fun _ => ?_) fun _ => pure rfl
    exact seqE low_later_fastResendOne fun _ => seqE low_later_fastResendOne fun _ => low_later_fastResendOne
  | cons p rest =>
    intro hl
    simp only [List.map_cons]
    refine seqE now fun t => seqE (modS fun s hs => ⟨?_, hs.1, hs.2.1, hs.2.2.1, ?_, hs.2.2.2.2⟩) fun _ => udpSend s.connectedTo (laterSeq_setTimestamp p t).symm
    · simp only [Socket.later, List.map_cons, laterSeq_setTimestamp]
    · intro q hq
      rcases List.mem_cons.1 hq with rfl | hq
      · exact (hl p (by simp)).setTimestamp t
      · exact hl q (by simp [hq])

theorem low_later_recvWait (hn : E.AckLow d) : ∀ fuel retries, Shf d (UpTo B) (fun x x' => x' = (renum 18 d x.1, x.2) ∧ ∀ p, Packet.tryFrom x.1 = some (.ok p) → AckFits d p) (recvWait E fuel retries) (recvWait (E.later d) fuel retries)
  | 0, _ => never
  | fuel + 1, retries => by
    unfold recvWait
    refine get fun s _ => ite Iff.rfl (fun _ => seqE (modS fun s hs => ⟨rfl, by simp, by simp, hs.2.2⟩) fun _ => throw _) fun _ =>
      seq (udpRecv _ (by decide) (Q := fun b => ∀ p, Packet.tryFrom b = some (.ok p) → AckFits d p) fun k b a h p hp => hn k b a h p hp) fun r r' hr => ?_
    rcases r with k | x <;> rcases r' with k' | x' <;> simp only [Got] at hr
    · subst hr
      exact ite Iff.rfl (fun _ => seqE low_later_timeout fun _ => low_later_recvWait hn fuel _) fun _ => throw _
    · exact pure hr

section
variable {rec rec' : M (Bytes × Addr)}

theorem low_later_sendPacket (hrec : Shf d (UpTo B) Eq rec rec') (fuel : Nat) (p : Packet) (hp : HeadTo B p) :
    Shf d (UpTo B) (fun q q' => q' = q.laterSeq d ∧ HeadTo B q) (sendPacket E fuel rec p) (sendPacket (E.later d) fuel rec' (p.laterSeq d)) := by
  unfold sendPacket
  refine get fun s _ => seqE now fun start => seqE (whileM ?_ (andThen hrec fun _ _ _ => ret rfl) _) fun _ => get fun s _ => ?_
  · exact get fun s _ => ite Iff.rfl (fun _ => seqE now fun t => pure rfl) fun _ => pure rfl
  · rw [laterSeq_seqNr p hp.1]
    refine ite ?_ (fun _ => pure ⟨rfl, hp⟩) fun _ => seqE now fun t => ?_
    · show s.lastAcked + d - (p.seqNr + d) < p.seqNr + d - (s.lastAcked + d) ↔ _
      rw [show s.lastAcked + d - (p.seqNr + d) = s.lastAcked - p.seqNr by bv_omega, show p.seqNr + d - (s.lastAcked + d) = p.seqNr - s.lastAcked by bv_omega]
    have e : ((p.laterSeq d).setTimestamp t).setTimestampDifference s.theirDelay = ((p.setTimestamp t).setTimestampDifference s.theirDelay).laterSeq d := by
      rw [laterSeq_setTimestampDifference, laterSeq_setTimestamp]
    exact seqE (udpSend s.connectedTo e) fun _ => pure ⟨e, (hp.setTimestamp t).setTimestampDifference _⟩

theorem low_later_resendLost (hrec : Shf d (UpTo B) Eq rec rec') (fuel : Nat) (nr : U16) : Shf d (UpTo B) Eq (resendLost E fuel rec nr) (resendLost (E.later d) fuel rec' (nr + d)) := by
  unfold resendLost
  refine get fun s hs => ?_
  simp only [show (s.later d).sendWindow = s.sendWindow.map (Packet.laterSeq d) from rfl, later_find nr _ fun p m => (hs.2.2.2.1 p m).1]
  cases h : s.sendWindow.find? fun p => p.seqNr == nr with
  | none => exact pure rfl
  | some p => exact ignoreErr (low_later_sendPacket hrec _ p (hs.2.2.2.1 p (List.mem_of_find?_eq_some h)))

theorem low_later_resendMissing (hB : B + d.toNat < 65535) (hrec : Shf d (UpTo B) Eq rec rec') (fuel : Nat) (ack last : U16) (ha : ack.toNat + d.toNat + 2041 < 65536) (hl : last.toNat ≤ B) :
    ∀ bits loss, (∀ b ∈ bits, b.1 < 2040) → Shf d (UpTo B) Eq (resendMissing E fuel rec ack last bits loss) (resendMissing (E.later d) fuel rec' (ack + d) (last + d) bits loss) := by
  intro bits
  induction bits with
  | nil => intro loss _; exact pure rfl
  | cons b rest ih =>
    obtain ⟨idx, received⟩ := b
    intro loss hb
    have hi : idx < 2040 := hb (idx, received) (by simp)
    have hi2 : (BitVec.ofNat 16 idx : U16).toNat = idx := by rw [BitVec.toNat_ofNat, Nat.mod_eq_of_lt (by omega)]
    have h2 : (2 : U16).toNat = 2 := rfl
    have had : (ack + d).toNat = ack.toNat + d.toNat := by rw [BitVec.toNat_add, Nat.mod_eq_of_lt (by omega)]
    have hnr : (ack + 2 + BitVec.ofNat 16 idx).toNat = ack.toNat + 2 + idx := by
      rw [BitVec.toNat_add, BitVec.toNat_add, hi2, h2, Nat.mod_eq_of_lt (show ack.toNat + 2 < 2 ^ 16 by omega), Nat.mod_eq_of_lt (by omega)]
    have e : ack + d + 2 + BitVec.ofNat 16 idx = ack + 2 + BitVec.ofNat 16 idx + d := by bv_omega
    unfold resendMissing
    refine ite Iff.rfl (fun _ => ih _ fun x m => hb x (by simp [m])) fun _ => seqE (overflowEq (decide_eq_decide.2 (by rw [had, hi2]; omega))) fun _ => ite ?_ (fun _ => seqE ?_ fun _ => ih _ fun x m => hb x (by simp [m])) fun _ => pure rfl
    · show ack + d + 2 + BitVec.ofNat 16 idx < last + d ↔ ack + 2 + BitVec.ofNat 16 idx < last
      rw [e, BitVec.lt_def, BitVec.lt_def, BitVec.toNat_add _ d, BitVec.toNat_add _ d, hnr, Nat.mod_eq_of_lt (show last.toNat + d.toNat < 2 ^ 16 by omega), Nat.mod_eq_of_lt (by omega)]
      omega
    · show Shf d (UpTo B) Eq (resendLost E fuel rec (ack + 2 + BitVec.ofNat 16 idx)) (resendLost (E.later d) fuel rec' (ack + d + 2 + BitVec.ofNat 16 idx))
      rw [e]
      exact low_later_resendLost hrec _ _

theorem low_later_processExtensions (hB : B + d.toNat < 65535) (hrec : Shf d (UpTo B) Eq rec rec') (fuel : Nat) (ack : U16) (ha : ack.toNat + d.toNat + 2041 < 65536) :
    ∀ exts loss, (∀ e ∈ exts, e.data.length ≤ 255) → Shf d (UpTo B) Eq (processExtensions E fuel rec ack exts loss) (processExtensions (E.later d) fuel rec' (ack + d) exts loss) := by
  have hne := ack_ne ha
  intro exts
  induction exts with
  | nil => intro loss _; exact pure rfl
  | cons e rest ih =>
    intro loss he
    have hr : ∀ x ∈ rest, x.data.length ≤ 255 := fun x m => he x (by simp [m])
    unfold processExtensions
    refine ite Iff.rfl (fun _ => seqE ?_ fun loss1 => get fun s hs => ?_) fun _ => ih _ hr
    · unfold resendFirst
      rw [show decide (ack + d = 65535) = decide (ack = 65535) from decide_eq_decide.2 ⟨fun h => absurd h hne.2, fun h => absurd h hne.1⟩,
        show ack + d + 1 = ack + 1 + d by rw [BitVec.add_assoc, BitVec.add_comm d 1, ← BitVec.add_assoc]]
      exact ite Iff.rfl (fun _ => seqE (overflowSame _) fun _ => seqE (low_later_resendLost hrec _ _) fun _ => pure rfl) fun _ => pure rfl
    · simp only [show (s.later d).sendWindow = s.sendWindow.map (Packet.laterSeq d) from rfl, List.getLast?_map]
      cases hg : s.sendWindow.getLast? with
      | none => exact ih _ hr
      | some l =>
        have hl := hs.2.2.2.1 l (List.mem_of_getLast? hg)
        simp only [Option.map_some, laterSeq_seqNr l hl.1]
        rw [C05_items]
        refine seq (R := fun a a' => a' = a ∧ a.length = 8 * e.data.length) (ret ⟨rfl, by simp⟩) fun bits bits' hbits => ?_
        obtain ⟨rfl, hbits⟩ := hbits
        refine seqE (low_later_resendMissing hB hrec _ _ _ ha hl.2 _ _ fun b m => ?_) fun loss => ih _ hr
        have h1 := List.mem_range.1 (List.of_mem_zip (show (b.1, b.2) ∈ _ from m)).1
        have h2 := he e (by simp)
        omega

theorem low_later_handleState (hB : B + d.toNat < 65535) (hrec : Shf d (UpTo B) Eq rec rec') (fuel : Nat) (pkt : Packet) (hp : 20 ≤ pkt.bytes.length) (hx : AckFits d pkt) :
    Shf d (UpTo B) Eq (handleState E fuel rec pkt) (handleState (E.later d) fuel rec' (pkt.laterAck d)) := by
  have hwin : ∀ s : Socket, (s.later d).sendWindow ≠ [] ↔ s.sendWindow ≠ [] := fun s => by simp [Socket.later]
  unfold handleState
  refine seqE ?_ fun _ => seqE ?_ fun _ => get fun s _ => ?_
  · unfold countAck
    rw [laterAck_ackNr _ hp]
    refine get fun s _ => ite ?_ (fun _ => seqE (overflowSame _) fun _ => modS fun s hs => ⟨rfl, hs⟩) fun _ => seqE now fun t => modS fun s hs => ⟨rfl, hs⟩
    exact ⟨fun h => by simpa [Socket.later] using h, fun h => by rw [h]; rfl⟩
  · unfold measureAck
    rw [laterAck_ackNr _ hp]
    refine get fun s hs => ?_
    have e : ∀ (l : List Packet) (v : U16), (l.findIdx? fun p => v == p.seqNr) = l.findIdx? fun p => p.seqNr == v := fun l v => by
      congr 1
      funext p
      exact Bool.eq_iff_iff.2 (by rw [beq_iff_eq, beq_iff_eq]; exact eq_comm)
    simp only [show (s.later d).sendWindow = s.sendWindow.map (Packet.laterSeq d) from rfl, e, later_findIdx _ _ fun p m => (hs.2.2.2.1 p m).1, List.getElem?_map]
    cases s.sendWindow.findIdx? fun p => p.seqNr == pkt.ackNr with
    | none => exact pure rfl
    | some index =>
      refine seqE now fun t => seq (orPanicR (R := LaterPkt d) _ _ fun _ _ => rfl) fun p p' hp => ?_
      cases hp
      rw [later_onNewAck]
      refine seq (orPanicR (R := fun a a' => a' = a.later d ∧ a.state = s.state ∧ a.sendWindow = s.sendWindow ∧ a.unsent = s.unsent ∧ a.seqNr = s.seqNr) _ _ fun a ha => ⟨rfl, onNewAck_state ha, onNewAck_sendWindow ha, onNewAck_unsent ha, onNewAck_seqNr ha⟩) fun a a' ha => modS fun _ _ => ⟨ha.1, ?_⟩
      obtain ⟨-, h1, h2, h3, h4⟩ := ha
      rw [UpTo, h1, h2, h3, h4]; exact hs
  · rw [laterAck_extensions, laterAck_ackNr _ hp]
    simp only [hwin]
    refine seq (R := fun a a' => a' = a ∧ ∀ e ∈ a, e.data.length ≤ 255) ?_ fun exts exts' he => ?_
    · cases h : pkt.extensions with
      | none => exact fun _ hw => ⟨.panic, rfl, hw⟩
      | some exts => exact ret ⟨rfl, extensions_short h⟩
    obtain ⟨rfl, he⟩ := he
    refine seqE (low_later_processExtensions hB hrec _ _ hx _ _ he) fun loss => seqE ?_ fun _ => seqE (modS fun s hs => ?_) fun _ => get fun s hs => ?_
    · unfold fastRetransmit
      refine get fun s _ => ?_
      simp only [hwin]
      rw [laterAck_ackNr _ hp]
      rw [show decide (pkt.ackNr + d = 65535) = decide (pkt.ackNr = 65535) from decide_eq_decide.2 ⟨fun h => absurd h (ack_ne hx).2, fun h => absurd h (ack_ne hx).1⟩]
      refine ite Iff.rfl (fun _ => seqE (overflowSame _) fun _ => ?_) fun _ => pure rfl
      rw [show pkt.ackNr + d + 1 = pkt.ackNr + 1 + d by rw [BitVec.add_assoc, BitVec.add_comm d 1, ← BitVec.add_assoc]]
      exact low_later_resendLost hrec _ _
    · cases loss
      · exact ⟨rfl, hs⟩
      · exact ⟨rfl, hs⟩
    · rw [later_advanceSendWindow _ fun p m => (hs.2.2.2.1 p m).1]
      refine seq (orPanicR (R := fun a a' => a' = a.later d ∧ a.state = s.state ∧ (∀ p ∈ a.sendWindow, p ∈ s.sendWindow) ∧ a.unsent = s.unsent ∧ a.seqNr = s.seqNr) _ _ fun a ha =>
        ⟨rfl, advanceSendWindow_state ha, ?_, advanceSendWindow_unsent ha, advanceSendWindow_seqNr ha⟩) fun a a' ha => modS fun _ _ => ⟨ha.1, ?_⟩
      · intro p m
        unfold Socket.advanceSendWindow at ha
        split at ha
        · cases ha; exact m
        · split at ha
          · cases ha
          · cases ha
            exact List.mem_of_mem_drop m
      · obtain ⟨-, h1, h2, h3, h4⟩ := ha
        rw [UpTo, h1, h3, h4]
        exact ⟨hs.1, hs.2.1, hs.2.2.1, fun p m => hs.2.2.2.1 p (h2 p m), hs.2.2.2.2⟩

theorem low_later_withSack (s : Socket) (pkt : Packet) (t : U32) (ty : PacketType) :
    Shf d (UpTo B) (LaterPkt d) (withSack E s pkt (s.prepareReply t pkt ty)) (withSack (E.later d) (s.later d) (pkt.laterAck d) ((s.later d).prepareReply t (pkt.laterAck d) ty)) := by
  obtain ⟨h1, h2⟩ := prepareReply_bytes s t pkt ty
  rw [← later_prepareReply]
  generalize s.prepareReply t pkt ty = r at h1 h2
  unfold withSack
  rw [laterAck_seqNr, later_buildSack]
  refine ite Iff.rfl (fun _ => seqE (orPanic (s.buildSack E)) fun sack => ite Iff.rfl (fun _ => ?_) fun _ => pure rfl) fun _ => pure rfl
  rw [laterSeq_setSack r h2 h1]
  exact orPanicR _ _ fun _ _ => rfl

theorem low_later_replyWith (pkt : Packet) (ty : PacketType) : Shf d (UpTo B) (LaterReply d) (replyWith E pkt ty) (replyWith (E.later d) (pkt.laterAck d) ty) :=
  get fun s _ => seqE now fun t => pure (congrArg some (later_prepareReply s t pkt ty).symm)

theorem low_later_handleData (pkt : Packet) : Shf d (UpTo B) (LaterPkt d) (handleData E pkt) (handleData (E.later d) (pkt.laterAck d)) :=
  get fun s _ => seqE now fun t => low_later_withSack s pkt t _

theorem low_later_onFin (pkt : Packet) : Shf d (UpTo B) (LaterReply d) (onFin E pkt) (onFin (E.later d) (pkt.laterAck d)) :=
  get fun s _ => seqE now fun t => seq (low_later_withSack s pkt t _) fun r r' hr => seqE (modS fun s hs => ⟨rfl, by simp, by simp, hs.2.2⟩) fun _ => pure (by rw [hr]; rfl)

theorem low_later_dispatch (hB : B + d.toNat < 65535) (hrec : Shf d (UpTo B) Eq rec rec') (fuel : Nat) (pkt : Packet) (hp : 20 ≤ pkt.bytes.length) (hx : AckFits d pkt) (src : Addr) (st : SocketState) (hst : st ≠ .new) (hst2 : st ≠ .synSent) (ty : PacketType) :
    Shf d (UpTo B) (LaterReply d) (dispatch E fuel rec pkt src st ty) (dispatch (E.later d) fuel rec' (pkt.laterAck d) src st ty) := by
  unfold dispatch
  split
  · exact absurd rfl hst
  · exact low_later_replyWith _ _
  · exact absurd rfl hst2
  · exact throw _
  · exact seq (low_later_handleData pkt) fun _ _ hr => pure (by rw [hr]; rfl)
  · exact seq (low_later_handleData pkt) fun _ _ hr => pure (by rw [hr]; rfl)
  · exact seqE (low_later_handleState hB hrec _ _ hp hx) fun _ => pure rfl
  · exact low_later_onFin pkt
  · exact low_later_onFin pkt
  · exact low_later_replyWith _ _
  · unfold onFinAck
    rw [laterAck_ackNr _ hp]
    refine seqE (modS fun s hs => ?_) fun _ => pure rfl
    by_cases h : pkt.ackNr = s.seqNr
    · rw [if_pos h, if_pos (show pkt.ackNr + d = (s.later d).seqNr by rw [h]; rfl)]; exact ⟨rfl, by simp, by simp, hs.2.2⟩
    · rw [if_neg h, if_neg (show ¬ pkt.ackNr + d = (s.later d).seqNr from fun e => h (by simpa [Socket.later] using e))]; exact ⟨rfl, hs⟩
  · unfold onReset
    exact seqE (modS fun s hs => ⟨rfl, by simp, by simp, hs.2.2⟩) fun _ => throw _
  · exact throw _

theorem low_later_handlePacket (hB : B + d.toNat < 65535) (hrec : Shf d (UpTo B) Eq rec rec') (fuel : Nat) (pkt : Packet) (hp : 20 ≤ pkt.bytes.length) (hx : AckFits d pkt) (src : Addr) :
    Shf d (UpTo B) (LaterReply d) (handlePacket E fuel rec pkt src) (handlePacket (E.later d) fuel rec' (pkt.laterAck d) src) := by
  unfold handlePacket
  refine seqE (modS fun s hs => ⟨bumpAck_later s pkt, ?_⟩) fun _ => get fun s hs => ?_
  · unfold Socket.bumpAck
    split <;> exact hs
  · rw [laterAck_getType, laterAck_connectionId]
    refine seqE (orPanic _) fun ty => ite Iff.rfl (fun _ => low_later_replyWith _ _) fun _ => seqE now fun t => seqE (modS fun s hs => ?_) fun _ => low_later_dispatch hB hrec _ _ hp hx _ _ hs.1 hs.2.1 _
    rw [laterAck_wndSize, laterAck_timestamp]
    exact ⟨rfl, hs⟩

end

theorem low_later_recv (hB : B + d.toNat < 65535) (hn : E.AckLow d) : ∀ fuel len, Shf d (UpTo B) Eq (recv E fuel len) (recv (E.later d) fuel len)
  | 0, _ => never
  | fuel + 1, len => by
    have ih : Shf d (UpTo B) Eq (recv E fuel BUF_SIZE) (recv (E.later d) fuel BUF_SIZE) := low_later_recv hB hn fuel BUF_SIZE
    unfold recv recvBody
    refine seq (low_later_recvWait hn _ _) fun x x' hx => ?_
    obtain ⟨b, src⟩ := x
    obtain ⟨rfl, hx⟩ := hx
    show Shf d (UpTo B) Eq (M.orPanic (Packet.tryFrom b) >>= _) (M.orPanic (Packet.tryFrom (renum 18 d b)) >>= _)
    rw [later_tryFrom]
    refine seq (orPanicR (R := fun r r' => r' = laterParsed d r ∧ ∀ p, r = .ok p → 20 ≤ p.bytes.length ∧ AckFits d p) _ _ fun r hr => ⟨rfl, fun p hp => ?_⟩) fun r r' hr => ?_
    · subst hp
      exact ⟨tryFrom_header hr, hx p hr⟩
    obtain ⟨rfl, hl⟩ := hr
    rcases r with e | p
    · exact get fun s _ => pure rfl
    · show Shf d (UpTo B) Eq (recvPacket E fuel (recv E fuel BUF_SIZE) len p src) (recvPacket (E.later d) fuel (recv (E.later d) fuel BUF_SIZE) len (p.laterAck d) src)
      unfold recvPacket
      refine seq (low_later_handlePacket hB ih _ _ (hl p rfl).1 (hl p rfl).2 _) fun r r' hr => seqE ?_ fun _ => ?_
      · cases hr
        cases r with
        | none => exact pure rfl
        | some r => exact udpSend _ (laterSeq_setWndSize r _).symm
      · rw [laterAck_getType, laterAck_seqNr]
        refine seqE (orPanic _) fun ty => seqE (modS fun s hs => ?_) fun _ => seqE (low_later_flushIncoming _) fun out => pure rfl
        by_cases h : ty = .data ∧ 0 < (p.seqNr - s.lastDropped).toNat
        · rw [if_pos h, if_pos (show ty = .data ∧ 0 < (p.seqNr - (s.later d).lastDropped).toNat from h)]
          refine ⟨?_, hs⟩
          simp only [Socket.insertIntoBuffer, Socket.later, later_insertPkt]
        · rw [if_neg h, if_neg (show ¬ (ty = .data ∧ 0 < (p.seqNr - (s.later d).lastDropped).toNat) from h)]
          exact ⟨rfl, hs⟩

theorem low_later_recvFromLoop (hB : B + d.toNat < 65535) (hn : E.AckLow d) (fuel len : Nat) : ∀ n, Shf d (UpTo B) Eq (recvFromLoop E fuel len n) (recvFromLoop (E.later d) fuel len n)
  | 0 => never
  | n + 1 => by
    unfold recvFromLoop
    exact get fun s _ => ite Iff.rfl (fun _ => pure rfl) fun _ => seqE (low_later_recv hB hn _ _) fun x => ite Iff.rfl (fun _ => low_later_recvFromLoop hB hn fuel len n) fun _ => pure rfl

theorem low_later_recvFrom (hB : B + d.toNat < 65535) (hn : E.AckLow d) (fuel len : Nat) : Shf d (UpTo B) Eq (recvFrom E fuel len) (recvFrom (E.later d) fuel len) := by
  unfold recvFrom
  exact seqE (low_later_flushIncoming _) fun out => get fun s _ => ite Iff.rfl (fun _ => pure rfl) fun _ => ite Iff.rfl (fun _ => throw _) fun _ => low_later_recvFromLoop hB hn _ _ _

theorem low_later_sendQueue (hB : B + d.toNat < 65535) (hn : E.AckLow d) (fuel : Nat) : ∀ n, Shf d (UpTo B) Eq (sendQueue E fuel n) (sendQueue (E.later d) fuel n)
  | 0 => never
  | n + 1 => by
    unfold sendQueue
    refine get fun s hs => ?_
    simp only [show (s.later d).unsent = s.unsent.map (Packet.laterSeq d) from rfl]
    have hl := hs.2.2.2.2
    revert hl
    cases s.unsent with
    | nil => exact fun _ => pure rfl
    | cons p rest =>
      intro hl
      simp only [List.map_cons]
      refine seqE (modS fun s hs => ⟨rfl, hs.1, hs.2.1, hs.2.2.1, hs.2.2.2.1, fun q m => hl q (by simp [m])⟩) fun _ => seq (low_later_sendPacket (low_later_recv hB hn _ _) _ _ (hl p (by simp))) fun p p' hp => ?_
      obtain ⟨rfl, hp⟩ := hp
      rw [laterSeq_len]
      refine get fun s _ => seqE (overflowSame _) fun _ => seqE (modS fun s hs => ⟨?_, hs.1, hs.2.1, hs.2.2.1, ?_, hs.2.2.2.2⟩) fun _ => low_later_sendQueue hB hn fuel n
      · simp only [Socket.later, List.map_append, List.map_cons, List.map_nil]
      · intro q hq
        rcases List.mem_append.1 hq with hq | hq
        · exact hs.2.2.2.1 q hq
        · rw [List.mem_singleton.1 hq]; exact hp

theorem low_upTo_enqueues (l : List Bytes) : ∀ (B : Nat) (s : Socket), B + l.length < 65535 → UpTo B s → UpTo (B + l.length) (l.foldl enqueue s) := by
  induction l with
  | nil => exact fun B s _ h => h
  | cons c l ih =>
    intro B s hb h
    rw [List.length_cons] at hb ⊢
    have h1 : (1 : U16).toNat = 1 := rfl
    have hs : s.seqNr.toNat ≤ B := h.2.2.1
    have e : (enqueue s c).seqNr.toNat = s.seqNr.toNat + 1 := by
      show (s.seqNr + 1).toNat = _
      rw [BitVec.toNat_add, h1, Nat.mod_eq_of_lt (by omega)]
    rw [show B + (l.length + 1) = B + 1 + l.length by omega]
    refine ih (B + 1) _ (by omega) ⟨h.1, h.2.1, by rw [e]; omega, fun p m => (h.2.2.2.1 p m).mono (by omega), fun p m => ?_⟩
    rcases List.mem_append.1 m with m | m
    · exact (h.2.2.2.2 p m).mono (by omega)
    · rw [List.mem_singleton.1 m]
      refine ⟨(dataPacket_fresh s c).2, ?_⟩
      show (dataPacket s c).seqNr.toNat ≤ B + 1
      rw [(dataPacket_facts s c).1]
      omega

theorem low_later_scratch (hB : B + d.toNat < 65535) (hn : E.AckLow d) (fuel : Nat) : Shf d (UpTo B) Eq (scratchRecv E fuel) (scratchRecv (E.later d) fuel) := seqE (low_later_recv hB hn _ _) fun _ => pure rfl

theorem low_later_flush (hB : B + d.toNat < 65535) (hn : E.AckLow d) (fuel : Nat) : Shf d (UpTo B) Eq (flush E fuel) (flush (E.later d) fuel) :=
  Shf.whileM (Shf.get fun s _ => Shf.pure (a := decide (s.sendWindow ≠ [])) (a' := decide ((s.later d).sendWindow ≠ [])) (by simp [Socket.later])) (low_later_scratch hB hn _) _

theorem low_later_close (hB : B + d.toNat < 65535) (hn : E.AckLow d) (fuel : Nat) : Shf d (UpTo B) Eq (close E fuel) (close (E.later d) fuel) := by
  unfold close
  refine get fun s _ => ite Iff.rfl (fun _ => pure rfl) fun _ => seqE (low_later_flush hB hn _) fun _ => get fun s _ => ?_
  refine seqE now fun t => seqE (udpSend s.connectedTo (later_finPacket s t).symm) fun _ => seqE (modS fun s hs => ⟨rfl, by simp, by simp, hs.2.2⟩) fun _ => ?_
  exact Shf.whileM (Shf.get fun s _ => Shf.pure (a := decide (s.state ≠ .closed)) (a' := decide ((s.later d).state ≠ .closed)) rfl) (low_later_scratch hB hn _) _

theorem low_later_op (hn : E.AckLow d) (fuel : Nat) (op : Op) {w : World} (hw : UpTo B w.s) (hB : B + op.packets + d.toNat < 65535) :
    SameRes Eq (runOp E fuel op w).1 (runOp (E.later d) fuel op (w.later d)).1 ∧ (runOp (E.later d) fuel op (w.later d)).2 = (runOp E fuel op w).2.later d ∧
      UpTo (B + op.packets) (runOp E fuel op w).2.s := by
  cases op with
  | recvFrom len =>
    have h : Shf d (UpTo B) Eq (runOp E fuel (.recvFrom len)) (runOp (E.later d) fuel (.recvFrom len)) := seqE (low_later_recvFrom hB hn _ _) fun _ => pure rfl
    exact h w hw
  | sendTo b =>
    simp only [Op.packets] at hB ⊢
    rw [← chunks_length b.length b (Nat.le_refl _)] at hB ⊢
    by_cases hc : w.s.state = .closed
    · have e : ∀ (E : Env) (w : World), w.s.state = .closed → runOp E fuel (.sendTo b) w = (.err (.sock .connectionClosed), w) := by
        intro E w h
        show (sendTo E fuel b >>= fun n => Pure.pure (Out.count n)) w = _
        unfold sendTo
        show ((if w.s.state = .closed then M.throw (.sock .connectionClosed) else _) >>= fun n => Pure.pure (Out.count n)) w = _
        rw [if_pos h]
        rfl
      rw [e E w hc, e _ (w.later d) hc]
      exact ⟨.err _, rfl, hw.mono (by omega)⟩
    · have e : ∀ (E : Env) (w : World), w.s.state ≠ .closed → runOp E fuel (.sendTo b) w =
          (sendQueue E fuel fuel >>= fun _ => Pure.pure (Out.count b.length)) { w with s := (chunks b.length b).foldl enqueue w.s } := by
        intro E w h
        show (sendTo E fuel b >>= fun n => Pure.pure (Out.count n)) w = _
        unfold sendTo
        show ((if w.s.state = .closed then M.throw (.sock .connectionClosed) else _) >>= fun n => Pure.pure (Out.count n)) w = _
        rw [if_neg h]
        show M.andThen (M.andThen (sendQueue E fuel fuel) fun _ => M.ret b.length) (fun n => M.ret (Out.count n)) { w with s := (chunks b.length b).foldl enqueue w.s } =
          M.andThen (sendQueue E fuel fuel) (fun _ => M.ret (Out.count b.length)) { w with s := (chunks b.length b).foldl enqueue w.s }
        unfold M.andThen
        rcases sendQueue E fuel fuel { w with s := (chunks b.length b).foldl enqueue w.s } with ⟨r, v⟩
        cases r <;> rfl
      rw [e E w hc, e _ (w.later d) hc]
      have h : Shf d (UpTo (B + (chunks b.length b).length)) Eq (sendQueue E fuel fuel >>= fun _ => Pure.pure (Out.count b.length)) (sendQueue (E.later d) fuel fuel >>= fun _ => Pure.pure (Out.count b.length)) :=
        seqE (low_later_sendQueue hB hn _ _) fun _ => pure rfl
      have h2 := h { w with s := (chunks b.length b).foldl enqueue w.s } (low_upTo_enqueues _ _ _ (by omega) hw)
      have e2 : ({ (w.later d) with s := (chunks b.length b).foldl enqueue (w.later d).s } : World) = World.later d { w with s := (chunks b.length b).foldl enqueue w.s } := by
        simp only [World.later, later_enqueues]
      rw [e2]
      exact h2
  | flush =>
    have h : Shf d (UpTo B) Eq (runOp E fuel .flush) (runOp (E.later d) fuel .flush) := seqE (low_later_flush hB hn _) fun _ => pure rfl
    exact h w hw
  | close =>
    have h : Shf d (UpTo B) Eq (runOp E fuel .close) (runOp (E.later d) fuel .close) := seqE (low_later_close hB hn _) fun _ => pure rfl
    exact h w hw
  | setMaxRetries n =>
    have h : Shf d (UpTo B) Eq (runOp E fuel (.setMaxRetries n)) (runOp (E.later d) fuel (.setMaxRetries n)) := seqE (modS fun s hs => ⟨rfl, hs⟩) fun _ => pure rfl
    exact h w hw

end Utp
