import Verif.Spec.OtherClock
import Verif.Lemmas.Oblivious
/-!
# Two runs that differ only in the clock
-/

namespace Utp
open M Packet

variable {E : Env} {clk : Nat → U32} {ew : List Int → Int} {cs : U32 → U32 → U32 → U32} {α β : Type}

/-! ### Packets -/

theorem SameButTimes.refl (b : Bytes) : SameButTimes b b := ⟨rfl, fun _ _ => rfl⟩

theorem SameButTimes.set {b b' : Bytes} (h : SameButTimes b b') (i : Nat) (x : U8) : SameButTimes (b.set i x) (b'.set i x) := by
  refine ⟨by simp [h.1], fun j hj => ?_⟩
  rw [List.getElem?_set, List.getElem?_set, h.1, h.2 j hj]

theorem SameButTimes.time {b b' : Bytes} (h : SameButTimes b b') {i : Nat} (hi : 4 ≤ i ∧ i < 12) (x x' : U8) : SameButTimes (b.set i x) (b'.set i x') := by
  refine ⟨by simp [h.1], fun j hj => ?_⟩
  rw [List.getElem?_set_ne (by omega), List.getElem?_set_ne (by omega), h.2 j hj]

/-- Packets that agree but for their times. -/
abbrev SamePkt (p p' : Packet) : Prop := SameButTimes p.bytes p'.bytes

theorem SamePkt.put16 {p p' : Packet} (h : SamePkt p p') (i : Nat) (v : U16) : SameButTimes (Packet.put16 p.bytes i v) (Packet.put16 p'.bytes i v) := (h.set _ _).set _ _

theorem SamePkt.setSeqNr {p p' : Packet} (h : SamePkt p p') (v : U16) : SamePkt (p.setSeqNr v) (p'.setSeqNr v) := h.put16 _ _
theorem SamePkt.setAckNr {p p' : Packet} (h : SamePkt p p') (v : U16) : SamePkt (p.setAckNr v) (p'.setAckNr v) := h.put16 _ _
theorem SamePkt.setConnectionId {p p' : Packet} (h : SamePkt p p') (v : U16) : SamePkt (p.setConnectionId v) (p'.setConnectionId v) := h.put16 _ _
theorem SamePkt.setWndSize {p p' : Packet} (h : SamePkt p p') (v : U32) : SamePkt (p.setWndSize v) (p'.setWndSize v) := (((h.set _ _).set _ _).set _ _).set _ _
theorem SamePkt.setTimestamp {p p' : Packet} (h : SamePkt p p') (v v' : U32) : SamePkt (p.setTimestamp v) (p'.setTimestamp v') :=
  (((h.time (by omega) _ _).time (by omega) _ _).time (by omega) _ _).time (by omega) _ _
theorem SamePkt.setTimestampDifference {p p' : Packet} (h : SamePkt p p') (v v' : Int) : SamePkt (p.setTimestampDifference v) (p'.setTimestampDifference v') :=
  (((h.time (by omega) _ _).time (by omega) _ _).time (by omega) _ _).time (by omega) _ _
theorem SamePkt.setType {p p' : Packet} (h : SamePkt p p') (t : PacketType) : SamePkt (p.setType t) (p'.setType t) := by
  unfold Packet.setType
  have : Packet.byteAt p'.bytes 0 = Packet.byteAt p.bytes 0 := by simp only [Packet.byteAt, List.getD, h.2 0 (.inl (by omega))]
  rw [this]
  exact h.set _ _

/-- A selective acknowledgement is added in the same way. -/
theorem SamePkt.setSack {p p' : Packet} (h : SamePkt p p') (h1 : p.bytes[1]? = some 0) (h20 : p.bytes.length = 20) (bv : Bytes) :
    Option.Rel SamePkt (p.setSack bv) (p'.setSack bv) := by
  unfold Packet.setSack
  have h1' : p'.bytes[1]? = some 0 := by rw [h.2 1 (.inl (by omega)), h1]
  have h20' : p'.bytes.length = 20 := by rw [h.1, h20]
  have hx : ExtensionType.ofU8 0 = .none := rfl
  split
  · exact .none
  · split
    · exact .none
    · rw [h1, h1']
      simp only [hx, if_true]
      rw [if_pos (by simp [h20, HEADER_SIZE]), if_pos (by simp [h20', HEADER_SIZE])]
      refine .some ?_
      have k := h.set 1 ExtensionType.selectiveAck.toU8
      have e : ∀ l : Bytes, l.length = 20 → l.take HEADER_SIZE = l ∧ l.drop HEADER_SIZE = [] := fun l hl =>
        ⟨List.take_of_length_le (by rw [hl]; exact Nat.le_refl _), List.drop_of_length_le (by rw [hl]; exact Nat.le_refl _)⟩
      obtain ⟨e1, e2⟩ := e (p.bytes.set 1 ExtensionType.selectiveAck.toU8) (by simp [h20])
      obtain ⟨e3, e4⟩ := e (p'.bytes.set 1 ExtensionType.selectiveAck.toU8) (by simp [h20'])
      show SameButTimes _ _
      rw [e1, e2, e3, e4]
      simp only [List.append_nil, List.append_assoc]
      refine ⟨by simp [h.1], fun i hi => ?_⟩
      rw [List.getElem?_append (l₁ := p.bytes.set _ _), List.getElem?_append (l₁ := p'.bytes.set _ _), k.1, k.2 i hi]

theorem finPacket_same (s s' : Socket) (h : s'.senderId = s.senderId ∧ s'.seqNr = s.seqNr ∧ s'.ackNr = s.ackNr) (t t' : U32) : SamePkt (finPacket s t) (finPacket s' t') := by
  unfold finPacket
  rw [h.1, h.2.1, h.2.2]
  exact (SamePkt.setTimestamp (SameButTimes.refl _) _ _).setType _

theorem resendRequest_same (s s' : Socket) (h : s'.senderId = s.senderId ∧ s'.seqNr = s.seqNr ∧ s'.ackNr = s.ackNr) (t t' : U32) : SamePkt (resendRequest s t) (resendRequest s' t') := by
  unfold resendRequest
  rw [h.1, h.2.1, h.2.2]
  exact (((SamePkt.setTimestampDifference (SamePkt.setTimestamp (SameButTimes.refl _) _ _) _ _).setConnectionId _).setSeqNr _).setAckNr _

theorem prepareReply_same (s s' : Socket) (h : s'.senderId = s.senderId ∧ s'.seqNr = s.seqNr ∧ s'.ackNr = s.ackNr) (t t' : U32) (pkt : Packet) (ty : PacketType) :
    SamePkt (s.prepareReply t pkt ty) (s'.prepareReply t' pkt ty) := by
  unfold Socket.prepareReply
  rw [h.1, h.2.1, h.2.2]
  exact (((SamePkt.setTimestampDifference (SamePkt.setTimestamp (SameButTimes.refl _) _ _) _ _).setConnectionId _).setSeqNr _).setAckNr _

/-! ### Worlds -/

/-- The same socket but for the two measured times, with nothing outstanding. -/
inductive Paced (s : Socket) : Socket → Prop
  | mk {d : Int} {t : U32} : s.sendWindow = [] → Paced s { s with theirDelay := d, lastAckedTs := t }

theorem Paced.ids {s s' : Socket} (h : Paced s s') : s'.senderId = s.senderId ∧ s'.seqNr = s.seqNr ∧ s'.ackNr = s.ackNr := by cases h; exact ⟨rfl, rfl, rfl⟩

/-- The same world but for measured times. -/
structure PacedWorld (w w' : World) : Prop where
  s : Paced w.s w'.s
  nRand : w'.nRand = w.nRand
  nNet : w'.nNet = w.nNet
  nSnd : w'.nSnd = w.nSnd
  log : List.Forall₂ TimedAct w.log w'.log

/-- In such worlds, `m` and `m'` have related results and end in such worlds. -/
def Keeps (R : α → α → Prop) (m m' : M α) : Prop := ∀ w w', PacedWorld w w' → SameRes R (m w).1 (m' w').1 ∧ PacedWorld (m w).2 (m' w').2

namespace Keeps

theorem ret {R : α → α → Prop} {a a' : α} (h : R a a') : Keeps R (M.ret a) (M.ret a') := fun _ _ hw => ⟨.ok h, hw⟩
theorem pure {R : α → α → Prop} {a a' : α} (h : R a a') : Keeps R (Pure.pure a) (Pure.pure a') := ret h
theorem throw {R : α → α → Prop} (e : IoErr) : Keeps R (M.throw e) (M.throw e) := fun _ _ hw => ⟨.err e, hw⟩
theorem never {R : α → α → Prop} : Keeps R M.never M.never := fun _ _ hw => ⟨.pending, hw⟩

theorem andThen {R : α → α → Prop} {Q : β → β → Prop} {m m' : M α} {f f' : α → M β} (h : Keeps R m m')
    (hf : ∀ a a', R a a' → Keeps Q (f a) (f' a')) : Keeps Q (M.andThen m f) (M.andThen m' f') := by
  intro w w' hw
  obtain ⟨h1, h2⟩ := h w w' hw
  unfold M.andThen
  rcases e : m w with ⟨r, v⟩
  rcases e' : m' w' with ⟨r', v'⟩
  rw [e, e'] at h1 h2
  cases h1 with
  | ok ha => exact hf _ _ ha v v' h2
  | err x => exact ⟨.err x, h2⟩
  | panic => exact ⟨.panic, h2⟩
  | pending => exact ⟨.pending, h2⟩

theorem seq {R : α → α → Prop} {Q : β → β → Prop} {m m' : M α} {f f' : α → M β} (h : Keeps R m m')
    (hf : ∀ a a', R a a' → Keeps Q (f a) (f' a')) : Keeps Q (m >>= f) (m' >>= f') := andThen h hf

theorem seqE {Q : β → β → Prop} {m m' : M α} {f f' : α → M β} (h : Keeps Eq m m') (hf : ∀ a, Keeps Q (f a) (f' a)) : Keeps Q (m >>= f) (m' >>= f') :=
  andThen h fun a _ e => e ▸ hf a

theorem get {Q : β → β → Prop} {f f' : Socket → M β} (hf : ∀ s s', Paced s s' → Keeps Q (f s) (f' s')) : Keeps Q (getS >>= f) (getS >>= f') :=
  fun w w' hw => hf w.s w'.s hw.s w w' hw

theorem modS {f f' : Socket → Socket} (hf : ∀ s s', Paced s s' → Paced (f s) (f' s')) : Keeps Eq (M.modS f) (M.modS f') :=
  fun _ _ hw => ⟨.ok rfl, hf _ _ hw.s, hw.nRand, hw.nNet, hw.nSnd, hw.log⟩

theorem orPanic (o : Option α) : Keeps Eq (M.orPanic o) (M.orPanic o) := by
  cases o with
  | none => exact fun _ _ hw => ⟨.panic, hw⟩
  | some a => exact ret rfl

theorem orPanicR {R : α → α → Prop} {o o' : Option α} (h : Option.Rel R o o') : Keeps R (M.orPanic o) (M.orPanic o') := by
  cases h with
  | none => exact fun _ _ hw => ⟨.panic, hw⟩
  | some h => exact ret h

theorem overflowIf (b : Bool) : Keeps Eq (M.overflowIf E b) (M.overflowIf (E.withClock clk ew cs) b) := by
  show Keeps Eq (M.overflowIf E b) (M.overflowIf E b)
  unfold M.overflowIf
  split
  · exact fun _ _ hw => ⟨.panic, hw⟩
  · exact ret rfl

theorem now : Keeps (fun _ _ => True) (M.now E) (M.now (E.withClock clk ew cs)) := fun _ _ h => ⟨.ok trivial, h.s, h.nRand, h.nNet, h.nSnd, h.log⟩

theorem rand : Keeps Eq (M.rand E) (M.rand (E.withClock clk ew cs)) := by
  intro w w' h
  refine ⟨?_, h.s, congrArg (· + 1) h.nRand, h.nNet, h.nSnd, h.log⟩
  show SameRes Eq (.ok (E.rand w.nRand)) (.ok (E.rand w'.nRand))
  rw [h.nRand]; exact .ok rfl

theorem ignoreErr {R : α → α → Prop} {m m' : M α} (h : Keeps R m m') : Keeps Eq (M.ignoreErr m) (M.ignoreErr m') := by
  intro w w' hw
  obtain ⟨h1, h2⟩ := h w w' hw
  unfold M.ignoreErr
  rcases e : m w with ⟨r, v⟩
  rcases e' : m' w' with ⟨r', v'⟩
  rw [e, e'] at h1 h2
  cases h1 with
  | ok ha => exact ⟨.ok rfl, h2⟩
  | err e => exact ⟨.ok rfl, h2⟩
  | panic => exact ⟨.panic, h2⟩
  | pending => exact ⟨.pending, h2⟩

theorem udpSend (a : Addr) {p p' : Packet} (hp : SamePkt p p') : Keeps Eq (M.udpSend E a p.bytes) (M.udpSend (E.withClock clk ew cs) a p'.bytes) := by
  intro w w' h
  have key : ∀ ok, PacedWorld { w with nSnd := w.nSnd + 1, log := w.log ++ [.send a p.bytes ok] } { w' with nSnd := w'.nSnd + 1, log := w'.log ++ [.send a p'.bytes ok] } := fun ok =>
    ⟨h.s, h.nRand, h.nNet, congrArg (· + 1) h.nSnd, List.rel_append h.log (.cons (.send a ok hp) .nil)⟩
  unfold M.udpSend
  simp only
  rw [show (E.withClock clk ew cs).snd w'.nSnd = E.snd w.nSnd by rw [h.nSnd]; rfl]
  rcases E.snd w.nSnd with _ | k | _
  · exact ⟨.ok rfl, key _⟩
  · exact ⟨.err _, key _⟩
  · exact ⟨.pending, key _⟩

theorem udpRecv (t : Option U64) (len : Nat) : Keeps Eq (M.udpRecv E t len) (M.udpRecv (E.withClock clk ew cs) t len) := by
  intro w w' h
  have key : PacedWorld { w with nNet := w.nNet + 1, log := w.log ++ [.wait t] } { w' with nNet := w'.nNet + 1, log := w'.log ++ [.wait t] } :=
    ⟨h.s, h.nRand, congrArg (· + 1) h.nNet, h.nSnd, List.rel_append h.log (.cons (.wait t) .nil)⟩
  unfold M.udpRecv
  simp only
  rw [show (E.withClock clk ew cs).net w'.nNet = E.net w.nNet by rw [h.nNet]; rfl]
  rcases E.net w.nNet with ⟨b, a⟩ | k | _
  · exact ⟨.ok rfl, key⟩
  · exact ⟨.ok rfl, key⟩
  · exact ⟨.pending, key⟩

theorem whileM {c c' : M Bool} {b b' : M Unit} (hc : Keeps Eq c c') (hb : Keeps Eq b b') : ∀ n, Keeps Eq (M.whileM n c b) (M.whileM n c' b')
  | 0 => never
  | n + 1 => by
    refine andThen hc ?_
    rintro go _ rfl
    cases go with
    | true => exact andThen hb fun _ _ _ => whileM hc hb n
    | false => exact ret rfl

theorem ite {R : α → α → Prop} {c : Prop} [Decidable c] {m n m' n' : M α} (h1 : c → Keeps R m m') (h2 : ¬ c → Keeps R n n') :
    Keeps R (if c then m else n) (if c then m' else n') := by
  by_cases hc : c
  · rw [if_pos hc, if_pos hc]; exact h1 hc
  · rw [if_neg hc, if_neg hc]; exact h2 hc

end Keeps

open Keeps

/-! ### The operations -/

theorem Paced.advanceIncoming {s s' : Socket} (h : Paced s s') : Paced s.advanceIncoming s'.advanceIncoming := by
  obtain ⟨h⟩ := h
  unfold Socket.advanceIncoming
  simp only
  split
  · exact ⟨h⟩
  · exact ⟨h⟩

theorem clocks_flushIncoming (len : Nat) : Keeps Eq (flushIncoming E len) (flushIncoming (E.withClock clk ew cs) len) := by
  unfold flushIncoming
  refine get fun s s' hs => ?_
  obtain ⟨hs⟩ := hs
  refine ite (fun _ => seqE (modS fun s s' hs => ?_) fun _ => pure (by unfold Socket.takePending; simp only; split <;> rfl)) fun _ => ?_
  · obtain ⟨hs⟩ := hs
    unfold Socket.takePending
    simp only
    split
    · exact Paced.advanceIncoming (s := { s with pending := [] }) ⟨hs⟩
    · exact ⟨hs⟩
  · simp only
    cases s.incoming with
    | nil => exact pure rfl
    | cons q rest =>
      refine seqE (overflowIf _) fun _ => ite (fun _ => seqE (orPanic _) fun pl => seqE (modS fun s s' hs => ?_) fun _ => pure rfl) fun _ => pure rfl
      unfold Socket.takeHead
      split
      · exact hs.advanceIncoming
      · obtain ⟨hs⟩ := hs
        exact ⟨hs⟩

theorem clocks_timeout : Keeps Eq (handleReceiveTimeout E) (handleReceiveTimeout (E.withClock clk ew cs)) := by
  have hf : Keeps Eq (fastResendOne E) (fastResendOne (E.withClock clk ew cs)) := by
    refine get fun s s' hs => seq now fun t t' _ => ignoreErr (R := Eq) ?_
    have := resendRequest_same s s' hs.ids t t'
    obtain ⟨hs⟩ := hs
    exact udpSend _ this
  unfold handleReceiveTimeout
  refine get fun s s' hs => ?_
  have hp := finPacket_same s s' hs.ids
  obtain ⟨hs⟩ := hs
  refine seqE (overflowIf _) fun _ => seqE (modS ?_) fun _ => ?_
  · rintro s _ ⟨hs⟩
    exact ⟨hs⟩
  simp only [hs]
  refine ite (fun _ => ?_) fun _ => ite (fun _ => ?_) fun _ => pure rfl
  · exact seq now fun t t' _ => udpSend _ (hp t t')
  · exact seqE hf fun _ => seqE hf fun _ => hf

theorem clocks_recvWait : ∀ fuel retries, Keeps Eq (recvWait E fuel retries) (recvWait (E.withClock clk ew cs) fuel retries)
  | 0, _ => never
  | fuel + 1, retries => by
    unfold recvWait
    refine get fun s s' hs => ?_
    obtain ⟨hs⟩ := hs
    refine ite (fun _ => ?_) fun _ => ?_
    · refine seqE (modS ?_) fun _ => throw _
      rintro s _ ⟨hs⟩
      exact ⟨hs⟩
    · refine seqE (udpRecv _ _) fun r => ?_
      rcases r with k | x
      · exact ite (fun _ => seqE clocks_timeout fun _ => clocks_recvWait fuel _) fun _ => throw _
      · exact pure rfl

section
variable {rec rec' : M (Bytes × Addr)}

theorem clocks_resendLost (fuel : Nat) (nr : U16) : Keeps Eq (resendLost E fuel rec nr) (resendLost (E.withClock clk ew cs) fuel rec' nr) := by
  unfold resendLost
  refine get fun s s' hs => ?_
  obtain ⟨hs⟩ := hs
  simp only [hs, List.find?_nil]
  exact pure rfl

theorem clocks_processExtensions (fuel : Nat) (ack : U16) :
    ∀ exts loss, Keeps Eq (processExtensions E fuel rec ack exts loss) (processExtensions (E.withClock clk ew cs) fuel rec' ack exts loss) := by
  intro exts
  induction exts with
  | nil => intro loss; exact pure rfl
  | cons e rest ih =>
    intro loss
    unfold processExtensions
    refine ite (fun _ => seqE ?_ fun loss1 => get fun s s' hs => ?_) fun _ => ih _
    · unfold resendFirst
      exact ite (fun _ => seqE (overflowIf _) fun _ => seqE (clocks_resendLost _ _) fun _ => pure rfl) fun _ => pure rfl
    · obtain ⟨hs⟩ := hs
      simp only [hs, List.getLast?_nil]
      exact ih _

theorem clocks_handleState (fuel : Nat) (pkt : Packet) : Keeps Eq (handleState E fuel rec pkt) (handleState (E.withClock clk ew cs) fuel rec' pkt) := by
  unfold handleState
  refine seqE ?_ fun _ => seqE ?_ fun _ => get fun s s' hs => seqE (orPanic _) fun exts => ?_
  · unfold countAck
    refine get fun s s' hs => ?_
    obtain ⟨_⟩ := hs
    refine ite (fun _ => seqE (overflowIf _) fun _ => modS ?_) fun _ => seq now fun t t' _ => modS ?_
    · rintro s _ ⟨hs⟩; exact ⟨hs⟩
    · rintro s _ ⟨hs⟩; exact ⟨hs⟩
  · unfold measureAck
    refine get fun s s' hs => ?_
    obtain ⟨hs⟩ := hs
    simp only [hs, List.findIdx?_nil]
    exact pure rfl
  · obtain ⟨hs⟩ := hs
    refine seqE (clocks_processExtensions _ _ _ _) fun loss => seqE ?_ fun _ => seqE (modS ?_) fun _ => get fun s s' hs => ?_
    · unfold fastRetransmit
      refine get fun s s' hs => ?_
      obtain ⟨hs⟩ := hs
      simp only [hs, ne_eq, not_true_eq_false, false_and, if_false]
      exact pure rfl
    · rintro s _ ⟨hs⟩
      split
      · exact ⟨hs⟩
      · exact ⟨hs⟩
    · obtain @⟨d, t, hs⟩ := hs
      have e : ∀ (u : Socket), u.sendWindow = [] → ∀ E : Env, u.advanceSendWindow E = some u := by
        intro u hu E
        unfold Socket.advanceSendWindow
        simp only [hu, List.findIdx?_nil]
      exact seq (orPanicR (R := Paced) (by rw [e s hs, e _ (show ({ s with theirDelay := d, lastAckedTs := t } : Socket).sendWindow = [] from hs)]; exact .some ⟨hs⟩)) fun a a' ha => modS fun _ _ _ => ha

theorem clocks_withSack {s s' : Socket} (hs : Paced s s') (pkt : Packet) (t t' : U32) (ty : PacketType) :
    Keeps SamePkt (withSack E s pkt (s.prepareReply t pkt ty)) (withSack (E.withClock clk ew cs) s' pkt (s'.prepareReply t' pkt ty)) := by
  have hp := prepareReply_same s s' hs.ids t t' pkt ty
  obtain ⟨h1, h2⟩ := prepareReply_bytes s t pkt ty
  generalize s.prepareReply t pkt ty = r at hp h1 h2
  generalize s'.prepareReply t' pkt ty = r' at hp
  obtain ⟨hs⟩ := hs
  unfold withSack
  refine ite (fun _ => ?_) fun _ => pure hp
  refine seqE (orPanic (s.buildSack E)) fun sack => ite (fun _ => ?_) fun _ => pure hp
  exact orPanicR (hp.setSack h2 h1 sack)

/-- The same answer but for the times. -/
abbrev SameReply (r r' : Option Packet) : Prop := Option.Rel SamePkt r r'

theorem clocks_replyWith (pkt : Packet) (ty : PacketType) : Keeps SameReply (replyWith E pkt ty) (replyWith (E.withClock clk ew cs) pkt ty) :=
  get fun s s' hs => seq now fun t t' _ => pure (.some (prepareReply_same s s' hs.ids t t' pkt ty))

theorem clocks_handleData (pkt : Packet) : Keeps SamePkt (handleData E pkt) (handleData (E.withClock clk ew cs) pkt) := by
  refine get fun s s' hs => seq now fun t t' _ => ?_
  rw [show s'.state = s.state by cases hs; rfl]
  exact clocks_withSack hs pkt t t' _

theorem clocks_onFin (pkt : Packet) : Keeps SameReply (onFin E pkt) (onFin (E.withClock clk ew cs) pkt) := by
  refine get fun s s' hs => seq now fun t t' _ => seq (clocks_withSack hs pkt t t' _) fun r r' hr => seqE (modS ?_) fun _ => pure (.some hr)
  rintro s _ ⟨hs⟩
  exact ⟨hs⟩

theorem clocks_dispatch (fuel : Nat) (pkt : Packet) (src : Addr) (st : SocketState) (ty : PacketType) :
    Keeps SameReply (dispatch E fuel rec pkt src st ty) (dispatch (E.withClock clk ew cs) fuel rec' pkt src st ty) := by
  unfold dispatch
  split
  · unfold onSyn
    refine seqE rand fun r => seqE (overflowIf _) fun _ => seqE (modS ?_) fun _ => get fun s s' hs => seq now fun t t' _ => pure (.some (prepareReply_same s s' hs.ids t t' pkt _))
    rintro s _ ⟨hs⟩
    exact ⟨hs⟩
  · exact clocks_replyWith _ _
  · unfold onSynAck
    refine get fun s s' hs => ?_
    obtain ⟨_⟩ := hs
    refine seqE (overflowIf _) fun _ => seq now fun t t' _ => seqE (modS ?_) fun _ => pure .none
    rintro s _ ⟨hs⟩
    exact ⟨hs⟩
  · exact throw _
  · exact seq (clocks_handleData pkt) fun _ _ hr => pure (.some hr)
  · exact seq (clocks_handleData pkt) fun _ _ hr => pure (.some hr)
  · exact seqE (clocks_handleState _ _) fun _ => pure .none
  · exact clocks_onFin pkt
  · exact clocks_onFin pkt
  · exact clocks_replyWith _ _
  · unfold onFinAck
    refine seqE (modS ?_) fun _ => pure .none
    rintro s _ ⟨hs⟩
    by_cases h : pkt.ackNr = s.seqNr
    · simp only [if_pos h]; exact ⟨hs⟩
    · simp only [if_neg h]; exact ⟨hs⟩
  · unfold onReset
    refine seqE (modS ?_) fun _ => throw _
    rintro s _ ⟨hs⟩
    exact ⟨hs⟩
  · exact throw _

theorem clocks_handlePacket (fuel : Nat) (pkt : Packet) (src : Addr) :
    Keeps SameReply (handlePacket E fuel rec pkt src) (handlePacket (E.withClock clk ew cs) fuel rec' pkt src) := by
  unfold handlePacket
  refine seqE (modS ?_) fun _ => get fun s s' hs => ?_
  · rintro s _ ⟨hs⟩
    unfold Socket.bumpAck
    by_cases h : pkt.seqNr - s.ackNr = 1
    · simp only [if_pos h]; exact ⟨hs⟩
    · simp only [if_neg h]; exact ⟨hs⟩
  · obtain ⟨hs⟩ := hs
    refine seqE (orPanic _) fun ty => ite (fun _ => clocks_replyWith _ _) fun _ => seq now fun t t' _ => seqE (modS ?_) fun _ => clocks_dispatch _ _ _ _ _
    rintro s _ ⟨hs⟩
    exact ⟨hs⟩

end

theorem clocks_recv : ∀ fuel len, Keeps Eq (recv E fuel len) (recv (E.withClock clk ew cs) fuel len)
  | 0, _ => never
  | fuel + 1, len => by
    unfold recv recvBody
    refine seqE (clocks_recvWait _ _) fun x => ?_
    obtain ⟨b, src⟩ := x
    refine seqE (orPanic _) fun r => ?_
    rcases r with e | p
    · exact get fun s s' hs => pure (by cases hs; rfl)
    · show Keeps Eq (recvPacket E fuel (recv E fuel BUF_SIZE) len p src) (recvPacket (E.withClock clk ew cs) fuel (recv (E.withClock clk ew cs) fuel BUF_SIZE) len p src)
      unfold recvPacket
      refine seq (clocks_handlePacket _ _ _) fun r r' hr => seqE ?_ fun _ => seqE (orPanic _) fun ty => seqE (modS ?_) fun _ => seqE (clocks_flushIncoming _) fun out => pure rfl
      · cases hr with
        | none => exact pure rfl
        | some h => exact udpSend _ (SamePkt.setWndSize h _)
      · rintro s _ ⟨hs⟩
        by_cases h : ty = .data ∧ 0 < (p.seqNr - s.lastDropped).toNat
        · simp only [if_pos h]; exact ⟨hs⟩
        · simp only [if_neg h]; exact ⟨hs⟩

theorem clocks_recvFromLoop (fuel len : Nat) : ∀ n, Keeps Eq (recvFromLoop E fuel len n) (recvFromLoop (E.withClock clk ew cs) fuel len n)
  | 0 => never
  | n + 1 => by
    unfold recvFromLoop
    refine get fun s s' hs => ?_
    obtain ⟨_⟩ := hs
    exact ite (fun _ => pure rfl) fun _ => seqE (clocks_recv _ _) fun x => ite (fun _ => clocks_recvFromLoop fuel len n) fun _ => pure rfl

theorem clocks_recvFrom (fuel len : Nat) : Keeps Eq (recvFrom E fuel len) (recvFrom (E.withClock clk ew cs) fuel len) := by
  unfold recvFrom
  refine seqE (clocks_flushIncoming _) fun out => get fun s s' hs => ?_
  obtain ⟨_⟩ := hs
  exact ite (fun _ => pure rfl) fun _ => ite (fun _ => throw _) fun _ => clocks_recvFromLoop _ _ _

theorem clocks_scratch (fuel : Nat) : Keeps Eq (scratchRecv E fuel) (scratchRecv (E.withClock clk ew cs) fuel) := seqE (clocks_recv _ _) fun _ => pure rfl

theorem clocks_flush (fuel : Nat) : Keeps Eq (flush E fuel) (flush (E.withClock clk ew cs) fuel) :=
  whileM (get fun s s' hs => pure (by cases hs; rfl)) (clocks_scratch _) _

theorem clocks_close (fuel : Nat) : Keeps Eq (close E fuel) (close (E.withClock clk ew cs) fuel) := by
  unfold close
  refine get fun s s' hs => ?_
  obtain ⟨_⟩ := hs
  refine ite (fun _ => pure rfl) fun _ => seqE (clocks_flush _) fun _ => get fun s s' hs => ?_
  have hp := finPacket_same s s' hs.ids
  obtain ⟨_⟩ := hs
  refine seq now fun t t' _ => seqE (udpSend _ (hp t t')) fun _ => seqE (modS ?_) fun _ => whileM (get fun s s' hs => pure (by cases hs; rfl)) (clocks_scratch _) _
  rintro s _ ⟨hs⟩
  exact ⟨hs⟩

end Utp
