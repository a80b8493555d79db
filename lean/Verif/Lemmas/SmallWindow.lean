import Verif.Spec.SmallWindow
import Verif.Lemmas.PeerTimes
import Verif.Lemmas.OtherHints
/-!
# Two runs that differ in the times of the peer and in small windows
-/

namespace Utp
open M Packet

variable {E : Env} {net : Nat → NetEvent} {α β : Type}

/-! ### Packets -/

theorem RoomBytes.refl (b : Bytes) : RoomBytes b b := ⟨⟨rfl, fun _ _ => rfl⟩, fun _ => rfl⟩

theorem be32_take {b : Bytes} {n : Nat} (h : 16 ≤ n) : be32 (b.take n) 12 = be32 b 12 := by
  have e : ∀ k, k < 16 → byteAt (b.take n) k = byteAt b k := fun k hk => by
    simp only [byteAt, List.getD, List.getElem?_take_of_lt (show k < n by omega)]
  simp only [be32, e 12 (by omega), e (12 + 1) (by omega), e (12 + 2) (by omega), e (12 + 3) (by omega)]

theorem RoomBytes.take {b b' : Bytes} (h : RoomBytes b b') (n : Nat) : RoomBytes (b.take n) (b'.take n) := by
  refine ⟨SameButHints.take h.1 n, fun hl => ?_⟩
  rw [List.length_take] at hl
  rw [be32_take (by omega), be32_take (by omega)]
  exact h.2 (by omega)

section
variable {p p' : Packet} (h : RoomPkt p p')
include h

theorem RoomPkt.seqNr : p'.seqNr = p.seqNr := HintPkt.seqNr h.1
theorem RoomPkt.ackNr : p'.ackNr = p.ackNr := HintPkt.ackNr h.1
theorem RoomPkt.connectionId : p'.connectionId = p.connectionId := HintPkt.connectionId h.1
theorem RoomPkt.getType : p'.getType = p.getType := HintPkt.getType h.1
theorem RoomPkt.payload : p'.payload = p.payload := HintPkt.payload h.1
theorem RoomPkt.extensions : p'.extensions = p.extensions := HintPkt.extensions h.1
theorem RoomPkt.wndSize : max p'.wndSize.toNat 2800 = max p.wndSize.toNat 2800 := h.2

end

/-- The same result of decoding. -/
inductive RoomParsed : Except ParseError Packet → Except ParseError Packet → Prop
  | ok {p p' : Packet} : RoomPkt p p' → RoomParsed (.ok p) (.ok p')
  | error (e : ParseError) : RoomParsed (.error e) (.error e)

theorem RoomBytes.tryFrom {b b' : Bytes} (h : RoomBytes b b') : Option.Rel RoomParsed (Packet.tryFrom b) (Packet.tryFrom b') := by
  have hh := SameButHints.tryFrom h.1
  have hok : ∀ p, Packet.tryFrom b = some (.ok p) → p.bytes = b ∧ 20 ≤ b.length := fun p hp => by
    refine ⟨by rw [(tryFrom_long hp).1], ?_⟩
    by_contra hl
    unfold Packet.tryFrom checkExtensions at hp
    rw [if_pos (by simp only [HEADER_SIZE]; omega)] at hp
    revert hp
    simp only
    split <;> simp
  have hok' : ∀ p, Packet.tryFrom b' = some (.ok p) → p.bytes = b' := fun p hp => by rw [(tryFrom_long hp).1]
  generalize Packet.tryFrom b = x at hh hok ⊢
  generalize Packet.tryFrom b' = x' at hh hok' ⊢
  cases hh with
  | none => exact .none
  | some hh =>
    cases hh with
    | error e => exact .some (.error e)
    | ok hp =>
      obtain ⟨e1, e2⟩ := hok _ rfl
      have e3 := hok' _ rfl
      refine .some (.ok ⟨hp, ?_⟩)
      rw [e1, e3]
      exact h.2 e2

/-- The number of bytes that may be on their way is the same. -/
theorem same_inflight {r r' c : U32} (h : max r'.toNat 2800 = max r.toNat 2800) :
    (if (if r' < c then r' else c) < MIN_WND then MIN_WND else (if r' < c then r' else c)) =
      if (if r < c then r else c) < MIN_WND then MIN_WND else (if r < c then r else c) := by
  have hm : MIN_WND.toNat = 2800 := rfl
  apply BitVec.eq_of_toNat_eq
  simp only [BitVec.lt_def, apply_ite BitVec.toNat, hm]
  split_ifs <;> omega

/-- The reply to such packets. -/
theorem prepareReply_room {s s' : Socket} (h : RoomSocket s s') (t : U32) (pkt pkt' : Packet) (ty : PacketType) :
    EchoPkt (s.prepareReply t pkt ty) (s'.prepareReply t pkt' ty) := by
  obtain ⟨_, _, _, _⟩ := h
  exact EchoPkt.setAckNr (EchoPkt.setSeqNr (EchoPkt.setConnectionId (EchoPkt.setTimestampDifference (AgreeBut.refl _) _ _) _) _) _

theorem resendRequest_room {s s' : Socket} (h : RoomSocket s s') (t : U32) : EchoPkt (resendRequest s t) (resendRequest s' t) := by
  obtain ⟨_, _, _, _⟩ := h
  exact EchoPkt.setAckNr (EchoPkt.setSeqNr (EchoPkt.setConnectionId (EchoPkt.setTimestampDifference (AgreeBut.refl _) _ _) _) _) _

/-! ### Computations -/

/-- In worlds that differ in the times of the peer, `m` and `m'` have related results and end in such worlds. -/
def Room {α : Type} (R : α → α → Prop) (m m' : M α) : Prop :=
  ∀ w w', RoomWorld w w' → SameRes R (m w).1 (m' w').1 ∧ RoomWorld (m w).2 (m' w').2

namespace Room

theorem ret {R : α → α → Prop} {a a' : α} (h : R a a') : Room R (M.ret a) (M.ret a') := fun _ _ hw => ⟨.ok h, hw⟩

theorem pure {R : α → α → Prop} {a a' : α} (h : R a a') : Room R (Pure.pure a) (Pure.pure a') := ret h

theorem throw {R : α → α → Prop} (e : IoErr) : Room R (M.throw e) (M.throw e) := fun _ _ hw => ⟨.err e, hw⟩

theorem never {R : α → α → Prop} : Room R M.never M.never := fun _ _ hw => ⟨.pending, hw⟩

theorem andThen {R : α → α → Prop} {Q : β → β → Prop} {m m' : M α} {f f' : α → M β} (h : Room R m m')
    (hf : ∀ a a', R a a' → Room Q (f a) (f' a')) : Room Q (M.andThen m f) (M.andThen m' f') := by
  intro w w' hw
  obtain ⟨h1, h2⟩ := h w w' hw
  unfold M.andThen
  rcases e : m w with ⟨r, v⟩
  rcases e' : m' w' with ⟨r', v'⟩
  rw [e, e'] at h1 h2
  cases h1 with
  | ok ha => exact hf _ _ ha v v' h2
  | err x => exact ⟨.err x, h2⟩
  | panic => exact ⟨.panic, h2⟩
  | pending => exact ⟨.pending, h2⟩

theorem seq {R : α → α → Prop} {Q : β → β → Prop} {m m' : M α} {f f' : α → M β} (h : Room R m m')
    (hf : ∀ a a', R a a' → Room Q (f a) (f' a')) : Room Q (m >>= f) (m' >>= f') := andThen h hf

theorem seqE {Q : β → β → Prop} {m m' : M α} {f f' : α → M β} (h : Room Eq m m')
    (hf : ∀ a, Room Q (f a) (f' a)) : Room Q (m >>= f) (m' >>= f') := andThen h fun a _ e => e ▸ hf a

theorem get {Q : β → β → Prop} {f f' : Socket → M β} (hf : ∀ s s', RoomSocket s s' → Room Q (f s) (f' s')) :
    Room Q (getS >>= f) (getS >>= f') := fun w w' hw => hf w.s w'.s hw.s w w' hw

theorem modS {f f' : Socket → Socket} (hf : ∀ s s', RoomSocket s s' → RoomSocket (f s) (f' s')) : Room Eq (M.modS f) (M.modS f') :=
  fun _ _ hw => ⟨.ok rfl, hf _ _ hw.s, hw.nNow, hw.nRand, hw.nNet, hw.nSnd, hw.log⟩

theorem orPanic (o : Option α) : Room Eq (M.orPanic o) (M.orPanic o) := by
  cases o with
  | none => exact fun _ _ hw => ⟨.panic, hw⟩
  | some a => exact ret rfl

theorem orPanicE {o o' : Option α} (h : o = o') : Room Eq (M.orPanic o) (M.orPanic o') := h ▸ orPanic o

theorem orPanicR {R : α → α → Prop} {o o' : Option α} (h : Option.Rel R o o') : Room R (M.orPanic o) (M.orPanic o') := by
  cases h with
  | none => exact fun _ _ hw => ⟨.panic, hw⟩
  | some h => exact ret h

theorem orPanicP {P : α → Prop} {o o' : Option α} (e : o = o') (h : ∀ a, o = some a → P a) :
    Room (fun a a' => a = a' ∧ P a) (M.orPanic o) (M.orPanic o') := by
  subst e
  cases o with
  | none => exact fun _ _ hw => ⟨.panic, hw⟩
  | some a => exact ret ⟨rfl, h a rfl⟩

theorem overflowIf (b : Bool) : Room Eq (M.overflowIf E b) (M.overflowIf (E.withNet net) b) := by
  show Room Eq (M.overflowIf E b) (M.overflowIf E b)
  unfold M.overflowIf
  split
  · exact fun _ _ hw => ⟨.panic, hw⟩
  · exact ret rfl

theorem overflowE {b b' : Bool} (h : b = b') : Room Eq (M.overflowIf E b) (M.overflowIf (E.withNet net) b') := h ▸ overflowIf b

theorem now : Room Eq (M.now E) (M.now (E.withNet net)) := by
  intro w w' h
  refine ⟨?_, h.s, congrArg (· + 1) h.nNow, h.nRand, h.nNet, h.nSnd, h.log⟩
  show SameRes Eq (.ok (E.now w.nNow)) (.ok (E.now w'.nNow))
  rw [h.nNow]; exact .ok rfl

theorem rand : Room Eq (M.rand E) (M.rand (E.withNet net)) := by
  intro w w' h
  refine ⟨?_, h.s, h.nNow, congrArg (· + 1) h.nRand, h.nNet, h.nSnd, h.log⟩
  show SameRes Eq (.ok (E.rand w.nRand)) (.ok (E.rand w'.nRand))
  rw [h.nRand]; exact .ok rfl

theorem ignoreErr {R : α → α → Prop} {m m' : M α} (h : Room R m m') : Room Eq (M.ignoreErr m) (M.ignoreErr m') := by
  intro w w' hw
  obtain ⟨h1, h2⟩ := h w w' hw
  unfold M.ignoreErr
  rcases e : m w with ⟨r, v⟩
  rcases e' : m' w' with ⟨r', v'⟩
  rw [e, e'] at h1 h2
  cases h1 with
  | ok ha => exact ⟨.ok rfl, h2⟩
  | err e => exact ⟨.ok rfl, h2⟩
  | panic => exact ⟨.panic, h2⟩
  | pending => exact ⟨.pending, h2⟩

theorem udpSend (a : Addr) {b b' : Bytes} (hb : ∀ ok, LagAct (.send a b ok) (.send a b' ok)) :
    Room Eq (M.udpSend E a b) (M.udpSend (E.withNet net) a b') := by
  intro w w' h
  have key : ∀ ok, RoomWorld { w with nSnd := w.nSnd + 1, log := w.log ++ [.send a b ok] } { w' with nSnd := w'.nSnd + 1, log := w'.log ++ [.send a b' ok] } := fun ok =>
    ⟨h.s, h.nNow, h.nRand, h.nNet, congrArg (· + 1) h.nSnd, List.rel_append h.log (.cons (hb ok) .nil)⟩
  unfold M.udpSend
  simp only
  rw [show (E.withNet net).snd w'.nSnd = E.snd w.nSnd by rw [h.nSnd]; rfl]
  rcases E.snd w.nSnd with _ | k | _
  · exact ⟨.ok rfl, key _⟩
  · exact ⟨.err _, key _⟩
  · exact ⟨.pending, key _⟩

theorem sendPkt (a : Addr) {p p' : Packet} (h : EchoPkt p p') : Room Eq (M.udpSend E a p.bytes) (M.udpSend (E.withNet net) a p'.bytes) :=
  udpSend a fun ok => .send a ok h

/-- The same outcome of a receive, but for the times. -/
def RoomGot : Except ErrorKind (Bytes × Addr) → Except ErrorKind (Bytes × Addr) → Prop
  | .ok x, .ok x' => RoomBytes x.1 x'.1 ∧ x'.2 = x.2
  | .error k, .error k' => k = k'
  | _, _ => False

theorem udpRecv (hN : ∀ k, RoomEvent (E.net k) (net k)) (t : Option U64) (len : Nat) :
    Room (RoomGot) (M.udpRecv E t len) (M.udpRecv (E.withNet net) t len) := by
  intro w w' h
  have key : RoomWorld { w with nNet := w.nNet + 1, log := w.log ++ [.wait t] } { w' with nNet := w'.nNet + 1, log := w'.log ++ [.wait t] } :=
    ⟨h.s, h.nNow, h.nRand, congrArg (· + 1) h.nNet, h.nSnd, List.rel_append h.log (.cons (.wait t) .nil)⟩
  unfold M.udpRecv
  simp only
  have e : (E.withNet net).net w'.nNet = net w.nNet := by rw [h.nNet]; rfl
  rw [e]
  have hk := hN w.nNet
  generalize E.net w.nNet = x at hk ⊢
  generalize net w.nNet = x' at hk ⊢
  cases hk with
  | dgram a hb => exact ⟨.ok ⟨hb.take len, rfl⟩, key⟩
  | fail k => exact ⟨.ok rfl, key⟩
  | never => exact ⟨.pending, key⟩

theorem whileM {c c' : M Bool} {b b' : M Unit} (hc : Room Eq c c') (hb : Room Eq b b') :
    ∀ n, Room Eq (M.whileM n c b) (M.whileM n c' b')
  | 0 => never
  | n + 1 => by
    refine andThen hc ?_
    rintro go _ rfl
    cases go with
    | true => exact andThen hb fun _ _ _ => whileM hc hb n
    | false => exact ret rfl

theorem ite {R : α → α → Prop} {c c' : Prop} [Decidable c] [Decidable c'] {m n m' n' : M α} (h : c ↔ c')
    (h1 : c → Room R m m') (h2 : ¬ c → Room R n n') : Room R (if c then m else n) (if c' then m' else n') := by
  by_cases hc : c
  · rw [if_pos hc, if_pos (h.mp hc)]; exact h1 hc
  · rw [if_neg hc, if_neg (fun x => hc (h.mpr x))]; exact h2 hc

end Room

open Room


theorem room_in : ∀ p p', RoomPkt p p' → p'.seqNr = p.seqNr := fun _ _ h => RoomPkt.seqNr h

/-! ### Sockets -/

/-- The socket with other buffers. -/
def Socket.roomy (s : Socket) (i o u : List Packet) (d : Int) (r : U32) : Socket := { s with incoming := i, sendWindow := o, unsent := u, theirDelay := d, remoteWnd := r }

theorem RoomSocket.advanceIncoming {s s' : Socket} (h : RoomSocket s s') : RoomSocket s.advanceIncoming s'.advanceIncoming := by
  obtain ⟨hi, ho, hu, hw⟩ := h
  unfold Socket.advanceIncoming
  cases e : s.incoming with
  | nil =>
    rw [e] at hi
    cases hi
    exact ⟨by rw [e]; exact .nil, ho, hu, hw⟩
  | cons q rest =>
    rw [e] at hi
    cases hi with
    | cons h ht =>
      simp only
      rw [RoomPkt.seqNr h]
      exact ⟨ht, ho, hu, hw⟩

theorem RoomSocket.takePending {s s' : Socket} (h : RoomSocket s s') (len : Nat) : (s'.takePending len).1 = (s.takePending len).1 ∧ RoomSocket (s.takePending len).2 (s'.takePending len).2 := by
  obtain ⟨hi, ho, hu, hw⟩ := h
  unfold Socket.takePending
  simp only
  split
  · exact ⟨rfl, RoomSocket.advanceIncoming (s := { s with pending := [] }) ⟨hi, ho, hu, hw⟩⟩
  · exact ⟨rfl, hi, ho, hu, hw⟩

theorem RoomSocket.takeHead {s s' : Socket} (h : RoomSocket s s') (x : Bytes) (len : Nat) : RoomSocket (s.takeHead x len) (s'.takeHead x len) := by
  unfold Socket.takeHead
  split
  · exact h.advanceIncoming
  · obtain ⟨hi, ho, hu, hw⟩ := h
    exact ⟨hi, ho, hu, hw⟩

theorem RoomSocket.buildSack {s s' : Socket} (h : RoomSocket s s') : s'.buildSack (E.withNet net) = s.buildSack E := by
  obtain ⟨hi, ho, hu, hw⟩ := h
  unfold Socket.buildSack
  simp only [ne_eq, ← forall₂_nil_iff hi]
  rw [lag_filterMap room_in hi (fun x => decide (s.ackNr + 1 < x)) (fun x => (x - s.ackNr - 2).toNat)]
  rfl

theorem RoomSocket.advanceSendWindow {s s' : Socket} (h : RoomSocket s s') :
    Option.Rel (RoomSocket) (s.advanceSendWindow E) (s'.advanceSendWindow (E.withNet net)) := by
  obtain ⟨hi, ho, hu, hw⟩ := h
  unfold Socket.advanceSendWindow
  simp only
  rw [lag_findIdx lag_out ho (fun x => x == s.lastAcked)]
  split
  · exact .some ⟨hi, ho, hu, hw⟩
  · rename_i pos _
    rw [lag_subLens (E := E) (net := net) (List.forall₂_take (pos + 1) ho)]
    split
    · exact .none
    · exact .some ⟨hi, List.forall₂_drop _ ho, hu, hw⟩

theorem updateBaseDelay_roomy (s : Socket) (i o u : List Packet) (p : Int) (r : U32) (d : Int) (t : U32) :
    (s.roomy i o u p r).updateBaseDelay d t = (s.updateBaseDelay d t).map fun x => x.roomy i o u p r := by
  unfold Socket.updateBaseDelay
  simp only [show (s.roomy i o u p r).baseDelays = s.baseDelays from rfl, show (s.roomy i o u p r).lastRollover = s.lastRollover from rfl]
  by_cases h : s.baseDelays.isEmpty ∨ tsSub t s.lastRollover > MAX_BASE_DELAY_AGE
  · rw [if_pos h, if_pos h]; rfl
  · rw [if_neg h, if_neg h]
    cases s.baseDelays.getLast? with
    | none => rfl
    | some l =>
      simp only
      by_cases h : d < l
      · rw [if_pos h, if_pos h]; rfl
      · rw [if_neg h, if_neg h]; rfl

theorem updateCongestionWindow_roomy (s : Socket) (i o u : List Packet) (p : Int) (r : U32) (n : U32) :
    (s.roomy i o u p r).updateCongestionWindow (E.withNet net) n = (s.updateCongestionWindow E n).map fun x => x.roomy i o u p r := by
  unfold Socket.updateCongestionWindow
  by_cases h : E.checks ∧ s.currWindow.toNat + 1400 ≥ 2 ^ 32
  · rw [if_pos h, if_pos (show (E.withNet net).checks ∧ (s.roomy i o u p r).currWindow.toNat + 1400 ≥ 2 ^ 32 from h)]; rfl
  · rw [if_neg h, if_neg (show ¬ ((E.withNet net).checks ∧ (s.roomy i o u p r).currWindow.toNat + 1400 ≥ 2 ^ 32) from h)]; rfl

theorem RoomSocket.onNewAck {s s' : Socket} (h : RoomSocket s s') (idx : Nat) {p p' : Packet} (hpp : EchoPkt p p') (t : U32) :
    Option.Rel (RoomSocket) (s.onNewAck E idx p t) (s'.onNewAck (E.withNet net) idx p' t) := by
  obtain ⟨hi, ho, hu, hw⟩ := h
  rename_i i o u q r
  have key : (s.roomy i o u q r).onNewAck (E.withNet net) idx p' t = (s.onNewAck E idx p t).map fun x => x.roomy i o u q r := by
    unfold Socket.onNewAck
    simp only
    rw [updateBaseDelay_roomy, EchoPkt.timestamp hpp]
    have e2 : (((s.roomy i o u q r).sendWindow.take (idx + 1)).map Packet.len).sum = ((s.sendWindow.take (idx + 1)).map Packet.len).sum := by
      exact congrArg List.sum (lag_lens (List.forall₂_take (idx + 1) ho))
    rw [e2]
    rcases s.updateBaseDelay (tsSub t p.timestamp) t with _ | s1
    · rfl
    · simp only [Option.map_some]
      have e3 : (s1.roomy i o u q r).updateCurrentDelay (tsSub t p.timestamp) t = (s1.updateCurrentDelay (tsSub t p.timestamp) t).roomy i o u q r := rfl
      rw [e3, updateCongestionWindow_roomy]
      rcases (s1.updateCurrentDelay (tsSub t p.timestamp) t).updateCongestionWindow E _ with _ | s2
      · rfl
      · rfl
  change Option.Rel _ _ ((s.roomy i o u q r).onNewAck (E.withNet net) idx p' t)
  rw [key]
  cases e : s.onNewAck E idx p t with
  | none => exact .none
  | some s1 =>
    obtain ⟨_, _, _, _, _, _, _, rfl⟩ := onNewAck_shape e
    exact .some ⟨hi, ho, hu, hw⟩

theorem RoomSocket.state {s s' : Socket} (h : RoomSocket s s') : s'.state = s.state := by cases h; rfl
theorem RoomSocket.connectedTo {s s' : Socket} (h : RoomSocket s s') : s'.connectedTo = s.connectedTo := by cases h; rfl

/-! ### The operations -/

theorem room_flushIncoming (len : Nat) : Room Eq (flushIncoming E len) (flushIncoming (E.withNet net) len) := by
  unfold flushIncoming
  refine get fun s s' hs => ?_
  have htp := hs.takePending len
  obtain ⟨hi, ho, hu, hw⟩ := hs
  refine ite Iff.rfl (fun _ => ?_) fun _ => ?_
  · exact seqE (modS fun s s' hs => (hs.takePending len).2) fun _ => pure htp.1.symm
  · simp only
    generalize s.incoming = l at hi
    cases hi with
    | nil => exact pure rfl
    | cons hq _ =>
      simp only [RoomPkt.seqNr hq, RoomPkt.payload hq]
      exact seqE (overflowIf _) fun _ => ite Iff.rfl (fun _ => seqE (orPanic _) fun x => seqE (modS fun s s' hs => hs.takeHead x len) fun _ => pure rfl) fun _ => pure rfl

theorem room_timeout : Room Eq (handleReceiveTimeout E) (handleReceiveTimeout (E.withNet net)) := by
  have hf : Room Eq (fastResendOne E) (fastResendOne (E.withNet net)) := by
    refine get fun s s' hs => seqE now fun t => ignoreErr (R := Eq) ?_
    have := resendRequest_room hs t
    cases hs
    exact sendPkt _ this
  unfold handleReceiveTimeout
  refine get fun s s' hs => ?_
  obtain ⟨hi, ho, hu, hw⟩ := hs
  refine seqE (overflowIf _) fun _ => seqE (modS ?_) fun _ => ?_
  · rintro s _ ⟨hi, ho, hu, hw⟩
    exact ⟨hi, ho, hu, hw⟩
  simp only
  cases e : s.sendWindow with
  | nil =>
    rw [e] at ho
    cases ho
    refine ite Iff.rfl (fun _ => ?_) fun _ => ite Iff.rfl (fun _ => ?_) fun _ => pure rfl
    · exact seqE now fun t => sendPkt _ (AgreeBut.refl _)
    · exact seqE hf fun _ => seqE hf fun _ => hf
  | cons q rest =>
    rw [e] at ho
    cases ho with
    | cons hq hr =>
      refine seqE now fun t => seqE (modS ?_) fun _ => sendPkt _ (EchoPkt.setTimestamp hq t)
      rintro s _ ⟨hi, ho, hu, hw⟩
      exact ⟨hi, .cons (EchoPkt.setTimestamp hq t) hr, hu, hw⟩

theorem room_recvWait (hN : ∀ k, RoomEvent (E.net k) (net k)) : ∀ fuel retries,
    Room (fun x x' => RoomBytes x.1 x'.1 ∧ x'.2 = x.2) (recvWait E fuel retries) (recvWait (E.withNet net) fuel retries)
  | 0, _ => never
  | fuel + 1, retries => by
    unfold recvWait
    refine get fun s s' hs => ?_
    obtain ⟨hi, ho, hu, hw⟩ := hs
    refine ite Iff.rfl (fun _ => ?_) fun _ => ?_
    · refine seqE (modS ?_) fun _ => throw _
      rintro s _ ⟨hi, ho, hu, hw⟩
      exact ⟨hi, ho, hu, hw⟩
    · refine seq (udpRecv hN _ _) fun r r' hr => ?_
      rcases r with k | x <;> rcases r' with k' | x'
      · cases hr
        dsimp only
        split
        · exact seqE room_timeout fun _ => room_recvWait hN fuel _
        · exact throw _
      · exact hr.elim
      · exact hr.elim
      · exact pure hr

section
variable {rec rec' : M (Bytes × Addr)} (hr : Room Eq rec rec')
include hr

theorem room_sendPacket (fuel : Nat) {p p' : Packet} (hp : EchoPkt p p') :
    Room EchoPkt (sendPacket E fuel rec p) (sendPacket (E.withNet net) fuel rec' p') := by
  unfold sendPacket
  refine get fun s s' hs => ?_
  obtain ⟨_, _, _, hr'⟩ := hs
  simp only [same_inflight hr']
  refine seqE now fun t => seqE (whileM ?_ (andThen hr fun _ _ _ => ret rfl) _) fun _ => get fun s s' hs => ?_
  · refine get fun s1 s1' hs1 => ?_
    obtain ⟨_, _, _, _⟩ := hs1
    exact ite Iff.rfl (fun _ => seqE now fun t => pure rfl) fun _ => pure rfl
  · have hd := hs
    obtain @⟨i, o, u, d, r, _, _, _, _⟩ := hs
    rw [EchoPkt.seqNr hp]
    refine ite Iff.rfl (fun _ => pure hp) fun _ => seqE now fun t => ?_
    have h' := EchoPkt.setTimestampDifference (EchoPkt.setTimestamp hp t) s.theirDelay d
    exact seqE (sendPkt _ h') fun _ => pure h'

theorem room_resendLost (fuel : Nat) (nr : U16) : Room Eq (resendLost E fuel rec nr) (resendLost (E.withNet net) fuel rec' nr) := by
  unfold resendLost
  refine get fun s s' hs => ?_
  obtain ⟨_, ho, _⟩ := hs
  have := lag_find lag_out ho nr
  simp only
  generalize (s.sendWindow.find? fun p => p.seqNr == nr) = x at this ⊢
  rename_i i o u d r _ _ _
  generalize (o.find? fun p => p.seqNr == nr) = x' at this ⊢
  cases this with
  | none => exact pure rfl
  | some h => exact ignoreErr (room_sendPacket hr _ h)

theorem room_resendMissing (fuel : Nat) (ack last : U16) :
    ∀ bits loss, Room Eq (resendMissing E fuel rec ack last bits loss) (resendMissing (E.withNet net) fuel rec' ack last bits loss) := by
  intro bits
  induction bits with
  | nil => intro loss; exact pure rfl
  | cons x rest ih =>
    intro loss
    obtain ⟨idx, received⟩ := x
    unfold resendMissing
    split
    · exact ih _
    · refine seqE (overflowIf _) fun _ => ?_
      dsimp only
      split
      · exact seqE (room_resendLost hr _ _) fun _ => ih _
      · exact pure rfl

theorem room_processExtensions (fuel : Nat) (ack : U16) :
    ∀ exts loss, Room Eq (processExtensions E fuel rec ack exts loss) (processExtensions (E.withNet net) fuel rec' ack exts loss) := by
  intro exts
  induction exts with
  | nil => intro loss; exact pure rfl
  | cons e rest ih =>
    intro loss
    unfold processExtensions
    split
    · refine seqE ?_ fun loss1 => get fun s s' hs => ?_
      · unfold resendFirst
        split
        · exact seqE (overflowIf _) fun _ => seqE (room_resendLost hr _ _) fun _ => pure rfl
        · exact pure rfl
      · obtain ⟨_, ho, _⟩ := hs
        have := lag_last ho
        simp only
        rename_i i o u d r _ _ _
        generalize s.sendWindow.getLast? = x at this ⊢
        generalize o.getLast? = x' at this ⊢
        cases this with
        | none => exact ih _
        | some h =>
          simp only
          rw [EchoPkt.seqNr h]
          exact seqE (orPanic _) fun bits => seqE (room_resendMissing hr _ _ _ _ _) fun _ => ih _
    · exact ih _

theorem room_handleState (fuel : Nat) {pkt pkt' : Packet} (hp : RoomPkt pkt pkt') :
    Room Eq (handleState E fuel rec pkt) (handleState (E.withNet net) fuel rec' pkt') := by
  unfold handleState
  rw [RoomPkt.ackNr hp, RoomPkt.extensions hp]
  refine seqE ?_ fun _ => seqE ?_ fun _ => get fun s s' hs => seqE (orPanic _) fun exts => ?_
  · unfold countAck
    rw [RoomPkt.ackNr hp]
    refine get fun s s' hs => ?_
    obtain ⟨_, _, _, _⟩ := hs
    refine ite Iff.rfl (fun _ => seqE (overflowIf _) fun _ => modS ?_) fun _ => seqE now fun t => modS ?_
    · rintro s _ ⟨hi, ho, hu, hw⟩; exact ⟨hi, ho, hu, hw⟩
    · rintro s _ ⟨hi, ho, hu, hw⟩; exact ⟨hi, ho, hu, hw⟩
  · unfold measureAck
    rw [RoomPkt.ackNr hp]
    refine get fun s s' hs => ?_
    have hs0 := hs
    obtain ⟨_, ho, _⟩ := hs
    simp only
    rw [lag_findIdx lag_out ho (fun x => pkt.ackNr == x)]
    split
    · exact pure rfl
    · refine seqE now fun t => seq (orPanicR (lag_get ho _)) fun q q' hq => seq (orPanicR (hs0.onNewAck _ hq t)) fun a a' ha => modS fun _ _ _ => ha
  · have e : decide (s'.sendWindow ≠ [] ∧ s'.dupAcks = 3) = decide (s.sendWindow ≠ [] ∧ s.dupAcks = 3) := by
      obtain ⟨_, ho, _⟩ := hs
      simp only [ne_eq, forall₂_nil_iff ho]
    rw [e]
    refine seqE (room_processExtensions hr _ _ _ _) fun loss => seqE ?_ fun _ => seqE (modS ?_) fun _ => get fun s s' hs => ?_
    · unfold fastRetransmit
      rw [RoomPkt.ackNr hp]
      refine get fun s s' hs => ?_
      obtain ⟨_, ho, _⟩ := hs
      refine ite ?_ (fun _ => seqE (overflowIf _) fun _ => room_resendLost hr _ _) fun _ => pure rfl
      simp only [ne_eq, forall₂_nil_iff ho]
    · rintro s _ ⟨hi, ho, hu, hw⟩
      split
      · exact ⟨hi, ho, hu, hw⟩
      · exact ⟨hi, ho, hu, hw⟩
    · exact seq (orPanicR hs.advanceSendWindow) fun a a' ha => modS fun _ _ _ => ha

omit hr in
theorem room_withSack {s s' : Socket} (hs : RoomSocket s s') {pkt pkt' : Packet} (hp : RoomPkt pkt pkt') (t : U32) (ty : PacketType) :
    Room EchoPkt (withSack E s pkt (s.prepareReply t pkt ty)) (withSack (E.withNet net) s' pkt' (s'.prepareReply t pkt' ty)) := by
  have hq := prepareReply_room hs t pkt pkt' ty
  obtain ⟨h1, h2⟩ := prepareReply_bytes s t pkt ty
  generalize s.prepareReply t pkt ty = r at hq h1 h2
  generalize s'.prepareReply t pkt' ty = r' at hq
  unfold withSack
  rw [RoomPkt.seqNr hp, show s'.ackNr = s.ackNr by cases hs; rfl]
  refine ite Iff.rfl (fun _ => ?_) fun _ => pure hq
  exact seqE (orPanicE hs.buildSack.symm) fun sack => ite Iff.rfl (fun _ => orPanicR (EchoPkt.setSack hq h2 h1 sack)) fun _ => pure hq

omit hr in
theorem room_handleData {pkt pkt' : Packet} (hp : RoomPkt pkt pkt') : Room EchoPkt (handleData E pkt) (handleData (E.withNet net) pkt') := by
  refine get fun s s' hs => seqE now fun t => ?_
  rw [hs.state]
  exact room_withSack hs hp t _

omit hr in
theorem room_replyWith (pkt pkt' : Packet) (ty : PacketType) : Room (Option.Rel EchoPkt) (replyWith E pkt ty) (replyWith (E.withNet net) pkt' ty) :=
  get fun _ _ hs => seqE now fun t => pure (.some (prepareReply_room hs t pkt pkt' ty))

omit hr in
theorem room_onFin {pkt pkt' : Packet} (hp : RoomPkt pkt pkt') : Room (Option.Rel EchoPkt) (onFin E pkt) (onFin (E.withNet net) pkt') := by
  refine get fun s s' hs => seqE now fun t => seq (room_withSack hs hp t _) fun r r' hq => seqE (modS ?_) fun _ => pure (.some hq)
  rintro s _ ⟨hi, ho, hu, hw⟩
  exact ⟨hi, ho, hu, hw⟩

omit hr in
theorem room_onReset : Room (Option.Rel EchoPkt) onReset onReset := by
  refine seqE (modS ?_) fun _ => throw _
  rintro s _ ⟨hi, ho, hu, hw⟩
  exact ⟨hi, ho, hu, hw⟩

omit hr in
theorem room_onFinAck {pkt pkt' : Packet} (hp : RoomPkt pkt pkt') : Room (Option.Rel EchoPkt) (onFinAck pkt) (onFinAck pkt') := by
  unfold onFinAck
  rw [RoomPkt.ackNr hp]
  refine seqE (modS ?_) fun _ => pure .none
  rintro s _ ⟨hi, ho, hu, hw⟩
  by_cases h : pkt.ackNr = s.seqNr
  · simp only [if_pos h]; exact ⟨hi, ho, hu, hw⟩
  · simp only [if_neg h]; exact ⟨hi, ho, hu, hw⟩

omit hr in
theorem room_onSyn {pkt pkt' : Packet} (hp : RoomPkt pkt pkt') (src : Addr) : Room (Option.Rel EchoPkt) (onSyn E pkt src) (onSyn (E.withNet net) pkt' src) := by
  unfold onSyn
  rw [RoomPkt.connectionId hp, RoomPkt.seqNr hp]
  refine seqE rand fun r => seqE (overflowIf _) fun _ => seqE (modS ?_) fun _ => get fun s s' hs => seqE now fun t => pure ?_
  · rintro s _ ⟨hi, ho, hu, hw⟩
    exact ⟨hi, ho, hu, hw⟩
  · exact .some (prepareReply_room hs t _ _ _)

omit hr in
theorem room_onSynAck {pkt pkt' : Packet} (hp : RoomPkt pkt pkt') (src : Addr) : Room (Option.Rel EchoPkt) (onSynAck E pkt src) (onSynAck (E.withNet net) pkt' src) := by
  unfold onSynAck
  rw [RoomPkt.ackNr hp, RoomPkt.seqNr hp]
  refine get fun s s' hs => ?_
  obtain ⟨_, _, _, _⟩ := hs
  refine seqE (overflowIf _) fun _ => seqE now fun t => seqE (modS ?_) fun _ => pure .none
  rintro s _ ⟨hi, ho, hu, hw⟩
  exact ⟨hi, ho, hu, hw⟩

theorem room_dispatch (fuel : Nat) {pkt pkt' : Packet} (hp : RoomPkt pkt pkt') (src : Addr) (st : SocketState) (ty : PacketType) :
    Room (Option.Rel EchoPkt) (dispatch E fuel rec pkt src st ty) (dispatch (E.withNet net) fuel rec' pkt' src st ty) := by
  unfold dispatch
  split
  · exact room_onSyn hp src
  · exact room_replyWith _ _ _
  · exact room_onSynAck hp src
  · exact throw _
  · exact seq (room_handleData hp) fun _ _ h => pure (.some h)
  · exact seq (room_handleData hp) fun _ _ h => pure (.some h)
  · exact seqE (room_handleState hr _ hp) fun _ => pure .none
  · exact room_onFin hp
  · exact room_onFin hp
  · exact room_replyWith _ _ _
  · exact room_onFinAck hp
  · exact room_onReset
  · exact throw _

theorem room_handlePacket (fuel : Nat) {pkt pkt' : Packet} (hp : RoomPkt pkt pkt') (src : Addr) :
    Room (Option.Rel EchoPkt) (handlePacket E fuel rec pkt src) (handlePacket (E.withNet net) fuel rec' pkt' src) := by
  unfold handlePacket
  refine seqE (modS ?_) fun _ => get fun s s' hs => ?_
  · rintro s _ ⟨hi, ho, hu, hw⟩
    unfold Socket.bumpAck
    rw [RoomPkt.seqNr hp]
    by_cases h : pkt.seqNr - s.ackNr = 1
    · simp only [if_pos h]; exact ⟨hi, ho, hu, hw⟩
    · simp only [if_neg h]; exact ⟨hi, ho, hu, hw⟩
  · rw [RoomPkt.getType hp, RoomPkt.connectionId hp]
    obtain ⟨_, _, _, _⟩ := hs
    refine seqE (orPanic _) fun ty => ite Iff.rfl (fun _ => room_replyWith _ _ _) fun _ => seqE now fun t => seqE (modS ?_) fun _ => room_dispatch hr _ hp _ _ _
    rintro s _ ⟨hi, ho, hu, _⟩
    exact ⟨hi, ho, hu, RoomPkt.wndSize hp⟩

end

section
variable (hN : ∀ k, RoomEvent (E.net k) (net k))
include hN

theorem room_recv : ∀ fuel len, Room Eq (recv E fuel len) (recv (E.withNet net) fuel len)
  | 0, _ => never
  | fuel + 1, len => by
    unfold recv recvBody
    refine seq (room_recvWait hN _ _) fun x x' hx => ?_
    obtain ⟨b, src⟩ := x
    obtain ⟨b', src'⟩ := x'
    obtain ⟨hb, e⟩ := hx
    simp only at e
    subst e
    simp only
    refine seq (orPanicR (RoomBytes.tryFrom hb)) fun r r' hr => ?_
    cases hr with
    | error e => exact get fun s s' hs => pure (by rw [hs.connectedTo])
    | @ok p p' hp =>
      show Room Eq (recvPacket E fuel (recv E fuel BUF_SIZE) len p src') (recvPacket (E.withNet net) fuel (recv (E.withNet net) fuel BUF_SIZE) len p' src')
      unfold recvPacket
      refine seq (room_handlePacket (room_recv fuel _) _ hp _) fun r r' hr => ?_
      rw [RoomPkt.getType hp, RoomPkt.seqNr hp]
      refine seqE ?_ fun _ => seqE (orPanic _) fun ty => seqE (modS ?_) fun _ => seqE (room_flushIncoming _) fun out => pure rfl
      · cases hr with
        | none => exact pure rfl
        | some h => exact sendPkt _ (EchoPkt.setWndSize h _)
      · rintro s _ ⟨hi, ho, hu, hw⟩
        by_cases h : ty = .data ∧ 0 < (p.seqNr - s.lastDropped).toNat
        · simp only [if_pos h]; exact ⟨lag_insertPkt room_in hi hp, ho, hu, hw⟩
        · simp only [if_neg h]; exact ⟨hi, ho, hu, hw⟩

theorem room_recvFromLoop (fuel len : Nat) : ∀ n, Room Eq (recvFromLoop E fuel len n) (recvFromLoop (E.withNet net) fuel len n)
  | 0 => never
  | n + 1 => by
    unfold recvFromLoop
    refine get fun s s' hs => ?_
    rw [hs.state, hs.connectedTo]
    exact ite Iff.rfl (fun _ => pure rfl) fun _ => seqE (room_recv hN _ _) fun x => ite Iff.rfl (fun _ => room_recvFromLoop fuel len n) fun _ => pure rfl

theorem room_sendQueue (fuel : Nat) : ∀ n, Room Eq (sendQueue E fuel n) (sendQueue (E.withNet net) fuel n)
  | 0 => never
  | n + 1 => by
    unfold sendQueue
    refine get fun s s' hs => ?_
    obtain ⟨_, _, hu⟩ := hs
    simp only
    cases e : s.unsent with
    | nil =>
      rw [e] at hu
      cases hu
      exact pure rfl
    | cons q rest =>
      rw [e] at hu
      cases hu with
      | cons hq hrest =>
        refine seqE (modS ?_) fun _ => seq (room_sendPacket (room_recv hN _ _) _ hq) fun p p' hp => get fun s s' hs => ?_
        · rintro s _ ⟨hi, ho, hu, hw⟩
          exact ⟨hi, ho, hrest, hw⟩
        · obtain ⟨_, _, _, _⟩ := hs
          rw [EchoPkt.len hp]
          refine seqE (overflowIf _) fun _ => seqE (modS ?_) fun _ => room_sendQueue fuel n
          rintro s _ ⟨hi, ho, hu, hw⟩
          exact ⟨hi, List.rel_append ho (.cons hp .nil), hu, hw⟩

theorem room_scratchRecv (fuel : Nat) : Room Eq (scratchRecv E fuel) (scratchRecv (E.withNet net) fuel) :=
  seq (room_recv hN _ _) fun _ _ _ => pure rfl

theorem room_flush (fuel : Nat) : Room Eq (flush E fuel) (flush (E.withNet net) fuel) := by
  refine whileM (get fun s s' hs => pure ?_) (room_scratchRecv hN fuel) _
  obtain ⟨_, ho, _⟩ := hs
  simp only [ne_eq, forall₂_nil_iff ho]

theorem room_close (fuel : Nat) : Room Eq (close E fuel) (close (E.withNet net) fuel) := by
  unfold close
  refine get fun s s' hs => ?_
  rw [hs.state]
  refine ite Iff.rfl (fun _ => pure rfl) fun _ => seqE (room_flush hN _) fun _ => get fun s s' hs => seqE now fun t => ?_
  refine seqE ?_ fun _ => seqE (modS ?_) fun _ => whileM (get fun s s' hs => pure ?_) (room_scratchRecv hN fuel) _
  · cases hs
    exact sendPkt _ (AgreeBut.refl _)
  · rintro s _ ⟨hi, ho, hu, hw⟩
    exact ⟨hi, ho, hu, hw⟩
  · rw [hs.state]

omit hN in
theorem room_enqueues (l : List Bytes) : ∀ {s s' : Socket}, RoomSocket s s' → RoomSocket (l.foldl enqueue s) (l.foldl enqueue s') := by
  induction l with
  | nil => exact fun h => h
  | cons c l ih =>
    intro s s' hs
    refine ih ?_
    obtain ⟨hi, ho, hu, hw⟩ := hs
    exact ⟨hi, ho, List.rel_append hu (.cons (AgreeBut.refl _) .nil), hw⟩

theorem room_runOp (fuel : Nat) (op : Op) : Room Eq (runOp E fuel op) (runOp (E.withNet net) fuel op) := by
  cases op with
  | recvFrom len =>
    refine seqE ?_ fun x => pure rfl
    unfold recvFrom
    refine seqE (room_flushIncoming _) fun out => get fun s s' hs => ?_
    rw [hs.state, hs.connectedTo]
    exact ite Iff.rfl (fun _ => pure rfl) fun _ => ite Iff.rfl (fun _ => throw _) fun _ => room_recvFromLoop hN _ _ _
  | sendTo b =>
    refine seqE ?_ fun _ => pure rfl
    unfold sendTo
    refine get fun s s' hs => ?_
    rw [hs.state]
    exact ite Iff.rfl (fun _ => throw _) fun _ => seqE (modS fun s s' hs => room_enqueues _ hs) fun _ => seqE (room_sendQueue hN _ _) fun _ => pure rfl
  | flush => exact seqE (room_flush hN _) fun _ => pure rfl
  | close => exact seqE (room_close hN _) fun _ => pure rfl
  | setMaxRetries n =>
    refine seqE (modS ?_) fun _ => pure rfl
    rintro s _ ⟨hi, ho, hu, hw⟩
    exact ⟨hi, ho, hu, hw⟩

theorem room_synLoop : ∀ (n : Nat) (t : U64), Room (RoomBytes) (synLoop E n t) (synLoop (E.withNet net) n t)
  | 0, _ => pure (RoomBytes.refl _)
  | n + 1, t => by
    unfold synLoop
    refine get fun s s' hs => seqE now fun tm => seqE ?_ fun _ => seqE (modS ?_) fun _ => seq (udpRecv hN _ _) fun r r' hr => ?_
    · cases hs
      exact sendPkt _ (AgreeBut.refl _)
    · rintro s _ ⟨hi, ho, hu, hw⟩
      exact ⟨hi, ho, hu, hw⟩
    · rcases r with k | ⟨b, a⟩ <;> rcases r' with k' | ⟨b', a'⟩
      · cases hr
        dsimp only
        split
        · exact room_synLoop n _
        · exact throw _
      · exact hr.elim
      · exact hr.elim
      · obtain ⟨hb, e⟩ := hr
        simp only at e
        subst e
        refine seqE (modS ?_) fun _ => pure hb
        rintro s _ ⟨hi, ho, hu, hw⟩
        exact ⟨hi, ho, hu, hw⟩

theorem room_connectM (fuel : Nat) (addr : Addr) : Room Eq (connectM E fuel addr) (connectM (E.withNet net) fuel addr) := by
  unfold connectM
  refine seqE (modS ?_) fun _ => get fun s s' hs => ?_
  · rintro s _ ⟨hi, ho, hu, hw⟩
    exact ⟨hi, ho, hu, hw⟩
  · rw [show s'.congTimeout = s.congTimeout by cases hs; rfl]
    refine seq (room_synLoop hN _ _) fun b b' hb => get fun s s' hs => ?_
    rw [hs.connectedTo]
    refine seq (orPanicR (RoomBytes.tryFrom hb)) fun r r' hr => ?_
    cases hr with
    | error e => exact throw _
    | @ok p p' hp =>
      show Room Eq (handlePacket E fuel (recv E fuel BUF_SIZE) p s.connectedTo >>= fun _ => Pure.pure ())
        (handlePacket (E.withNet net) fuel (recv (E.withNet net) fuel BUF_SIZE) p' s.connectedTo >>= fun _ => Pure.pure ())
      exact seq (room_handlePacket (room_recv hN _ _) _ hp _) fun _ _ _ => Room.pure rfl

theorem room_acceptM (fuel : Nat) {pkt pkt' : Packet} (hp : RoomPkt pkt pkt') (src : Addr) :
    Room Eq (acceptM E fuel pkt src) (acceptM (E.withNet net) fuel pkt' src) := by
  intro w w' hw
  obtain ⟨h1, h2⟩ := room_handlePacket (E := E) (net := net) (room_recv hN fuel BUF_SIZE) fuel hp src w w' hw
  unfold acceptM
  rcases e : handlePacket E fuel (recv E fuel BUF_SIZE) pkt src w with ⟨r, v⟩
  rcases e' : handlePacket (E.withNet net) fuel (recv (E.withNet net) fuel BUF_SIZE) pkt' src w' with ⟨r', v'⟩
  rw [e, e'] at h1 h2
  cases h1 with
  | ok ha =>
    cases ha with
    | none => exact ⟨.err _, h2⟩
    | some h => exact sendPkt _ h _ _ h2
  | err x => exact ⟨.err _, h2⟩
  | panic => exact ⟨.panic, h2⟩
  | pending => exact ⟨.pending, h2⟩

end

end Utp
