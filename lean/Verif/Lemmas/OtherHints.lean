import Verif.Spec.OtherHints
import Verif.Lemmas.OtherClock
import Verif.Lemmas.OtherStart
/-!
# Two runs that differ only in the times and windows the peer reports
-/

namespace Utp
open M Packet

variable {E E' : Env} {α β : Type}

/-! ### Packets -/

/-- Packets that agree but for the times and the window. -/
abbrev HintPkt (p p' : Packet) : Prop := SameButHints p.bytes p'.bytes

/-- Lists of such packets. -/
abbrev HintPkts : List Packet → List Packet → Prop := List.Forall₂ fun p p' => SameButHints p.bytes p'.bytes

section
variable {b b' : Bytes} (h : SameButHints b b')
include h

theorem SameButHints.byte {j : Nat} (hj : j < 4 ∨ 16 ≤ j) : byteAt b' j = byteAt b j := by
  simp only [byteAt, List.getD, h.2 j hj]

theorem SameButHints.be16 {j : Nat} (hj : j < 3 ∨ 16 ≤ j) : Packet.be16 b' j = Packet.be16 b j := by
  simp only [Packet.be16, h.byte (show j < 4 ∨ 16 ≤ j by omega), h.byte (show j + 1 < 4 ∨ 16 ≤ j + 1 by omega)]

theorem SameButHints.drop {j : Nat} (hj : 16 ≤ j) : b'.drop j = b.drop j := by
  apply List.ext_getElem?
  intro k
  rw [List.getElem?_drop, List.getElem?_drop, h.2 _ (by omega)]

theorem SameButHints.take (n : Nat) : SameButHints (b.take n) (b'.take n) := by
  refine ⟨by simp [h.1], fun i hi => ?_⟩
  rw [List.getElem?_take, List.getElem?_take, h.2 i hi]

theorem SameButHints.payloadLoop : ∀ fuel j ext, 20 ≤ j → Packet.payloadLoop b' fuel j ext = Packet.payloadLoop b fuel j ext
  | 0, _, _, _ => rfl
  | fuel + 1, j, ext, hj => by
    unfold Packet.payloadLoop
    rw [h.1, h.2 _ (by omega), h.2 _ (by omega)]
    split
    · split
      · exact SameButHints.payloadLoop fuel _ _ (by omega)
      · rfl
    · rfl

theorem SameButHints.extensionsLoop : ∀ fuel j ext, 20 ≤ j → Packet.extensionsLoop b' fuel j ext = Packet.extensionsLoop b fuel j ext
  | 0, _, _, _ => rfl
  | fuel + 1, j, ext, hj => by
    unfold Packet.extensionsLoop
    rw [h.1, h.2 _ (by omega), h.2 _ (by omega), h.drop (by omega)]
    split
    · rfl
    · split
      · split
        · rw [SameButHints.extensionsLoop fuel _ _ (by omega)]
        · rfl
      · rfl

theorem SameButHints.checkLoop : ∀ fuel j ext, 20 ≤ j → Packet.checkLoop b' fuel j ext = Packet.checkLoop b fuel j ext
  | 0, _, _, _ => rfl
  | fuel + 1, j, ext, hj => by
    unfold Packet.checkLoop
    rw [h.1, h.2 _ (by omega), h.2 _ (by omega)]
    split
    · split
      · rfl
      · split
        · split
          · rfl
          · exact SameButHints.checkLoop fuel _ _ (by omega)
        · rfl
    · rfl

end

section
variable {p p' : Packet} (h : HintPkt p p')
include h

theorem HintPkt.seqNr : p'.seqNr = p.seqNr := SameButHints.be16 h (by omega)
theorem HintPkt.ackNr : p'.ackNr = p.ackNr := SameButHints.be16 h (by omega)
theorem HintPkt.connectionId : p'.connectionId = p.connectionId := SameButHints.be16 h (by omega)
theorem HintPkt.getType : p'.getType = p.getType := by
  simp only [Packet.getType, SameButHints.byte h (show 0 < 4 ∨ 16 ≤ 0 by omega)]

theorem HintPkt.payload : p'.payload = p.payload := by
  unfold Packet.payload
  rw [h.2 1 (by omega), h.1]
  cases p.bytes[1]? with
  | none => rfl
  | some e =>
    simp only
    rw [SameButHints.payloadLoop h _ _ _ (by simp [HEADER_SIZE])]
    cases hk : Packet.payloadLoop p.bytes (p.bytes.length + 1) HEADER_SIZE (.ofU8 e) with
    | none => rfl
    | some k =>
      have := payloadLoop_ge _ _ _ _ _ hk
      simp only [HEADER_SIZE] at this
      simp only
      rw [SameButHints.drop h (by omega)]

theorem HintPkt.extensions : p'.extensions = p.extensions := by
  unfold Packet.extensions
  rw [h.2 1 (by omega), h.1]
  cases p.bytes[1]? with
  | none => rfl
  | some e => exact SameButHints.extensionsLoop h _ _ _ (by simp [HEADER_SIZE])

end

/-- The same result of decoding. -/
inductive HintParsed : Except ParseError Packet → Except ParseError Packet → Prop
  | ok {p p' : Packet} : HintPkt p p' → HintParsed (.ok p) (.ok p')
  | error (e : ParseError) : HintParsed (.error e) (.error e)

theorem SameButHints.tryFrom {b b' : Bytes} (h : SameButHints b b') : Option.Rel HintParsed (Packet.tryFrom b) (Packet.tryFrom b') := by
  have h1 : checkExtensions b' = checkExtensions b := by
    unfold checkExtensions
    rw [h.1, h.2 1 (by omega)]
    split
    · rfl
    · cases b[1]? with
      | none => rfl
      | some e => simp only [h.checkLoop _ HEADER_SIZE _ (by simp [HEADER_SIZE])]
  have h2 : headerTryFrom b' = headerTryFrom b := by
    unfold headerTryFrom
    rw [h.1, h.byte (by omega)]
  unfold Packet.tryFrom
  rw [h1, h2]
  rcases checkExtensions b with _ | c
  · exact .none
  · simp only
    rcases headerTryFrom b with e | _
    · exact .some (.error e)
    · rcases c with e | _
      · exact .some (.error e)
      · exact .some (.ok h)

theorem HintPkts.get {l l' : List Packet} (h : HintPkts l l') (i : Nat) : Option.Rel HintPkt l[i]? l'[i]? := by
  induction h generalizing i with
  | nil => simp
  | cons h _ ih =>
    cases i with
    | zero => simpa using h
    | succ i => simpa using ih i

theorem HintPkts.last {l l' : List Packet} (h : HintPkts l l') : Option.Rel HintPkt l.getLast? l'.getLast? := by
  rw [List.getLast?_eq_getElem?, List.getLast?_eq_getElem?, h.length_eq]
  exact h.get _

theorem HintPkts.insertIdx {l l' : List Packet} (h : HintPkts l l') {p p' : Packet} (hp : HintPkt p p') (i : Nat) :
    HintPkts (l.insertIdx i p) (l'.insertIdx i p') := by
  induction h generalizing i with
  | nil =>
    cases i with
    | zero => exact .cons hp .nil
    | succ i => simp
  | cons h ht ih =>
    cases i with
    | zero => exact .cons hp (.cons h ht)
    | succ i => exact .cons h (ih i)

theorem HintPkts.filterMap {l l' : List Packet} (h : HintPkts l l') (f : U16 → Bool) (g : U16 → α) :
    ((l.filter fun p => f p.seqNr).map fun p => g p.seqNr) = (l'.filter fun p => f p.seqNr).map fun p => g p.seqNr := by
  induction h with
  | nil => rfl
  | @cons p p' _ _ h _ ih =>
    rw [List.filter_cons, List.filter_cons, HintPkt.seqNr h]
    split
    · rw [List.map_cons, List.map_cons, ih, HintPkt.seqNr h]
    · exact ih

theorem HintPkts.insertPkt {l l' : List Packet} (h : HintPkts l l') {p p' : Packet} (hp : HintPkt p p') :
    HintPkts (Socket.insertPkt l p) (Socket.insertPkt l' p') := by
  have e1 : Socket.afterLast l p = Socket.afterLast l' p' := by
    unfold Socket.afterLast
    have := h.last
    generalize l.getLast? = x at this ⊢
    generalize l'.getLast? = x' at this ⊢
    cases this with
    | none => rfl
    | some h => simp only [HintPkt.seqNr h, HintPkt.seqNr hp]
  have e2 : (l.filter fun q => q.seqNr < p.seqNr).length = (l'.filter fun q => q.seqNr < p'.seqNr).length := by
    have := congrArg List.length (h.filterMap (fun s => decide (s < p.seqNr)) (fun _ => ()))
    rw [List.length_map, List.length_map] at this
    rw [HintPkt.seqNr hp]
    exact this
  unfold Socket.insertPkt
  simp only
  rw [e1, e2]
  split
  · exact List.rel_append h (.cons hp .nil)
  · have := h.get (l'.filter fun q => q.seqNr < p'.seqNr).length
    generalize l[(l'.filter fun q => q.seqNr < p'.seqNr).length]? = x at this ⊢
    generalize l'[(l'.filter fun q => q.seqNr < p'.seqNr).length]? = x' at this ⊢
    cases this with
    | none => exact h.insertIdx hp _
    | some hq =>
      simp only [HintPkt.seqNr hq, HintPkt.seqNr hp]
      split
      · exact h.insertIdx hp _
      · exact h

theorem prepareReply_hints (s s' : Socket) (h : s'.senderId = s.senderId ∧ s'.seqNr = s.seqNr ∧ s'.ackNr = s.ackNr) (t t' : U32) (pkt pkt' : Packet) (ty : PacketType) :
    SamePkt (s.prepareReply t pkt ty) (s'.prepareReply t' pkt' ty) := by
  unfold Socket.prepareReply
  rw [h.1, h.2.1, h.2.2]
  exact (((SamePkt.setTimestampDifference (SamePkt.setTimestamp (SameButTimes.refl _) _ _) _ _).setConnectionId _).setSeqNr _).setAckNr _

/-! ### Worlds -/

/-- The same socket but for the measured times, the window of the peer, and these fields of the packets kept, with nothing outstanding. -/
inductive Hinted (s : Socket) : Socket → Prop
  | mk {i : List Packet} {d : Int} {t r : U32} : s.sendWindow = [] → HintPkts s.incoming i → Hinted s { s with incoming := i, theirDelay := d, lastAckedTs := t, remoteWnd := r }

theorem Hinted.ids {s s' : Socket} (h : Hinted s s') : s'.senderId = s.senderId ∧ s'.seqNr = s.seqNr ∧ s'.ackNr = s.ackNr := by cases h; exact ⟨rfl, rfl, rfl⟩

/-- The same world but for measured times. -/
structure HintedWorld (w w' : World) : Prop where
  s : Hinted w.s w'.s
  nRand : w'.nRand = w.nRand
  nNet : w'.nNet = w.nNet
  nSnd : w'.nSnd = w.nSnd
  log : List.Forall₂ TimedAct w.log w'.log

/-- In such worlds, `m` and `m'` have related results and end in such worlds. -/
def HintKeeps (R : α → α → Prop) (m m' : M α) : Prop := ∀ w w', HintedWorld w w' → SameRes R (m w).1 (m' w').1 ∧ HintedWorld (m w).2 (m' w').2

namespace HintKeeps

theorem ret {R : α → α → Prop} {a a' : α} (h : R a a') : HintKeeps R (M.ret a) (M.ret a') := fun _ _ hw => ⟨.ok h, hw⟩
theorem pure {R : α → α → Prop} {a a' : α} (h : R a a') : HintKeeps R (Pure.pure a) (Pure.pure a') := ret h
theorem throw {R : α → α → Prop} (e : IoErr) : HintKeeps R (M.throw e) (M.throw e) := fun _ _ hw => ⟨.err e, hw⟩
theorem never {R : α → α → Prop} : HintKeeps R M.never M.never := fun _ _ hw => ⟨.pending, hw⟩

theorem andThen {R : α → α → Prop} {Q : β → β → Prop} {m m' : M α} {f f' : α → M β} (h : HintKeeps R m m')
    (hf : ∀ a a', R a a' → HintKeeps Q (f a) (f' a')) : HintKeeps Q (M.andThen m f) (M.andThen m' f') := by
  intro w w' hw
  obtain ⟨h1, h2⟩ := h w w' hw
  unfold M.andThen
  rcases e : m w with ⟨r, v⟩
  rcases e' : m' w' with ⟨r', v'⟩
  rw [e, e'] at h1 h2
  cases h1 with
  | ok ha => exact hf _ _ ha v v' h2
  | err x => exact ⟨.err x, h2⟩
  | panic => exact ⟨.panic, h2⟩
  | pending => exact ⟨.pending, h2⟩

theorem seq {R : α → α → Prop} {Q : β → β → Prop} {m m' : M α} {f f' : α → M β} (h : HintKeeps R m m')
    (hf : ∀ a a', R a a' → HintKeeps Q (f a) (f' a')) : HintKeeps Q (m >>= f) (m' >>= f') := andThen h hf

theorem seqE {Q : β → β → Prop} {m m' : M α} {f f' : α → M β} (h : HintKeeps Eq m m') (hf : ∀ a, HintKeeps Q (f a) (f' a)) : HintKeeps Q (m >>= f) (m' >>= f') :=
  andThen h fun a _ e => e ▸ hf a

theorem get {Q : β → β → Prop} {f f' : Socket → M β} (hf : ∀ s s', Hinted s s' → HintKeeps Q (f s) (f' s')) : HintKeeps Q (getS >>= f) (getS >>= f') :=
  fun w w' hw => hf w.s w'.s hw.s w w' hw

theorem modS {f f' : Socket → Socket} (hf : ∀ s s', Hinted s s' → Hinted (f s) (f' s')) : HintKeeps Eq (M.modS f) (M.modS f') :=
  fun _ _ hw => ⟨.ok rfl, hf _ _ hw.s, hw.nRand, hw.nNet, hw.nSnd, hw.log⟩

theorem orPanic (o : Option α) : HintKeeps Eq (M.orPanic o) (M.orPanic o) := by
  cases o with
  | none => exact fun _ _ hw => ⟨.panic, hw⟩
  | some a => exact ret rfl

theorem orPanicE {o o' : Option α} (h : o' = o) : HintKeeps Eq (M.orPanic o) (M.orPanic o') := by
  subst h
  exact orPanic _

theorem orPanicR {R : α → α → Prop} {o o' : Option α} (h : Option.Rel R o o') : HintKeeps R (M.orPanic o) (M.orPanic o') := by
  cases h with
  | none => exact fun _ _ hw => ⟨.panic, hw⟩
  | some h => exact ret h

theorem overflowIf (hE : OtherHints E E') {b b' : Bool} (h : b' = b) : HintKeeps Eq (M.overflowIf E b) (M.overflowIf E' b') := by
  subst h
  unfold M.overflowIf
  rw [hE.checks]
  split
  · exact fun _ _ hw => ⟨.panic, hw⟩
  · exact ret rfl

theorem now : HintKeeps (fun _ _ => True) (M.now E) (M.now E') := fun _ _ h => ⟨.ok trivial, h.s, h.nRand, h.nNet, h.nSnd, h.log⟩

theorem rand (hE : OtherHints E E') : HintKeeps Eq (M.rand E) (M.rand E') := by
  intro w w' h
  refine ⟨?_, h.s, congrArg (· + 1) h.nRand, h.nNet, h.nSnd, h.log⟩
  show SameRes Eq (.ok (E.rand w.nRand)) (.ok (E'.rand w'.nRand))
  rw [h.nRand, hE.rand]; exact .ok rfl

theorem ignoreErr {R : α → α → Prop} {m m' : M α} (h : HintKeeps R m m') : HintKeeps Eq (M.ignoreErr m) (M.ignoreErr m') := by
  intro w w' hw
  obtain ⟨h1, h2⟩ := h w w' hw
  unfold M.ignoreErr
  rcases e : m w with ⟨r, v⟩
  rcases e' : m' w' with ⟨r', v'⟩
  rw [e, e'] at h1 h2
  cases h1 with
  | ok ha => exact ⟨.ok rfl, h2⟩
  | err e => exact ⟨.ok rfl, h2⟩
  | panic => exact ⟨.panic, h2⟩
  | pending => exact ⟨.pending, h2⟩

theorem udpSend (hE : OtherHints E E') (a : Addr) {p p' : Packet} (hp : SamePkt p p') : HintKeeps Eq (M.udpSend E a p.bytes) (M.udpSend E' a p'.bytes) := by
  intro w w' h
  have key : ∀ ok, HintedWorld { w with nSnd := w.nSnd + 1, log := w.log ++ [.send a p.bytes ok] } { w' with nSnd := w'.nSnd + 1, log := w'.log ++ [.send a p'.bytes ok] } := fun ok =>
    ⟨h.s, h.nRand, h.nNet, congrArg (· + 1) h.nSnd, List.rel_append h.log (.cons (.send a ok hp) .nil)⟩
  unfold M.udpSend
  simp only
  rw [show E'.snd w'.nSnd = E.snd w.nSnd by rw [h.nSnd, hE.snd]]
  rcases E.snd w.nSnd with _ | k | _
  · exact ⟨.ok rfl, key _⟩
  · exact ⟨.err _, key _⟩
  · exact ⟨.pending, key _⟩

/-- The same received datagram but for the times and the window. -/
inductive HintGot : Except ErrorKind (Bytes × Addr) → Except ErrorKind (Bytes × Addr) → Prop
  | ok {b b' : Bytes} (a : Addr) : SameButHints b b' → HintGot (.ok (b, a)) (.ok (b', a))
  | error (k : ErrorKind) : HintGot (.error k) (.error k)

theorem udpRecv (hE : OtherHints E E') (t : Option U64) (len : Nat) : HintKeeps HintGot (M.udpRecv E t len) (M.udpRecv E' t len) := by
  intro w w' h
  have key : HintedWorld { w with nNet := w.nNet + 1, log := w.log ++ [.wait t] } { w' with nNet := w.nNet + 1, log := w'.log ++ [.wait t] } :=
    ⟨h.s, h.nRand, rfl, h.nSnd, List.rel_append h.log (.cons (.wait t) .nil)⟩
  have hn := hE.net w.nNet
  unfold M.udpRecv
  simp only
  rw [h.nNet]
  generalize E.net w.nNet = e at hn
  generalize E'.net w.nNet = e' at hn
  cases hn with
  | dgram a hb => exact ⟨.ok (.ok a (hb.take len)), key⟩
  | fail k => exact ⟨.ok (.error k), key⟩
  | never => exact ⟨.pending, key⟩

theorem whileM {c c' : M Bool} {b b' : M Unit} (hc : HintKeeps Eq c c') (hb : HintKeeps Eq b b') : ∀ n, HintKeeps Eq (M.whileM n c b) (M.whileM n c' b')
  | 0 => never
  | n + 1 => by
    refine andThen hc ?_
    rintro go _ rfl
    cases go with
    | true => exact andThen hb fun _ _ _ => whileM hc hb n
    | false => exact ret rfl

theorem ite {R : α → α → Prop} {c c' : Prop} [Decidable c] [Decidable c'] {m n m' n' : M α} (hcc : c' ↔ c) (h1 : c → HintKeeps R m m') (h2 : ¬ c → HintKeeps R n n') :
    HintKeeps R (if c then m else n) (if c' then m' else n') := by
  by_cases hc : c
  · rw [if_pos hc, if_pos (hcc.2 hc)]; exact h1 hc
  · rw [if_neg hc, if_neg (mt hcc.1 hc)]; exact h2 hc

end HintKeeps

open HintKeeps

variable (hE : OtherHints E E')

/-! ### The operations -/

theorem Hinted.advanceIncoming {s s' : Socket} (h : Hinted s s') : Hinted s.advanceIncoming s'.advanceIncoming := by
  obtain ⟨hs, hi⟩ := h
  unfold Socket.advanceIncoming
  cases e : s.incoming with
  | nil =>
    rw [e] at hi
    cases hi
    exact ⟨hs, by rw [e]; exact .nil⟩
  | cons q rest =>
    rw [e] at hi
    cases hi with
    | cons h ht =>
      simp only
      rw [HintPkt.seqNr h]
      exact ⟨hs, ht⟩

include hE in
theorem hints_flushIncoming (len : Nat) : HintKeeps Eq (flushIncoming E len) (flushIncoming E' len) := by
  unfold flushIncoming
  refine get fun s s' hs => ?_
  obtain ⟨hs, hi⟩ := hs
  refine ite Iff.rfl (fun _ => seqE (modS fun s s' hs => ?_) fun _ => pure (by unfold Socket.takePending; simp only; split <;> rfl)) fun _ => ?_
  · obtain ⟨hs, hi⟩ := hs
    unfold Socket.takePending
    simp only
    split
    · exact Hinted.advanceIncoming (s := { s with pending := [] }) ⟨hs, hi⟩
    · exact ⟨hs, hi⟩
  · simp only
    generalize s.incoming = l at hi
    cases hi with
    | nil => exact pure rfl
    | cons hq hr =>
      simp only [HintPkt.seqNr hq, HintPkt.payload hq]
      refine seqE (overflowIf hE rfl) fun _ => ite Iff.rfl (fun _ => seqE (orPanic _) fun pl => seqE (modS fun s s' hs => ?_) fun _ => pure rfl) fun _ => pure rfl
      unfold Socket.takeHead
      split
      · exact hs.advanceIncoming
      · obtain ⟨hs, hi⟩ := hs
        exact ⟨hs, hi⟩

include hE

theorem hints_timeout : HintKeeps Eq (handleReceiveTimeout E) (handleReceiveTimeout E') := by
  have hf : HintKeeps Eq (fastResendOne E) (fastResendOne E') := by
    refine get fun s s' hs => seq now fun t t' _ => ignoreErr (R := Eq) ?_
    have := resendRequest_same s s' hs.ids t t'
    obtain ⟨hs, hi⟩ := hs
    exact udpSend hE _ this
  unfold handleReceiveTimeout
  refine get fun s s' hs => ?_
  have hp := finPacket_same s s' hs.ids
  obtain ⟨hs, hi⟩ := hs
  refine seqE (overflowIf hE rfl) fun _ => seqE (modS ?_) fun _ => ?_
  · rintro s _ ⟨hs, hi⟩
    exact ⟨hs, hi⟩
  simp only [hs]
  refine ite Iff.rfl (fun _ => ?_) fun _ => ite Iff.rfl (fun _ => ?_) fun _ => pure rfl
  · exact seq now fun t t' _ => udpSend hE _ (hp t t')
  · exact seqE hf fun _ => seqE hf fun _ => hf

theorem hints_recvWait : ∀ fuel retries, HintKeeps (fun x x' => x'.2 = x.2 ∧ SameButHints x.1 x'.1) (recvWait E fuel retries) (recvWait E' fuel retries)
  | 0, _ => never
  | fuel + 1, retries => by
    unfold recvWait
    refine get fun s s' hs => ?_
    obtain ⟨hs, hi⟩ := hs
    refine ite Iff.rfl (fun _ => ?_) fun _ => ?_
    · refine seqE (modS ?_) fun _ => throw _
      rintro s _ ⟨hs, hi⟩
      exact ⟨hs, hi⟩
    · refine seq (udpRecv hE _ _) fun r r' hr => ?_
      cases hr with
      | error k => exact ite Iff.rfl (fun _ => seqE (hints_timeout hE) fun _ => hints_recvWait fuel _) fun _ => throw _
      | ok a hb => exact pure ⟨rfl, hb⟩

section
variable {rec rec' : M (Bytes × Addr)}

omit hE in
theorem hints_resendLost (fuel : Nat) (nr : U16) : HintKeeps Eq (resendLost E fuel rec nr) (resendLost E' fuel rec' nr) := by
  unfold resendLost
  refine get fun s s' hs => ?_
  obtain ⟨hs, hi⟩ := hs
  simp only [hs, List.find?_nil]
  exact pure rfl

theorem hints_processExtensions (fuel : Nat) (ack : U16) :
    ∀ exts loss, HintKeeps Eq (processExtensions E fuel rec ack exts loss) (processExtensions E' fuel rec' ack exts loss) := by
  intro exts
  induction exts with
  | nil => intro loss; exact pure rfl
  | cons e rest ih =>
    intro loss
    unfold processExtensions
    refine ite Iff.rfl (fun _ => seqE ?_ fun loss1 => get fun s s' hs => ?_) fun _ => ih _
    · unfold resendFirst
      exact ite Iff.rfl (fun _ => seqE (overflowIf hE rfl) fun _ => seqE (hints_resendLost _ _) fun _ => pure rfl) fun _ => pure rfl
    · obtain ⟨hs, hi⟩ := hs
      simp only [hs, List.getLast?_nil]
      exact ih _

theorem hints_handleState (fuel : Nat) {pkt pkt' : Packet} (hp : HintPkt pkt pkt') : HintKeeps Eq (handleState E fuel rec pkt) (handleState E' fuel rec' pkt') := by
  unfold handleState
  refine seqE ?_ fun _ => seqE ?_ fun _ => get fun s s' hs => seqE (orPanicE hp.extensions) fun exts => ?_
  · unfold countAck
    rw [HintPkt.ackNr hp]
    refine get fun s s' hs => ?_
    obtain ⟨_, _⟩ := hs
    refine ite Iff.rfl (fun _ => seqE (overflowIf hE rfl) fun _ => modS ?_) fun _ => seq now fun t t' _ => modS ?_
    · rintro s _ ⟨hs, hi⟩; exact ⟨hs, hi⟩
    · rintro s _ ⟨hs, hi⟩; exact ⟨hs, hi⟩
  · unfold measureAck
    refine get fun s s' hs => ?_
    obtain ⟨hs, hi⟩ := hs
    simp only [hs, List.findIdx?_nil]
    exact pure rfl
  · obtain ⟨hs, hi⟩ := hs
    rw [HintPkt.ackNr hp]
    refine seqE (hints_processExtensions hE _ _ _ _) fun loss => seqE ?_ fun _ => seqE (modS ?_) fun _ => get fun s s' hs => ?_
    · unfold fastRetransmit
      refine get fun s s' hs => ?_
      obtain ⟨hs, hi⟩ := hs
      simp only [hs, ne_eq, not_true_eq_false, false_and, if_false]
      exact pure rfl
    · rintro s _ ⟨hs, hi⟩
      split
      · exact ⟨hs, hi⟩
      · exact ⟨hs, hi⟩
    · obtain @⟨i, d, t, r, hs, hi⟩ := hs
      have e : ∀ (u : Socket), u.sendWindow = [] → ∀ E : Env, u.advanceSendWindow E = some u := by
        intro u hu E
        unfold Socket.advanceSendWindow
        simp only [hu, List.findIdx?_nil]
      exact seq (orPanicR (R := Hinted) (by rw [e s hs, e _ (show ({ s with incoming := i, remoteWnd := r, theirDelay := d, lastAckedTs := t } : Socket).sendWindow = [] from hs)]; exact .some ⟨hs, hi⟩)) fun a a' ha => modS fun _ _ _ => ha

theorem hints_withSack {s s' : Socket} (hs : Hinted s s') {pkt pkt' : Packet} (hpp : HintPkt pkt pkt') (t t' : U32) (ty : PacketType) :
    HintKeeps SamePkt (withSack E s pkt (s.prepareReply t pkt ty)) (withSack E' s' pkt' (s'.prepareReply t' pkt' ty)) := by
  have hp := prepareReply_hints s s' hs.ids t t' pkt pkt' ty
  obtain ⟨h1, h2⟩ := prepareReply_bytes s t pkt ty
  generalize s.prepareReply t pkt ty = r at hp h1 h2
  generalize s'.prepareReply t' pkt' ty = r' at hp
  obtain ⟨hs, hi⟩ := hs
  unfold withSack
  refine ite (by rw [HintPkt.seqNr hpp]) (fun _ => ?_) fun _ => pure hp
  refine seqE (orPanicE ?_) fun sack => ite Iff.rfl (fun _ => ?_) fun _ => pure hp
  · unfold Socket.buildSack
    simp only [ne_eq, ← forall₂_nil_iff hi, hE.checks]
    rw [HintPkts.filterMap hi (fun x => decide (s.ackNr + 1 < x)) (fun x => (x - s.ackNr - 2).toNat)]
  · exact orPanicR (hp.setSack h2 h1 sack)

omit hE in
theorem hints_replyWith (pkt pkt' : Packet) (ty : PacketType) : HintKeeps SameReply (replyWith E pkt ty) (replyWith E' pkt' ty) :=
  get fun s s' hs => seq now fun t t' _ => pure (.some (prepareReply_hints s s' hs.ids t t' pkt pkt' ty))

theorem hints_handleData {pkt pkt' : Packet} (hp : HintPkt pkt pkt') : HintKeeps SamePkt (handleData E pkt) (handleData E' pkt') := by
  refine get fun s s' hs => seq now fun t t' _ => ?_
  rw [show s'.state = s.state by cases hs; rfl]
  exact hints_withSack hE hs hp t t' _

theorem hints_onFin {pkt pkt' : Packet} (hp : HintPkt pkt pkt') : HintKeeps SameReply (onFin E pkt) (onFin E' pkt') := by
  refine get fun s s' hs => seq now fun t t' _ => seq (hints_withSack hE hs hp t t' _) fun r r' hr => seqE (modS ?_) fun _ => pure (.some hr)
  rintro s _ ⟨hs, hi⟩
  exact ⟨hs, hi⟩

theorem hints_dispatch (fuel : Nat) {pkt pkt' : Packet} (hp : HintPkt pkt pkt') (src : Addr) (st : SocketState) (ty : PacketType) :
    HintKeeps SameReply (dispatch E fuel rec pkt src st ty) (dispatch E' fuel rec' pkt' src st ty) := by
  unfold dispatch
  split
  · unfold onSyn
    refine seqE (rand hE) fun r => seqE (overflowIf hE (by rw [HintPkt.connectionId hp])) fun _ => seqE (modS ?_) fun _ => get fun s s' hs => seq now fun t t' _ => pure (.some (prepareReply_hints s s' hs.ids t t' pkt pkt' _))
    rintro s _ ⟨hs, hi⟩
    rw [HintPkt.connectionId hp, HintPkt.seqNr hp]
    exact ⟨hs, hi⟩
  · exact hints_replyWith _ _ _
  · unfold onSynAck
    refine get fun s s' hs => ?_
    obtain ⟨_, _⟩ := hs
    refine seqE (overflowIf hE rfl) fun _ => seq now fun t t' _ => seqE (modS ?_) fun _ => pure .none
    rintro s _ ⟨hs, hi⟩
    rw [HintPkt.ackNr hp, HintPkt.seqNr hp]
    exact ⟨hs, hi⟩
  · exact throw _
  · exact seq (hints_handleData hE hp) fun _ _ hr => pure (.some hr)
  · exact seq (hints_handleData hE hp) fun _ _ hr => pure (.some hr)
  · exact seqE (hints_handleState hE _ hp) fun _ => pure .none
  · exact hints_onFin hE hp
  · exact hints_onFin hE hp
  · exact hints_replyWith _ _ _
  · unfold onFinAck
    refine seqE (modS ?_) fun _ => pure .none
    rintro s _ ⟨hs, hi⟩
    rw [HintPkt.ackNr hp]
    by_cases h : pkt.ackNr = s.seqNr
    · simp only [if_pos h]; exact ⟨hs, hi⟩
    · simp only [if_neg h]; exact ⟨hs, hi⟩
  · unfold onReset
    refine seqE (modS ?_) fun _ => throw _
    rintro s _ ⟨hs, hi⟩
    exact ⟨hs, hi⟩
  · exact throw _

theorem hints_handlePacket (fuel : Nat) {pkt pkt' : Packet} (hp : HintPkt pkt pkt') (src : Addr) :
    HintKeeps SameReply (handlePacket E fuel rec pkt src) (handlePacket E' fuel rec' pkt' src) := by
  unfold handlePacket
  refine seqE (modS ?_) fun _ => get fun s s' hs => ?_
  · rintro s _ ⟨hs, hi⟩
    unfold Socket.bumpAck
    rw [HintPkt.seqNr hp]
    by_cases h : pkt.seqNr - s.ackNr = 1
    · simp only [if_pos h]; exact ⟨hs, hi⟩
    · simp only [if_neg h]; exact ⟨hs, hi⟩
  · obtain ⟨hs, hi⟩ := hs
    refine seqE (orPanicE hp.getType) fun ty => ite (by rw [HintPkt.connectionId hp]) (fun _ => hints_replyWith _ _ _) fun _ => seq now fun t t' _ => seqE (modS ?_) fun _ => hints_dispatch hE _ hp _ _ _
    rintro s _ ⟨hs, hi⟩
    exact ⟨hs, hi⟩

end

theorem hints_recv : ∀ fuel len, HintKeeps Eq (recv E fuel len) (recv E' fuel len)
  | 0, _ => never
  | fuel + 1, len => by
    unfold recv recvBody
    refine seq (hints_recvWait hE _ _) fun x x' hx => ?_
    obtain ⟨b, src⟩ := x
    obtain ⟨b', src'⟩ := x'
    obtain ⟨rfl, hb⟩ := hx
    refine seq (orPanicR (SameButHints.tryFrom hb)) fun r r' hr => ?_
    cases hr with
    | error e => exact get fun s s' hs => pure (by cases hs; rfl)
    | @ok p p' hp =>
      show HintKeeps Eq (recvPacket E fuel (recv E fuel BUF_SIZE) len p src') (recvPacket E' fuel (recv E' fuel BUF_SIZE) len p' src')
      unfold recvPacket
      refine seq (hints_handlePacket hE _ hp _) fun r r' hr => seqE ?_ fun _ => seqE (orPanicE hp.getType) fun ty => seqE (modS ?_) fun _ => seqE (hints_flushIncoming hE _) fun out => pure rfl
      · cases hr with
        | none => exact pure rfl
        | some h => exact udpSend hE _ (SamePkt.setWndSize h _)
      · rintro s _ ⟨hs, hi⟩
        rw [HintPkt.seqNr hp]
        by_cases h : ty = .data ∧ 0 < (p.seqNr - s.lastDropped).toNat
        · simp only [if_pos h]; exact ⟨hs, HintPkts.insertPkt hi hp⟩
        · simp only [if_neg h]; exact ⟨hs, hi⟩

theorem hints_recvFromLoop (fuel len : Nat) : ∀ n, HintKeeps Eq (recvFromLoop E fuel len n) (recvFromLoop E' fuel len n)
  | 0 => never
  | n + 1 => by
    unfold recvFromLoop
    refine get fun s s' hs => ?_
    obtain ⟨_, _⟩ := hs
    exact ite Iff.rfl (fun _ => pure rfl) fun _ => seqE (hints_recv hE _ _) fun x => ite Iff.rfl (fun _ => hints_recvFromLoop fuel len n) fun _ => pure rfl

theorem hints_recvFrom (fuel len : Nat) : HintKeeps Eq (recvFrom E fuel len) (recvFrom E' fuel len) := by
  unfold recvFrom
  refine seqE (hints_flushIncoming hE _) fun out => get fun s s' hs => ?_
  obtain ⟨_, _⟩ := hs
  exact ite Iff.rfl (fun _ => pure rfl) fun _ => ite Iff.rfl (fun _ => throw _) fun _ => hints_recvFromLoop hE _ _ _

theorem hints_scratch (fuel : Nat) : HintKeeps Eq (scratchRecv E fuel) (scratchRecv E' fuel) := seqE (hints_recv hE _ _) fun _ => pure rfl

theorem hints_flush (fuel : Nat) : HintKeeps Eq (flush E fuel) (flush E' fuel) :=
  whileM (get fun s s' hs => pure (by cases hs; rfl)) (hints_scratch hE _) _

theorem hints_close (fuel : Nat) : HintKeeps Eq (close E fuel) (close E' fuel) := by
  unfold close
  refine get fun s s' hs => ?_
  obtain ⟨_, _⟩ := hs
  refine ite Iff.rfl (fun _ => pure rfl) fun _ => seqE (hints_flush hE _) fun _ => get fun s s' hs => ?_
  have hp := finPacket_same s s' hs.ids
  obtain ⟨_, _⟩ := hs
  refine seq now fun t t' _ => seqE (udpSend hE _ (hp t t')) fun _ => seqE (modS ?_) fun _ => whileM (get fun s s' hs => pure (by cases hs; rfl)) (hints_scratch hE _) _
  rintro s _ ⟨hs, hi⟩
  exact ⟨hs, hi⟩

end Utp
