import Verif.Spec.Unread
import Verif.Lemmas.OtherExts
/-!
# Two runs that differ only in what is never looked at
-/

namespace Utp
open M Packet Spec

variable {E : Env} {net : Nat → NetEvent} {α β : Type}

/-! ### Packets -/

/-- Received data that are the same but for what is not looked at. -/
def UnreadBytes (b b' : Bytes) : Prop := b' = b ∨ Unread b b'

/-- Packets that are the same but for what is not looked at. -/
abbrev SeenPkt (p p' : Packet) : Prop := p' = p ∨ Unread p.bytes p'.bytes

/-- Such packets with the same payload. -/
abbrev StorePkt (p p' : Packet) : Prop := SeenPkt p p' ∧ p'.payload = p.payload

theorem UnreadBytes.refl (b : Bytes) : UnreadBytes b b := .inl rfl

theorem UnreadBytes.take {b b' : Bytes} (h : UnreadBytes b b') {n : Nat} (hn : 1500 ≤ n) : UnreadBytes (b.take n) (b'.take n) := by
  rcases h with rfl | h
  · exact .inl rfl
  · have h' := h
    obtain ⟨_, _, _, _, _, _, h1, h2, _⟩ := h'
    rw [List.take_of_length_le (by omega), List.take_of_length_le (by omega)]
    exact .inr h

theorem Unread.header {d : Datagram} (h : d.Ok) {i : Nat} (hl : i < 20) : byteAt d.bytes i = d.header.getD i 0 := by
  have e := h.headerLen
  simp only [byteAt, List.getD, Datagram.bytes]
  rw [List.getElem?_append_left (by omega)]

/-- The type of a packet and the code on the wire. -/
theorem Unread.code {p : Packet} {d : Datagram} (hd : d.Ok) (e1 : p.bytes = d.bytes) {t : PacketType} (ht : p.getType = some t) : d.code = t.toU8.toNat := by
  have hp : Packet.tryFrom p.bytes = some (.ok p) := by
    rw [datagram_tryFrom ⟨d, hd, e1⟩]
  obtain ⟨t', h1, h2⟩ := (C02_first_bytes hp).1
  rw [ht] at h1
  cases h1
  rw [e1] at h2
  have : d.bytes.getD 0 0 = d.header.getD 0 0 := by
    have := hd.headerLen
    simp only [Datagram.bytes, List.getD]
    rw [List.getElem?_append_left (by omega)]
  rw [this] at h2
  exact h2.symm

section
variable {p p' : Packet} (h : SeenPkt p p')
include h

theorem SeenPkt.byte {i : Nat} (hi : i ≠ 1) (hl : i < 8 ∨ 12 ≤ i ∧ i < 18) : byteAt p'.bytes i = byteAt p.bytes i := by
  rcases h with rfl | h
  · rfl
  · obtain ⟨d, d', hd, hd', e1, e2, _, _, hh, _⟩ := h
    rw [e1, e2, Unread.header hd (by omega), Unread.header hd' (by omega), List.getD, List.getD, hh i hi hl]
theorem SeenPkt.seqNr : p'.seqNr = p.seqNr := by simp only [Packet.seqNr, be16, Nat.reduceAdd, SeenPkt.byte h (show 16 ≠ 1 by omega) (by omega), SeenPkt.byte h (show 17 ≠ 1 by omega) (by omega)]
theorem SeenPkt.connectionId : p'.connectionId = p.connectionId := by
  simp only [Packet.connectionId, be16, Nat.reduceAdd, SeenPkt.byte h (show 2 ≠ 1 by omega) (by omega), SeenPkt.byte h (show 3 ≠ 1 by omega) (by omega)]
theorem SeenPkt.wndSize : p'.wndSize = p.wndSize := by
  simp only [Packet.wndSize, be32, Nat.reduceAdd, SeenPkt.byte h (show 12 ≠ 1 by omega) (by omega), SeenPkt.byte h (show 13 ≠ 1 by omega) (by omega), SeenPkt.byte h (show 14 ≠ 1 by omega) (by omega), SeenPkt.byte h (show 15 ≠ 1 by omega) (by omega)]
theorem SeenPkt.timestamp : p'.timestamp = p.timestamp := by
  simp only [Packet.timestamp, be32, Nat.reduceAdd, SeenPkt.byte h (show 4 ≠ 1 by omega) (by omega), SeenPkt.byte h (show 5 ≠ 1 by omega) (by omega), SeenPkt.byte h (show 6 ≠ 1 by omega) (by omega), SeenPkt.byte h (show 7 ≠ 1 by omega) (by omega)]
theorem SeenPkt.getType : p'.getType = p.getType := by simp only [Packet.getType, SeenPkt.byte h (show 0 ≠ 1 by omega) (by omega)]

theorem SeenPkt.ackNr (ht : p.getType = some .state) : p'.ackNr = p.ackNr := by
  rcases h with rfl | h
  · rfl
  · obtain ⟨d, d', hd, hd', e1, e2, _, _, _, hs, _⟩ := h
    obtain ⟨h1, h2, _⟩ := hs (Unread.code hd e1 ht)
    simp only [Packet.ackNr, be16, e1, e2, Unread.header hd (show 18 < 20 by omega), Unread.header hd' (show 18 < 20 by omega),
      Unread.header hd (show 18 + 1 < 20 by omega), Unread.header hd' (show 18 + 1 < 20 by omega), List.getD, h1, h2]

theorem SeenPkt.payload (ht : p.getType = some .data) : p'.payload = p.payload := by
  rcases h with rfl | h
  · rfl
  · obtain ⟨d, d', hd, hd', e1, e2, _, _, _, _, hp⟩ := h
    have hp := hp (Unread.code hd e1 ht)
    cases p; cases p'
    simp only at e1 e2
    subst e1 e2
    rw [C03_payload hd, C03_payload hd', hp]

/-- The selective acknowledgements among the extensions are the same. -/
theorem SeenPkt.extensions (ht : p.getType = some .state) :
    Option.Rel (fun l l' => (l'.filter fun e => e.ty = .selectiveAck) = l.filter fun e => e.ty = .selectiveAck) p.extensions p'.extensions := by
  rcases h with rfl | h
  · cases p'.extensions with
    | none => exact .none
    | some l => exact .some rfl
  · obtain ⟨d, d', hd, hd', e1, e2, _, _, _, hs, _⟩ := h
    rw [datagram_extensions hd e1, datagram_extensions hd' e2]
    refine .some ?_
    rw [sacks_toExt, sacks_toExt, (hs (Unread.code hd e1 ht)).2.2]

end

theorem StorePkt.seqNr {p p' : Packet} (h : StorePkt p p') : p'.seqNr = p.seqNr := SeenPkt.seqNr h.1

/-- The same result of decoding. -/
inductive SeenParsed : Except ParseError Packet → Except ParseError Packet → Prop
  | ok {p p' : Packet} : SeenPkt p p' → SeenParsed (.ok p) (.ok p')
  | error (e : ParseError) : SeenParsed (.error e) (.error e)

theorem UnreadBytes.tryFrom {b b' : Bytes} (h : UnreadBytes b b') : Option.Rel SeenParsed (Packet.tryFrom b) (Packet.tryFrom b') := by
  rcases h with rfl | h
  · rcases Packet.tryFrom b' with _ | r
    · exact .none
    · rcases r with e | p
      · exact .some (.error e)
      · exact .some (.ok (.inl rfl))
  · have h' := h
    obtain ⟨d, d', hd, hd', e1, e2, _⟩ := h'
    rw [datagram_tryFrom ⟨d, hd, e1⟩, datagram_tryFrom ⟨d', hd', e2⟩]
    exact .some (.ok (.inr h))

/-! ### Worlds -/

/-- The socket with other extensions in the packets it keeps. -/
inductive SeenSocket (s : Socket) : Socket → Prop
  | mk {i o u : List Packet} : List.Forall₂ StorePkt s.incoming i → List.Forall₂ SentPkt s.sendWindow o → List.Forall₂ SentPkt s.unsent u →
      SeenSocket s { s with incoming := i, sendWindow := o, unsent := u }

/-- Such worlds. -/
structure SeenWorld (w w' : World) : Prop where
  s : SeenSocket w.s w'.s
  nNow : w'.nNow = w.nNow
  nRand : w'.nRand = w.nRand
  nNet : w'.nNet = w.nNet
  nSnd : w'.nSnd = w.nSnd
  log : List.Forall₂ Eq w.log w'.log

/-- The reply to such packets. -/
theorem prepareReply_seen {s s' : Socket} (h : SeenSocket s s') (t : U32) {pkt pkt' : Packet} (hp : SeenPkt pkt pkt') (ty : PacketType) :
    SentPkt (s.prepareReply t pkt ty) (s'.prepareReply t pkt' ty) := by
  obtain ⟨_, _, _⟩ := h
  show Socket.prepareReply _ _ _ _ = Socket.prepareReply _ _ _ _
  unfold Socket.prepareReply
  simp only [SeenPkt.timestamp hp]

theorem resendRequest_seen {s s' : Socket} (h : SeenSocket s s') (t : U32) : SentPkt (resendRequest s t) (resendRequest s' t) := by
  obtain ⟨_, _, _⟩ := h
  exact rfl

/-! ### Computations -/

/-- In worlds that differ in what is not looked at, `m` and `m'` have related results and end in such worlds. -/
def Seen {α : Type} (R : α → α → Prop) (m m' : M α) : Prop :=
  ∀ w w', SeenWorld w w' → SameRes R (m w).1 (m' w').1 ∧ SeenWorld (m w).2 (m' w').2

namespace Seen

theorem ret {R : α → α → Prop} {a a' : α} (h : R a a') : Seen R (M.ret a) (M.ret a') := fun _ _ hw => ⟨.ok h, hw⟩

theorem pure {R : α → α → Prop} {a a' : α} (h : R a a') : Seen R (Pure.pure a) (Pure.pure a') := ret h

theorem throw {R : α → α → Prop} (e : IoErr) : Seen R (M.throw e) (M.throw e) := fun _ _ hw => ⟨.err e, hw⟩

theorem never {R : α → α → Prop} : Seen R M.never M.never := fun _ _ hw => ⟨.pending, hw⟩

theorem andThen {R : α → α → Prop} {Q : β → β → Prop} {m m' : M α} {f f' : α → M β} (h : Seen R m m')
    (hf : ∀ a a', R a a' → Seen Q (f a) (f' a')) : Seen Q (M.andThen m f) (M.andThen m' f') := by
  intro w w' hw
  obtain ⟨h1, h2⟩ := h w w' hw
  unfold M.andThen
  rcases e : m w with ⟨r, v⟩
  rcases e' : m' w' with ⟨r', v'⟩
  rw [e, e'] at h1 h2
  cases h1 with
  | ok ha => exact hf _ _ ha v v' h2
  | err x => exact ⟨.err x, h2⟩
  | panic => exact ⟨.panic, h2⟩
  | pending => exact ⟨.pending, h2⟩

theorem seq {R : α → α → Prop} {Q : β → β → Prop} {m m' : M α} {f f' : α → M β} (h : Seen R m m')
    (hf : ∀ a a', R a a' → Seen Q (f a) (f' a')) : Seen Q (m >>= f) (m' >>= f') := andThen h hf

theorem seqE {Q : β → β → Prop} {m m' : M α} {f f' : α → M β} (h : Seen Eq m m')
    (hf : ∀ a, Seen Q (f a) (f' a)) : Seen Q (m >>= f) (m' >>= f') := andThen h fun a _ e => e ▸ hf a

theorem get {Q : β → β → Prop} {f f' : Socket → M β} (hf : ∀ s s', SeenSocket s s' → Seen Q (f s) (f' s')) :
    Seen Q (getS >>= f) (getS >>= f') := fun w w' hw => hf w.s w'.s hw.s w w' hw

theorem modS {f f' : Socket → Socket} (hf : ∀ s s', SeenSocket s s' → SeenSocket (f s) (f' s')) : Seen Eq (M.modS f) (M.modS f') :=
  fun _ _ hw => ⟨.ok rfl, hf _ _ hw.s, hw.nNow, hw.nRand, hw.nNet, hw.nSnd, hw.log⟩

theorem orPanic (o : Option α) : Seen Eq (M.orPanic o) (M.orPanic o) := by
  cases o with
  | none => exact fun _ _ hw => ⟨.panic, hw⟩
  | some a => exact ret rfl

theorem orPanicE {o o' : Option α} (h : o = o') : Seen Eq (M.orPanic o) (M.orPanic o') := h ▸ orPanic o

theorem orPanicR {R : α → α → Prop} {o o' : Option α} (h : Option.Rel R o o') : Seen R (M.orPanic o) (M.orPanic o') := by
  cases h with
  | none => exact fun _ _ hw => ⟨.panic, hw⟩
  | some h => exact ret h

theorem orPanicP {P : α → Prop} {o o' : Option α} (e : o = o') (h : ∀ a, o = some a → P a) :
    Seen (fun a a' => a = a' ∧ P a) (M.orPanic o) (M.orPanic o') := by
  subst e
  cases o with
  | none => exact fun _ _ hw => ⟨.panic, hw⟩
  | some a => exact ret ⟨rfl, h a rfl⟩

theorem overflowIf (b : Bool) : Seen Eq (M.overflowIf E b) (M.overflowIf (E.withNet net) b) := by
  show Seen Eq (M.overflowIf E b) (M.overflowIf E b)
  unfold M.overflowIf
  split
  · exact fun _ _ hw => ⟨.panic, hw⟩
  · exact ret rfl

theorem overflowE {b b' : Bool} (h : b = b') : Seen Eq (M.overflowIf E b) (M.overflowIf (E.withNet net) b') := h ▸ overflowIf b

theorem now : Seen Eq (M.now E) (M.now (E.withNet net)) := by
  intro w w' h
  refine ⟨?_, h.s, congrArg (· + 1) h.nNow, h.nRand, h.nNet, h.nSnd, h.log⟩
  show SameRes Eq (.ok (E.now w.nNow)) (.ok (E.now w'.nNow))
  rw [h.nNow]; exact .ok rfl

theorem rand : Seen Eq (M.rand E) (M.rand (E.withNet net)) := by
  intro w w' h
  refine ⟨?_, h.s, h.nNow, congrArg (· + 1) h.nRand, h.nNet, h.nSnd, h.log⟩
  show SameRes Eq (.ok (E.rand w.nRand)) (.ok (E.rand w'.nRand))
  rw [h.nRand]; exact .ok rfl

theorem ignoreErr {R : α → α → Prop} {m m' : M α} (h : Seen R m m') : Seen Eq (M.ignoreErr m) (M.ignoreErr m') := by
  intro w w' hw
  obtain ⟨h1, h2⟩ := h w w' hw
  unfold M.ignoreErr
  rcases e : m w with ⟨r, v⟩
  rcases e' : m' w' with ⟨r', v'⟩
  rw [e, e'] at h1 h2
  cases h1 with
  | ok ha => exact ⟨.ok rfl, h2⟩
  | err e => exact ⟨.ok rfl, h2⟩
  | panic => exact ⟨.panic, h2⟩
  | pending => exact ⟨.pending, h2⟩

theorem udpSend (a : Addr) {b b' : Bytes} (hb : ∀ ok, Act.send a b ok = Act.send a b' ok) :
    Seen Eq (M.udpSend E a b) (M.udpSend (E.withNet net) a b') := by
  intro w w' h
  have key : ∀ ok, SeenWorld { w with nSnd := w.nSnd + 1, log := w.log ++ [.send a b ok] } { w' with nSnd := w'.nSnd + 1, log := w'.log ++ [.send a b' ok] } := fun ok =>
    ⟨h.s, h.nNow, h.nRand, h.nNet, congrArg (· + 1) h.nSnd, List.rel_append h.log (.cons (hb ok) .nil)⟩
  unfold M.udpSend
  simp only
  rw [show (E.withNet net).snd w'.nSnd = E.snd w.nSnd by rw [h.nSnd]; rfl]
  rcases E.snd w.nSnd with _ | k | _
  · exact ⟨.ok rfl, key _⟩
  · exact ⟨.err _, key _⟩
  · exact ⟨.pending, key _⟩

theorem sendPkt (a : Addr) {p p' : Packet} (h : SentPkt p p') : Seen Eq (M.udpSend E a p.bytes) (M.udpSend (E.withNet net) a p'.bytes) :=
  udpSend a fun ok => congrArg (fun q => Act.send a q.bytes ok) h

/-- The same outcome of a receive, but for extensions. -/
def SeenGot : Except ErrorKind (Bytes × Addr) → Except ErrorKind (Bytes × Addr) → Prop
  | .ok x, .ok x' => UnreadBytes x.1 x'.1 ∧ x'.2 = x.2
  | .error k, .error k' => k = k'
  | _, _ => False

theorem udpRecv (hN : ∀ k, UnreadEvent (E.net k) (net k)) (t : Option U64) {len : Nat} (hl : 1500 ≤ len) :
    Seen (SeenGot) (M.udpRecv E t len) (M.udpRecv (E.withNet net) t len) := by
  intro w w' h
  have key : SeenWorld { w with nNet := w.nNet + 1, log := w.log ++ [.wait t] } { w' with nNet := w'.nNet + 1, log := w'.log ++ [.wait t] } :=
    ⟨h.s, h.nNow, h.nRand, congrArg (· + 1) h.nNet, h.nSnd, List.rel_append h.log (.cons rfl .nil)⟩
  unfold M.udpRecv
  simp only
  have e : (E.withNet net).net w'.nNet = net w.nNet := by rw [h.nNet]; rfl
  rw [e]
  have hk := hN w.nNet
  generalize E.net w.nNet = x at hk ⊢
  generalize net w.nNet = x' at hk ⊢
  cases hk with
  | dgram a hb => exact ⟨.ok ⟨UnreadBytes.take (.inr hb) hl, rfl⟩, key⟩
  | same e =>
    cases x with
    | dgram b a => exact ⟨.ok ⟨UnreadBytes.refl _, rfl⟩, key⟩
    | fail k => exact ⟨.ok rfl, key⟩
    | never => exact ⟨.pending, key⟩

theorem whileM {c c' : M Bool} {b b' : M Unit} (hc : Seen Eq c c') (hb : Seen Eq b b') :
    ∀ n, Seen Eq (M.whileM n c b) (M.whileM n c' b')
  | 0 => never
  | n + 1 => by
    refine andThen hc ?_
    rintro go _ rfl
    cases go with
    | true => exact andThen hb fun _ _ _ => whileM hc hb n
    | false => exact ret rfl

theorem ite {R : α → α → Prop} {c c' : Prop} [Decidable c] [Decidable c'] {m n m' n' : M α} (h : c ↔ c')
    (h1 : c → Seen R m m') (h2 : ¬ c → Seen R n n') : Seen R (if c then m else n) (if c' then m' else n') := by
  by_cases hc : c
  · rw [if_pos hc, if_pos (h.mp hc)]; exact h1 hc
  · rw [if_neg hc, if_neg (fun x => hc (h.mpr x))]; exact h2 hc

end Seen

open Seen

theorem seen_in : ∀ p p', StorePkt p p' → p'.seqNr = p.seqNr := fun _ _ h => StorePkt.seqNr h
/-! ### Sockets -/

/-- The socket with other buffers. -/
def Socket.seenAs (s : Socket) (i o u : List Packet) : Socket := { s with incoming := i, sendWindow := o, unsent := u }

theorem SeenSocket.advanceIncoming {s s' : Socket} (h : SeenSocket s s') : SeenSocket s.advanceIncoming s'.advanceIncoming := by
  obtain ⟨hi, ho, hu⟩ := h
  unfold Socket.advanceIncoming
  cases e : s.incoming with
  | nil =>
    rw [e] at hi
    cases hi
    exact ⟨by rw [e]; exact .nil, ho, hu⟩
  | cons q rest =>
    rw [e] at hi
    cases hi with
    | cons h ht =>
      simp only
      rw [StorePkt.seqNr h]
      exact ⟨ht, ho, hu⟩

theorem SeenSocket.takePending {s s' : Socket} (h : SeenSocket s s') (len : Nat) : (s'.takePending len).1 = (s.takePending len).1 ∧ SeenSocket (s.takePending len).2 (s'.takePending len).2 := by
  obtain ⟨hi, ho, hu⟩ := h
  unfold Socket.takePending
  simp only
  split
  · exact ⟨rfl, SeenSocket.advanceIncoming (s := { s with pending := [] }) ⟨hi, ho, hu⟩⟩
  · exact ⟨rfl, hi, ho, hu⟩

theorem SeenSocket.takeHead {s s' : Socket} (h : SeenSocket s s') (x : Bytes) (len : Nat) : SeenSocket (s.takeHead x len) (s'.takeHead x len) := by
  unfold Socket.takeHead
  split
  · exact h.advanceIncoming
  · obtain ⟨hi, ho, hu⟩ := h
    exact ⟨hi, ho, hu⟩

theorem SeenSocket.buildSack {s s' : Socket} (h : SeenSocket s s') : s'.buildSack (E.withNet net) = s.buildSack E := by
  obtain ⟨hi, ho, hu⟩ := h
  unfold Socket.buildSack
  simp only [ne_eq, ← forall₂_nil_iff hi]
  rw [lag_filterMap seen_in hi (fun x => decide (s.ackNr + 1 < x)) (fun x => (x - s.ackNr - 2).toNat)]
  rfl

theorem SeenSocket.advanceSendWindow {s s' : Socket} (h : SeenSocket s s') :
    Option.Rel (SeenSocket) (s.advanceSendWindow E) (s'.advanceSendWindow (E.withNet net)) := by
  obtain ⟨hi, ho, hu⟩ := h
  unfold Socket.advanceSendWindow
  simp only
  rw [lag_findIdx tag_out ho (fun x => x == s.lastAcked)]
  split
  · exact .some ⟨hi, ho, hu⟩
  · rename_i pos _
    rw [tag_subLens (E := E) (net := net) (List.forall₂_take (pos + 1) ho)]
    split
    · exact .none
    · exact .some ⟨hi, List.forall₂_drop _ ho, hu⟩

theorem updateBaseDelay_seenAs (s : Socket) (i o u : List Packet) (d : Int) (t : U32) :
    (s.seenAs i o u).updateBaseDelay d t = (s.updateBaseDelay d t).map fun x => x.seenAs i o u := by
  unfold Socket.updateBaseDelay
  simp only [show (s.seenAs i o u).baseDelays = s.baseDelays from rfl, show (s.seenAs i o u).lastRollover = s.lastRollover from rfl]
  by_cases h : s.baseDelays.isEmpty ∨ tsSub t s.lastRollover > MAX_BASE_DELAY_AGE
  · rw [if_pos h, if_pos h]; rfl
  · rw [if_neg h, if_neg h]
    cases s.baseDelays.getLast? with
    | none => rfl
    | some l =>
      simp only
      by_cases h : d < l
      · rw [if_pos h, if_pos h]; rfl
      · rw [if_neg h, if_neg h]; rfl

theorem updateCongestionWindow_seenAs (s : Socket) (i o u : List Packet) (n : U32) :
    (s.seenAs i o u).updateCongestionWindow (E.withNet net) n = (s.updateCongestionWindow E n).map fun x => x.seenAs i o u := by
  unfold Socket.updateCongestionWindow
  by_cases h : E.checks ∧ s.currWindow.toNat + 1400 ≥ 2 ^ 32
  · rw [if_pos h, if_pos (show (E.withNet net).checks ∧ (s.seenAs i o u).currWindow.toNat + 1400 ≥ 2 ^ 32 from h)]; rfl
  · rw [if_neg h, if_neg (show ¬ ((E.withNet net).checks ∧ (s.seenAs i o u).currWindow.toNat + 1400 ≥ 2 ^ 32) from h)]; rfl

theorem SeenSocket.onNewAck {s s' : Socket} (h : SeenSocket s s') (idx : Nat) {p p' : Packet} (hpp : SentPkt p p') (t : U32) :
    Option.Rel (SeenSocket) (s.onNewAck E idx p t) (s'.onNewAck (E.withNet net) idx p' t) := by
  obtain ⟨hi, ho, hu⟩ := h
  rename_i i o u
  have key : (s.seenAs i o u).onNewAck (E.withNet net) idx p' t = (s.onNewAck E idx p t).map fun x => x.seenAs i o u := by
    unfold Socket.onNewAck
    simp only
    rw [updateBaseDelay_seenAs, SentPkt.timestamp hpp]
    have e2 : (((s.seenAs i o u).sendWindow.take (idx + 1)).map Packet.len).sum = ((s.sendWindow.take (idx + 1)).map Packet.len).sum := by
      exact congrArg List.sum (tag_lens (List.forall₂_take (idx + 1) ho))
    rw [e2]
    rcases s.updateBaseDelay (tsSub t p.timestamp) t with _ | s1
    · rfl
    · simp only [Option.map_some]
      have e3 : (s1.seenAs i o u).updateCurrentDelay (tsSub t p.timestamp) t = (s1.updateCurrentDelay (tsSub t p.timestamp) t).seenAs i o u := rfl
      rw [e3, updateCongestionWindow_seenAs]
      rcases (s1.updateCurrentDelay (tsSub t p.timestamp) t).updateCongestionWindow E _ with _ | s2
      · rfl
      · rfl
  change Option.Rel _ _ ((s.seenAs i o u).onNewAck (E.withNet net) idx p' t)
  rw [key]
  cases e : s.onNewAck E idx p t with
  | none => exact .none
  | some s1 =>
    obtain ⟨_, _, _, _, _, _, _, rfl⟩ := onNewAck_shape e
    exact .some ⟨hi, ho, hu⟩

theorem SeenSocket.state {s s' : Socket} (h : SeenSocket s s') : s'.state = s.state := by cases h; rfl
theorem SeenSocket.connectedTo {s s' : Socket} (h : SeenSocket s s') : s'.connectedTo = s.connectedTo := by cases h; rfl

/-! ### The operations -/

theorem seen_flushIncoming (len : Nat) : Seen Eq (flushIncoming E len) (flushIncoming (E.withNet net) len) := by
  unfold flushIncoming
  refine get fun s s' hs => ?_
  have htp := hs.takePending len
  obtain ⟨hi, ho, hu⟩ := hs
  refine ite Iff.rfl (fun _ => ?_) fun _ => ?_
  · exact seqE (modS fun s s' hs => (hs.takePending len).2) fun _ => pure htp.1.symm
  · simp only
    generalize s.incoming = l at hi
    cases hi with
    | nil => exact pure rfl
    | cons hq _ =>
      simp only [StorePkt.seqNr hq, hq.2]
      exact seqE (overflowIf _) fun _ => ite Iff.rfl (fun _ => seqE (orPanic _) fun x => seqE (modS fun s s' hs => hs.takeHead x len) fun _ => pure rfl) fun _ => pure rfl

theorem seen_timeout : Seen Eq (handleReceiveTimeout E) (handleReceiveTimeout (E.withNet net)) := by
  have hf : Seen Eq (fastResendOne E) (fastResendOne (E.withNet net)) := by
    refine get fun s s' hs => seqE now fun t => ignoreErr (R := Eq) ?_
    have := resendRequest_seen hs t
    cases hs
    exact sendPkt _ this
  unfold handleReceiveTimeout
  refine get fun s s' hs => ?_
  obtain ⟨hi, ho, hu⟩ := hs
  refine seqE (overflowIf _) fun _ => seqE (modS ?_) fun _ => ?_
  · rintro s _ ⟨hi, ho, hu⟩
    exact ⟨hi, ho, hu⟩
  simp only
  cases e : s.sendWindow with
  | nil =>
    rw [e] at ho
    cases ho
    refine ite Iff.rfl (fun _ => ?_) fun _ => ite Iff.rfl (fun _ => ?_) fun _ => pure rfl
    · exact seqE now fun t => sendPkt _ (rfl)
    · exact seqE hf fun _ => seqE hf fun _ => hf
  | cons q rest =>
    rw [e] at ho
    cases ho with
    | cons hq hr =>
      refine seqE now fun t => seqE (modS ?_) fun _ => sendPkt _ (SentPkt.setTimestamp hq t)
      rintro s _ ⟨hi, ho, hu⟩
      exact ⟨hi, .cons (SentPkt.setTimestamp hq t) hr, hu⟩

theorem seen_recvWait (hN : ∀ k, UnreadEvent (E.net k) (net k)) : ∀ fuel retries,
    Seen (fun x x' => UnreadBytes x.1 x'.1 ∧ x'.2 = x.2) (recvWait E fuel retries) (recvWait (E.withNet net) fuel retries)
  | 0, _ => never
  | fuel + 1, retries => by
    unfold recvWait
    refine get fun s s' hs => ?_
    obtain ⟨hi, ho, hu⟩ := hs
    refine ite Iff.rfl (fun _ => ?_) fun _ => ?_
    · refine seqE (modS ?_) fun _ => throw _
      rintro s _ ⟨hi, ho, hu⟩
      exact ⟨hi, ho, hu⟩
    · refine seq (udpRecv hN _ (by simp [BUF_SIZE, HEADER_SIZE])) fun r r' hr => ?_
      rcases r with k | x <;> rcases r' with k' | x'
      · cases hr
        dsimp only
        split
        · exact seqE seen_timeout fun _ => seen_recvWait hN fuel _
        · exact throw _
      · exact hr.elim
      · exact hr.elim
      · exact pure hr

section
variable {rec rec' : M (Bytes × Addr)} (hr : Seen Eq rec rec')
include hr

theorem seen_sendPacket (fuel : Nat) {p p' : Packet} (hp : SentPkt p p') :
    Seen SentPkt (sendPacket E fuel rec p) (sendPacket (E.withNet net) fuel rec' p') := by
  unfold sendPacket
  refine get fun s s' hs => ?_
  obtain ⟨_, _, _⟩ := hs
  refine seqE now fun t => seqE (whileM ?_ (andThen hr fun _ _ _ => ret rfl) _) fun _ => get fun s s' hs => ?_
  · refine get fun s1 s1' hs1 => ?_
    obtain ⟨_, _, _⟩ := hs1
    exact ite Iff.rfl (fun _ => seqE now fun t => pure rfl) fun _ => pure rfl
  · have hd := hs
    obtain @⟨i, o, u, _, _, _⟩ := hs
    rw [SentPkt.seqNr hp]
    refine ite Iff.rfl (fun _ => pure hp) fun _ => seqE now fun t => ?_
    have h' := SentPkt.setTimestampDifference (SentPkt.setTimestamp hp t) s.theirDelay
    exact seqE (sendPkt _ h') fun _ => pure h'

theorem seen_resendLost (fuel : Nat) (nr : U16) : Seen Eq (resendLost E fuel rec nr) (resendLost (E.withNet net) fuel rec' nr) := by
  unfold resendLost
  refine get fun s s' hs => ?_
  obtain ⟨_, ho, _⟩ := hs
  have := lag_find tag_out ho nr
  simp only
  generalize (s.sendWindow.find? fun p => p.seqNr == nr) = x at this ⊢
  rename_i i o u _ _
  generalize (o.find? fun p => p.seqNr == nr) = x' at this ⊢
  cases this with
  | none => exact pure rfl
  | some h => exact ignoreErr (seen_sendPacket hr _ h)

theorem seen_resendMissing (fuel : Nat) (ack last : U16) :
    ∀ bits loss, Seen Eq (resendMissing E fuel rec ack last bits loss) (resendMissing (E.withNet net) fuel rec' ack last bits loss) := by
  intro bits
  induction bits with
  | nil => intro loss; exact pure rfl
  | cons x rest ih =>
    intro loss
    obtain ⟨idx, received⟩ := x
    unfold resendMissing
    split
    · exact ih _
    · refine seqE (overflowIf _) fun _ => ?_
      dsimp only
      split
      · exact seqE (seen_resendLost hr _ _) fun _ => ih _
      · exact pure rfl

theorem seen_processExtensions (fuel : Nat) (ack : U16) :
    ∀ exts loss, Seen Eq (processExtensions E fuel rec ack exts loss) (processExtensions (E.withNet net) fuel rec' ack exts loss) := by
  intro exts
  induction exts with
  | nil => intro loss; exact pure rfl
  | cons e rest ih =>
    intro loss
    unfold processExtensions
    split
    · refine seqE ?_ fun loss1 => get fun s s' hs => ?_
      · unfold resendFirst
        split
        · exact seqE (overflowIf _) fun _ => seqE (seen_resendLost hr _ _) fun _ => pure rfl
        · exact pure rfl
      · obtain ⟨_, ho, _⟩ := hs
        have := lag_last ho
        simp only
        rename_i i o u _ _
        generalize s.sendWindow.getLast? = x at this ⊢
        generalize o.getLast? = x' at this ⊢
        cases this with
        | none => exact ih _
        | some h =>
          simp only
          rw [SentPkt.seqNr h]
          exact seqE (orPanic _) fun bits => seqE (seen_resendMissing hr _ _ _ _ _) fun _ => ih _
    · exact ih _

theorem seen_handleState (fuel : Nat) {pkt pkt' : Packet} (hp : SeenPkt pkt pkt') (ht : pkt.getType = some .state) :
    Seen Eq (handleState E fuel rec pkt) (handleState (E.withNet net) fuel rec' pkt') := by
  unfold handleState
  rw [SeenPkt.ackNr hp ht]
  refine seqE ?_ fun _ => seqE ?_ fun _ => get fun s s' hs => seq (orPanicR (SeenPkt.extensions hp ht)) fun exts exts' he => ?_
  · unfold countAck
    rw [SeenPkt.ackNr hp ht]
    refine get fun s s' hs => ?_
    obtain ⟨_, _, _⟩ := hs
    refine ite Iff.rfl (fun _ => seqE (overflowIf _) fun _ => modS ?_) fun _ => seqE now fun t => modS ?_
    · rintro s _ ⟨hi, ho, hu⟩; exact ⟨hi, ho, hu⟩
    · rintro s _ ⟨hi, ho, hu⟩; exact ⟨hi, ho, hu⟩
  · unfold measureAck
    rw [SeenPkt.ackNr hp ht]
    refine get fun s s' hs => ?_
    have hs0 := hs
    obtain ⟨_, ho, _⟩ := hs
    simp only
    rw [lag_findIdx tag_out ho (fun x => pkt.ackNr == x)]
    split
    · exact pure rfl
    · refine seqE now fun t => seq (orPanicR (lag_get ho _)) fun q q' hq => seq (orPanicR (hs0.onNewAck _ hq t)) fun a a' ha => modS fun _ _ _ => ha
  · have e : decide (s'.sendWindow ≠ [] ∧ s'.dupAcks = 3) = decide (s.sendWindow ≠ [] ∧ s.dupAcks = 3) := by
      obtain ⟨_, ho, _⟩ := hs
      simp only [ne_eq, forall₂_nil_iff ho]
    rw [e]
    rw [processExtensions_filter _ _ _ exts, processExtensions_filter _ _ _ exts', he]
    refine seqE (seen_processExtensions hr _ _ _ _) fun loss => seqE ?_ fun _ => seqE (modS ?_) fun _ => get fun s s' hs => ?_
    · unfold fastRetransmit
      rw [SeenPkt.ackNr hp ht]
      refine get fun s s' hs => ?_
      obtain ⟨_, ho, _⟩ := hs
      refine ite ?_ (fun _ => seqE (overflowIf _) fun _ => seen_resendLost hr _ _) fun _ => pure rfl
      simp only [ne_eq, forall₂_nil_iff ho, any_filter _ _ he]
    · rintro s _ ⟨hi, ho, hu⟩
      split
      · exact ⟨hi, ho, hu⟩
      · exact ⟨hi, ho, hu⟩
    · exact seq (orPanicR hs.advanceSendWindow) fun a a' ha => modS fun _ _ _ => ha

omit hr in
theorem seen_withSack {s s' : Socket} (hs : SeenSocket s s') {pkt pkt' : Packet} (hp : SeenPkt pkt pkt') (t : U32) (ty : PacketType) :
    Seen SentPkt (withSack E s pkt (s.prepareReply t pkt ty)) (withSack (E.withNet net) s' pkt' (s'.prepareReply t pkt' ty)) := by
  have hq := prepareReply_seen hs t hp ty
  generalize s.prepareReply t pkt ty = r at hq
  generalize s'.prepareReply t pkt' ty = r' at hq
  unfold withSack
  rw [SeenPkt.seqNr hp, show s'.ackNr = s.ackNr by cases hs; rfl]
  refine ite Iff.rfl (fun _ => ?_) fun _ => pure hq
  exact seqE (orPanicE hs.buildSack.symm) fun sack => ite Iff.rfl (fun _ => orPanicR (SentPkt.setSack hq sack)) fun _ => pure hq

omit hr in
theorem seen_handleData {pkt pkt' : Packet} (hp : SeenPkt pkt pkt') : Seen SentPkt (handleData E pkt) (handleData (E.withNet net) pkt') := by
  refine get fun s s' hs => seqE now fun t => ?_
  rw [hs.state]
  exact seen_withSack hs hp t _

omit hr in
theorem seen_replyWith {pkt pkt' : Packet} (hp : SeenPkt pkt pkt') (ty : PacketType) : Seen (Option.Rel SentPkt) (replyWith E pkt ty) (replyWith (E.withNet net) pkt' ty) :=
  get fun _ _ hs => seqE now fun t => pure (.some (prepareReply_seen hs t hp ty))

omit hr in
theorem seen_onFin {pkt pkt' : Packet} (hp : SeenPkt pkt pkt') : Seen (Option.Rel SentPkt) (onFin E pkt) (onFin (E.withNet net) pkt') := by
  refine get fun s s' hs => seqE now fun t => seq (seen_withSack hs hp t _) fun r r' hq => seqE (modS ?_) fun _ => pure (.some hq)
  rintro s _ ⟨hi, ho, hu⟩
  exact ⟨hi, ho, hu⟩

omit hr in
theorem seen_onReset : Seen (Option.Rel SentPkt) onReset onReset := by
  refine seqE (modS ?_) fun _ => throw _
  rintro s _ ⟨hi, ho, hu⟩
  exact ⟨hi, ho, hu⟩

omit hr in
theorem seen_onFinAck {pkt pkt' : Packet} (hp : SeenPkt pkt pkt') (ht : pkt.getType = some .state) : Seen (Option.Rel SentPkt) (onFinAck pkt) (onFinAck pkt') := by
  unfold onFinAck
  rw [SeenPkt.ackNr hp ht]
  refine seqE (modS ?_) fun _ => pure .none
  rintro s _ ⟨hi, ho, hu⟩
  by_cases h : pkt.ackNr = s.seqNr
  · simp only [if_pos h]; exact ⟨hi, ho, hu⟩
  · simp only [if_neg h]; exact ⟨hi, ho, hu⟩

omit hr in
theorem seen_onSyn {pkt pkt' : Packet} (hp : SeenPkt pkt pkt') (src : Addr) : Seen (Option.Rel SentPkt) (onSyn E pkt src) (onSyn (E.withNet net) pkt' src) := by
  unfold onSyn
  rw [SeenPkt.connectionId hp, SeenPkt.seqNr hp]
  refine seqE rand fun r => seqE (overflowIf _) fun _ => seqE (modS ?_) fun _ => get fun s s' hs => seqE now fun t => pure ?_
  · rintro s _ ⟨hi, ho, hu⟩
    exact ⟨hi, ho, hu⟩
  · exact .some (prepareReply_seen hs t hp _)

omit hr in
theorem seen_onSynAck {pkt pkt' : Packet} (hp : SeenPkt pkt pkt') (ht : pkt.getType = some .state) (src : Addr) : Seen (Option.Rel SentPkt) (onSynAck E pkt src) (onSynAck (E.withNet net) pkt' src) := by
  unfold onSynAck
  rw [SeenPkt.ackNr hp ht, SeenPkt.seqNr hp]
  refine get fun s s' hs => ?_
  obtain ⟨_, _, _⟩ := hs
  refine seqE (overflowIf _) fun _ => seqE now fun t => seqE (modS ?_) fun _ => pure .none
  rintro s _ ⟨hi, ho, hu⟩
  exact ⟨hi, ho, hu⟩

theorem seen_dispatch (fuel : Nat) {pkt pkt' : Packet} (hp : SeenPkt pkt pkt') (src : Addr) (st : SocketState) {ty : PacketType} (ht : pkt.getType = some ty) :
    Seen (Option.Rel SentPkt) (dispatch E fuel rec pkt src st ty) (dispatch (E.withNet net) fuel rec' pkt' src st ty) := by
  unfold dispatch
  split
  · exact seen_onSyn hp src
  · exact seen_replyWith hp _
  · exact seen_onSynAck hp ht src
  · exact throw _
  · exact seq (seen_handleData hp) fun _ _ h => pure (.some h)
  · exact seq (seen_handleData hp) fun _ _ h => pure (.some h)
  · exact seqE (seen_handleState hr _ hp ht) fun _ => pure .none
  · exact seen_onFin hp
  · exact seen_onFin hp
  · exact seen_replyWith hp _
  · exact seen_onFinAck hp ht
  · exact seen_onReset
  · exact throw _

theorem seen_handlePacket (fuel : Nat) {pkt pkt' : Packet} (hp : SeenPkt pkt pkt') (src : Addr) :
    Seen (Option.Rel SentPkt) (handlePacket E fuel rec pkt src) (handlePacket (E.withNet net) fuel rec' pkt' src) := by
  unfold handlePacket
  refine seqE (modS ?_) fun _ => get fun s s' hs => ?_
  · rintro s _ ⟨hi, ho, hu⟩
    unfold Socket.bumpAck
    rw [SeenPkt.seqNr hp]
    by_cases h : pkt.seqNr - s.ackNr = 1
    · simp only [if_pos h]; exact ⟨hi, ho, hu⟩
    · simp only [if_neg h]; exact ⟨hi, ho, hu⟩
  · rw [SeenPkt.getType hp, SeenPkt.connectionId hp, SeenPkt.wndSize hp, SeenPkt.timestamp hp]
    obtain ⟨_, _, _⟩ := hs
    refine seq (orPanicP (P := fun a => pkt.getType = some a) rfl fun _ e => e) fun ty ty' e => ?_
    obtain ⟨rfl, ht⟩ := e
    refine ite Iff.rfl (fun _ => seen_replyWith hp _) fun _ => seqE now fun t => seqE (modS ?_) fun _ => seen_dispatch hr _ hp _ _ ht
    rintro s _ ⟨hi, ho, hu⟩
    exact ⟨hi, ho, hu⟩

end

section
variable (hN : ∀ k, UnreadEvent (E.net k) (net k))
include hN

theorem seen_recv : ∀ fuel len, Seen Eq (recv E fuel len) (recv (E.withNet net) fuel len)
  | 0, _ => never
  | fuel + 1, len => by
    unfold recv recvBody
    refine seq (seen_recvWait hN _ _) fun x x' hx => ?_
    obtain ⟨b, src⟩ := x
    obtain ⟨b', src'⟩ := x'
    obtain ⟨hb, e⟩ := hx
    simp only at e
    subst e
    simp only
    refine seq (orPanicR (UnreadBytes.tryFrom hb)) fun r r' hr => ?_
    cases hr with
    | error e => exact get fun s s' hs => pure (by rw [hs.connectedTo])
    | @ok p p' hp =>
      show Seen Eq (recvPacket E fuel (recv E fuel BUF_SIZE) len p src') (recvPacket (E.withNet net) fuel (recv (E.withNet net) fuel BUF_SIZE) len p' src')
      unfold recvPacket
      refine seq (seen_handlePacket (seen_recv fuel _) _ hp _) fun r r' hr => ?_
      rw [SeenPkt.getType hp, SeenPkt.seqNr hp]
      refine seqE ?_ fun _ => seq (orPanicP (P := fun a => p.getType = some a) rfl fun _ e => e) fun ty ty' hty => seqE (modS ?_) fun _ => seqE (seen_flushIncoming _) fun out => pure rfl
      · cases hr with
        | none => exact pure rfl
        | some h => exact sendPkt _ (SentPkt.setWndSize h _)
      · obtain ⟨rfl, hty⟩ := hty
        rintro s _ ⟨hi, ho, hu⟩
        by_cases h : ty = .data ∧ 0 < (p.seqNr - s.lastDropped).toNat
        · simp only [if_pos h]; exact ⟨lag_insertPkt seen_in hi ⟨hp, SeenPkt.payload hp (by rw [hty, h.1])⟩, ho, hu⟩
        · simp only [if_neg h]; exact ⟨hi, ho, hu⟩

theorem seen_recvFromLoop (fuel len : Nat) : ∀ n, Seen Eq (recvFromLoop E fuel len n) (recvFromLoop (E.withNet net) fuel len n)
  | 0 => never
  | n + 1 => by
    unfold recvFromLoop
    refine get fun s s' hs => ?_
    rw [hs.state, hs.connectedTo]
    exact ite Iff.rfl (fun _ => pure rfl) fun _ => seqE (seen_recv hN _ _) fun x => ite Iff.rfl (fun _ => seen_recvFromLoop fuel len n) fun _ => pure rfl

theorem seen_sendQueue (fuel : Nat) : ∀ n, Seen Eq (sendQueue E fuel n) (sendQueue (E.withNet net) fuel n)
  | 0 => never
  | n + 1 => by
    unfold sendQueue
    refine get fun s s' hs => ?_
    obtain ⟨_, _, hu⟩ := hs
    simp only
    cases e : s.unsent with
    | nil =>
      rw [e] at hu
      cases hu
      exact pure rfl
    | cons q rest =>
      rw [e] at hu
      cases hu with
      | cons hq hrest =>
        refine seqE (modS ?_) fun _ => seq (seen_sendPacket (seen_recv hN _ _) _ hq) fun p p' hp => get fun s s' hs => ?_
        · rintro s _ ⟨hi, ho, hu⟩
          exact ⟨hi, ho, hrest⟩
        · obtain ⟨_, _, _⟩ := hs
          rw [SentPkt.len hp]
          refine seqE (overflowIf _) fun _ => seqE (modS ?_) fun _ => seen_sendQueue fuel n
          rintro s _ ⟨hi, ho, hu⟩
          exact ⟨hi, List.rel_append ho (.cons hp .nil), hu⟩

theorem seen_scratchRecv (fuel : Nat) : Seen Eq (scratchRecv E fuel) (scratchRecv (E.withNet net) fuel) :=
  seq (seen_recv hN _ _) fun _ _ _ => pure rfl

theorem seen_flush (fuel : Nat) : Seen Eq (flush E fuel) (flush (E.withNet net) fuel) := by
  refine whileM (get fun s s' hs => pure ?_) (seen_scratchRecv hN fuel) _
  obtain ⟨_, ho, _⟩ := hs
  simp only [ne_eq, forall₂_nil_iff ho]

theorem seen_close (fuel : Nat) : Seen Eq (close E fuel) (close (E.withNet net) fuel) := by
  unfold close
  refine get fun s s' hs => ?_
  rw [hs.state]
  refine ite Iff.rfl (fun _ => pure rfl) fun _ => seqE (seen_flush hN _) fun _ => get fun s s' hs => seqE now fun t => ?_
  refine seqE ?_ fun _ => seqE (modS ?_) fun _ => whileM (get fun s s' hs => pure ?_) (seen_scratchRecv hN fuel) _
  · cases hs
    exact sendPkt _ (rfl)
  · rintro s _ ⟨hi, ho, hu⟩
    exact ⟨hi, ho, hu⟩
  · rw [hs.state]

omit hN in
theorem seen_enqueues (l : List Bytes) : ∀ {s s' : Socket}, SeenSocket s s' → SeenSocket (l.foldl enqueue s) (l.foldl enqueue s') := by
  induction l with
  | nil => exact fun h => h
  | cons c l ih =>
    intro s s' hs
    refine ih ?_
    obtain ⟨hi, ho, hu⟩ := hs
    exact ⟨hi, ho, List.rel_append hu (.cons (rfl) .nil)⟩

theorem seen_runOp (fuel : Nat) (op : Op) : Seen Eq (runOp E fuel op) (runOp (E.withNet net) fuel op) := by
  cases op with
  | recvFrom len =>
    refine seqE ?_ fun x => pure rfl
    unfold recvFrom
    refine seqE (seen_flushIncoming _) fun out => get fun s s' hs => ?_
    rw [hs.state, hs.connectedTo]
    exact ite Iff.rfl (fun _ => pure rfl) fun _ => ite Iff.rfl (fun _ => throw _) fun _ => seen_recvFromLoop hN _ _ _
  | sendTo b =>
    refine seqE ?_ fun _ => pure rfl
    unfold sendTo
    refine get fun s s' hs => ?_
    rw [hs.state]
    exact ite Iff.rfl (fun _ => throw _) fun _ => seqE (modS fun s s' hs => seen_enqueues _ hs) fun _ => seqE (seen_sendQueue hN _ _) fun _ => pure rfl
  | flush => exact seqE (seen_flush hN _) fun _ => pure rfl
  | close => exact seqE (seen_close hN _) fun _ => pure rfl
  | setMaxRetries n =>
    refine seqE (modS ?_) fun _ => pure rfl
    rintro s _ ⟨hi, ho, hu⟩
    exact ⟨hi, ho, hu⟩

theorem seen_synLoop : ∀ (n : Nat) (t : U64), Seen (UnreadBytes) (synLoop E n t) (synLoop (E.withNet net) n t)
  | 0, _ => pure (UnreadBytes.refl _)
  | n + 1, t => by
    unfold synLoop
    refine get fun s s' hs => seqE now fun tm => seqE ?_ fun _ => seqE (modS ?_) fun _ => seq (udpRecv hN _ (by simp [BUF_SIZE])) fun r r' hr => ?_
    · cases hs
      exact sendPkt _ (rfl)
    · rintro s _ ⟨hi, ho, hu⟩
      exact ⟨hi, ho, hu⟩
    · rcases r with k | ⟨b, a⟩ <;> rcases r' with k' | ⟨b', a'⟩
      · cases hr
        dsimp only
        split
        · exact seen_synLoop n _
        · exact throw _
      · exact hr.elim
      · exact hr.elim
      · obtain ⟨hb, e⟩ := hr
        simp only at e
        subst e
        refine seqE (modS ?_) fun _ => pure hb
        rintro s _ ⟨hi, ho, hu⟩
        exact ⟨hi, ho, hu⟩

theorem seen_connectM (fuel : Nat) (addr : Addr) : Seen Eq (connectM E fuel addr) (connectM (E.withNet net) fuel addr) := by
  unfold connectM
  refine seqE (modS ?_) fun _ => get fun s s' hs => ?_
  · rintro s _ ⟨hi, ho, hu⟩
    exact ⟨hi, ho, hu⟩
  · rw [show s'.congTimeout = s.congTimeout by cases hs; rfl]
    refine seq (seen_synLoop hN _ _) fun b b' hb => get fun s s' hs => ?_
    rw [hs.connectedTo]
    refine seq (orPanicR (UnreadBytes.tryFrom hb)) fun r r' hr => ?_
    cases hr with
    | error e => exact throw _
    | @ok p p' hp =>
      show Seen Eq (handlePacket E fuel (recv E fuel BUF_SIZE) p s.connectedTo >>= fun _ => Pure.pure ())
        (handlePacket (E.withNet net) fuel (recv (E.withNet net) fuel BUF_SIZE) p' s.connectedTo >>= fun _ => Pure.pure ())
      exact seq (seen_handlePacket (seen_recv hN _ _) _ hp _) fun _ _ _ => Seen.pure rfl

theorem seen_acceptM (fuel : Nat) {pkt pkt' : Packet} (hp : SeenPkt pkt pkt') (src : Addr) :
    Seen Eq (acceptM E fuel pkt src) (acceptM (E.withNet net) fuel pkt' src) := by
  intro w w' hw
  obtain ⟨h1, h2⟩ := seen_handlePacket (E := E) (net := net) (seen_recv hN fuel BUF_SIZE) fuel hp src w w' hw
  unfold acceptM
  rcases e : handlePacket E fuel (recv E fuel BUF_SIZE) pkt src w with ⟨r, v⟩
  rcases e' : handlePacket (E.withNet net) fuel (recv (E.withNet net) fuel BUF_SIZE) pkt' src w' with ⟨r', v'⟩
  rw [e, e'] at h1 h2
  cases h1 with
  | ok ha =>
    cases ha with
    | none => exact ⟨.err _, h2⟩
    | some h => exact sendPkt _ h _ _ h2
  | err x => exact ⟨.err _, h2⟩
  | panic => exact ⟨.panic, h2⟩
  | pending => exact ⟨.pending, h2⟩

end

end Utp
