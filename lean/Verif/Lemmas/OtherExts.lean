import Verif.Spec.OtherExts
import Verif.Lemmas.PeerTimes
/-!
# Two runs that differ only in extensions that are not selective acknowledgements
-/

namespace Utp
open M Packet Spec

variable {E : Env} {net : Nat → NetEvent} {α β : Type}

/-! ### Packets -/

/-- Received data that are the same but for such extensions. -/
def ExtBytes (b b' : Bytes) : Prop := b' = b ∨ OtherExts b b'

/-- Packets that are the same but for such extensions. -/
abbrev ExtPkt (p p' : Packet) : Prop := p' = p ∨ OtherExts p.bytes p'.bytes

/-- The same packet. -/
abbrev SentPkt (p p' : Packet) : Prop := p = p'

theorem SentPkt.seqNr {p p' : Packet} (h : SentPkt p p') : p'.seqNr = p.seqNr := h ▸ rfl
theorem SentPkt.len {p p' : Packet} (h : SentPkt p p') : p'.len = p.len := h ▸ rfl
theorem SentPkt.timestamp {p p' : Packet} (h : SentPkt p p') : p'.timestamp = p.timestamp := h ▸ rfl
theorem SentPkt.setTimestamp {p p' : Packet} (h : SentPkt p p') (v : U32) : SentPkt (p.setTimestamp v) (p'.setTimestamp v) := h ▸ rfl
theorem SentPkt.setWndSize {p p' : Packet} (h : SentPkt p p') (v : U32) : SentPkt (p.setWndSize v) (p'.setWndSize v) := h ▸ rfl
theorem SentPkt.setTimestampDifference {p p' : Packet} (h : SentPkt p p') (v : Int) : SentPkt (p.setTimestampDifference v) (p'.setTimestampDifference v) := h ▸ rfl
theorem SentPkt.setSack {p p' : Packet} (h : SentPkt p p') (bv : Bytes) : Option.Rel SentPkt (p.setSack bv) (p'.setSack bv) := by
  subst h
  cases p.setSack bv with
  | none => exact .none
  | some q => exact .some rfl

theorem ExtBytes.refl (b : Bytes) : ExtBytes b b := .inl rfl

theorem ExtBytes.take {b b' : Bytes} (h : ExtBytes b b') {n : Nat} (hn : 1500 ≤ n) : ExtBytes (b.take n) (b'.take n) := by
  rcases h with rfl | h
  · exact .inl rfl
  · have h' := h
    obtain ⟨_, _, _, _, _, _, h1, h2, _⟩ := h'
    rw [List.take_of_length_le (by omega), List.take_of_length_le (by omega)]
    exact .inr h

theorem datagram_extensions {q : Packet} {d : Datagram} (hd : d.Ok) (e : q.bytes = d.bytes) : q.extensions = some (d.exts.map toExt) := by
  have := extensionsLoop_fwd d.exts d.header d.payload (d.bytes.length + 1) hd.extsOk datagram_fuel
  rw [hd.headerLen] at this
  simp only [Packet.extensions, e, datagram_byte1 hd]
  exact this

theorem sacks_toExt (l : List WireExt) : ((l.map toExt).filter fun e => e.ty = .selectiveAck) = (sacksOf l).map toExt := by
  rw [List.filter_map]
  unfold sacksOf
  refine congrArg (List.map toExt) (List.filter_congr fun e _ => ?_)
  have hx : (ExtensionType.ofU8 e.code = .selectiveAck) ↔ e.code = 1 := by
    constructor
    · intro h'
      exact C06_extension_type.2.1 _ _ (h'.trans C06_extension_type.2.2.2.symm)
    · intro h'
      rw [h']
      exact C06_extension_type.2.2.2
  show decide (ExtensionType.ofU8 e.code = .selectiveAck) = decide (e.code = 1)
  rw [Bool.eq_iff_iff, decide_eq_true_eq, decide_eq_true_eq]
  exact hx

theorem OtherExts.byte {b b' : Bytes} (h : OtherExts b b') {i : Nat} (hi : i ≠ 1) (hl : i < 20) : byteAt b' i = byteAt b i := by
  obtain ⟨d, d', hd, hd', rfl, rfl, _, _, hh, _, _⟩ := h
  have e := hd.headerLen
  have e' := hd'.headerLen
  simp only [byteAt, List.getD, Datagram.bytes]
  rw [List.getElem?_append_left (by omega), List.getElem?_append_left (by omega), hh i hi]

section
variable {p p' : Packet} (h : ExtPkt p p')
include h

theorem ExtPkt.byte {i : Nat} (hi : i ≠ 1) (hl : i < 20) : byteAt p'.bytes i = byteAt p.bytes i := by
  rcases h with rfl | h
  · rfl
  · exact OtherExts.byte h hi hl
theorem ExtPkt.seqNr : p'.seqNr = p.seqNr := by simp only [Packet.seqNr, be16, Nat.reduceAdd, ExtPkt.byte h (show 16 ≠ 1 by omega) (by omega), ExtPkt.byte h (show 17 ≠ 1 by omega) (by omega)]
theorem ExtPkt.ackNr : p'.ackNr = p.ackNr := by simp only [Packet.ackNr, be16, Nat.reduceAdd, ExtPkt.byte h (show 18 ≠ 1 by omega) (by omega), ExtPkt.byte h (show 19 ≠ 1 by omega) (by omega)]
theorem ExtPkt.connectionId : p'.connectionId = p.connectionId := by
  simp only [Packet.connectionId, be16, Nat.reduceAdd, ExtPkt.byte h (show 2 ≠ 1 by omega) (by omega), ExtPkt.byte h (show 3 ≠ 1 by omega) (by omega)]
theorem ExtPkt.wndSize : p'.wndSize = p.wndSize := by
  simp only [Packet.wndSize, be32, Nat.reduceAdd, ExtPkt.byte h (show 12 ≠ 1 by omega) (by omega), ExtPkt.byte h (show 13 ≠ 1 by omega) (by omega), ExtPkt.byte h (show 14 ≠ 1 by omega) (by omega), ExtPkt.byte h (show 15 ≠ 1 by omega) (by omega)]
theorem ExtPkt.timestamp : p'.timestamp = p.timestamp := by
  simp only [Packet.timestamp, be32, Nat.reduceAdd, ExtPkt.byte h (show 4 ≠ 1 by omega) (by omega), ExtPkt.byte h (show 5 ≠ 1 by omega) (by omega), ExtPkt.byte h (show 6 ≠ 1 by omega) (by omega), ExtPkt.byte h (show 7 ≠ 1 by omega) (by omega)]
theorem ExtPkt.getType : p'.getType = p.getType := by simp only [Packet.getType, ExtPkt.byte h (show 0 ≠ 1 by omega) (by omega)]

theorem ExtPkt.payload : p'.payload = p.payload := by
  rcases h with rfl | h
  · rfl
  · obtain ⟨d, d', hd, hd', e1, e2, _, _, _, hp, _⟩ := h
    cases p; cases p'
    simp only at e1 e2
    subst e1 e2
    rw [C03_payload hd, C03_payload hd', hp]

/-- The selective acknowledgements among the extensions are the same. -/
theorem ExtPkt.extensions (ht : p.getType = some .state) :
    Option.Rel (fun l l' => (l'.filter fun e => e.ty = .selectiveAck) = l.filter fun e => e.ty = .selectiveAck) p.extensions p'.extensions := by
  rcases h with rfl | h
  · cases p'.extensions with
    | none => exact .none
    | some l => exact .some rfl
  · obtain ⟨d, d', hd, hd', e1, e2, _, _, _, _, hs⟩ := h
    rw [datagram_extensions hd e1, datagram_extensions hd' e2]
    refine .some ?_
    rw [sacks_toExt, sacks_toExt, hs ?_]
    obtain ⟨t, h1, h2⟩ := (C02_first_bytes (b := p.bytes) (p := p) (by
      have := (C01_accept_iff p.bytes).mpr ⟨d, hd, e1⟩
      obtain ⟨q, hq⟩ := this
      have e := C02_lossless hq
      cases p; cases q
      simp only at e
      subst e
      exact hq)).1
    rw [ht] at h1
    cases h1
    rw [e1] at h2
    have : d.bytes.getD 0 0 = d.header.getD 0 0 := by
      have := hd.headerLen
      simp only [Datagram.bytes, List.getD]
      rw [List.getElem?_append_left (by omega)]
    rw [this] at h2
    exact h2.symm

end

/-- The same result of decoding. -/
inductive ExtParsed : Except ParseError Packet → Except ParseError Packet → Prop
  | ok {p p' : Packet} : ExtPkt p p' → ExtParsed (.ok p) (.ok p')
  | error (e : ParseError) : ExtParsed (.error e) (.error e)

theorem datagram_tryFrom {b : Bytes} (hb : IsDatagram b) : Packet.tryFrom b = some (.ok ⟨b⟩) := by
  obtain ⟨p, hp⟩ := (C01_accept_iff b).mpr hb
  have := C02_lossless hp
  rw [hp, ← this]

theorem ExtBytes.tryFrom {b b' : Bytes} (h : ExtBytes b b') : Option.Rel ExtParsed (Packet.tryFrom b) (Packet.tryFrom b') := by
  rcases h with rfl | h
  · rcases Packet.tryFrom b' with _ | r
    · exact .none
    · rcases r with e | p
      · exact .some (.error e)
      · exact .some (.ok (.inl rfl))
  · have h' := h
    obtain ⟨d, d', hd, hd', e1, e2, _⟩ := h'
    rw [datagram_tryFrom ⟨d, hd, e1⟩, datagram_tryFrom ⟨d', hd', e2⟩]
    exact .some (.ok (.inr h))

/-! ### Unknown extensions are skipped -/

theorem processExtensions_filter (fuel : Nat) (rec : M (Bytes × Addr)) (ack : U16) : ∀ l loss,
    processExtensions E fuel rec ack l loss = processExtensions E fuel rec ack (l.filter fun e => e.ty = .selectiveAck) loss
  | [], loss => rfl
  | e :: rest, loss => by
    have ih := processExtensions_filter fuel rec ack rest
    have ih' : processExtensions E fuel rec ack rest = processExtensions E fuel rec ack (rest.filter fun e => e.ty = .selectiveAck) := funext ih
    by_cases h : e.ty = .selectiveAck
    · rw [List.filter_cons_of_pos (by simpa using h)]
      simp only [processExtensions, if_pos h, ← ih']
    · rw [List.filter_cons_of_neg (by simpa using h)]
      simp only [processExtensions, if_neg h]
      exact ih loss

theorem any_filter (l l' : List Extension) (h : (l'.filter fun e => e.ty = .selectiveAck) = l.filter fun e => e.ty = .selectiveAck) :
    (l'.any fun e => e.ty = .selectiveAck) = l.any fun e => e.ty = .selectiveAck := by
  have key : ∀ l : List Extension, (l.any fun e => e.ty = .selectiveAck) = decide ((l.filter fun e => e.ty = .selectiveAck) ≠ []) := by
    intro l
    rw [Bool.eq_iff_iff, List.any_eq_true, decide_eq_true_eq, ne_eq, List.filter_eq_nil_iff]
    simp
  rw [key, key, h]

/-! ### Worlds -/

/-- The socket with other extensions in the packets it keeps. -/
inductive TagSocket (s : Socket) : Socket → Prop
  | mk {i o u : List Packet} : List.Forall₂ ExtPkt s.incoming i → List.Forall₂ SentPkt s.sendWindow o → List.Forall₂ SentPkt s.unsent u →
      TagSocket s { s with incoming := i, sendWindow := o, unsent := u }

/-- Such worlds. -/
structure TagWorld (w w' : World) : Prop where
  s : TagSocket w.s w'.s
  nNow : w'.nNow = w.nNow
  nRand : w'.nRand = w.nRand
  nNet : w'.nNet = w.nNet
  nSnd : w'.nSnd = w.nSnd
  log : List.Forall₂ Eq w.log w'.log

/-- The reply to such packets. -/
theorem prepareReply_tag {s s' : Socket} (h : TagSocket s s') (t : U32) {pkt pkt' : Packet} (hp : ExtPkt pkt pkt') (ty : PacketType) :
    SentPkt (s.prepareReply t pkt ty) (s'.prepareReply t pkt' ty) := by
  obtain ⟨_, _, _⟩ := h
  show Socket.prepareReply _ _ _ _ = Socket.prepareReply _ _ _ _
  unfold Socket.prepareReply
  simp only [ExtPkt.timestamp hp]

theorem resendRequest_tag {s s' : Socket} (h : TagSocket s s') (t : U32) : SentPkt (resendRequest s t) (resendRequest s' t) := by
  obtain ⟨_, _, _⟩ := h
  exact rfl

/-! ### Computations -/

/-- In worlds that differ in such extensions, `m` and `m'` have related results and end in such worlds. -/
def Tag {α : Type} (R : α → α → Prop) (m m' : M α) : Prop :=
  ∀ w w', TagWorld w w' → SameRes R (m w).1 (m' w').1 ∧ TagWorld (m w).2 (m' w').2

namespace Tag

theorem ret {R : α → α → Prop} {a a' : α} (h : R a a') : Tag R (M.ret a) (M.ret a') := fun _ _ hw => ⟨.ok h, hw⟩

theorem pure {R : α → α → Prop} {a a' : α} (h : R a a') : Tag R (Pure.pure a) (Pure.pure a') := ret h

theorem throw {R : α → α → Prop} (e : IoErr) : Tag R (M.throw e) (M.throw e) := fun _ _ hw => ⟨.err e, hw⟩

theorem never {R : α → α → Prop} : Tag R M.never M.never := fun _ _ hw => ⟨.pending, hw⟩

theorem andThen {R : α → α → Prop} {Q : β → β → Prop} {m m' : M α} {f f' : α → M β} (h : Tag R m m')
    (hf : ∀ a a', R a a' → Tag Q (f a) (f' a')) : Tag Q (M.andThen m f) (M.andThen m' f') := by
  intro w w' hw
  obtain ⟨h1, h2⟩ := h w w' hw
  unfold M.andThen
  rcases e : m w with ⟨r, v⟩
  rcases e' : m' w' with ⟨r', v'⟩
  rw [e, e'] at h1 h2
  cases h1 with
  | ok ha => exact hf _ _ ha v v' h2
  | err x => exact ⟨.err x, h2⟩
  | panic => exact ⟨.panic, h2⟩
  | pending => exact ⟨.pending, h2⟩

theorem seq {R : α → α → Prop} {Q : β → β → Prop} {m m' : M α} {f f' : α → M β} (h : Tag R m m')
    (hf : ∀ a a', R a a' → Tag Q (f a) (f' a')) : Tag Q (m >>= f) (m' >>= f') := andThen h hf

theorem seqE {Q : β → β → Prop} {m m' : M α} {f f' : α → M β} (h : Tag Eq m m')
    (hf : ∀ a, Tag Q (f a) (f' a)) : Tag Q (m >>= f) (m' >>= f') := andThen h fun a _ e => e ▸ hf a

theorem get {Q : β → β → Prop} {f f' : Socket → M β} (hf : ∀ s s', TagSocket s s' → Tag Q (f s) (f' s')) :
    Tag Q (getS >>= f) (getS >>= f') := fun w w' hw => hf w.s w'.s hw.s w w' hw

theorem modS {f f' : Socket → Socket} (hf : ∀ s s', TagSocket s s' → TagSocket (f s) (f' s')) : Tag Eq (M.modS f) (M.modS f') :=
  fun _ _ hw => ⟨.ok rfl, hf _ _ hw.s, hw.nNow, hw.nRand, hw.nNet, hw.nSnd, hw.log⟩

theorem orPanic (o : Option α) : Tag Eq (M.orPanic o) (M.orPanic o) := by
  cases o with
  | none => exact fun _ _ hw => ⟨.panic, hw⟩
  | some a => exact ret rfl

theorem orPanicE {o o' : Option α} (h : o = o') : Tag Eq (M.orPanic o) (M.orPanic o') := h ▸ orPanic o

theorem orPanicR {R : α → α → Prop} {o o' : Option α} (h : Option.Rel R o o') : Tag R (M.orPanic o) (M.orPanic o') := by
  cases h with
  | none => exact fun _ _ hw => ⟨.panic, hw⟩
  | some h => exact ret h

theorem orPanicP {P : α → Prop} {o o' : Option α} (e : o = o') (h : ∀ a, o = some a → P a) :
    Tag (fun a a' => a = a' ∧ P a) (M.orPanic o) (M.orPanic o') := by
  subst e
  cases o with
  | none => exact fun _ _ hw => ⟨.panic, hw⟩
  | some a => exact ret ⟨rfl, h a rfl⟩

theorem overflowIf (b : Bool) : Tag Eq (M.overflowIf E b) (M.overflowIf (E.withNet net) b) := by
  show Tag Eq (M.overflowIf E b) (M.overflowIf E b)
  unfold M.overflowIf
  split
  · exact fun _ _ hw => ⟨.panic, hw⟩
  · exact ret rfl

theorem overflowE {b b' : Bool} (h : b = b') : Tag Eq (M.overflowIf E b) (M.overflowIf (E.withNet net) b') := h ▸ overflowIf b

theorem now : Tag Eq (M.now E) (M.now (E.withNet net)) := by
  intro w w' h
  refine ⟨?_, h.s, congrArg (· + 1) h.nNow, h.nRand, h.nNet, h.nSnd, h.log⟩
  show SameRes Eq (.ok (E.now w.nNow)) (.ok (E.now w'.nNow))
  rw [h.nNow]; exact .ok rfl

theorem rand : Tag Eq (M.rand E) (M.rand (E.withNet net)) := by
  intro w w' h
  refine ⟨?_, h.s, h.nNow, congrArg (· + 1) h.nRand, h.nNet, h.nSnd, h.log⟩
  show SameRes Eq (.ok (E.rand w.nRand)) (.ok (E.rand w'.nRand))
  rw [h.nRand]; exact .ok rfl

theorem ignoreErr {R : α → α → Prop} {m m' : M α} (h : Tag R m m') : Tag Eq (M.ignoreErr m) (M.ignoreErr m') := by
  intro w w' hw
  obtain ⟨h1, h2⟩ := h w w' hw
  unfold M.ignoreErr
  rcases e : m w with ⟨r, v⟩
  rcases e' : m' w' with ⟨r', v'⟩
  rw [e, e'] at h1 h2
  cases h1 with
  | ok ha => exact ⟨.ok rfl, h2⟩
  | err e => exact ⟨.ok rfl, h2⟩
  | panic => exact ⟨.panic, h2⟩
  | pending => exact ⟨.pending, h2⟩

theorem udpSend (a : Addr) {b b' : Bytes} (hb : ∀ ok, Act.send a b ok = Act.send a b' ok) :
    Tag Eq (M.udpSend E a b) (M.udpSend (E.withNet net) a b') := by
  intro w w' h
  have key : ∀ ok, TagWorld { w with nSnd := w.nSnd + 1, log := w.log ++ [.send a b ok] } { w' with nSnd := w'.nSnd + 1, log := w'.log ++ [.send a b' ok] } := fun ok =>
    ⟨h.s, h.nNow, h.nRand, h.nNet, congrArg (· + 1) h.nSnd, List.rel_append h.log (.cons (hb ok) .nil)⟩
  unfold M.udpSend
  simp only
  rw [show (E.withNet net).snd w'.nSnd = E.snd w.nSnd by rw [h.nSnd]; rfl]
  rcases E.snd w.nSnd with _ | k | _
  · exact ⟨.ok rfl, key _⟩
  · exact ⟨.err _, key _⟩
  · exact ⟨.pending, key _⟩

theorem sendPkt (a : Addr) {p p' : Packet} (h : SentPkt p p') : Tag Eq (M.udpSend E a p.bytes) (M.udpSend (E.withNet net) a p'.bytes) :=
  udpSend a fun ok => congrArg (fun q => Act.send a q.bytes ok) h

/-- The same outcome of a receive, but for extensions. -/
def TagGot : Except ErrorKind (Bytes × Addr) → Except ErrorKind (Bytes × Addr) → Prop
  | .ok x, .ok x' => ExtBytes x.1 x'.1 ∧ x'.2 = x.2
  | .error k, .error k' => k = k'
  | _, _ => False

theorem udpRecv (hN : ∀ k, ExtEvent (E.net k) (net k)) (t : Option U64) {len : Nat} (hl : 1500 ≤ len) :
    Tag (TagGot) (M.udpRecv E t len) (M.udpRecv (E.withNet net) t len) := by
  intro w w' h
  have key : TagWorld { w with nNet := w.nNet + 1, log := w.log ++ [.wait t] } { w' with nNet := w'.nNet + 1, log := w'.log ++ [.wait t] } :=
    ⟨h.s, h.nNow, h.nRand, congrArg (· + 1) h.nNet, h.nSnd, List.rel_append h.log (.cons rfl .nil)⟩
  unfold M.udpRecv
  simp only
  have e : (E.withNet net).net w'.nNet = net w.nNet := by rw [h.nNet]; rfl
  rw [e]
  have hk := hN w.nNet
  generalize E.net w.nNet = x at hk ⊢
  generalize net w.nNet = x' at hk ⊢
  cases hk with
  | dgram a hb => exact ⟨.ok ⟨ExtBytes.take (.inr hb) hl, rfl⟩, key⟩
  | same e =>
    cases x with
    | dgram b a => exact ⟨.ok ⟨ExtBytes.refl _, rfl⟩, key⟩
    | fail k => exact ⟨.ok rfl, key⟩
    | never => exact ⟨.pending, key⟩

theorem whileM {c c' : M Bool} {b b' : M Unit} (hc : Tag Eq c c') (hb : Tag Eq b b') :
    ∀ n, Tag Eq (M.whileM n c b) (M.whileM n c' b')
  | 0 => never
  | n + 1 => by
    refine andThen hc ?_
    rintro go _ rfl
    cases go with
    | true => exact andThen hb fun _ _ _ => whileM hc hb n
    | false => exact ret rfl

theorem ite {R : α → α → Prop} {c c' : Prop} [Decidable c] [Decidable c'] {m n m' n' : M α} (h : c ↔ c')
    (h1 : c → Tag R m m') (h2 : ¬ c → Tag R n n') : Tag R (if c then m else n) (if c' then m' else n') := by
  by_cases hc : c
  · rw [if_pos hc, if_pos (h.mp hc)]; exact h1 hc
  · rw [if_neg hc, if_neg (fun x => hc (h.mpr x))]; exact h2 hc

end Tag

open Tag

theorem tag_in : ∀ p p', ExtPkt p p' → p'.seqNr = p.seqNr := fun _ _ h => ExtPkt.seqNr h
theorem tag_out : ∀ p p', SentPkt p p' → p'.seqNr = p.seqNr := fun _ _ h => h ▸ rfl

theorem tag_lens {l l' : List Packet} (h : List.Forall₂ SentPkt l l') : l'.map Packet.len = l.map Packet.len := by
  rw [List.forall₂_eq_eq_eq] at h
  rw [h]

theorem tag_subLens {l l' : List Packet} (h : List.Forall₂ SentPkt l l') : ∀ c, Socket.subLens (E.withNet net) c l' = Socket.subLens E c l := by
  rw [List.forall₂_eq_eq_eq] at h
  subst h
  exact lag_subLens (List.forall₂_same.2 fun _ _ => ⟨rfl, fun _ _ => rfl⟩)

/-! ### Sockets -/

/-- The socket with other buffers. -/
def Socket.tagged (s : Socket) (i o u : List Packet) : Socket := { s with incoming := i, sendWindow := o, unsent := u }

theorem TagSocket.advanceIncoming {s s' : Socket} (h : TagSocket s s') : TagSocket s.advanceIncoming s'.advanceIncoming := by
  obtain ⟨hi, ho, hu⟩ := h
  unfold Socket.advanceIncoming
  cases e : s.incoming with
  | nil =>
    rw [e] at hi
    cases hi
    exact ⟨by rw [e]; exact .nil, ho, hu⟩
  | cons q rest =>
    rw [e] at hi
    cases hi with
    | cons h ht =>
      simp only
      rw [ExtPkt.seqNr h]
      exact ⟨ht, ho, hu⟩

theorem TagSocket.takePending {s s' : Socket} (h : TagSocket s s') (len : Nat) : (s'.takePending len).1 = (s.takePending len).1 ∧ TagSocket (s.takePending len).2 (s'.takePending len).2 := by
  obtain ⟨hi, ho, hu⟩ := h
  unfold Socket.takePending
  simp only
  split
  · exact ⟨rfl, TagSocket.advanceIncoming (s := { s with pending := [] }) ⟨hi, ho, hu⟩⟩
  · exact ⟨rfl, hi, ho, hu⟩

theorem TagSocket.takeHead {s s' : Socket} (h : TagSocket s s') (x : Bytes) (len : Nat) : TagSocket (s.takeHead x len) (s'.takeHead x len) := by
  unfold Socket.takeHead
  split
  · exact h.advanceIncoming
  · obtain ⟨hi, ho, hu⟩ := h
    exact ⟨hi, ho, hu⟩

theorem TagSocket.buildSack {s s' : Socket} (h : TagSocket s s') : s'.buildSack (E.withNet net) = s.buildSack E := by
  obtain ⟨hi, ho, hu⟩ := h
  unfold Socket.buildSack
  simp only [ne_eq, ← forall₂_nil_iff hi]
  rw [lag_filterMap tag_in hi (fun x => decide (s.ackNr + 1 < x)) (fun x => (x - s.ackNr - 2).toNat)]
  rfl

theorem TagSocket.advanceSendWindow {s s' : Socket} (h : TagSocket s s') :
    Option.Rel (TagSocket) (s.advanceSendWindow E) (s'.advanceSendWindow (E.withNet net)) := by
  obtain ⟨hi, ho, hu⟩ := h
  unfold Socket.advanceSendWindow
  simp only
  rw [lag_findIdx tag_out ho (fun x => x == s.lastAcked)]
  split
  · exact .some ⟨hi, ho, hu⟩
  · rename_i pos _
    rw [tag_subLens (E := E) (net := net) (List.forall₂_take (pos + 1) ho)]
    split
    · exact .none
    · exact .some ⟨hi, List.forall₂_drop _ ho, hu⟩

theorem updateBaseDelay_tagged (s : Socket) (i o u : List Packet) (d : Int) (t : U32) :
    (s.tagged i o u).updateBaseDelay d t = (s.updateBaseDelay d t).map fun x => x.tagged i o u := by
  unfold Socket.updateBaseDelay
  simp only [show (s.tagged i o u).baseDelays = s.baseDelays from rfl, show (s.tagged i o u).lastRollover = s.lastRollover from rfl]
  by_cases h : s.baseDelays.isEmpty ∨ tsSub t s.lastRollover > MAX_BASE_DELAY_AGE
  · rw [if_pos h, if_pos h]; rfl
  · rw [if_neg h, if_neg h]
    cases s.baseDelays.getLast? with
    | none => rfl
    | some l =>
      simp only
      by_cases h : d < l
      · rw [if_pos h, if_pos h]; rfl
      · rw [if_neg h, if_neg h]; rfl

theorem updateCongestionWindow_tagged (s : Socket) (i o u : List Packet) (n : U32) :
    (s.tagged i o u).updateCongestionWindow (E.withNet net) n = (s.updateCongestionWindow E n).map fun x => x.tagged i o u := by
  unfold Socket.updateCongestionWindow
  by_cases h : E.checks ∧ s.currWindow.toNat + 1400 ≥ 2 ^ 32
  · rw [if_pos h, if_pos (show (E.withNet net).checks ∧ (s.tagged i o u).currWindow.toNat + 1400 ≥ 2 ^ 32 from h)]; rfl
  · rw [if_neg h, if_neg (show ¬ ((E.withNet net).checks ∧ (s.tagged i o u).currWindow.toNat + 1400 ≥ 2 ^ 32) from h)]; rfl

theorem TagSocket.onNewAck {s s' : Socket} (h : TagSocket s s') (idx : Nat) {p p' : Packet} (hpp : SentPkt p p') (t : U32) :
    Option.Rel (TagSocket) (s.onNewAck E idx p t) (s'.onNewAck (E.withNet net) idx p' t) := by
  obtain ⟨hi, ho, hu⟩ := h
  rename_i i o u
  have key : (s.tagged i o u).onNewAck (E.withNet net) idx p' t = (s.onNewAck E idx p t).map fun x => x.tagged i o u := by
    unfold Socket.onNewAck
    simp only
    rw [updateBaseDelay_tagged, SentPkt.timestamp hpp]
    have e2 : (((s.tagged i o u).sendWindow.take (idx + 1)).map Packet.len).sum = ((s.sendWindow.take (idx + 1)).map Packet.len).sum := by
      exact congrArg List.sum (tag_lens (List.forall₂_take (idx + 1) ho))
    rw [e2]
    rcases s.updateBaseDelay (tsSub t p.timestamp) t with _ | s1
    · rfl
    · simp only [Option.map_some]
      have e3 : (s1.tagged i o u).updateCurrentDelay (tsSub t p.timestamp) t = (s1.updateCurrentDelay (tsSub t p.timestamp) t).tagged i o u := rfl
      rw [e3, updateCongestionWindow_tagged]
      rcases (s1.updateCurrentDelay (tsSub t p.timestamp) t).updateCongestionWindow E _ with _ | s2
      · rfl
      · rfl
  change Option.Rel _ _ ((s.tagged i o u).onNewAck (E.withNet net) idx p' t)
  rw [key]
  cases e : s.onNewAck E idx p t with
  | none => exact .none
  | some s1 =>
    obtain ⟨_, _, _, _, _, _, _, rfl⟩ := onNewAck_shape e
    exact .some ⟨hi, ho, hu⟩

theorem TagSocket.state {s s' : Socket} (h : TagSocket s s') : s'.state = s.state := by cases h; rfl
theorem TagSocket.connectedTo {s s' : Socket} (h : TagSocket s s') : s'.connectedTo = s.connectedTo := by cases h; rfl

/-! ### The operations -/

theorem tag_flushIncoming (len : Nat) : Tag Eq (flushIncoming E len) (flushIncoming (E.withNet net) len) := by
  unfold flushIncoming
  refine get fun s s' hs => ?_
  have htp := hs.takePending len
  obtain ⟨hi, ho, hu⟩ := hs
  refine ite Iff.rfl (fun _ => ?_) fun _ => ?_
  · exact seqE (modS fun s s' hs => (hs.takePending len).2) fun _ => pure htp.1.symm
  · simp only
    generalize s.incoming = l at hi
    cases hi with
    | nil => exact pure rfl
    | cons hq _ =>
      simp only [ExtPkt.seqNr hq, ExtPkt.payload hq]
      exact seqE (overflowIf _) fun _ => ite Iff.rfl (fun _ => seqE (orPanic _) fun x => seqE (modS fun s s' hs => hs.takeHead x len) fun _ => pure rfl) fun _ => pure rfl

theorem tag_timeout : Tag Eq (handleReceiveTimeout E) (handleReceiveTimeout (E.withNet net)) := by
  have hf : Tag Eq (fastResendOne E) (fastResendOne (E.withNet net)) := by
    refine get fun s s' hs => seqE now fun t => ignoreErr (R := Eq) ?_
    have := resendRequest_tag hs t
    cases hs
    exact sendPkt _ this
  unfold handleReceiveTimeout
  refine get fun s s' hs => ?_
  obtain ⟨hi, ho, hu⟩ := hs
  refine seqE (overflowIf _) fun _ => seqE (modS ?_) fun _ => ?_
  · rintro s _ ⟨hi, ho, hu⟩
    exact ⟨hi, ho, hu⟩
  simp only
  cases e : s.sendWindow with
  | nil =>
    rw [e] at ho
    cases ho
    refine ite Iff.rfl (fun _ => ?_) fun _ => ite Iff.rfl (fun _ => ?_) fun _ => pure rfl
    · exact seqE now fun t => sendPkt _ (rfl)
    · exact seqE hf fun _ => seqE hf fun _ => hf
  | cons q rest =>
    rw [e] at ho
    cases ho with
    | cons hq hr =>
      refine seqE now fun t => seqE (modS ?_) fun _ => sendPkt _ (SentPkt.setTimestamp hq t)
      rintro s _ ⟨hi, ho, hu⟩
      exact ⟨hi, .cons (SentPkt.setTimestamp hq t) hr, hu⟩

theorem tag_recvWait (hN : ∀ k, ExtEvent (E.net k) (net k)) : ∀ fuel retries,
    Tag (fun x x' => ExtBytes x.1 x'.1 ∧ x'.2 = x.2) (recvWait E fuel retries) (recvWait (E.withNet net) fuel retries)
  | 0, _ => never
  | fuel + 1, retries => by
    unfold recvWait
    refine get fun s s' hs => ?_
    obtain ⟨hi, ho, hu⟩ := hs
    refine ite Iff.rfl (fun _ => ?_) fun _ => ?_
    · refine seqE (modS ?_) fun _ => throw _
      rintro s _ ⟨hi, ho, hu⟩
      exact ⟨hi, ho, hu⟩
    · refine seq (udpRecv hN _ (by simp [BUF_SIZE, HEADER_SIZE])) fun r r' hr => ?_
      rcases r with k | x <;> rcases r' with k' | x'
      · cases hr
        dsimp only
        split
        · exact seqE tag_timeout fun _ => tag_recvWait hN fuel _
        · exact throw _
      · exact hr.elim
      · exact hr.elim
      · exact pure hr

section
variable {rec rec' : M (Bytes × Addr)} (hr : Tag Eq rec rec')
include hr

theorem tag_sendPacket (fuel : Nat) {p p' : Packet} (hp : SentPkt p p') :
    Tag SentPkt (sendPacket E fuel rec p) (sendPacket (E.withNet net) fuel rec' p') := by
  unfold sendPacket
  refine get fun s s' hs => ?_
  obtain ⟨_, _, _⟩ := hs
  refine seqE now fun t => seqE (whileM ?_ (andThen hr fun _ _ _ => ret rfl) _) fun _ => get fun s s' hs => ?_
  · refine get fun s1 s1' hs1 => ?_
    obtain ⟨_, _, _⟩ := hs1
    exact ite Iff.rfl (fun _ => seqE now fun t => pure rfl) fun _ => pure rfl
  · have hd := hs
    obtain @⟨i, o, u, _, _, _⟩ := hs
    rw [SentPkt.seqNr hp]
    refine ite Iff.rfl (fun _ => pure hp) fun _ => seqE now fun t => ?_
    have h' := SentPkt.setTimestampDifference (SentPkt.setTimestamp hp t) s.theirDelay
    exact seqE (sendPkt _ h') fun _ => pure h'

theorem tag_resendLost (fuel : Nat) (nr : U16) : Tag Eq (resendLost E fuel rec nr) (resendLost (E.withNet net) fuel rec' nr) := by
  unfold resendLost
  refine get fun s s' hs => ?_
  obtain ⟨_, ho, _⟩ := hs
  have := lag_find tag_out ho nr
  simp only
  generalize (s.sendWindow.find? fun p => p.seqNr == nr) = x at this ⊢
  rename_i i o u _ _
  generalize (o.find? fun p => p.seqNr == nr) = x' at this ⊢
  cases this with
  | none => exact pure rfl
  | some h => exact ignoreErr (tag_sendPacket hr _ h)

theorem tag_resendMissing (fuel : Nat) (ack last : U16) :
    ∀ bits loss, Tag Eq (resendMissing E fuel rec ack last bits loss) (resendMissing (E.withNet net) fuel rec' ack last bits loss) := by
  intro bits
  induction bits with
  | nil => intro loss; exact pure rfl
  | cons x rest ih =>
    intro loss
    obtain ⟨idx, received⟩ := x
    unfold resendMissing
    split
    · exact ih _
    · refine seqE (overflowIf _) fun _ => ?_
      dsimp only
      split
      · exact seqE (tag_resendLost hr _ _) fun _ => ih _
      · exact pure rfl

theorem tag_processExtensions (fuel : Nat) (ack : U16) :
    ∀ exts loss, Tag Eq (processExtensions E fuel rec ack exts loss) (processExtensions (E.withNet net) fuel rec' ack exts loss) := by
  intro exts
  induction exts with
  | nil => intro loss; exact pure rfl
  | cons e rest ih =>
    intro loss
    unfold processExtensions
    split
    · refine seqE ?_ fun loss1 => get fun s s' hs => ?_
      · unfold resendFirst
        split
        · exact seqE (overflowIf _) fun _ => seqE (tag_resendLost hr _ _) fun _ => pure rfl
        · exact pure rfl
      · obtain ⟨_, ho, _⟩ := hs
        have := lag_last ho
        simp only
        rename_i i o u _ _
        generalize s.sendWindow.getLast? = x at this ⊢
        generalize o.getLast? = x' at this ⊢
        cases this with
        | none => exact ih _
        | some h =>
          simp only
          rw [SentPkt.seqNr h]
          exact seqE (orPanic _) fun bits => seqE (tag_resendMissing hr _ _ _ _ _) fun _ => ih _
    · exact ih _

theorem tag_handleState (fuel : Nat) {pkt pkt' : Packet} (hp : ExtPkt pkt pkt') (ht : pkt.getType = some .state) :
    Tag Eq (handleState E fuel rec pkt) (handleState (E.withNet net) fuel rec' pkt') := by
  unfold handleState
  rw [ExtPkt.ackNr hp]
  refine seqE ?_ fun _ => seqE ?_ fun _ => get fun s s' hs => seq (orPanicR (ExtPkt.extensions hp ht)) fun exts exts' he => ?_
  · unfold countAck
    rw [ExtPkt.ackNr hp]
    refine get fun s s' hs => ?_
    obtain ⟨_, _, _⟩ := hs
    refine ite Iff.rfl (fun _ => seqE (overflowIf _) fun _ => modS ?_) fun _ => seqE now fun t => modS ?_
    · rintro s _ ⟨hi, ho, hu⟩; exact ⟨hi, ho, hu⟩
    · rintro s _ ⟨hi, ho, hu⟩; exact ⟨hi, ho, hu⟩
  · unfold measureAck
    rw [ExtPkt.ackNr hp]
    refine get fun s s' hs => ?_
    have hs0 := hs
    obtain ⟨_, ho, _⟩ := hs
    simp only
    rw [lag_findIdx tag_out ho (fun x => pkt.ackNr == x)]
    split
    · exact pure rfl
    · refine seqE now fun t => seq (orPanicR (lag_get ho _)) fun q q' hq => seq (orPanicR (hs0.onNewAck _ hq t)) fun a a' ha => modS fun _ _ _ => ha
  · have e : decide (s'.sendWindow ≠ [] ∧ s'.dupAcks = 3) = decide (s.sendWindow ≠ [] ∧ s.dupAcks = 3) := by
      obtain ⟨_, ho, _⟩ := hs
      simp only [ne_eq, forall₂_nil_iff ho]
    rw [e]
    rw [processExtensions_filter _ _ _ exts, processExtensions_filter _ _ _ exts', he]
    refine seqE (tag_processExtensions hr _ _ _ _) fun loss => seqE ?_ fun _ => seqE (modS ?_) fun _ => get fun s s' hs => ?_
    · unfold fastRetransmit
      rw [ExtPkt.ackNr hp]
      refine get fun s s' hs => ?_
      obtain ⟨_, ho, _⟩ := hs
      refine ite ?_ (fun _ => seqE (overflowIf _) fun _ => tag_resendLost hr _ _) fun _ => pure rfl
      simp only [ne_eq, forall₂_nil_iff ho, any_filter _ _ he]
    · rintro s _ ⟨hi, ho, hu⟩
      split
      · exact ⟨hi, ho, hu⟩
      · exact ⟨hi, ho, hu⟩
    · exact seq (orPanicR hs.advanceSendWindow) fun a a' ha => modS fun _ _ _ => ha

omit hr in
theorem tag_withSack {s s' : Socket} (hs : TagSocket s s') {pkt pkt' : Packet} (hp : ExtPkt pkt pkt') (t : U32) (ty : PacketType) :
    Tag SentPkt (withSack E s pkt (s.prepareReply t pkt ty)) (withSack (E.withNet net) s' pkt' (s'.prepareReply t pkt' ty)) := by
  have hq := prepareReply_tag hs t hp ty
  generalize s.prepareReply t pkt ty = r at hq
  generalize s'.prepareReply t pkt' ty = r' at hq
  unfold withSack
  rw [ExtPkt.seqNr hp, show s'.ackNr = s.ackNr by cases hs; rfl]
  refine ite Iff.rfl (fun _ => ?_) fun _ => pure hq
  exact seqE (orPanicE hs.buildSack.symm) fun sack => ite Iff.rfl (fun _ => orPanicR (SentPkt.setSack hq sack)) fun _ => pure hq

omit hr in
theorem tag_handleData {pkt pkt' : Packet} (hp : ExtPkt pkt pkt') : Tag SentPkt (handleData E pkt) (handleData (E.withNet net) pkt') := by
  refine get fun s s' hs => seqE now fun t => ?_
  rw [hs.state]
  exact tag_withSack hs hp t _

omit hr in
theorem tag_replyWith {pkt pkt' : Packet} (hp : ExtPkt pkt pkt') (ty : PacketType) : Tag (Option.Rel SentPkt) (replyWith E pkt ty) (replyWith (E.withNet net) pkt' ty) :=
  get fun _ _ hs => seqE now fun t => pure (.some (prepareReply_tag hs t hp ty))

omit hr in
theorem tag_onFin {pkt pkt' : Packet} (hp : ExtPkt pkt pkt') : Tag (Option.Rel SentPkt) (onFin E pkt) (onFin (E.withNet net) pkt') := by
  refine get fun s s' hs => seqE now fun t => seq (tag_withSack hs hp t _) fun r r' hq => seqE (modS ?_) fun _ => pure (.some hq)
  rintro s _ ⟨hi, ho, hu⟩
  exact ⟨hi, ho, hu⟩

omit hr in
theorem tag_onReset : Tag (Option.Rel SentPkt) onReset onReset := by
  refine seqE (modS ?_) fun _ => throw _
  rintro s _ ⟨hi, ho, hu⟩
  exact ⟨hi, ho, hu⟩

omit hr in
theorem tag_onFinAck {pkt pkt' : Packet} (hp : ExtPkt pkt pkt') : Tag (Option.Rel SentPkt) (onFinAck pkt) (onFinAck pkt') := by
  unfold onFinAck
  rw [ExtPkt.ackNr hp]
  refine seqE (modS ?_) fun _ => pure .none
  rintro s _ ⟨hi, ho, hu⟩
  by_cases h : pkt.ackNr = s.seqNr
  · simp only [if_pos h]; exact ⟨hi, ho, hu⟩
  · simp only [if_neg h]; exact ⟨hi, ho, hu⟩

omit hr in
theorem tag_onSyn {pkt pkt' : Packet} (hp : ExtPkt pkt pkt') (src : Addr) : Tag (Option.Rel SentPkt) (onSyn E pkt src) (onSyn (E.withNet net) pkt' src) := by
  unfold onSyn
  rw [ExtPkt.connectionId hp, ExtPkt.seqNr hp]
  refine seqE rand fun r => seqE (overflowIf _) fun _ => seqE (modS ?_) fun _ => get fun s s' hs => seqE now fun t => pure ?_
  · rintro s _ ⟨hi, ho, hu⟩
    exact ⟨hi, ho, hu⟩
  · exact .some (prepareReply_tag hs t hp _)

omit hr in
theorem tag_onSynAck {pkt pkt' : Packet} (hp : ExtPkt pkt pkt') (src : Addr) : Tag (Option.Rel SentPkt) (onSynAck E pkt src) (onSynAck (E.withNet net) pkt' src) := by
  unfold onSynAck
  rw [ExtPkt.ackNr hp, ExtPkt.seqNr hp]
  refine get fun s s' hs => ?_
  obtain ⟨_, _, _⟩ := hs
  refine seqE (overflowIf _) fun _ => seqE now fun t => seqE (modS ?_) fun _ => pure .none
  rintro s _ ⟨hi, ho, hu⟩
  exact ⟨hi, ho, hu⟩

theorem tag_dispatch (fuel : Nat) {pkt pkt' : Packet} (hp : ExtPkt pkt pkt') (src : Addr) (st : SocketState) {ty : PacketType} (ht : pkt.getType = some ty) :
    Tag (Option.Rel SentPkt) (dispatch E fuel rec pkt src st ty) (dispatch (E.withNet net) fuel rec' pkt' src st ty) := by
  unfold dispatch
  split
  · exact tag_onSyn hp src
  · exact tag_replyWith hp _
  · exact tag_onSynAck hp src
  · exact throw _
  · exact seq (tag_handleData hp) fun _ _ h => pure (.some h)
  · exact seq (tag_handleData hp) fun _ _ h => pure (.some h)
  · exact seqE (tag_handleState hr _ hp ht) fun _ => pure .none
  · exact tag_onFin hp
  · exact tag_onFin hp
  · exact tag_replyWith hp _
  · exact tag_onFinAck hp
  · exact tag_onReset
  · exact throw _

theorem tag_handlePacket (fuel : Nat) {pkt pkt' : Packet} (hp : ExtPkt pkt pkt') (src : Addr) :
    Tag (Option.Rel SentPkt) (handlePacket E fuel rec pkt src) (handlePacket (E.withNet net) fuel rec' pkt' src) := by
  unfold handlePacket
  refine seqE (modS ?_) fun _ => get fun s s' hs => ?_
  · rintro s _ ⟨hi, ho, hu⟩
    unfold Socket.bumpAck
    rw [ExtPkt.seqNr hp]
    by_cases h : pkt.seqNr - s.ackNr = 1
    · simp only [if_pos h]; exact ⟨hi, ho, hu⟩
    · simp only [if_neg h]; exact ⟨hi, ho, hu⟩
  · rw [ExtPkt.getType hp, ExtPkt.connectionId hp, ExtPkt.wndSize hp, ExtPkt.timestamp hp]
    obtain ⟨_, _, _⟩ := hs
    refine seq (orPanicP (P := fun a => pkt.getType = some a) rfl fun _ e => e) fun ty ty' e => ?_
    obtain ⟨rfl, ht⟩ := e
    refine ite Iff.rfl (fun _ => tag_replyWith hp _) fun _ => seqE now fun t => seqE (modS ?_) fun _ => tag_dispatch hr _ hp _ _ ht
    rintro s _ ⟨hi, ho, hu⟩
    exact ⟨hi, ho, hu⟩

end

section
variable (hN : ∀ k, ExtEvent (E.net k) (net k))
include hN

theorem tag_recv : ∀ fuel len, Tag Eq (recv E fuel len) (recv (E.withNet net) fuel len)
  | 0, _ => never
  | fuel + 1, len => by
    unfold recv recvBody
    refine seq (tag_recvWait hN _ _) fun x x' hx => ?_
    obtain ⟨b, src⟩ := x
    obtain ⟨b', src'⟩ := x'
    obtain ⟨hb, e⟩ := hx
    simp only at e
    subst e
    simp only
    refine seq (orPanicR (ExtBytes.tryFrom hb)) fun r r' hr => ?_
    cases hr with
    | error e => exact get fun s s' hs => pure (by rw [hs.connectedTo])
    | @ok p p' hp =>
      show Tag Eq (recvPacket E fuel (recv E fuel BUF_SIZE) len p src') (recvPacket (E.withNet net) fuel (recv (E.withNet net) fuel BUF_SIZE) len p' src')
      unfold recvPacket
      refine seq (tag_handlePacket (tag_recv fuel _) _ hp _) fun r r' hr => ?_
      rw [ExtPkt.getType hp, ExtPkt.seqNr hp]
      refine seqE ?_ fun _ => seqE (orPanic _) fun ty => seqE (modS ?_) fun _ => seqE (tag_flushIncoming _) fun out => pure rfl
      · cases hr with
        | none => exact pure rfl
        | some h => exact sendPkt _ (SentPkt.setWndSize h _)
      · rintro s _ ⟨hi, ho, hu⟩
        by_cases h : ty = .data ∧ 0 < (p.seqNr - s.lastDropped).toNat
        · simp only [if_pos h]; exact ⟨lag_insertPkt tag_in hi hp, ho, hu⟩
        · simp only [if_neg h]; exact ⟨hi, ho, hu⟩

theorem tag_recvFromLoop (fuel len : Nat) : ∀ n, Tag Eq (recvFromLoop E fuel len n) (recvFromLoop (E.withNet net) fuel len n)
  | 0 => never
  | n + 1 => by
    unfold recvFromLoop
    refine get fun s s' hs => ?_
    rw [hs.state, hs.connectedTo]
    exact ite Iff.rfl (fun _ => pure rfl) fun _ => seqE (tag_recv hN _ _) fun x => ite Iff.rfl (fun _ => tag_recvFromLoop fuel len n) fun _ => pure rfl

theorem tag_sendQueue (fuel : Nat) : ∀ n, Tag Eq (sendQueue E fuel n) (sendQueue (E.withNet net) fuel n)
  | 0 => never
  | n + 1 => by
    unfold sendQueue
    refine get fun s s' hs => ?_
    obtain ⟨_, _, hu⟩ := hs
    simp only
    cases e : s.unsent with
    | nil =>
      rw [e] at hu
      cases hu
      exact pure rfl
    | cons q rest =>
      rw [e] at hu
      cases hu with
      | cons hq hrest =>
        refine seqE (modS ?_) fun _ => seq (tag_sendPacket (tag_recv hN _ _) _ hq) fun p p' hp => get fun s s' hs => ?_
        · rintro s _ ⟨hi, ho, hu⟩
          exact ⟨hi, ho, hrest⟩
        · obtain ⟨_, _, _⟩ := hs
          rw [SentPkt.len hp]
          refine seqE (overflowIf _) fun _ => seqE (modS ?_) fun _ => tag_sendQueue fuel n
          rintro s _ ⟨hi, ho, hu⟩
          exact ⟨hi, List.rel_append ho (.cons hp .nil), hu⟩

theorem tag_scratchRecv (fuel : Nat) : Tag Eq (scratchRecv E fuel) (scratchRecv (E.withNet net) fuel) :=
  seq (tag_recv hN _ _) fun _ _ _ => pure rfl

theorem tag_flush (fuel : Nat) : Tag Eq (flush E fuel) (flush (E.withNet net) fuel) := by
  refine whileM (get fun s s' hs => pure ?_) (tag_scratchRecv hN fuel) _
  obtain ⟨_, ho, _⟩ := hs
  simp only [ne_eq, forall₂_nil_iff ho]

theorem tag_close (fuel : Nat) : Tag Eq (close E fuel) (close (E.withNet net) fuel) := by
  unfold close
  refine get fun s s' hs => ?_
  rw [hs.state]
  refine ite Iff.rfl (fun _ => pure rfl) fun _ => seqE (tag_flush hN _) fun _ => get fun s s' hs => seqE now fun t => ?_
  refine seqE ?_ fun _ => seqE (modS ?_) fun _ => whileM (get fun s s' hs => pure ?_) (tag_scratchRecv hN fuel) _
  · cases hs
    exact sendPkt _ (rfl)
  · rintro s _ ⟨hi, ho, hu⟩
    exact ⟨hi, ho, hu⟩
  · rw [hs.state]

omit hN in
theorem tag_enqueues (l : List Bytes) : ∀ {s s' : Socket}, TagSocket s s' → TagSocket (l.foldl enqueue s) (l.foldl enqueue s') := by
  induction l with
  | nil => exact fun h => h
  | cons c l ih =>
    intro s s' hs
    refine ih ?_
    obtain ⟨hi, ho, hu⟩ := hs
    exact ⟨hi, ho, List.rel_append hu (.cons (rfl) .nil)⟩

theorem tag_runOp (fuel : Nat) (op : Op) : Tag Eq (runOp E fuel op) (runOp (E.withNet net) fuel op) := by
  cases op with
  | recvFrom len =>
    refine seqE ?_ fun x => pure rfl
    unfold recvFrom
    refine seqE (tag_flushIncoming _) fun out => get fun s s' hs => ?_
    rw [hs.state, hs.connectedTo]
    exact ite Iff.rfl (fun _ => pure rfl) fun _ => ite Iff.rfl (fun _ => throw _) fun _ => tag_recvFromLoop hN _ _ _
  | sendTo b =>
    refine seqE ?_ fun _ => pure rfl
    unfold sendTo
    refine get fun s s' hs => ?_
    rw [hs.state]
    exact ite Iff.rfl (fun _ => throw _) fun _ => seqE (modS fun s s' hs => tag_enqueues _ hs) fun _ => seqE (tag_sendQueue hN _ _) fun _ => pure rfl
  | flush => exact seqE (tag_flush hN _) fun _ => pure rfl
  | close => exact seqE (tag_close hN _) fun _ => pure rfl
  | setMaxRetries n =>
    refine seqE (modS ?_) fun _ => pure rfl
    rintro s _ ⟨hi, ho, hu⟩
    exact ⟨hi, ho, hu⟩

theorem tag_synLoop : ∀ (n : Nat) (t : U64), Tag (ExtBytes) (synLoop E n t) (synLoop (E.withNet net) n t)
  | 0, _ => pure (ExtBytes.refl _)
  | n + 1, t => by
    unfold synLoop
    refine get fun s s' hs => seqE now fun tm => seqE ?_ fun _ => seqE (modS ?_) fun _ => seq (udpRecv hN _ (by simp [BUF_SIZE])) fun r r' hr => ?_
    · cases hs
      exact sendPkt _ (rfl)
    · rintro s _ ⟨hi, ho, hu⟩
      exact ⟨hi, ho, hu⟩
    · rcases r with k | ⟨b, a⟩ <;> rcases r' with k' | ⟨b', a'⟩
      · cases hr
        dsimp only
        split
        · exact tag_synLoop n _
        · exact throw _
      · exact hr.elim
      · exact hr.elim
      · obtain ⟨hb, e⟩ := hr
        simp only at e
        subst e
        refine seqE (modS ?_) fun _ => pure hb
        rintro s _ ⟨hi, ho, hu⟩
        exact ⟨hi, ho, hu⟩

theorem tag_connectM (fuel : Nat) (addr : Addr) : Tag Eq (connectM E fuel addr) (connectM (E.withNet net) fuel addr) := by
  unfold connectM
  refine seqE (modS ?_) fun _ => get fun s s' hs => ?_
  · rintro s _ ⟨hi, ho, hu⟩
    exact ⟨hi, ho, hu⟩
  · rw [show s'.congTimeout = s.congTimeout by cases hs; rfl]
    refine seq (tag_synLoop hN _ _) fun b b' hb => get fun s s' hs => ?_
    rw [hs.connectedTo]
    refine seq (orPanicR (ExtBytes.tryFrom hb)) fun r r' hr => ?_
    cases hr with
    | error e => exact throw _
    | @ok p p' hp =>
      show Tag Eq (handlePacket E fuel (recv E fuel BUF_SIZE) p s.connectedTo >>= fun _ => Pure.pure ())
        (handlePacket (E.withNet net) fuel (recv (E.withNet net) fuel BUF_SIZE) p' s.connectedTo >>= fun _ => Pure.pure ())
      exact seq (tag_handlePacket (tag_recv hN _ _) _ hp _) fun _ _ _ => Tag.pure rfl

theorem tag_acceptM (fuel : Nat) {pkt pkt' : Packet} (hp : ExtPkt pkt pkt') (src : Addr) :
    Tag Eq (acceptM E fuel pkt src) (acceptM (E.withNet net) fuel pkt' src) := by
  intro w w' hw
  obtain ⟨h1, h2⟩ := tag_handlePacket (E := E) (net := net) (tag_recv hN fuel BUF_SIZE) fuel hp src w w' hw
  unfold acceptM
  rcases e : handlePacket E fuel (recv E fuel BUF_SIZE) pkt src w with ⟨r, v⟩
  rcases e' : handlePacket (E.withNet net) fuel (recv (E.withNet net) fuel BUF_SIZE) pkt' src w' with ⟨r', v'⟩
  rw [e, e'] at h1 h2
  cases h1 with
  | ok ha =>
    cases ha with
    | none => exact ⟨.err _, h2⟩
    | some h => exact sendPkt _ h _ _ h2
  | err x => exact ⟨.err _, h2⟩
  | panic => exact ⟨.panic, h2⟩
  | pending => exact ⟨.pending, h2⟩

end

end Utp
