import Verif.Spec.PeerTimes
import Verif.Lemmas.Oblivious
import Verif.Lemmas.OtherId
/-!
# Two runs that differ only in the times in the datagrams of the peer
-/

namespace Utp
open M Packet

variable {E : Env} {net : Nat → NetEvent} {α β : Type}

/-! ### Packets -/

section
variable {b b' : Bytes} (h : AgreeBut 4 12 b b')
include h

theorem AgreeBut.byte {j : Nat} (hj : j < 4 ∨ 12 ≤ j) : byteAt b' j = byteAt b j := by
  simp only [byteAt, List.getD, h.2 j hj]

theorem AgreeBut.be16 {j : Nat} (hj : j < 3 ∨ 12 ≤ j) : Packet.be16 b' j = Packet.be16 b j := by
  simp only [Packet.be16, h.byte (show j < 4 ∨ 12 ≤ j by omega), h.byte (show j + 1 < 4 ∨ 12 ≤ j + 1 by omega)]

theorem AgreeBut.drop {j : Nat} (hj : 12 ≤ j) : b'.drop j = b.drop j := by
  apply List.ext_getElem?
  intro k
  rw [List.getElem?_drop, List.getElem?_drop, h.2 _ (by omega)]

theorem AgreeBut.take (n : Nat) : AgreeBut 4 12 (b.take n) (b'.take n) := by
  refine ⟨by simp [h.1], fun i hi => ?_⟩
  rw [List.getElem?_take, List.getElem?_take, h.2 i hi]

theorem AgreeBut.payloadLoop : ∀ fuel j ext, 20 ≤ j → Packet.payloadLoop b' fuel j ext = Packet.payloadLoop b fuel j ext
  | 0, _, _, _ => rfl
  | fuel + 1, j, ext, hj => by
    unfold Packet.payloadLoop
    rw [h.1, h.2 _ (by omega), h.2 _ (by omega)]
    split
    · split
      · exact AgreeBut.payloadLoop fuel _ _ (by omega)
      · rfl
    · rfl

theorem AgreeBut.extensionsLoop : ∀ fuel j ext, 20 ≤ j → Packet.extensionsLoop b' fuel j ext = Packet.extensionsLoop b fuel j ext
  | 0, _, _, _ => rfl
  | fuel + 1, j, ext, hj => by
    unfold Packet.extensionsLoop
    rw [h.1, h.2 _ (by omega), h.2 _ (by omega), h.drop (by omega)]
    split
    · rfl
    · split
      · split
        · rw [AgreeBut.extensionsLoop fuel _ _ (by omega)]
        · rfl
      · rfl

theorem AgreeBut.checkLoop : ∀ fuel j ext, 20 ≤ j → Packet.checkLoop b' fuel j ext = Packet.checkLoop b fuel j ext
  | 0, _, _, _ => rfl
  | fuel + 1, j, ext, hj => by
    unfold Packet.checkLoop
    rw [h.1, h.2 _ (by omega), h.2 _ (by omega)]
    split
    · split
      · rfl
      · split
        · split
          · rfl
          · exact AgreeBut.checkLoop fuel _ _ (by omega)
        · rfl
    · rfl

end

section
variable {p p' : Packet} (h : InPkt p p')
include h

theorem InPkt.seqNr : p'.seqNr = p.seqNr := AgreeBut.be16 h (by omega)
theorem InPkt.ackNr : p'.ackNr = p.ackNr := AgreeBut.be16 h (by omega)
theorem InPkt.connectionId : p'.connectionId = p.connectionId := AgreeBut.be16 h (by omega)
theorem InPkt.getType : p'.getType = p.getType := by
  simp only [Packet.getType, AgreeBut.byte h (show 0 < 4 ∨ 12 ≤ 0 by omega)]

theorem InPkt.payload : p'.payload = p.payload := by
  unfold Packet.payload
  rw [h.2 1 (by omega), h.1]
  cases p.bytes[1]? with
  | none => rfl
  | some e =>
    simp only
    rw [AgreeBut.payloadLoop h _ _ _ (by simp [HEADER_SIZE])]
    cases hk : Packet.payloadLoop p.bytes (p.bytes.length + 1) HEADER_SIZE (.ofU8 e) with
    | none => rfl
    | some k =>
      have := payloadLoop_ge _ _ _ _ _ hk
      simp only [HEADER_SIZE] at this
      simp only
      rw [AgreeBut.drop h (by omega)]

theorem InPkt.extensions : p'.extensions = p.extensions := by
  unfold Packet.extensions
  rw [h.2 1 (by omega), h.1]
  cases p.bytes[1]? with
  | none => rfl
  | some e => exact AgreeBut.extensionsLoop h _ _ _ (by simp [HEADER_SIZE])

end

theorem InPkt.wndSize {p p' : Packet} (h : InPkt p p') : p'.wndSize = p.wndSize := by
  simp only [Packet.wndSize, be32, AgreeBut.byte h (show 12 < 4 ∨ 12 ≤ 12 by omega), AgreeBut.byte h (show 12 + 1 < 4 ∨ 12 ≤ 12 + 1 by omega),
    AgreeBut.byte h (show 12 + 2 < 4 ∨ 12 ≤ 12 + 2 by omega), AgreeBut.byte h (show 12 + 3 < 4 ∨ 12 ≤ 12 + 3 by omega)]

/-- The same result of decoding. -/
inductive LagParsed : Except ParseError Packet → Except ParseError Packet → Prop
  | ok {p p' : Packet} : InPkt p p' → LagParsed (.ok p) (.ok p')
  | error (e : ParseError) : LagParsed (.error e) (.error e)

theorem AgreeBut.tryFrom {b b' : Bytes} (h : AgreeBut 4 12 b b') : Option.Rel LagParsed (Packet.tryFrom b) (Packet.tryFrom b') := by
  have h1 : checkExtensions b' = checkExtensions b := by
    unfold checkExtensions
    rw [h.1, h.2 1 (by omega)]
    split
    · rfl
    · cases b[1]? with
      | none => rfl
      | some e => simp only [h.checkLoop _ HEADER_SIZE _ (by simp [HEADER_SIZE])]
  have h2 : headerTryFrom b' = headerTryFrom b := by
    unfold headerTryFrom
    rw [h.1, h.byte (by omega)]
  unfold Packet.tryFrom
  rw [h1, h2]
  rcases checkExtensions b with _ | c
  · exact .none
  · simp only
    rcases headerTryFrom b with e | _
    · exact .some (.error e)
    · rcases c with e | _
      · exact .some (.error e)
      · exact .some (.ok h)

theorem AgreeBut.refl {i j : Nat} (b : Bytes) : AgreeBut i j b b := ⟨rfl, fun _ _ => rfl⟩

theorem EchoPkt.toIn {p p' : Packet} (h : EchoPkt p p') : InPkt p p' := ⟨h.1, fun k hk => h.2 k (by omega)⟩
theorem EchoPkt.seqNr {p p' : Packet} (h : EchoPkt p p') : p'.seqNr = p.seqNr := InPkt.seqNr h.toIn
theorem EchoPkt.len {p p' : Packet} (h : EchoPkt p p') : p'.len = p.len := h.1
theorem EchoPkt.timestamp {p p' : Packet} (h : EchoPkt p p') : p'.timestamp = p.timestamp := by
  have e : ∀ k, k < 8 → byteAt p'.bytes k = byteAt p.bytes k := fun k hk => by simp only [byteAt, List.getD, h.2 k (.inl hk)]
  simp only [Packet.timestamp, be32, e 4 (by omega), e (4 + 1) (by omega), e (4 + 2) (by omega), e (4 + 3) (by omega)]

theorem AgreeBut.set {b b' : Bytes} {i j : Nat} (h : AgreeBut i j b b') (k : Nat) (x : U8) : AgreeBut i j (b.set k x) (b'.set k x) := by
  refine ⟨by simp [h.1], fun l hl => ?_⟩
  rw [List.getElem?_set, List.getElem?_set, h.1, h.2 l hl]

theorem AgreeBut.inside {b b' : Bytes} {i j : Nat} (h : AgreeBut i j b b') {k : Nat} (hk : i ≤ k ∧ k < j) (x x' : U8) : AgreeBut i j (b.set k x) (b'.set k x') := by
  refine ⟨by simp [h.1], fun l hl => ?_⟩
  rw [List.getElem?_set_ne (by omega), List.getElem?_set_ne (by omega), h.2 l hl]

theorem EchoPkt.put16 {p p' : Packet} (h : EchoPkt p p') (i : Nat) (v : U16) : AgreeBut 8 12 (Packet.put16 p.bytes i v) (Packet.put16 p'.bytes i v) := AgreeBut.set (AgreeBut.set h _ _) _ _
theorem EchoPkt.setSeqNr {p p' : Packet} (h : EchoPkt p p') (v : U16) : EchoPkt (p.setSeqNr v) (p'.setSeqNr v) := EchoPkt.put16 h _ _
theorem EchoPkt.setAckNr {p p' : Packet} (h : EchoPkt p p') (v : U16) : EchoPkt (p.setAckNr v) (p'.setAckNr v) := EchoPkt.put16 h _ _
theorem EchoPkt.setConnectionId {p p' : Packet} (h : EchoPkt p p') (v : U16) : EchoPkt (p.setConnectionId v) (p'.setConnectionId v) := EchoPkt.put16 h _ _
theorem EchoPkt.setWndSize {p p' : Packet} (h : EchoPkt p p') (v : U32) : EchoPkt (p.setWndSize v) (p'.setWndSize v) := AgreeBut.set (AgreeBut.set (AgreeBut.set (AgreeBut.set h _ _) _ _) _ _) _ _
theorem EchoPkt.setTimestamp {p p' : Packet} (h : EchoPkt p p') (v : U32) : EchoPkt (p.setTimestamp v) (p'.setTimestamp v) := AgreeBut.set (AgreeBut.set (AgreeBut.set (AgreeBut.set h _ _) _ _) _ _) _ _
theorem EchoPkt.setTimestampDifference {p p' : Packet} (h : EchoPkt p p') (v v' : Int) : EchoPkt (p.setTimestampDifference v) (p'.setTimestampDifference v') :=
  AgreeBut.inside (AgreeBut.inside (AgreeBut.inside (AgreeBut.inside h (by omega) _ _) (by omega) _ _) (by omega) _ _) (by omega) _ _

/-- A selective acknowledgement is added in the same way. -/
theorem EchoPkt.setSack {p p' : Packet} (h : EchoPkt p p') (h1 : p.bytes[1]? = some 0) (h20 : p.bytes.length = 20) (bv : Bytes) :
    Option.Rel EchoPkt (p.setSack bv) (p'.setSack bv) := by
  unfold Packet.setSack
  have h1' : p'.bytes[1]? = some 0 := by rw [h.2 1 (.inl (by omega)), h1]
  have h20' : p'.bytes.length = 20 := by rw [h.1, h20]
  have hx : ExtensionType.ofU8 0 = .none := rfl
  split
  · exact .none
  · split
    · exact .none
    · rw [h1, h1']
      simp only [hx, if_true]
      rw [if_pos (by simp [h20, HEADER_SIZE]), if_pos (by simp [h20', HEADER_SIZE])]
      refine .some ?_
      have k := AgreeBut.set h 1 ExtensionType.selectiveAck.toU8
      have e : ∀ l : Bytes, l.length = 20 → l.take HEADER_SIZE = l ∧ l.drop HEADER_SIZE = [] := fun l hl =>
        ⟨List.take_of_length_le (by rw [hl]; exact Nat.le_refl _), List.drop_of_length_le (by rw [hl]; exact Nat.le_refl _)⟩
      obtain ⟨e1, e2⟩ := e (p.bytes.set 1 ExtensionType.selectiveAck.toU8) (by simp [h20])
      obtain ⟨e3, e4⟩ := e (p'.bytes.set 1 ExtensionType.selectiveAck.toU8) (by simp [h20'])
      show AgreeBut 8 12 _ _
      rw [e1, e2, e3, e4]
      simp only [List.append_nil, List.append_assoc]
      refine ⟨by simp [h.1], fun i hi => ?_⟩
      rw [List.getElem?_append (l₁ := p.bytes.set _ _), List.getElem?_append (l₁ := p'.bytes.set _ _), k.1, k.2 i hi]

/-- The reply to such packets. -/
theorem prepareReply_lag {s s' : Socket} (h : LagSocket s s') (t : U32) (pkt pkt' : Packet) (ty : PacketType) :
    EchoPkt (s.prepareReply t pkt ty) (s'.prepareReply t pkt' ty) := by
  obtain ⟨_, _, _⟩ := h
  exact EchoPkt.setAckNr (EchoPkt.setSeqNr (EchoPkt.setConnectionId (EchoPkt.setTimestampDifference (AgreeBut.refl _) _ _) _) _) _

theorem resendRequest_lag {s s' : Socket} (h : LagSocket s s') (t : U32) : EchoPkt (resendRequest s t) (resendRequest s' t) := by
  obtain ⟨_, _, _⟩ := h
  exact EchoPkt.setAckNr (EchoPkt.setSeqNr (EchoPkt.setConnectionId (EchoPkt.setTimestampDifference (AgreeBut.refl _) _ _) _) _) _

/-! ### Computations -/

/-- In worlds that differ in the times of the peer, `m` and `m'` have related results and end in such worlds. -/
def Lag {α : Type} (R : α → α → Prop) (m m' : M α) : Prop :=
  ∀ w w', LagWorld w w' → SameRes R (m w).1 (m' w').1 ∧ LagWorld (m w).2 (m' w').2

namespace Lag

theorem ret {R : α → α → Prop} {a a' : α} (h : R a a') : Lag R (M.ret a) (M.ret a') := fun _ _ hw => ⟨.ok h, hw⟩

theorem pure {R : α → α → Prop} {a a' : α} (h : R a a') : Lag R (Pure.pure a) (Pure.pure a') := ret h

theorem throw {R : α → α → Prop} (e : IoErr) : Lag R (M.throw e) (M.throw e) := fun _ _ hw => ⟨.err e, hw⟩

theorem never {R : α → α → Prop} : Lag R M.never M.never := fun _ _ hw => ⟨.pending, hw⟩

theorem andThen {R : α → α → Prop} {Q : β → β → Prop} {m m' : M α} {f f' : α → M β} (h : Lag R m m')
    (hf : ∀ a a', R a a' → Lag Q (f a) (f' a')) : Lag Q (M.andThen m f) (M.andThen m' f') := by
  intro w w' hw
  obtain ⟨h1, h2⟩ := h w w' hw
  unfold M.andThen
  rcases e : m w with ⟨r, v⟩
  rcases e' : m' w' with ⟨r', v'⟩
  rw [e, e'] at h1 h2
  cases h1 with
  | ok ha => exact hf _ _ ha v v' h2
  | err x => exact ⟨.err x, h2⟩
  | panic => exact ⟨.panic, h2⟩
  | pending => exact ⟨.pending, h2⟩

theorem seq {R : α → α → Prop} {Q : β → β → Prop} {m m' : M α} {f f' : α → M β} (h : Lag R m m')
    (hf : ∀ a a', R a a' → Lag Q (f a) (f' a')) : Lag Q (m >>= f) (m' >>= f') := andThen h hf

theorem seqE {Q : β → β → Prop} {m m' : M α} {f f' : α → M β} (h : Lag Eq m m')
    (hf : ∀ a, Lag Q (f a) (f' a)) : Lag Q (m >>= f) (m' >>= f') := andThen h fun a _ e => e ▸ hf a

theorem get {Q : β → β → Prop} {f f' : Socket → M β} (hf : ∀ s s', LagSocket s s' → Lag Q (f s) (f' s')) :
    Lag Q (getS >>= f) (getS >>= f') := fun w w' hw => hf w.s w'.s hw.s w w' hw

theorem modS {f f' : Socket → Socket} (hf : ∀ s s', LagSocket s s' → LagSocket (f s) (f' s')) : Lag Eq (M.modS f) (M.modS f') :=
  fun _ _ hw => ⟨.ok rfl, hf _ _ hw.s, hw.nNow, hw.nRand, hw.nNet, hw.nSnd, hw.log⟩

theorem orPanic (o : Option α) : Lag Eq (M.orPanic o) (M.orPanic o) := by
  cases o with
  | none => exact fun _ _ hw => ⟨.panic, hw⟩
  | some a => exact ret rfl

theorem orPanicE {o o' : Option α} (h : o = o') : Lag Eq (M.orPanic o) (M.orPanic o') := h ▸ orPanic o

theorem orPanicR {R : α → α → Prop} {o o' : Option α} (h : Option.Rel R o o') : Lag R (M.orPanic o) (M.orPanic o') := by
  cases h with
  | none => exact fun _ _ hw => ⟨.panic, hw⟩
  | some h => exact ret h

theorem orPanicP {P : α → Prop} {o o' : Option α} (e : o = o') (h : ∀ a, o = some a → P a) :
    Lag (fun a a' => a = a' ∧ P a) (M.orPanic o) (M.orPanic o') := by
  subst e
  cases o with
  | none => exact fun _ _ hw => ⟨.panic, hw⟩
  | some a => exact ret ⟨rfl, h a rfl⟩

theorem overflowIf (b : Bool) : Lag Eq (M.overflowIf E b) (M.overflowIf (E.withNet net) b) := by
  show Lag Eq (M.overflowIf E b) (M.overflowIf E b)
  unfold M.overflowIf
  split
  · exact fun _ _ hw => ⟨.panic, hw⟩
  · exact ret rfl

theorem overflowE {b b' : Bool} (h : b = b') : Lag Eq (M.overflowIf E b) (M.overflowIf (E.withNet net) b') := h ▸ overflowIf b

theorem now : Lag Eq (M.now E) (M.now (E.withNet net)) := by
  intro w w' h
  refine ⟨?_, h.s, congrArg (· + 1) h.nNow, h.nRand, h.nNet, h.nSnd, h.log⟩
  show SameRes Eq (.ok (E.now w.nNow)) (.ok (E.now w'.nNow))
  rw [h.nNow]; exact .ok rfl

theorem rand : Lag Eq (M.rand E) (M.rand (E.withNet net)) := by
  intro w w' h
  refine ⟨?_, h.s, h.nNow, congrArg (· + 1) h.nRand, h.nNet, h.nSnd, h.log⟩
  show SameRes Eq (.ok (E.rand w.nRand)) (.ok (E.rand w'.nRand))
  rw [h.nRand]; exact .ok rfl

theorem ignoreErr {R : α → α → Prop} {m m' : M α} (h : Lag R m m') : Lag Eq (M.ignoreErr m) (M.ignoreErr m') := by
  intro w w' hw
  obtain ⟨h1, h2⟩ := h w w' hw
  unfold M.ignoreErr
  rcases e : m w with ⟨r, v⟩
  rcases e' : m' w' with ⟨r', v'⟩
  rw [e, e'] at h1 h2
  cases h1 with
  | ok ha => exact ⟨.ok rfl, h2⟩
  | err e => exact ⟨.ok rfl, h2⟩
  | panic => exact ⟨.panic, h2⟩
  | pending => exact ⟨.pending, h2⟩

theorem udpSend (a : Addr) {b b' : Bytes} (hb : ∀ ok, LagAct (.send a b ok) (.send a b' ok)) :
    Lag Eq (M.udpSend E a b) (M.udpSend (E.withNet net) a b') := by
  intro w w' h
  have key : ∀ ok, LagWorld { w with nSnd := w.nSnd + 1, log := w.log ++ [.send a b ok] } { w' with nSnd := w'.nSnd + 1, log := w'.log ++ [.send a b' ok] } := fun ok =>
    ⟨h.s, h.nNow, h.nRand, h.nNet, congrArg (· + 1) h.nSnd, List.rel_append h.log (.cons (hb ok) .nil)⟩
  unfold M.udpSend
  simp only
  rw [show (E.withNet net).snd w'.nSnd = E.snd w.nSnd by rw [h.nSnd]; rfl]
  rcases E.snd w.nSnd with _ | k | _
  · exact ⟨.ok rfl, key _⟩
  · exact ⟨.err _, key _⟩
  · exact ⟨.pending, key _⟩

theorem sendPkt (a : Addr) {p p' : Packet} (h : EchoPkt p p') : Lag Eq (M.udpSend E a p.bytes) (M.udpSend (E.withNet net) a p'.bytes) :=
  udpSend a fun ok => .send a ok h

/-- The same outcome of a receive, but for the times. -/
def LagGot : Except ErrorKind (Bytes × Addr) → Except ErrorKind (Bytes × Addr) → Prop
  | .ok x, .ok x' => AgreeBut 4 12 x.1 x'.1 ∧ x'.2 = x.2
  | .error k, .error k' => k = k'
  | _, _ => False

theorem udpRecv (hN : ∀ k, LagEvent (E.net k) (net k)) (t : Option U64) (len : Nat) :
    Lag (LagGot) (M.udpRecv E t len) (M.udpRecv (E.withNet net) t len) := by
  intro w w' h
  have key : LagWorld { w with nNet := w.nNet + 1, log := w.log ++ [.wait t] } { w' with nNet := w'.nNet + 1, log := w'.log ++ [.wait t] } :=
    ⟨h.s, h.nNow, h.nRand, congrArg (· + 1) h.nNet, h.nSnd, List.rel_append h.log (.cons (.wait t) .nil)⟩
  unfold M.udpRecv
  simp only
  have e : (E.withNet net).net w'.nNet = net w.nNet := by rw [h.nNet]; rfl
  rw [e]
  have hk := hN w.nNet
  generalize E.net w.nNet = x at hk ⊢
  generalize net w.nNet = x' at hk ⊢
  cases hk with
  | dgram a hb => exact ⟨.ok ⟨hb.take len, rfl⟩, key⟩
  | fail k => exact ⟨.ok rfl, key⟩
  | never => exact ⟨.pending, key⟩

theorem whileM {c c' : M Bool} {b b' : M Unit} (hc : Lag Eq c c') (hb : Lag Eq b b') :
    ∀ n, Lag Eq (M.whileM n c b) (M.whileM n c' b')
  | 0 => never
  | n + 1 => by
    refine andThen hc ?_
    rintro go _ rfl
    cases go with
    | true => exact andThen hb fun _ _ _ => whileM hc hb n
    | false => exact ret rfl

theorem ite {R : α → α → Prop} {c c' : Prop} [Decidable c] [Decidable c'] {m n m' n' : M α} (h : c ↔ c')
    (h1 : c → Lag R m m') (h2 : ¬ c → Lag R n n') : Lag R (if c then m else n) (if c' then m' else n') := by
  by_cases hc : c
  · rw [if_pos hc, if_pos (h.mp hc)]; exact h1 hc
  · rw [if_neg hc, if_neg (fun x => hc (h.mpr x))]; exact h2 hc

end Lag

open Lag

/-! ### Lists of packets -/

section
variable {R : Packet → Packet → Prop} (hR : ∀ p p', R p p' → p'.seqNr = p.seqNr)

theorem lag_get {l l' : List Packet} (h : List.Forall₂ R l l') (i : Nat) : Option.Rel R l[i]? l'[i]? := by
  induction h generalizing i with
  | nil => simp
  | cons h _ ih =>
    cases i with
    | zero => simpa using h
    | succ i => simpa using ih i

theorem lag_last {l l' : List Packet} (h : List.Forall₂ R l l') : Option.Rel R l.getLast? l'.getLast? := by
  rw [List.getLast?_eq_getElem?, List.getLast?_eq_getElem?, h.length_eq]
  exact lag_get h _

theorem lag_insertIdx {l l' : List Packet} (h : List.Forall₂ R l l') {p p' : Packet} (hp : R p p') (i : Nat) : List.Forall₂ R (l.insertIdx i p) (l'.insertIdx i p') := by
  induction h generalizing i with
  | nil =>
    cases i with
    | zero => exact .cons hp .nil
    | succ i => simp
  | cons h ht ih =>
    cases i with
    | zero => exact .cons hp (.cons h ht)
    | succ i => exact .cons h (ih i)

include hR

theorem lag_find {l l' : List Packet} (h : List.Forall₂ R l l') (nr : U16) :
    Option.Rel R (l.find? fun p => p.seqNr == nr) (l'.find? fun p => p.seqNr == nr) := by
  induction h with
  | nil => exact .none
  | @cons p p' _ _ h _ ih =>
    rw [List.find?_cons, List.find?_cons, hR _ _ h]
    cases p.seqNr == nr with
    | true => exact .some h
    | false => exact ih

theorem lag_findIdx {l l' : List Packet} (h : List.Forall₂ R l l') (f : U16 → Bool) :
    (l'.findIdx? fun p => f p.seqNr) = l.findIdx? fun p => f p.seqNr := by
  induction h with
  | nil => rfl
  | cons h _ ih => rw [List.findIdx?_cons, List.findIdx?_cons, hR _ _ h, ih]

theorem lag_filterMap {l l' : List Packet} (h : List.Forall₂ R l l') (f : U16 → Bool) (g : U16 → α) :
    ((l'.filter fun p => f p.seqNr).map fun p => g p.seqNr) = (l.filter fun p => f p.seqNr).map fun p => g p.seqNr := by
  induction h with
  | nil => rfl
  | @cons p p' _ _ h _ ih =>
    rw [List.filter_cons, List.filter_cons, hR _ _ h]
    split
    · rw [List.map_cons, List.map_cons, ih, hR _ _ h]
    · exact ih

theorem lag_insertPkt {l l' : List Packet} (h : List.Forall₂ R l l') {p p' : Packet} (hp : R p p') : List.Forall₂ R (Socket.insertPkt l p) (Socket.insertPkt l' p') := by
  have e1 : Socket.afterLast l p = Socket.afterLast l' p' := by
    unfold Socket.afterLast
    have := lag_last h
    generalize l.getLast? = x at this ⊢
    generalize l'.getLast? = x' at this ⊢
    cases this with
    | none => rfl
    | some h => simp only [hR _ _ h, hR _ _ hp]
  have e2 : (l'.filter fun q => q.seqNr < p'.seqNr).length = (l.filter fun q => q.seqNr < p.seqNr).length := by
    have := congrArg List.length (lag_filterMap hR h (fun s => decide (s < p.seqNr)) (fun _ => ()))
    rw [List.length_map, List.length_map] at this
    rw [hR _ _ hp]
    exact this
  unfold Socket.insertPkt
  simp only
  rw [e1, e2]
  split
  · exact List.rel_append h (.cons hp .nil)
  · have := lag_get h (l.filter fun q => q.seqNr < p.seqNr).length
    generalize l[(l.filter fun q => q.seqNr < p.seqNr).length]? = x at this ⊢
    generalize l'[(l.filter fun q => q.seqNr < p.seqNr).length]? = x' at this ⊢
    cases this with
    | none => exact lag_insertIdx h hp _
    | some hq =>
      simp only [hR _ _ hq, hR _ _ hp]
      split
      · exact lag_insertIdx h hp _
      · exact h

end

theorem lag_in : ∀ p p', InPkt p p' → p'.seqNr = p.seqNr := fun _ _ h => InPkt.seqNr h
theorem lag_out : ∀ p p', EchoPkt p p' → p'.seqNr = p.seqNr := fun _ _ h => EchoPkt.seqNr h

theorem lag_lens {l l' : List Packet} (h : List.Forall₂ EchoPkt l l') : l'.map Packet.len = l.map Packet.len := by
  induction h with
  | nil => rfl
  | cons h _ ih => rw [List.map_cons, List.map_cons, EchoPkt.len h, ih]

theorem lag_subLens {l l' : List Packet} (h : List.Forall₂ EchoPkt l l') : ∀ c, Socket.subLens (E.withNet net) c l' = Socket.subLens E c l := by
  induction h with
  | nil => intro c; rfl
  | cons h _ ih =>
    intro c
    unfold Socket.subLens
    simp only [EchoPkt.len h]
    rw [ih]
    rfl

/-! ### Sockets -/

/-- The socket with other buffers. -/
def Socket.lagging (s : Socket) (i o u : List Packet) (d : Int) : Socket := { s with incoming := i, sendWindow := o, unsent := u, theirDelay := d }

theorem LagSocket.advanceIncoming {s s' : Socket} (h : LagSocket s s') : LagSocket s.advanceIncoming s'.advanceIncoming := by
  obtain ⟨hi, ho, hu⟩ := h
  unfold Socket.advanceIncoming
  cases e : s.incoming with
  | nil =>
    rw [e] at hi
    cases hi
    exact ⟨by rw [e]; exact .nil, ho, hu⟩
  | cons q rest =>
    rw [e] at hi
    cases hi with
    | cons h ht =>
      simp only
      rw [InPkt.seqNr h]
      exact ⟨ht, ho, hu⟩

theorem LagSocket.takePending {s s' : Socket} (h : LagSocket s s') (len : Nat) : (s'.takePending len).1 = (s.takePending len).1 ∧ LagSocket (s.takePending len).2 (s'.takePending len).2 := by
  obtain ⟨hi, ho, hu⟩ := h
  unfold Socket.takePending
  simp only
  split
  · exact ⟨rfl, LagSocket.advanceIncoming (s := { s with pending := [] }) ⟨hi, ho, hu⟩⟩
  · exact ⟨rfl, hi, ho, hu⟩

theorem LagSocket.takeHead {s s' : Socket} (h : LagSocket s s') (x : Bytes) (len : Nat) : LagSocket (s.takeHead x len) (s'.takeHead x len) := by
  unfold Socket.takeHead
  split
  · exact h.advanceIncoming
  · obtain ⟨hi, ho, hu⟩ := h
    exact ⟨hi, ho, hu⟩

theorem LagSocket.buildSack {s s' : Socket} (h : LagSocket s s') : s'.buildSack (E.withNet net) = s.buildSack E := by
  obtain ⟨hi, ho, hu⟩ := h
  unfold Socket.buildSack
  simp only [ne_eq, ← forall₂_nil_iff hi]
  rw [lag_filterMap lag_in hi (fun x => decide (s.ackNr + 1 < x)) (fun x => (x - s.ackNr - 2).toNat)]
  rfl

theorem LagSocket.advanceSendWindow {s s' : Socket} (h : LagSocket s s') :
    Option.Rel (LagSocket) (s.advanceSendWindow E) (s'.advanceSendWindow (E.withNet net)) := by
  obtain ⟨hi, ho, hu⟩ := h
  unfold Socket.advanceSendWindow
  simp only
  rw [lag_findIdx lag_out ho (fun x => x == s.lastAcked)]
  split
  · exact .some ⟨hi, ho, hu⟩
  · rename_i pos _
    rw [lag_subLens (E := E) (net := net) (List.forall₂_take (pos + 1) ho)]
    split
    · exact .none
    · exact .some ⟨hi, List.forall₂_drop _ ho, hu⟩

theorem updateBaseDelay_lagging (s : Socket) (i o u : List Packet) (p : Int) (d : Int) (t : U32) :
    (s.lagging i o u p).updateBaseDelay d t = (s.updateBaseDelay d t).map fun x => x.lagging i o u p := by
  unfold Socket.updateBaseDelay
  simp only [show (s.lagging i o u p).baseDelays = s.baseDelays from rfl, show (s.lagging i o u p).lastRollover = s.lastRollover from rfl]
  by_cases h : s.baseDelays.isEmpty ∨ tsSub t s.lastRollover > MAX_BASE_DELAY_AGE
  · rw [if_pos h, if_pos h]; rfl
  · rw [if_neg h, if_neg h]
    cases s.baseDelays.getLast? with
    | none => rfl
    | some l =>
      simp only
      by_cases h : d < l
      · rw [if_pos h, if_pos h]; rfl
      · rw [if_neg h, if_neg h]; rfl

theorem updateCongestionWindow_lagging (s : Socket) (i o u : List Packet) (p : Int) (n : U32) :
    (s.lagging i o u p).updateCongestionWindow (E.withNet net) n = (s.updateCongestionWindow E n).map fun x => x.lagging i o u p := by
  unfold Socket.updateCongestionWindow
  by_cases h : E.checks ∧ s.currWindow.toNat + 1400 ≥ 2 ^ 32
  · rw [if_pos h, if_pos (show (E.withNet net).checks ∧ (s.lagging i o u p).currWindow.toNat + 1400 ≥ 2 ^ 32 from h)]; rfl
  · rw [if_neg h, if_neg (show ¬ ((E.withNet net).checks ∧ (s.lagging i o u p).currWindow.toNat + 1400 ≥ 2 ^ 32) from h)]; rfl

theorem LagSocket.onNewAck {s s' : Socket} (h : LagSocket s s') (idx : Nat) {p p' : Packet} (hpp : EchoPkt p p') (t : U32) :
    Option.Rel (LagSocket) (s.onNewAck E idx p t) (s'.onNewAck (E.withNet net) idx p' t) := by
  obtain ⟨hi, ho, hu⟩ := h
  rename_i i o u q
  have key : (s.lagging i o u q).onNewAck (E.withNet net) idx p' t = (s.onNewAck E idx p t).map fun x => x.lagging i o u q := by
    unfold Socket.onNewAck
    simp only
    rw [updateBaseDelay_lagging, EchoPkt.timestamp hpp]
    have e2 : (((s.lagging i o u q).sendWindow.take (idx + 1)).map Packet.len).sum = ((s.sendWindow.take (idx + 1)).map Packet.len).sum := by
      exact congrArg List.sum (lag_lens (List.forall₂_take (idx + 1) ho))
    rw [e2]
    rcases s.updateBaseDelay (tsSub t p.timestamp) t with _ | s1
    · rfl
    · simp only [Option.map_some]
      have e3 : (s1.lagging i o u q).updateCurrentDelay (tsSub t p.timestamp) t = (s1.updateCurrentDelay (tsSub t p.timestamp) t).lagging i o u q := rfl
      rw [e3, updateCongestionWindow_lagging]
      rcases (s1.updateCurrentDelay (tsSub t p.timestamp) t).updateCongestionWindow E _ with _ | s2
      · rfl
      · rfl
  change Option.Rel _ _ ((s.lagging i o u q).onNewAck (E.withNet net) idx p' t)
  rw [key]
  cases e : s.onNewAck E idx p t with
  | none => exact .none
  | some s1 =>
    obtain ⟨_, _, _, _, _, _, _, rfl⟩ := onNewAck_shape e
    exact .some ⟨hi, ho, hu⟩

theorem LagSocket.state {s s' : Socket} (h : LagSocket s s') : s'.state = s.state := by cases h; rfl
theorem LagSocket.connectedTo {s s' : Socket} (h : LagSocket s s') : s'.connectedTo = s.connectedTo := by cases h; rfl

/-! ### The operations -/

theorem lag_flushIncoming (len : Nat) : Lag Eq (flushIncoming E len) (flushIncoming (E.withNet net) len) := by
  unfold flushIncoming
  refine get fun s s' hs => ?_
  have htp := hs.takePending len
  obtain ⟨hi, ho, hu⟩ := hs
  refine ite Iff.rfl (fun _ => ?_) fun _ => ?_
  · exact seqE (modS fun s s' hs => (hs.takePending len).2) fun _ => pure htp.1.symm
  · simp only
    generalize s.incoming = l at hi
    cases hi with
    | nil => exact pure rfl
    | cons hq _ =>
      simp only [InPkt.seqNr hq, InPkt.payload hq]
      exact seqE (overflowIf _) fun _ => ite Iff.rfl (fun _ => seqE (orPanic _) fun x => seqE (modS fun s s' hs => hs.takeHead x len) fun _ => pure rfl) fun _ => pure rfl

theorem lag_timeout : Lag Eq (handleReceiveTimeout E) (handleReceiveTimeout (E.withNet net)) := by
  have hf : Lag Eq (fastResendOne E) (fastResendOne (E.withNet net)) := by
    refine get fun s s' hs => seqE now fun t => ignoreErr (R := Eq) ?_
    have := resendRequest_lag hs t
    cases hs
    exact sendPkt _ this
  unfold handleReceiveTimeout
  refine get fun s s' hs => ?_
  obtain ⟨hi, ho, hu⟩ := hs
  refine seqE (overflowIf _) fun _ => seqE (modS ?_) fun _ => ?_
  · rintro s _ ⟨hi, ho, hu⟩
    exact ⟨hi, ho, hu⟩
  simp only
  cases e : s.sendWindow with
  | nil =>
    rw [e] at ho
    cases ho
    refine ite Iff.rfl (fun _ => ?_) fun _ => ite Iff.rfl (fun _ => ?_) fun _ => pure rfl
    · exact seqE now fun t => sendPkt _ (AgreeBut.refl _)
    · exact seqE hf fun _ => seqE hf fun _ => hf
  | cons q rest =>
    rw [e] at ho
    cases ho with
    | cons hq hr =>
      refine seqE now fun t => seqE (modS ?_) fun _ => sendPkt _ (EchoPkt.setTimestamp hq t)
      rintro s _ ⟨hi, ho, hu⟩
      exact ⟨hi, .cons (EchoPkt.setTimestamp hq t) hr, hu⟩

theorem lag_recvWait (hN : ∀ k, LagEvent (E.net k) (net k)) : ∀ fuel retries,
    Lag (fun x x' => AgreeBut 4 12 x.1 x'.1 ∧ x'.2 = x.2) (recvWait E fuel retries) (recvWait (E.withNet net) fuel retries)
  | 0, _ => never
  | fuel + 1, retries => by
    unfold recvWait
    refine get fun s s' hs => ?_
    obtain ⟨hi, ho, hu⟩ := hs
    refine ite Iff.rfl (fun _ => ?_) fun _ => ?_
    · refine seqE (modS ?_) fun _ => throw _
      rintro s _ ⟨hi, ho, hu⟩
      exact ⟨hi, ho, hu⟩
    · refine seq (udpRecv hN _ _) fun r r' hr => ?_
      rcases r with k | x <;> rcases r' with k' | x'
      · cases hr
        dsimp only
        split
        · exact seqE lag_timeout fun _ => lag_recvWait hN fuel _
        · exact throw _
      · exact hr.elim
      · exact hr.elim
      · exact pure hr

section
variable {rec rec' : M (Bytes × Addr)} (hr : Lag Eq rec rec')
include hr

theorem lag_sendPacket (fuel : Nat) {p p' : Packet} (hp : EchoPkt p p') :
    Lag EchoPkt (sendPacket E fuel rec p) (sendPacket (E.withNet net) fuel rec' p') := by
  unfold sendPacket
  refine get fun s s' hs => ?_
  obtain ⟨_, _, _⟩ := hs
  refine seqE now fun t => seqE (whileM ?_ (andThen hr fun _ _ _ => ret rfl) _) fun _ => get fun s s' hs => ?_
  · refine get fun s1 s1' hs1 => ?_
    obtain ⟨_, _, _⟩ := hs1
    exact ite Iff.rfl (fun _ => seqE now fun t => pure rfl) fun _ => pure rfl
  · have hd := hs
    obtain @⟨i, o, u, d, _, _, _⟩ := hs
    rw [EchoPkt.seqNr hp]
    refine ite Iff.rfl (fun _ => pure hp) fun _ => seqE now fun t => ?_
    have h' := EchoPkt.setTimestampDifference (EchoPkt.setTimestamp hp t) s.theirDelay d
    exact seqE (sendPkt _ h') fun _ => pure h'

theorem lag_resendLost (fuel : Nat) (nr : U16) : Lag Eq (resendLost E fuel rec nr) (resendLost (E.withNet net) fuel rec' nr) := by
  unfold resendLost
  refine get fun s s' hs => ?_
  obtain ⟨_, ho, _⟩ := hs
  have := lag_find lag_out ho nr
  simp only
  generalize (s.sendWindow.find? fun p => p.seqNr == nr) = x at this ⊢
  rename_i i o u d _ _
  generalize (o.find? fun p => p.seqNr == nr) = x' at this ⊢
  cases this with
  | none => exact pure rfl
  | some h => exact ignoreErr (lag_sendPacket hr _ h)

theorem lag_resendMissing (fuel : Nat) (ack last : U16) :
    ∀ bits loss, Lag Eq (resendMissing E fuel rec ack last bits loss) (resendMissing (E.withNet net) fuel rec' ack last bits loss) := by
  intro bits
  induction bits with
  | nil => intro loss; exact pure rfl
  | cons x rest ih =>
    intro loss
    obtain ⟨idx, received⟩ := x
    unfold resendMissing
    split
    · exact ih _
    · refine seqE (overflowIf _) fun _ => ?_
      dsimp only
      split
      · exact seqE (lag_resendLost hr _ _) fun _ => ih _
      · exact pure rfl

theorem lag_processExtensions (fuel : Nat) (ack : U16) :
    ∀ exts loss, Lag Eq (processExtensions E fuel rec ack exts loss) (processExtensions (E.withNet net) fuel rec' ack exts loss) := by
  intro exts
  induction exts with
  | nil => intro loss; exact pure rfl
  | cons e rest ih =>
    intro loss
    unfold processExtensions
    split
    · refine seqE ?_ fun loss1 => get fun s s' hs => ?_
      · unfold resendFirst
        split
        · exact seqE (overflowIf _) fun _ => seqE (lag_resendLost hr _ _) fun _ => pure rfl
        · exact pure rfl
      · obtain ⟨_, ho, _⟩ := hs
        have := lag_last ho
        simp only
        rename_i i o u d _ _
        generalize s.sendWindow.getLast? = x at this ⊢
        generalize o.getLast? = x' at this ⊢
        cases this with
        | none => exact ih _
        | some h =>
          simp only
          rw [EchoPkt.seqNr h]
          exact seqE (orPanic _) fun bits => seqE (lag_resendMissing hr _ _ _ _ _) fun _ => ih _
    · exact ih _

theorem lag_handleState (fuel : Nat) {pkt pkt' : Packet} (hp : InPkt pkt pkt') :
    Lag Eq (handleState E fuel rec pkt) (handleState (E.withNet net) fuel rec' pkt') := by
  unfold handleState
  rw [InPkt.ackNr hp, InPkt.extensions hp]
  refine seqE ?_ fun _ => seqE ?_ fun _ => get fun s s' hs => seqE (orPanic _) fun exts => ?_
  · unfold countAck
    rw [InPkt.ackNr hp]
    refine get fun s s' hs => ?_
    obtain ⟨_, _, _⟩ := hs
    refine ite Iff.rfl (fun _ => seqE (overflowIf _) fun _ => modS ?_) fun _ => seqE now fun t => modS ?_
    · rintro s _ ⟨hi, ho, hu⟩; exact ⟨hi, ho, hu⟩
    · rintro s _ ⟨hi, ho, hu⟩; exact ⟨hi, ho, hu⟩
  · unfold measureAck
    rw [InPkt.ackNr hp]
    refine get fun s s' hs => ?_
    have hs0 := hs
    obtain ⟨_, ho, _⟩ := hs
    simp only
    rw [lag_findIdx lag_out ho (fun x => pkt.ackNr == x)]
    split
    · exact pure rfl
    · refine seqE now fun t => seq (orPanicR (lag_get ho _)) fun q q' hq => seq (orPanicR (hs0.onNewAck _ hq t)) fun a a' ha => modS fun _ _ _ => ha
  · have e : decide (s'.sendWindow ≠ [] ∧ s'.dupAcks = 3) = decide (s.sendWindow ≠ [] ∧ s.dupAcks = 3) := by
      obtain ⟨_, ho, _⟩ := hs
      simp only [ne_eq, forall₂_nil_iff ho]
    rw [e]
    refine seqE (lag_processExtensions hr _ _ _ _) fun loss => seqE ?_ fun _ => seqE (modS ?_) fun _ => get fun s s' hs => ?_
    · unfold fastRetransmit
      rw [InPkt.ackNr hp]
      refine get fun s s' hs => ?_
      obtain ⟨_, ho, _⟩ := hs
      refine ite ?_ (fun _ => seqE (overflowIf _) fun _ => lag_resendLost hr _ _) fun _ => pure rfl
      simp only [ne_eq, forall₂_nil_iff ho]
    · rintro s _ ⟨hi, ho, hu⟩
      split
      · exact ⟨hi, ho, hu⟩
      · exact ⟨hi, ho, hu⟩
    · exact seq (orPanicR hs.advanceSendWindow) fun a a' ha => modS fun _ _ _ => ha

omit hr in
theorem lag_withSack {s s' : Socket} (hs : LagSocket s s') {pkt pkt' : Packet} (hp : InPkt pkt pkt') (t : U32) (ty : PacketType) :
    Lag EchoPkt (withSack E s pkt (s.prepareReply t pkt ty)) (withSack (E.withNet net) s' pkt' (s'.prepareReply t pkt' ty)) := by
  have hq := prepareReply_lag hs t pkt pkt' ty
  obtain ⟨h1, h2⟩ := prepareReply_bytes s t pkt ty
  generalize s.prepareReply t pkt ty = r at hq h1 h2
  generalize s'.prepareReply t pkt' ty = r' at hq
  unfold withSack
  rw [InPkt.seqNr hp, show s'.ackNr = s.ackNr by cases hs; rfl]
  refine ite Iff.rfl (fun _ => ?_) fun _ => pure hq
  exact seqE (orPanicE hs.buildSack.symm) fun sack => ite Iff.rfl (fun _ => orPanicR (EchoPkt.setSack hq h2 h1 sack)) fun _ => pure hq

omit hr in
theorem lag_handleData {pkt pkt' : Packet} (hp : InPkt pkt pkt') : Lag EchoPkt (handleData E pkt) (handleData (E.withNet net) pkt') := by
  refine get fun s s' hs => seqE now fun t => ?_
  rw [hs.state]
  exact lag_withSack hs hp t _

omit hr in
theorem lag_replyWith (pkt pkt' : Packet) (ty : PacketType) : Lag (Option.Rel EchoPkt) (replyWith E pkt ty) (replyWith (E.withNet net) pkt' ty) :=
  get fun _ _ hs => seqE now fun t => pure (.some (prepareReply_lag hs t pkt pkt' ty))

omit hr in
theorem lag_onFin {pkt pkt' : Packet} (hp : InPkt pkt pkt') : Lag (Option.Rel EchoPkt) (onFin E pkt) (onFin (E.withNet net) pkt') := by
  refine get fun s s' hs => seqE now fun t => seq (lag_withSack hs hp t _) fun r r' hq => seqE (modS ?_) fun _ => pure (.some hq)
  rintro s _ ⟨hi, ho, hu⟩
  exact ⟨hi, ho, hu⟩

omit hr in
theorem lag_onReset : Lag (Option.Rel EchoPkt) onReset onReset := by
  refine seqE (modS ?_) fun _ => throw _
  rintro s _ ⟨hi, ho, hu⟩
  exact ⟨hi, ho, hu⟩

omit hr in
theorem lag_onFinAck {pkt pkt' : Packet} (hp : InPkt pkt pkt') : Lag (Option.Rel EchoPkt) (onFinAck pkt) (onFinAck pkt') := by
  unfold onFinAck
  rw [InPkt.ackNr hp]
  refine seqE (modS ?_) fun _ => pure .none
  rintro s _ ⟨hi, ho, hu⟩
  by_cases h : pkt.ackNr = s.seqNr
  · simp only [if_pos h]; exact ⟨hi, ho, hu⟩
  · simp only [if_neg h]; exact ⟨hi, ho, hu⟩

omit hr in
theorem lag_onSyn {pkt pkt' : Packet} (hp : InPkt pkt pkt') (src : Addr) : Lag (Option.Rel EchoPkt) (onSyn E pkt src) (onSyn (E.withNet net) pkt' src) := by
  unfold onSyn
  rw [InPkt.connectionId hp, InPkt.seqNr hp]
  refine seqE rand fun r => seqE (overflowIf _) fun _ => seqE (modS ?_) fun _ => get fun s s' hs => seqE now fun t => pure ?_
  · rintro s _ ⟨hi, ho, hu⟩
    exact ⟨hi, ho, hu⟩
  · exact .some (prepareReply_lag hs t _ _ _)

omit hr in
theorem lag_onSynAck {pkt pkt' : Packet} (hp : InPkt pkt pkt') (src : Addr) : Lag (Option.Rel EchoPkt) (onSynAck E pkt src) (onSynAck (E.withNet net) pkt' src) := by
  unfold onSynAck
  rw [InPkt.ackNr hp, InPkt.seqNr hp]
  refine get fun s s' hs => ?_
  obtain ⟨_, _, _⟩ := hs
  refine seqE (overflowIf _) fun _ => seqE now fun t => seqE (modS ?_) fun _ => pure .none
  rintro s _ ⟨hi, ho, hu⟩
  exact ⟨hi, ho, hu⟩

theorem lag_dispatch (fuel : Nat) {pkt pkt' : Packet} (hp : InPkt pkt pkt') (src : Addr) (st : SocketState) (ty : PacketType) :
    Lag (Option.Rel EchoPkt) (dispatch E fuel rec pkt src st ty) (dispatch (E.withNet net) fuel rec' pkt' src st ty) := by
  unfold dispatch
  split
  · exact lag_onSyn hp src
  · exact lag_replyWith _ _ _
  · exact lag_onSynAck hp src
  · exact throw _
  · exact seq (lag_handleData hp) fun _ _ h => pure (.some h)
  · exact seq (lag_handleData hp) fun _ _ h => pure (.some h)
  · exact seqE (lag_handleState hr _ hp) fun _ => pure .none
  · exact lag_onFin hp
  · exact lag_onFin hp
  · exact lag_replyWith _ _ _
  · exact lag_onFinAck hp
  · exact lag_onReset
  · exact throw _

theorem lag_handlePacket (fuel : Nat) {pkt pkt' : Packet} (hp : InPkt pkt pkt') (src : Addr) :
    Lag (Option.Rel EchoPkt) (handlePacket E fuel rec pkt src) (handlePacket (E.withNet net) fuel rec' pkt' src) := by
  unfold handlePacket
  refine seqE (modS ?_) fun _ => get fun s s' hs => ?_
  · rintro s _ ⟨hi, ho, hu⟩
    unfold Socket.bumpAck
    rw [InPkt.seqNr hp]
    by_cases h : pkt.seqNr - s.ackNr = 1
    · simp only [if_pos h]; exact ⟨hi, ho, hu⟩
    · simp only [if_neg h]; exact ⟨hi, ho, hu⟩
  · rw [InPkt.getType hp, InPkt.connectionId hp, InPkt.wndSize hp]
    obtain ⟨_, _, _⟩ := hs
    refine seqE (orPanic _) fun ty => ite Iff.rfl (fun _ => lag_replyWith _ _ _) fun _ => seqE now fun t => seqE (modS ?_) fun _ => lag_dispatch hr _ hp _ _ _
    rintro s _ ⟨hi, ho, hu⟩
    exact ⟨hi, ho, hu⟩

end

section
variable (hN : ∀ k, LagEvent (E.net k) (net k))
include hN

theorem lag_recv : ∀ fuel len, Lag Eq (recv E fuel len) (recv (E.withNet net) fuel len)
  | 0, _ => never
  | fuel + 1, len => by
    unfold recv recvBody
    refine seq (lag_recvWait hN _ _) fun x x' hx => ?_
    obtain ⟨b, src⟩ := x
    obtain ⟨b', src'⟩ := x'
    obtain ⟨hb, e⟩ := hx
    simp only at e
    subst e
    simp only
    refine seq (orPanicR (AgreeBut.tryFrom hb)) fun r r' hr => ?_
    cases hr with
    | error e => exact get fun s s' hs => pure (by rw [hs.connectedTo])
    | @ok p p' hp =>
      show Lag Eq (recvPacket E fuel (recv E fuel BUF_SIZE) len p src') (recvPacket (E.withNet net) fuel (recv (E.withNet net) fuel BUF_SIZE) len p' src')
      unfold recvPacket
      refine seq (lag_handlePacket (lag_recv fuel _) _ hp _) fun r r' hr => ?_
      rw [InPkt.getType hp, InPkt.seqNr hp]
      refine seqE ?_ fun _ => seqE (orPanic _) fun ty => seqE (modS ?_) fun _ => seqE (lag_flushIncoming _) fun out => pure rfl
      · cases hr with
        | none => exact pure rfl
        | some h => exact sendPkt _ (EchoPkt.setWndSize h _)
      · rintro s _ ⟨hi, ho, hu⟩
        by_cases h : ty = .data ∧ 0 < (p.seqNr - s.lastDropped).toNat
        · simp only [if_pos h]; exact ⟨lag_insertPkt lag_in hi hp, ho, hu⟩
        · simp only [if_neg h]; exact ⟨hi, ho, hu⟩

theorem lag_recvFromLoop (fuel len : Nat) : ∀ n, Lag Eq (recvFromLoop E fuel len n) (recvFromLoop (E.withNet net) fuel len n)
  | 0 => never
  | n + 1 => by
    unfold recvFromLoop
    refine get fun s s' hs => ?_
    rw [hs.state, hs.connectedTo]
    exact ite Iff.rfl (fun _ => pure rfl) fun _ => seqE (lag_recv hN _ _) fun x => ite Iff.rfl (fun _ => lag_recvFromLoop fuel len n) fun _ => pure rfl

theorem lag_sendQueue (fuel : Nat) : ∀ n, Lag Eq (sendQueue E fuel n) (sendQueue (E.withNet net) fuel n)
  | 0 => never
  | n + 1 => by
    unfold sendQueue
    refine get fun s s' hs => ?_
    obtain ⟨_, _, hu⟩ := hs
    simp only
    cases e : s.unsent with
    | nil =>
      rw [e] at hu
      cases hu
      exact pure rfl
    | cons q rest =>
      rw [e] at hu
      cases hu with
      | cons hq hrest =>
        refine seqE (modS ?_) fun _ => seq (lag_sendPacket (lag_recv hN _ _) _ hq) fun p p' hp => get fun s s' hs => ?_
        · rintro s _ ⟨hi, ho, hu⟩
          exact ⟨hi, ho, hrest⟩
        · obtain ⟨_, _, _⟩ := hs
          rw [EchoPkt.len hp]
          refine seqE (overflowIf _) fun _ => seqE (modS ?_) fun _ => lag_sendQueue fuel n
          rintro s _ ⟨hi, ho, hu⟩
          exact ⟨hi, List.rel_append ho (.cons hp .nil), hu⟩

theorem lag_scratchRecv (fuel : Nat) : Lag Eq (scratchRecv E fuel) (scratchRecv (E.withNet net) fuel) :=
  seq (lag_recv hN _ _) fun _ _ _ => pure rfl

theorem lag_flush (fuel : Nat) : Lag Eq (flush E fuel) (flush (E.withNet net) fuel) := by
  refine whileM (get fun s s' hs => pure ?_) (lag_scratchRecv hN fuel) _
  obtain ⟨_, ho, _⟩ := hs
  simp only [ne_eq, forall₂_nil_iff ho]

theorem lag_close (fuel : Nat) : Lag Eq (close E fuel) (close (E.withNet net) fuel) := by
  unfold close
  refine get fun s s' hs => ?_
  rw [hs.state]
  refine ite Iff.rfl (fun _ => pure rfl) fun _ => seqE (lag_flush hN _) fun _ => get fun s s' hs => seqE now fun t => ?_
  refine seqE ?_ fun _ => seqE (modS ?_) fun _ => whileM (get fun s s' hs => pure ?_) (lag_scratchRecv hN fuel) _
  · cases hs
    exact sendPkt _ (AgreeBut.refl _)
  · rintro s _ ⟨hi, ho, hu⟩
    exact ⟨hi, ho, hu⟩
  · rw [hs.state]

omit hN in
theorem lag_enqueues (l : List Bytes) : ∀ {s s' : Socket}, LagSocket s s' → LagSocket (l.foldl enqueue s) (l.foldl enqueue s') := by
  induction l with
  | nil => exact fun h => h
  | cons c l ih =>
    intro s s' hs
    refine ih ?_
    obtain ⟨hi, ho, hu⟩ := hs
    exact ⟨hi, ho, List.rel_append hu (.cons (AgreeBut.refl _) .nil)⟩

theorem lag_runOp (fuel : Nat) (op : Op) : Lag Eq (runOp E fuel op) (runOp (E.withNet net) fuel op) := by
  cases op with
  | recvFrom len =>
    refine seqE ?_ fun x => pure rfl
    unfold recvFrom
    refine seqE (lag_flushIncoming _) fun out => get fun s s' hs => ?_
    rw [hs.state, hs.connectedTo]
    exact ite Iff.rfl (fun _ => pure rfl) fun _ => ite Iff.rfl (fun _ => throw _) fun _ => lag_recvFromLoop hN _ _ _
  | sendTo b =>
    refine seqE ?_ fun _ => pure rfl
    unfold sendTo
    refine get fun s s' hs => ?_
    rw [hs.state]
    exact ite Iff.rfl (fun _ => throw _) fun _ => seqE (modS fun s s' hs => lag_enqueues _ hs) fun _ => seqE (lag_sendQueue hN _ _) fun _ => pure rfl
  | flush => exact seqE (lag_flush hN _) fun _ => pure rfl
  | close => exact seqE (lag_close hN _) fun _ => pure rfl
  | setMaxRetries n =>
    refine seqE (modS ?_) fun _ => pure rfl
    rintro s _ ⟨hi, ho, hu⟩
    exact ⟨hi, ho, hu⟩

theorem lag_synLoop : ∀ (n : Nat) (t : U64), Lag (AgreeBut 4 12) (synLoop E n t) (synLoop (E.withNet net) n t)
  | 0, _ => pure (AgreeBut.refl _)
  | n + 1, t => by
    unfold synLoop
    refine get fun s s' hs => seqE now fun tm => seqE ?_ fun _ => seqE (modS ?_) fun _ => seq (udpRecv hN _ _) fun r r' hr => ?_
    · cases hs
      exact sendPkt _ (AgreeBut.refl _)
    · rintro s _ ⟨hi, ho, hu⟩
      exact ⟨hi, ho, hu⟩
    · rcases r with k | ⟨b, a⟩ <;> rcases r' with k' | ⟨b', a'⟩
      · cases hr
        dsimp only
        split
        · exact lag_synLoop n _
        · exact throw _
      · exact hr.elim
      · exact hr.elim
      · obtain ⟨hb, e⟩ := hr
        simp only at e
        subst e
        refine seqE (modS ?_) fun _ => pure hb
        rintro s _ ⟨hi, ho, hu⟩
        exact ⟨hi, ho, hu⟩

theorem lag_connectM (fuel : Nat) (addr : Addr) : Lag Eq (connectM E fuel addr) (connectM (E.withNet net) fuel addr) := by
  unfold connectM
  refine seqE (modS ?_) fun _ => get fun s s' hs => ?_
  · rintro s _ ⟨hi, ho, hu⟩
    exact ⟨hi, ho, hu⟩
  · rw [show s'.congTimeout = s.congTimeout by cases hs; rfl]
    refine seq (lag_synLoop hN _ _) fun b b' hb => get fun s s' hs => ?_
    rw [hs.connectedTo]
    refine seq (orPanicR (AgreeBut.tryFrom hb)) fun r r' hr => ?_
    cases hr with
    | error e => exact throw _
    | @ok p p' hp =>
      show Lag Eq (handlePacket E fuel (recv E fuel BUF_SIZE) p s.connectedTo >>= fun _ => Pure.pure ())
        (handlePacket (E.withNet net) fuel (recv (E.withNet net) fuel BUF_SIZE) p' s.connectedTo >>= fun _ => Pure.pure ())
      exact seq (lag_handlePacket (lag_recv hN _ _) _ hp _) fun _ _ _ => Lag.pure rfl

theorem lag_acceptM (fuel : Nat) {pkt pkt' : Packet} (hp : InPkt pkt pkt') (src : Addr) :
    Lag Eq (acceptM E fuel pkt src) (acceptM (E.withNet net) fuel pkt' src) := by
  intro w w' hw
  obtain ⟨h1, h2⟩ := lag_handlePacket (E := E) (net := net) (lag_recv hN fuel BUF_SIZE) fuel hp src w w' hw
  unfold acceptM
  rcases e : handlePacket E fuel (recv E fuel BUF_SIZE) pkt src w with ⟨r, v⟩
  rcases e' : handlePacket (E.withNet net) fuel (recv (E.withNet net) fuel BUF_SIZE) pkt' src w' with ⟨r', v'⟩
  rw [e, e'] at h1 h2
  cases h1 with
  | ok ha =>
    cases ha with
    | none => exact ⟨.err _, h2⟩
    | some h => exact sendPkt _ h _ _ h2
  | err x => exact ⟨.err _, h2⟩
  | panic => exact ⟨.panic, h2⟩
  | pending => exact ⟨.pending, h2⟩

end

end Utp
