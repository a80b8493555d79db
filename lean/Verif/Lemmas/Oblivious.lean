import Verif.Lemmas.Alike
/-!
# Two runs that differ only in the data carried
-/

namespace Utp
open M

variable {ρ σ τ : U8 → U8 → Prop} {E : Env} {net : Nat → NetEvent} {α β : Type}

/-- In alike worlds, `m` and `m'` have related results and end in alike worlds. -/
def Peers (ρ σ : U8 → U8 → Prop) {α : Type} (R : α → α → Prop) (m m' : M α) : Prop :=
  ∀ w w', AlikeWorld ρ σ w w' → SameRes R (m w).1 (m' w').1 ∧ AlikeWorld ρ σ (m w).2 (m' w').2

/-- Related bytes from the same address. -/
def AlikeFrom (ρ : U8 → U8 → Prop) (x x' : Bytes × Addr) : Prop := List.Forall₂ ρ x.1 x'.1 ∧ x'.2 = x.2

namespace Peers

theorem ret {R : α → α → Prop} {a a' : α} (h : R a a') : Peers ρ σ R (M.ret a) (M.ret a') := fun _ _ hw => ⟨.ok h, hw⟩

theorem pure {R : α → α → Prop} {a a' : α} (h : R a a') : Peers ρ σ R (Pure.pure a) (Pure.pure a') := ret h

theorem throw {R : α → α → Prop} (e : IoErr) : Peers ρ σ R (M.throw e) (M.throw e) := fun _ _ hw => ⟨.err e, hw⟩

theorem never {R : α → α → Prop} : Peers ρ σ R M.never M.never := fun _ _ hw => ⟨.pending, hw⟩

theorem andThen {R : α → α → Prop} {Q : β → β → Prop} {m m' : M α} {f f' : α → M β} (h : Peers ρ σ R m m')
    (hf : ∀ a a', R a a' → Peers ρ σ Q (f a) (f' a')) : Peers ρ σ Q (M.andThen m f) (M.andThen m' f') := by
  intro w w' hw
  obtain ⟨h1, h2⟩ := h w w' hw
  unfold M.andThen
  rcases e : m w with ⟨r, v⟩
  rcases e' : m' w' with ⟨r', v'⟩
  rw [e, e'] at h1 h2
  cases h1 with
  | ok ha => exact hf _ _ ha v v' h2
  | err x => exact ⟨.err x, h2⟩
  | panic => exact ⟨.panic, h2⟩
  | pending => exact ⟨.pending, h2⟩

theorem seq {R : α → α → Prop} {Q : β → β → Prop} {m m' : M α} {f f' : α → M β} (h : Peers ρ σ R m m')
    (hf : ∀ a a', R a a' → Peers ρ σ Q (f a) (f' a')) : Peers ρ σ Q (m >>= f) (m' >>= f') := andThen h hf

theorem seqE {Q : β → β → Prop} {m m' : M α} {f f' : α → M β} (h : Peers ρ σ Eq m m')
    (hf : ∀ a, Peers ρ σ Q (f a) (f' a)) : Peers ρ σ Q (m >>= f) (m' >>= f') := andThen h fun a _ e => e ▸ hf a

theorem get {Q : β → β → Prop} {f f' : Socket → M β} (hf : ∀ s s', AlikeSocket ρ σ s s' → Peers ρ σ Q (f s) (f' s')) :
    Peers ρ σ Q (getS >>= f) (getS >>= f') := fun w w' hw => hf w.s w'.s hw.s w w' hw

theorem modS {f f' : Socket → Socket} (hf : ∀ s s', AlikeSocket ρ σ s s' → AlikeSocket ρ σ (f s) (f' s')) : Peers ρ σ Eq (M.modS f) (M.modS f') :=
  fun _ _ hw => ⟨.ok rfl, hf _ _ hw.s, hw.nNow, hw.nRand, hw.nNet, hw.nSnd, hw.log⟩

theorem orPanic (o : Option α) : Peers ρ σ Eq (M.orPanic o) (M.orPanic o) := by
  cases o with
  | none => exact fun _ _ hw => ⟨.panic, hw⟩
  | some a => exact ret rfl

theorem orPanicE {o o' : Option α} (h : o = o') : Peers ρ σ Eq (M.orPanic o) (M.orPanic o') := h ▸ orPanic o

theorem orPanicR {R : α → α → Prop} {o o' : Option α} (h : Option.Rel R o o') : Peers ρ σ R (M.orPanic o) (M.orPanic o') := by
  cases h with
  | none => exact fun _ _ hw => ⟨.panic, hw⟩
  | some h => exact ret h

theorem orPanicP {P : α → Prop} {o o' : Option α} (e : o = o') (h : ∀ a, o = some a → P a) :
    Peers ρ σ (fun a a' => a = a' ∧ P a) (M.orPanic o) (M.orPanic o') := by
  subst e
  cases o with
  | none => exact fun _ _ hw => ⟨.panic, hw⟩
  | some a => exact ret ⟨rfl, h a rfl⟩

theorem overflowIf (b : Bool) : Peers ρ σ Eq (M.overflowIf E b) (M.overflowIf (E.withNet net) b) := by
  show Peers ρ σ Eq (M.overflowIf E b) (M.overflowIf E b)
  unfold M.overflowIf
  split
  · exact fun _ _ hw => ⟨.panic, hw⟩
  · exact ret rfl

theorem overflowE {b b' : Bool} (h : b = b') : Peers ρ σ Eq (M.overflowIf E b) (M.overflowIf (E.withNet net) b') := h ▸ overflowIf b

theorem now : Peers ρ σ Eq (M.now E) (M.now (E.withNet net)) := by
  intro w w' h
  refine ⟨?_, h.s, congrArg (· + 1) h.nNow, h.nRand, h.nNet, h.nSnd, h.log⟩
  show SameRes Eq (.ok (E.now w.nNow)) (.ok (E.now w'.nNow))
  rw [h.nNow]; exact .ok rfl

theorem rand : Peers ρ σ Eq (M.rand E) (M.rand (E.withNet net)) := by
  intro w w' h
  refine ⟨?_, h.s, h.nNow, congrArg (· + 1) h.nRand, h.nNet, h.nSnd, h.log⟩
  show SameRes Eq (.ok (E.rand w.nRand)) (.ok (E.rand w'.nRand))
  rw [h.nRand]; exact .ok rfl

theorem ignoreErr {R : α → α → Prop} {m m' : M α} (h : Peers ρ σ R m m') : Peers ρ σ Eq (M.ignoreErr m) (M.ignoreErr m') := by
  intro w w' hw
  obtain ⟨h1, h2⟩ := h w w' hw
  unfold M.ignoreErr
  rcases e : m w with ⟨r, v⟩
  rcases e' : m' w' with ⟨r', v'⟩
  rw [e, e'] at h1 h2
  cases h1 with
  | ok ha => exact ⟨.ok rfl, h2⟩
  | err e => exact ⟨.ok rfl, h2⟩
  | panic => exact ⟨.panic, h2⟩
  | pending => exact ⟨.pending, h2⟩

theorem udpSend (a : Addr) {b b' : Bytes} (hb : ∀ ok, AlikeAct σ (.send a b ok) (.send a b' ok)) :
    Peers ρ σ Eq (M.udpSend E a b) (M.udpSend (E.withNet net) a b') := by
  intro w w' h
  have key : ∀ ok, AlikeWorld ρ σ { w with nSnd := w.nSnd + 1, log := w.log ++ [.send a b ok] } { w' with nSnd := w'.nSnd + 1, log := w'.log ++ [.send a b' ok] } := fun ok =>
    ⟨h.s, h.nNow, h.nRand, h.nNet, congrArg (· + 1) h.nSnd, List.rel_append h.log (.cons (hb ok) .nil)⟩
  unfold M.udpSend
  simp only
  rw [show (E.withNet net).snd w'.nSnd = E.snd w.nSnd by rw [h.nSnd]; rfl]
  rcases E.snd w.nSnd with _ | k | _
  · exact ⟨.ok rfl, key _⟩
  · exact ⟨.err _, key _⟩
  · exact ⟨.pending, key _⟩

theorem sendPkt (a : Addr) {p p' : Packet} (h : AlikePkt σ p p') : Peers ρ σ Eq (M.udpSend E a p.bytes) (M.udpSend (E.withNet net) a p'.bytes) :=
  udpSend a fun ok => .data a ok h

/-- A packet other than a Data packet. -/
def Ctl (p : Packet) : Prop := ∃ t, t ≠ PacketType.data ∧ p.getType = some t

theorem Ctl.kind {p : Packet} (h : Ctl p) : Utp.kind p.bytes ≠ 0 := by
  obtain ⟨t, ht, h⟩ := h
  rw [getType_kind h]
  cases t with
  | data => exact absurd rfl ht
  | _ => decide

theorem sendCtl (a : Addr) {p : Packet} (h : Ctl p) : Peers ρ σ Eq (M.udpSend E a p.bytes) (M.udpSend (E.withNet net) a p.bytes) :=
  udpSend a fun ok => .control a ok h.kind

/-- Alike datagrams, or the same invalid one. -/
def AlikeIn (ρ : U8 → U8 → Prop) (b b' : Bytes) : Prop := Alike ρ b b' ∨ (b = b' ∧ ¬ Spec.IsDatagram b)

/-- The same outcome of a receive, but for the payload. -/
def AlikeGot (ρ : U8 → U8 → Prop) : Except ErrorKind (Bytes × Addr) → Except ErrorKind (Bytes × Addr) → Prop
  | .ok x, .ok x' => AlikeIn ρ x.1 x'.1 ∧ x'.2 = x.2
  | .error k, .error k' => k = k'
  | _, _ => False

theorem udpRecv (hN : ∀ k, AlikeEvent ρ (E.net k) (net k)) (t : Option U64) (len : Nat) :
    Peers ρ σ (AlikeGot ρ) (M.udpRecv E t len) (M.udpRecv (E.withNet net) t len) := by
  intro w w' h
  have key : AlikeWorld ρ σ { w with nNet := w.nNet + 1, log := w.log ++ [.wait t] } { w' with nNet := w'.nNet + 1, log := w'.log ++ [.wait t] } :=
    ⟨h.s, h.nNow, h.nRand, congrArg (· + 1) h.nNet, h.nSnd, List.rel_append h.log (.cons (.wait t) .nil)⟩
  unfold M.udpRecv
  simp only
  have e : (E.withNet net).net w'.nNet = net w.nNet := by rw [h.nNet]; rfl
  rw [e]
  have hk := hN w.nNet
  generalize E.net w.nNet = x at hk ⊢
  generalize net w.nNet = x' at hk ⊢
  cases hk with
  | dgram a hb => exact ⟨.ok ⟨hb.take len, rfl⟩, key⟩
  | junk a hb => exact ⟨.ok ⟨.inr ⟨rfl, not_datagram_take hb len⟩, rfl⟩, key⟩
  | fail k => exact ⟨.ok rfl, key⟩
  | never => exact ⟨.pending, key⟩

theorem whileM {c c' : M Bool} {b b' : M Unit} (hc : Peers ρ σ Eq c c') (hb : Peers ρ σ Eq b b') :
    ∀ n, Peers ρ σ Eq (M.whileM n c b) (M.whileM n c' b')
  | 0 => never
  | n + 1 => by
    refine andThen hc ?_
    rintro go _ rfl
    cases go with
    | true => exact andThen hb fun _ _ _ => whileM hc hb n
    | false => exact ret rfl

theorem ite {R : α → α → Prop} {c c' : Prop} [Decidable c] [Decidable c'] {m n m' n' : M α} (h : c ↔ c')
    (h1 : c → Peers ρ σ R m m') (h2 : ¬ c → Peers ρ σ R n n') : Peers ρ σ R (if c then m else n) (if c' then m' else n') := by
  by_cases hc : c
  · rw [if_pos hc, if_pos (h.mp hc)]; exact h1 hc
  · rw [if_neg hc, if_neg (fun x => hc (h.mpr x))]; exact h2 hc

end Peers

open Peers

/-! ### Lists of alike packets -/

/-- Packets alike one by one. -/
abbrev AlikePkts (ρ : U8 → U8 → Prop) : List Packet → List Packet → Prop := List.Forall₂ (fun x x' => Alike ρ x.bytes x'.bytes)

theorem forall₂_nil_iff {R : α → β → Prop} {l : List α} {l' : List β} (h : List.Forall₂ R l l') : l = [] ↔ l' = [] := by
  cases h <;> simp

theorem AlikePkts.map_eq {f : Packet → α} (hf : ∀ p p', AlikePkt ρ p p' → f p = f p') {l l' : List Packet} (h : AlikePkts ρ l l') : l.map f = l'.map f := by
  induction h with
  | nil => rfl
  | cons h _ ih => rw [List.map_cons, List.map_cons, hf _ _ h, ih]

theorem AlikePkts.seqNrs {l l' : List Packet} (h : AlikePkts ρ l l') : l.map Packet.seqNr = l'.map Packet.seqNr := h.map_eq fun _ _ h => AlikePkt.seqNr h

theorem AlikePkts.lens {l l' : List Packet} (h : AlikePkts ρ l l') : l.map Packet.len = l'.map Packet.len := h.map_eq fun _ _ h => AlikePkt.len h

theorem AlikePkts.find {l l' : List Packet} (h : AlikePkts ρ l l') (nr : U16) :
    Option.Rel (AlikePkt ρ) (l.find? fun p => p.seqNr == nr) (l'.find? fun p => p.seqNr == nr) := by
  induction h with
  | nil => exact .none
  | @cons p p' _ _ h _ ih =>
    rw [List.find?_cons, List.find?_cons, AlikePkt.seqNr h]
    cases p'.seqNr == nr with
    | true => exact .some h
    | false => exact ih

theorem AlikePkts.findIdx {l l' : List Packet} (h : AlikePkts ρ l l') (f : U16 → Bool) :
    (l.findIdx? fun p => f p.seqNr) = l'.findIdx? fun p => f p.seqNr := by
  induction h with
  | nil => rfl
  | cons h _ ih => rw [List.findIdx?_cons, List.findIdx?_cons, AlikePkt.seqNr h, ih]

theorem AlikePkts.get {l l' : List Packet} (h : AlikePkts ρ l l') (i : Nat) : Option.Rel (AlikePkt ρ) l[i]? l'[i]? := by
  induction h generalizing i with
  | nil => simp
  | cons h _ ih =>
    cases i with
    | zero => simpa using h
    | succ i => simpa using ih i

theorem AlikePkts.last {l l' : List Packet} (h : AlikePkts ρ l l') : Option.Rel (AlikePkt ρ) l.getLast? l'.getLast? := by
  rw [List.getLast?_eq_getElem?, List.getLast?_eq_getElem?, h.length_eq]
  exact h.get _

theorem AlikePkts.insertIdx {l l' : List Packet} (h : AlikePkts ρ l l') {p p' : Packet} (hp : AlikePkt ρ p p') (i : Nat) :
    AlikePkts ρ (l.insertIdx i p) (l'.insertIdx i p') := by
  induction h generalizing i with
  | nil =>
    cases i with
    | zero => exact .cons hp .nil
    | succ i => simp
  | cons h ht ih =>
    cases i with
    | zero => exact .cons hp (.cons h ht)
    | succ i => exact .cons h (ih i)

theorem AlikePkts.filterMap {l l' : List Packet} (h : AlikePkts ρ l l') (f : U16 → Bool) (g : U16 → α) :
    ((l.filter fun p => f p.seqNr).map fun p => g p.seqNr) = (l'.filter fun p => f p.seqNr).map fun p => g p.seqNr := by
  induction h with
  | nil => rfl
  | @cons p p' _ _ h _ ih =>
    rw [List.filter_cons, List.filter_cons, AlikePkt.seqNr h]
    split
    · rw [List.map_cons, List.map_cons, ih, AlikePkt.seqNr h]
    · exact ih

theorem AlikePkts.insertPkt {l l' : List Packet} (h : AlikePkts ρ l l') {p p' : Packet} (hp : AlikePkt ρ p p') :
    AlikePkts ρ (Socket.insertPkt l p) (Socket.insertPkt l' p') := by
  have e1 : Socket.afterLast l p = Socket.afterLast l' p' := by
    unfold Socket.afterLast
    have := h.last
    generalize l.getLast? = x at this ⊢
    generalize l'.getLast? = x' at this ⊢
    cases this with
    | none => rfl
    | some h => simp only [AlikePkt.seqNr h, AlikePkt.seqNr hp]
  have e2 : (l.filter fun q => q.seqNr < p.seqNr).length = (l'.filter fun q => q.seqNr < p'.seqNr).length := by
    have := congrArg List.length (h.filterMap (fun s => decide (s < p.seqNr)) (fun _ => ()))
    rw [List.length_map, List.length_map] at this
    rw [AlikePkt.seqNr hp] at this ⊢
    exact this
  unfold Socket.insertPkt
  simp only
  rw [e1, e2]
  split
  · exact List.rel_append h (.cons hp .nil)
  · have := h.get (l'.filter fun q => q.seqNr < p'.seqNr).length
    generalize l[(l'.filter fun q => q.seqNr < p'.seqNr).length]? = x at this ⊢
    generalize l'[(l'.filter fun q => q.seqNr < p'.seqNr).length]? = x' at this ⊢
    cases this with
    | none => exact h.insertIdx hp _
    | some hq =>
      simp only [AlikePkt.seqNr hq, AlikePkt.seqNr hp]
      split
      · exact h.insertIdx hp _
      · exact h

theorem AlikePkts.subLens {l l' : List Packet} (h : AlikePkts ρ l l') : ∀ c, Socket.subLens E c l = Socket.subLens (E.withNet net) c l' := by
  induction h with
  | nil => intro c; rfl
  | cons h _ ih =>
    intro c
    unfold Socket.subLens
    simp only [AlikePkt.len h]
    rw [ih]
    rfl

/-! ### Alike sockets -/

/-- The socket with other buffers. -/
def Socket.withBufs (s : Socket) (i o u : List Packet) (p : Bytes) : Socket := { s with incoming := i, sendWindow := o, unsent := u, pending := p }

theorem AlikeSocket.advanceIncoming {s s' : Socket} (h : AlikeSocket ρ σ s s') : AlikeSocket ρ σ s.advanceIncoming s'.advanceIncoming := by
  obtain ⟨hi, ho, hu, hp⟩ := h
  unfold Socket.advanceIncoming
  cases e : s.incoming with
  | nil =>
    rw [e] at hi
    cases hi
    exact ⟨by rw [e]; exact .nil, ho, hu, hp⟩
  | cons q rest =>
    rw [e] at hi
    cases hi with
    | cons h ht =>
      simp only
      rw [AlikePkt.seqNr h]
      exact ⟨ht, ho, hu, hp⟩

theorem AlikeSocket.takePending {s s' : Socket} (h : AlikeSocket ρ σ s s') (len : Nat) :
    List.Forall₂ ρ (s.takePending len).1 (s'.takePending len).1 ∧ AlikeSocket ρ σ (s.takePending len).2 (s'.takePending len).2 := by
  obtain ⟨hi, ho, hu, hp⟩ := h
  unfold Socket.takePending
  simp only
  have hl := hp.length_eq
  simp only [List.length_take, ← hl]
  split
  · exact ⟨List.forall₂_take _ hp, AlikeSocket.advanceIncoming (s := { s with pending := [] }) ⟨hi, ho, hu, .nil⟩⟩
  · exact ⟨List.forall₂_take _ hp, ⟨hi, ho, hu, List.forall₂_drop _ hp⟩⟩

theorem AlikeSocket.takeHead {s s' : Socket} (h : AlikeSocket ρ σ s s') {x x' : Bytes} (hx : List.Forall₂ ρ x x') (len : Nat) :
    AlikeSocket ρ σ (s.takeHead x len) (s'.takeHead x' len) := by
  unfold Socket.takeHead
  simp only [List.length_take, hx.length_eq]
  split
  · exact h.advanceIncoming
  · obtain ⟨hi, ho, hu, hp⟩ := h
    exact ⟨hi, ho, hu, List.forall₂_drop _ hx⟩

theorem AlikeSocket.buildSack {s s' : Socket} (h : AlikeSocket ρ σ s s') : s.buildSack E = s'.buildSack (E.withNet net) := by
  obtain ⟨hi, ho, hu, hp⟩ := h
  unfold Socket.buildSack
  simp only [ne_eq, forall₂_nil_iff hi]
  rw [AlikePkts.filterMap hi (fun x => decide (s.ackNr + 1 < x)) (fun x => (x - s.ackNr - 2).toNat)]
  rfl

theorem AlikeSocket.advanceSendWindow {s s' : Socket} (h : AlikeSocket ρ σ s s') :
    Option.Rel (AlikeSocket ρ σ) (s.advanceSendWindow E) (s'.advanceSendWindow (E.withNet net)) := by
  obtain ⟨hi, ho, hu, hp⟩ := h
  unfold Socket.advanceSendWindow
  simp only
  rw [AlikePkts.findIdx ho (fun x => x == s.lastAcked)]
  split
  · exact .some ⟨hi, ho, hu, hp⟩
  · rename_i pos _
    rw [AlikePkts.subLens (E := E) (net := net) (List.forall₂_take (pos + 1) ho)]
    split
    · exact .none
    · exact .some ⟨hi, List.forall₂_drop _ ho, hu, hp⟩

theorem updateBaseDelay_bufs (s : Socket) (i o u : List Packet) (p : Bytes) (d : Int) (t : U32) :
    (s.withBufs i o u p).updateBaseDelay d t = (s.updateBaseDelay d t).map fun x => x.withBufs i o u p := by
  unfold Socket.updateBaseDelay
  simp only [show (s.withBufs i o u p).baseDelays = s.baseDelays from rfl, show (s.withBufs i o u p).lastRollover = s.lastRollover from rfl]
  by_cases h : s.baseDelays.isEmpty ∨ tsSub t s.lastRollover > MAX_BASE_DELAY_AGE
  · rw [if_pos h, if_pos h]; rfl
  · rw [if_neg h, if_neg h]
    cases s.baseDelays.getLast? with
    | none => rfl
    | some l =>
      simp only
      by_cases h : d < l
      · rw [if_pos h, if_pos h]; rfl
      · rw [if_neg h, if_neg h]; rfl

theorem updateCongestionWindow_bufs (s : Socket) (i o u : List Packet) (p : Bytes) (n : U32) :
    (s.withBufs i o u p).updateCongestionWindow (E.withNet net) n = (s.updateCongestionWindow E n).map fun x => x.withBufs i o u p := by
  unfold Socket.updateCongestionWindow
  by_cases h : E.checks ∧ s.currWindow.toNat + 1400 ≥ 2 ^ 32
  · rw [if_pos h, if_pos (show (E.withNet net).checks ∧ (s.withBufs i o u p).currWindow.toNat + 1400 ≥ 2 ^ 32 from h)]; rfl
  · rw [if_neg h, if_neg (show ¬ ((E.withNet net).checks ∧ (s.withBufs i o u p).currWindow.toNat + 1400 ≥ 2 ^ 32) from h)]; rfl

theorem AlikeSocket.onNewAck {s s' : Socket} (h : AlikeSocket ρ σ s s') (idx : Nat) {p p' : Packet} (hpp : AlikePkt σ p p') (t : U32) :
    Option.Rel (AlikeSocket ρ σ) (s.onNewAck E idx p t) (s'.onNewAck (E.withNet net) idx p' t) := by
  obtain ⟨hi, ho, hu, hp⟩ := h
  rename_i i o u q
  have key : (s.withBufs i o u q).onNewAck (E.withNet net) idx p' t = (s.onNewAck E idx p t).map fun x => x.withBufs i o u q := by
    unfold Socket.onNewAck
    simp only
    rw [updateBaseDelay_bufs, AlikePkt.timestamp hpp]
    have e2 : (((s.withBufs i o u q).sendWindow.take (idx + 1)).map Packet.len).sum = ((s.sendWindow.take (idx + 1)).map Packet.len).sum := by
      rw [AlikePkts.lens (List.forall₂_take (idx + 1) ho)]; rfl
    rw [e2]
    rcases s.updateBaseDelay (tsSub t p'.timestamp) t with _ | s1
    · rfl
    · simp only [Option.map_some]
      have e3 : (s1.withBufs i o u q).updateCurrentDelay (tsSub t p'.timestamp) t = (s1.updateCurrentDelay (tsSub t p'.timestamp) t).withBufs i o u q := rfl
      rw [e3, updateCongestionWindow_bufs]
      rcases (s1.updateCurrentDelay (tsSub t p'.timestamp) t).updateCongestionWindow E _ with _ | s2
      · rfl
      · rfl
  change Option.Rel _ _ ((s.withBufs i o u q).onNewAck (E.withNet net) idx p' t)
  rw [key]
  cases e : s.onNewAck E idx p t with
  | none => exact .none
  | some s1 =>
    obtain ⟨_, _, _, _, _, _, _, rfl⟩ := onNewAck_shape e
    exact .some ⟨hi, ho, hu, hp⟩

theorem AlikeSocket.state {s s' : Socket} (h : AlikeSocket ρ σ s s') : s'.state = s.state := by cases h; rfl
theorem AlikeSocket.connectedTo {s s' : Socket} (h : AlikeSocket ρ σ s s') : s'.connectedTo = s.connectedTo := by cases h; rfl

/-! ### The operations -/

theorem peers_flushIncoming (len : Nat) : Peers ρ σ (List.Forall₂ ρ) (flushIncoming E len) (flushIncoming (E.withNet net) len) := by
  unfold flushIncoming
  refine get fun s s' hs => ?_
  have htp := hs.takePending len
  obtain ⟨hi, ho, hu, hp⟩ := hs
  refine ite (not_congr (forall₂_nil_iff hp)) (fun _ => ?_) fun _ => ?_
  · exact seqE (modS fun s s' hs => (hs.takePending len).2) fun _ => pure htp.1
  · simp only
    cases e : s.incoming with
    | nil =>
      rw [e] at hi
      cases hi
      exact pure .nil
    | cons q rest =>
      rw [e] at hi
      cases hi with
      | cons hq _ =>
        simp only
        rw [AlikePkt.seqNr hq]
        refine seqE (overflowIf _) fun _ => ite Iff.rfl (fun _ => ?_) fun _ => pure .nil
        obtain ⟨x, x', e1, e2, hx⟩ := AlikePkt.payload hq
        rw [e1, e2]
        refine seq (orPanicR (R := List.Forall₂ ρ) (.some hx)) fun x x' hx => ?_
        exact seqE (modS fun s s' hs => hs.takeHead hx len) fun _ => pure (List.forall₂_take _ hx)

theorem peers_timeout : Peers ρ σ Eq (handleReceiveTimeout E) (handleReceiveTimeout (E.withNet net)) := by
  have hf : Peers ρ σ Eq (fastResendOne E) (fastResendOne (E.withNet net)) := by
    refine get fun s s' hs => seqE now fun t => ignoreErr (R := Eq) ?_
    cases hs
    exact sendCtl _ ⟨.state, by simp, (resendRequest_plain s t).ty⟩
  unfold handleReceiveTimeout
  refine get fun s s' hs => ?_
  obtain ⟨hi, ho, hu, hp⟩ := hs
  refine seqE (overflowIf _) fun _ => seqE (modS ?_) fun _ => ?_
  · rintro s _ ⟨hi, ho, hu, hp⟩
    exact ⟨hi, ho, hu, hp⟩
  simp only
  cases e : s.sendWindow with
  | nil =>
    rw [e] at ho
    cases ho
    refine ite Iff.rfl (fun _ => ?_) fun _ => ite Iff.rfl (fun _ => ?_) fun _ => pure rfl
    · exact seqE now fun t => sendCtl _ ⟨.fin, by simp, (finPacket_plain s t).ty⟩
    · exact seqE hf fun _ => seqE hf fun _ => hf
  | cons q rest =>
    rw [e] at ho
    cases ho with
    | cons hq hr =>
      refine seqE now fun t => seqE (modS ?_) fun _ => sendPkt _ (AlikePkt.setTimestamp hq t)
      rintro s _ ⟨hi, ho, hu, hp⟩
      exact ⟨hi, .cons (AlikePkt.setTimestamp hq t) hr, hu, hp⟩

theorem peers_recvWait (hN : ∀ k, AlikeEvent ρ (E.net k) (net k)) : ∀ fuel retries,
    Peers ρ σ (fun x x' => AlikeIn ρ x.1 x'.1 ∧ x'.2 = x.2) (recvWait E fuel retries) (recvWait (E.withNet net) fuel retries)
  | 0, _ => never
  | fuel + 1, retries => by
    unfold recvWait
    refine get fun s s' hs => ?_
    obtain ⟨hi, ho, hu, hp⟩ := hs
    refine ite Iff.rfl (fun _ => ?_) fun _ => ?_
    · refine seqE (modS ?_) fun _ => throw _
      rintro s _ ⟨hi, ho, hu, hp⟩
      exact ⟨hi, ho, hu, hp⟩
    · refine seq (udpRecv hN _ _) fun r r' hr => ?_
      rcases r with k | x <;> rcases r' with k' | x'
      · cases hr
        dsimp only
        split
        · exact seqE peers_timeout fun _ => peers_recvWait hN fuel _
        · exact throw _
      · exact hr.elim
      · exact hr.elim
      · exact pure hr

section
variable {rec rec' : M (Bytes × Addr)} (hr : Peers ρ σ (AlikeFrom ρ) rec rec')
include hr

theorem peers_sendPacket (fuel : Nat) {p p' : Packet} (hp : AlikePkt σ p p') :
    Peers ρ σ (AlikePkt σ) (sendPacket E fuel rec p) (sendPacket (E.withNet net) fuel rec' p') := by
  unfold sendPacket
  refine get fun s s' hs => ?_
  obtain ⟨_, _, _, _⟩ := hs
  refine seqE now fun t => seqE (whileM ?_ (andThen hr fun _ _ _ => ret rfl) _) fun _ => get fun s s' hs => ?_
  · refine get fun s1 s1' hs1 => ?_
    obtain ⟨_, _, _, _⟩ := hs1
    exact ite Iff.rfl (fun _ => seqE now fun t => pure rfl) fun _ => pure rfl
  · obtain ⟨_, _, _, _⟩ := hs
    rw [AlikePkt.seqNr hp]
    refine ite Iff.rfl (fun _ => pure hp) fun _ => seqE now fun t => ?_
    have h' := AlikePkt.setTimestampDifference (AlikePkt.setTimestamp hp t) s.theirDelay
    exact seqE (sendPkt _ h') fun _ => pure h'

theorem peers_resendLost (fuel : Nat) (nr : U16) : Peers ρ σ Eq (resendLost E fuel rec nr) (resendLost (E.withNet net) fuel rec' nr) := by
  unfold resendLost
  refine get fun s s' hs => ?_
  obtain ⟨_, ho, _, _⟩ := hs
  have := AlikePkts.find ho nr
  simp only
  generalize (s.sendWindow.find? fun p => p.seqNr == nr) = x at this ⊢
  rename_i i o u p _ _ _
  generalize (o.find? fun p => p.seqNr == nr) = x' at this ⊢
  cases this with
  | none => exact pure rfl
  | some h => exact ignoreErr (peers_sendPacket hr _ h)

theorem peers_resendMissing (fuel : Nat) (ack last : U16) :
    ∀ bits loss, Peers ρ σ Eq (resendMissing E fuel rec ack last bits loss) (resendMissing (E.withNet net) fuel rec' ack last bits loss) := by
  intro bits
  induction bits with
  | nil => intro loss; exact pure rfl
  | cons x rest ih =>
    intro loss
    obtain ⟨idx, received⟩ := x
    unfold resendMissing
    split
    · exact ih _
    · refine seqE (overflowIf _) fun _ => ?_
      dsimp only
      split
      · exact seqE (peers_resendLost hr _ _) fun _ => ih _
      · exact pure rfl

theorem peers_processExtensions (fuel : Nat) (ack : U16) :
    ∀ exts loss, Peers ρ σ Eq (processExtensions E fuel rec ack exts loss) (processExtensions (E.withNet net) fuel rec' ack exts loss) := by
  intro exts
  induction exts with
  | nil => intro loss; exact pure rfl
  | cons e rest ih =>
    intro loss
    unfold processExtensions
    split
    · refine seqE ?_ fun loss1 => get fun s s' hs => ?_
      · unfold resendFirst
        split
        · exact seqE (overflowIf _) fun _ => seqE (peers_resendLost hr _ _) fun _ => pure rfl
        · exact pure rfl
      · obtain ⟨_, ho, _, _⟩ := hs
        have := AlikePkts.last ho
        simp only
        rename_i i o u p _ _ _
        generalize s.sendWindow.getLast? = x at this ⊢
        generalize o.getLast? = x' at this ⊢
        cases this with
        | none => exact ih _
        | some h =>
          simp only
          rw [AlikePkt.seqNr h]
          exact seqE (orPanic _) fun bits => seqE (peers_resendMissing hr _ _ _ _ _) fun _ => ih _
    · exact ih _

theorem peers_handleState (fuel : Nat) {pkt pkt' : Packet} (hp : AlikePkt τ pkt pkt') :
    Peers ρ σ Eq (handleState E fuel rec pkt) (handleState (E.withNet net) fuel rec' pkt') := by
  unfold handleState
  rw [AlikePkt.ackNr hp, AlikePkt.extensions hp]
  refine seqE ?_ fun _ => seqE ?_ fun _ => get fun s s' hs => seqE (orPanic _) fun exts => ?_
  · unfold countAck
    rw [AlikePkt.ackNr hp]
    refine get fun s s' hs => ?_
    obtain ⟨_, _, _, _⟩ := hs
    refine ite Iff.rfl (fun _ => seqE (overflowIf _) fun _ => modS ?_) fun _ => seqE now fun t => modS ?_
    · rintro s _ ⟨hi, ho, hu, hp⟩; exact ⟨hi, ho, hu, hp⟩
    · rintro s _ ⟨hi, ho, hu, hp⟩; exact ⟨hi, ho, hu, hp⟩
  · unfold measureAck
    rw [AlikePkt.ackNr hp]
    refine get fun s s' hs => ?_
    have hs0 := hs
    obtain ⟨_, ho, _, _⟩ := hs
    simp only
    rw [AlikePkts.findIdx ho (fun x => pkt'.ackNr == x)]
    split
    · exact pure rfl
    · refine seqE now fun t => seq (orPanicR (AlikePkts.get ho _)) fun q q' hq => seq (orPanicR (hs0.onNewAck _ hq t)) fun a a' ha => modS fun _ _ _ => ha
  · have e : decide (s.sendWindow ≠ [] ∧ s.dupAcks = 3) = decide (s'.sendWindow ≠ [] ∧ s'.dupAcks = 3) := by
      obtain ⟨_, ho, _, _⟩ := hs
      simp only [ne_eq, forall₂_nil_iff ho]
    rw [e]
    refine seqE (peers_processExtensions hr _ _ _ _) fun loss => seqE ?_ fun _ => seqE (modS ?_) fun _ => get fun s s' hs => ?_
    · unfold fastRetransmit
      rw [AlikePkt.ackNr hp]
      refine get fun s s' hs => ?_
      obtain ⟨_, ho, _, _⟩ := hs
      refine ite ?_ (fun _ => seqE (overflowIf _) fun _ => peers_resendLost hr _ _) fun _ => pure rfl
      simp only [ne_eq, forall₂_nil_iff ho]
    · rintro s _ ⟨hi, ho, hu, hp⟩
      split
      · exact ⟨hi, ho, hu, hp⟩
      · exact ⟨hi, ho, hu, hp⟩
    · exact seq (orPanicR hs.advanceSendWindow) fun a a' ha => modS fun _ _ _ => ha

omit hr in
/-- The reply to alike packets is the same. -/
theorem prepareReply_alike {s s' : Socket} (hs : AlikeSocket ρ σ s s') {pkt pkt' : Packet} (hp : AlikePkt τ pkt pkt') (t : U32) (ty : PacketType) :
    s'.prepareReply t pkt' ty = s.prepareReply t pkt ty := by
  unfold Socket.prepareReply
  rw [AlikePkt.timestamp hp]
  cases hs
  rfl

/-- The same reply, which is not a Data packet. -/
def SameCtl (r r' : Option Packet) : Prop := r = r' ∧ ∀ p, r = some p → Ctl p

omit hr in
theorem peers_withSack {s s' : Socket} (hs : AlikeSocket ρ σ s s') {pkt pkt' : Packet} (hp : AlikePkt τ pkt pkt') (t : U32) {ty : PacketType} (ht : ty ≠ .data) :
    Peers ρ σ (fun r r' => r = r' ∧ Ctl r) (withSack E s pkt (s.prepareReply t pkt ty)) (withSack (E.withNet net) s' pkt' (s'.prepareReply t pkt' ty)) := by
  rw [prepareReply_alike hs hp]
  have hpl := prepareReply_plain s t pkt ty
  have hb := prepareReply_bytes s t pkt ty
  generalize s.prepareReply t pkt ty = r at hpl hb
  have hc : Ctl r := ⟨ty, ht, hpl.ty⟩
  unfold withSack
  rw [AlikePkt.seqNr hp, show s'.ackNr = s.ackNr by cases hs; rfl]
  refine ite Iff.rfl (fun _ => ?_) fun _ => pure ⟨rfl, hc⟩
  refine seq (orPanicP (P := fun a => s.buildSack E = some a) hs.buildSack fun _ h => h) ?_
  rintro sack _ ⟨rfl, hsack⟩
  refine ite Iff.rfl (fun hne => ?_) fun _ => pure ⟨rfl, hc⟩
  refine orPanicP rfl fun r' hr' => ⟨ty, ht, ?_⟩
  rw [(setSack_reply hb.1 hb.2 (buildSack_len hsack) hne hr').1]
  exact hpl.ty

omit hr in
theorem peers_handleData {pkt pkt' : Packet} (hp : AlikePkt τ pkt pkt') : Peers ρ σ (fun r r' => r = r' ∧ Ctl r) (handleData E pkt) (handleData (E.withNet net) pkt') := by
  refine get fun s s' hs => seqE now fun t => ?_
  rw [hs.state]
  exact peers_withSack hs hp t (by split <;> simp)

omit hr in
theorem peers_replyWith {pkt pkt' : Packet} (hp : AlikePkt τ pkt pkt') {ty : PacketType} (ht : ty ≠ .data) :
    Peers ρ σ SameCtl (replyWith E pkt ty) (replyWith (E.withNet net) pkt' ty) := by
  refine get fun s s' hs => seqE now fun t => pure ?_
  rw [prepareReply_alike hs hp]
  refine ⟨rfl, fun p e => ?_⟩
  cases e
  exact ⟨ty, ht, (prepareReply_plain s t pkt ty).ty⟩

omit hr in
theorem peers_onFin {pkt pkt' : Packet} (hp : AlikePkt τ pkt pkt') : Peers ρ σ SameCtl (onFin E pkt) (onFin (E.withNet net) pkt') := by
  refine get fun s s' hs => seqE now fun t => seq (peers_withSack hs hp t (by simp)) ?_
  rintro r _ ⟨rfl, hr⟩
  refine seqE (modS ?_) fun _ => pure ⟨rfl, fun p e => by cases e; exact hr⟩
  rintro s _ ⟨hi, ho, hu, hp⟩
  exact ⟨hi, ho, hu, hp⟩

omit hr in
theorem peers_onReset : Peers ρ σ SameCtl onReset onReset := by
  refine seqE (modS ?_) fun _ => throw _
  rintro s _ ⟨hi, ho, hu, hp⟩
  exact ⟨hi, ho, hu, hp⟩

omit hr in
theorem peers_onFinAck {pkt pkt' : Packet} (hp : AlikePkt τ pkt pkt') : Peers ρ σ SameCtl (onFinAck pkt) (onFinAck pkt') := by
  unfold onFinAck
  rw [AlikePkt.ackNr hp]
  refine seqE (modS ?_) fun _ => pure ⟨rfl, by simp⟩
  rintro s _ ⟨hi, ho, hu, hp⟩
  by_cases h : pkt'.ackNr = s.seqNr
  · simp only [if_pos h]; exact ⟨hi, ho, hu, hp⟩
  · simp only [if_neg h]; exact ⟨hi, ho, hu, hp⟩

omit hr in
theorem peers_onSyn {pkt pkt' : Packet} (hp : AlikePkt τ pkt pkt') (src : Addr) : Peers ρ σ SameCtl (onSyn E pkt src) (onSyn (E.withNet net) pkt' src) := by
  unfold onSyn
  rw [AlikePkt.connectionId hp, AlikePkt.seqNr hp]
  refine seqE rand fun r => seqE (overflowIf _) fun _ => seqE (modS ?_) fun _ => get fun s s' hs => seqE now fun t => pure ?_
  · rintro s _ ⟨hi, ho, hu, hp⟩
    exact ⟨hi, ho, hu, hp⟩
  · rw [prepareReply_alike hs hp]
    refine ⟨rfl, fun p e => ?_⟩
    cases e
    exact ⟨.state, by simp, (prepareReply_plain s t pkt .state).ty⟩

omit hr in
theorem peers_onSynAck {pkt pkt' : Packet} (hp : AlikePkt τ pkt pkt') (src : Addr) : Peers ρ σ SameCtl (onSynAck E pkt src) (onSynAck (E.withNet net) pkt' src) := by
  unfold onSynAck
  rw [AlikePkt.ackNr hp, AlikePkt.seqNr hp]
  refine get fun s s' hs => ?_
  obtain ⟨_, _, _, _⟩ := hs
  refine seqE (overflowIf _) fun _ => seqE now fun t => seqE (modS ?_) fun _ => pure ⟨rfl, by simp⟩
  rintro s _ ⟨hi, ho, hu, hp⟩
  exact ⟨hi, ho, hu, hp⟩

theorem peers_dispatch (fuel : Nat) {pkt pkt' : Packet} (hp : AlikePkt τ pkt pkt') (src : Addr) (st : SocketState) (ty : PacketType) :
    Peers ρ σ SameCtl (dispatch E fuel rec pkt src st ty) (dispatch (E.withNet net) fuel rec' pkt' src st ty) := by
  unfold dispatch
  split
  · exact peers_onSyn hp src
  · exact peers_replyWith hp (by simp)
  · exact peers_onSynAck hp src
  · exact throw _
  · refine seq (peers_handleData hp) ?_
    rintro r _ ⟨rfl, hr⟩
    exact pure ⟨rfl, fun p e => by cases e; exact hr⟩
  · refine seq (peers_handleData hp) ?_
    rintro r _ ⟨rfl, hr⟩
    exact pure ⟨rfl, fun p e => by cases e; exact hr⟩
  · exact seqE (peers_handleState hr _ hp) fun _ => pure ⟨rfl, by simp⟩
  · exact peers_onFin hp
  · exact peers_onFin hp
  · exact peers_replyWith hp (by simp)
  · exact peers_onFinAck hp
  · exact peers_onReset
  · exact throw _

theorem peers_handlePacket (fuel : Nat) {pkt pkt' : Packet} (hp : AlikePkt τ pkt pkt') (src : Addr) :
    Peers ρ σ SameCtl (handlePacket E fuel rec pkt src) (handlePacket (E.withNet net) fuel rec' pkt' src) := by
  unfold handlePacket
  refine seqE (modS ?_) fun _ => get fun s s' hs => ?_
  · rintro s _ ⟨hi, ho, hu, hp'⟩
    unfold Socket.bumpAck
    rw [AlikePkt.seqNr hp]
    by_cases h : pkt'.seqNr - s.ackNr = 1
    · simp only [if_pos h]; exact ⟨hi, ho, hu, hp'⟩
    · simp only [if_neg h]; exact ⟨hi, ho, hu, hp'⟩
  · rw [AlikePkt.getType hp, AlikePkt.connectionId hp, AlikePkt.wndSize hp, AlikePkt.timestamp hp]
    obtain ⟨_, _, _, _⟩ := hs
    refine seqE (orPanic _) fun ty => ite Iff.rfl (fun _ => peers_replyWith hp (by simp)) fun _ => seqE now fun t => seqE (modS ?_) fun _ => peers_dispatch hr _ hp _ _ _
    rintro s _ ⟨hi, ho, hu, hp⟩
    exact ⟨hi, ho, hu, hp⟩

end

section
variable (hN : ∀ k, AlikeEvent ρ (E.net k) (net k))
include hN

omit hN in
theorem AlikeIn.tryFrom {b b' : Bytes} (h : AlikeIn ρ b b') :
    (∃ p p', Packet.tryFrom b = some (.ok p) ∧ Packet.tryFrom b' = some (.ok p') ∧ AlikePkt ρ p p') ∨ ∃ e, Packet.tryFrom b = some (.error e) ∧ Packet.tryFrom b' = some (.error e) := by
  rcases h with h | ⟨rfl, h⟩
  · exact .inl ⟨_, _, h.tryFrom.1, h.tryFrom.2, h⟩
  · obtain ⟨e, he⟩ := C01_reject b h
    exact .inr ⟨e, he, he⟩

theorem peers_recv : ∀ fuel len, Peers ρ σ (AlikeFrom ρ) (recv E fuel len) (recv (E.withNet net) fuel len)
  | 0, _ => never
  | fuel + 1, len => by
    unfold recv recvBody
    refine seq (peers_recvWait hN _ _) fun x x' hx => ?_
    obtain ⟨b, src⟩ := x
    obtain ⟨b', src'⟩ := x'
    obtain ⟨hb, e⟩ := hx
    simp only at e
    subst e
    simp only
    rcases AlikeIn.tryFrom hb with ⟨p, p', e1, e2, hp⟩ | ⟨e, e1, e2⟩
    · rw [e1, e2]
      show Peers ρ σ (AlikeFrom ρ) (recvPacket E fuel (recv E fuel BUF_SIZE) len p src') (recvPacket (E.withNet net) fuel (recv (E.withNet net) fuel BUF_SIZE) len p' src')
      unfold recvPacket
      refine seq (peers_handlePacket (peers_recv fuel _) _ hp _) ?_
      rintro reply _ ⟨rfl, hreply⟩
      rw [AlikePkt.getType hp, AlikePkt.seqNr hp]
      refine seqE ?_ fun _ => seqE (orPanic _) fun ty => seqE (modS ?_) fun _ => seq (peers_flushIncoming _) fun out out' ho => pure ⟨ho, rfl⟩
      · cases reply with
        | none => exact pure rfl
        | some q =>
          obtain ⟨t, h1, h2⟩ := hreply q rfl
          exact sendCtl _ ⟨t, h1, by simpa using h2⟩
      · rintro s _ ⟨hi, ho, hu, hp'⟩
        by_cases h : ty = .data ∧ 0 < (p'.seqNr - s.lastDropped).toNat
        · simp only [if_pos h]; exact ⟨AlikePkts.insertPkt hi hp, ho, hu, hp'⟩
        · simp only [if_neg h]; exact ⟨hi, ho, hu, hp'⟩
    · rw [e1, e2]
      show Peers ρ σ (AlikeFrom ρ) (getS >>= fun s => Pure.pure ([], s.connectedTo)) (getS >>= fun s => Pure.pure ([], s.connectedTo))
      exact get fun s s' hs => pure ⟨.nil, hs.connectedTo⟩

theorem peers_recvFromLoop (fuel len : Nat) : ∀ n, Peers ρ σ (AlikeFrom ρ) (recvFromLoop E fuel len n) (recvFromLoop (E.withNet net) fuel len n)
  | 0 => never
  | n + 1 => by
    unfold recvFromLoop
    refine get fun s s' hs => ?_
    rw [hs.state, hs.connectedTo]
    refine ite Iff.rfl (fun _ => pure ⟨.nil, rfl⟩) fun _ => seq (peers_recv hN _ _) fun x x' hx => ?_
    obtain ⟨b, src⟩ := x
    obtain ⟨b', src'⟩ := x'
    exact ite (forall₂_nil_iff hx.1) (fun _ => peers_recvFromLoop fuel len n) fun _ => pure hx

theorem peers_sendQueue (fuel : Nat) : ∀ n, Peers ρ σ Eq (sendQueue E fuel n) (sendQueue (E.withNet net) fuel n)
  | 0 => never
  | n + 1 => by
    unfold sendQueue
    refine get fun s s' hs => ?_
    obtain ⟨_, _, hu, _⟩ := hs
    simp only
    cases e : s.unsent with
    | nil =>
      rw [e] at hu
      cases hu
      exact pure rfl
    | cons q rest =>
      rw [e] at hu
      cases hu with
      | cons hq hrest =>
        refine seqE (modS ?_) fun _ => seq (peers_sendPacket (peers_recv hN _ _) _ hq) fun p p' hp => get fun s s' hs => ?_
        · rintro s _ ⟨hi, ho, hu, hp⟩
          exact ⟨hi, ho, hrest, hp⟩
        · obtain ⟨_, _, _, _⟩ := hs
          rw [AlikePkt.len hp]
          refine seqE (overflowIf _) fun _ => seqE (modS ?_) fun _ => peers_sendQueue fuel n
          rintro s _ ⟨hi, ho, hu, hp'⟩
          exact ⟨hi, List.rel_append ho (.cons hp .nil), hu, hp'⟩

theorem peers_scratchRecv (fuel : Nat) : Peers ρ σ Eq (scratchRecv E fuel) (scratchRecv (E.withNet net) fuel) :=
  seq (peers_recv hN _ _) fun _ _ _ => pure rfl

theorem peers_flush (fuel : Nat) : Peers ρ σ Eq (flush E fuel) (flush (E.withNet net) fuel) := by
  refine whileM (get fun s s' hs => pure ?_) (peers_scratchRecv hN fuel) _
  obtain ⟨_, ho, _, _⟩ := hs
  simp only [ne_eq, forall₂_nil_iff ho]

theorem peers_close (fuel : Nat) : Peers ρ σ Eq (close E fuel) (close (E.withNet net) fuel) := by
  unfold close
  refine get fun s s' hs => ?_
  rw [hs.state]
  refine ite Iff.rfl (fun _ => pure rfl) fun _ => seqE (peers_flush hN _) fun _ => get fun s s' hs => seqE now fun t => ?_
  refine seqE ?_ fun _ => seqE (modS ?_) fun _ => whileM (get fun s s' hs => pure ?_) (peers_scratchRecv hN fuel) _
  · cases hs
    exact sendCtl _ ⟨.fin, by simp, (finPacket_plain s t).ty⟩
  · rintro s _ ⟨hi, ho, hu, hp⟩
    exact ⟨hi, ho, hu, hp⟩
  · rw [hs.state]

omit hN in
theorem alike_chunks : ∀ (n : Nat) {b b' : Bytes}, List.Forall₂ σ b b' → List.Forall₂ (List.Forall₂ σ) (chunks n b) (chunks n b')
  | 0, _, _, _ => .nil
  | n + 1, b, b', h => by
    unfold chunks
    by_cases hb : b = []
    · rw [if_pos hb, if_pos ((forall₂_nil_iff h).mp hb)]; exact .nil
    · rw [if_neg hb, if_neg fun x => hb ((forall₂_nil_iff h).mpr x)]
      exact .cons (List.forall₂_take _ h) (alike_chunks n (List.forall₂_drop _ h))

omit hN in
theorem alike_enqueue {l l' : List Bytes} (h : List.Forall₂ (List.Forall₂ σ) l l') : ∀ {s s' : Socket}, AlikeSocket ρ σ s s' → AlikeSocket ρ σ (l.foldl enqueue s) (l'.foldl enqueue s') := by
  induction h with
  | nil => exact fun h => h
  | cons h _ ih =>
    intro s s' hs
    refine ih ?_
    obtain ⟨hi, ho, hu, hp⟩ := hs
    exact ⟨hi, ho, List.rel_append hu (.cons (AlikePkt.setConnectionId (AlikePkt.setAckNr (AlikePkt.setSeqNr (alike_withPayload h) _) _) _) .nil), hp⟩

theorem peers_runOp (fuel : Nat) {op op' : Op} (h : AlikeOp σ op op') :
    Peers ρ σ (fun a a' => AlikeOut ρ (.ok a) (.ok a')) (runOp E fuel op) (runOp (E.withNet net) fuel op') := by
  cases h with
  | recvFrom len =>
    refine seq (R := AlikeFrom ρ) ?_ fun x x' hx => ?_
    · unfold recvFrom
      refine seq (peers_flushIncoming _) fun out out' ho => get fun s s' hs => ?_
      rw [hs.state, hs.connectedTo]
      exact ite (not_congr (forall₂_nil_iff ho)) (fun _ => pure ⟨ho, rfl⟩) fun _ => ite Iff.rfl (fun _ => throw _) fun _ => peers_recvFromLoop hN _ _ _
    · obtain ⟨b, src⟩ := x
      obtain ⟨b', src'⟩ := x'
      obtain ⟨hb, e⟩ := hx
      simp only at e
      subst e
      exact pure (.bytes _ hb)
  | sendTo hb =>
    refine seqE ?_ fun _ => pure (.count _)
    unfold sendTo
    refine get fun s s' hs => ?_
    rw [hs.state, hb.length_eq]
    exact ite Iff.rfl (fun _ => throw _) fun _ => seqE (modS fun s s' hs => alike_enqueue (alike_chunks _ hb) hs) fun _ => seqE (peers_sendQueue hN _ _) fun _ => pure rfl
  | flush => exact seqE (peers_flush hN _) fun _ => pure .unit
  | close => exact seqE (peers_close hN _) fun _ => pure .unit
  | setMaxRetries n =>
    refine seqE (modS ?_) fun _ => pure .unit
    rintro s _ ⟨hi, ho, hu, hp⟩
    exact ⟨hi, ho, hu, hp⟩

theorem peers_synLoop : ∀ (n : Nat) (t : U64), Peers ρ σ (fun b b' => AlikeIn ρ b b') (synLoop E n t) (synLoop (E.withNet net) n t)
  | 0, _ => pure (.inr ⟨rfl, fun ⟨d, hd, e⟩ => by
      have h := hd.headerLen
      have := congrArg List.length e
      simp only [Spec.Datagram.bytes, List.length_append, List.length_nil, h] at this
      omega⟩)
  | n + 1, t => by
    unfold synLoop
    refine get fun s s' hs => seqE now fun tm => seqE ?_ fun _ => seqE (modS ?_) fun _ => seq (udpRecv hN _ _) fun r r' hr => ?_
    · cases hs
      exact sendCtl _ ⟨.syn, by simp, (synPacket_plain s tm).ty⟩
    · rintro s _ ⟨hi, ho, hu, hp⟩
      exact ⟨hi, ho, hu, hp⟩
    · rcases r with k | ⟨b, a⟩ <;> rcases r' with k' | ⟨b', a'⟩
      · cases hr
        dsimp only
        split
        · exact peers_synLoop n _
        · exact throw _
      · exact hr.elim
      · exact hr.elim
      · obtain ⟨hb, e⟩ := hr
        simp only at e
        subst e
        refine seqE (modS ?_) fun _ => pure hb
        rintro s _ ⟨hi, ho, hu, hp⟩
        exact ⟨hi, ho, hu, hp⟩

theorem peers_connectM (fuel : Nat) (addr : Addr) : Peers ρ σ Eq (connectM E fuel addr) (connectM (E.withNet net) fuel addr) := by
  unfold connectM
  refine seqE (modS ?_) fun _ => get fun s s' hs => ?_
  · rintro s _ ⟨hi, ho, hu, hp⟩
    exact ⟨hi, ho, hu, hp⟩
  · rw [show s'.congTimeout = s.congTimeout by cases hs; rfl]
    refine seq (peers_synLoop hN _ _) fun b b' hb => get fun s s' hs => ?_
    rw [hs.connectedTo]
    rcases AlikeIn.tryFrom hb with ⟨p, p', e1, e2, hp⟩ | ⟨e, e1, e2⟩
    · rw [e1, e2]
      show Peers ρ σ Eq (handlePacket E fuel (recv E fuel BUF_SIZE) p s.connectedTo >>= fun _ => Pure.pure ())
        (handlePacket (E.withNet net) fuel (recv (E.withNet net) fuel BUF_SIZE) p' s.connectedTo >>= fun _ => Pure.pure ())
      exact seq (peers_handlePacket (peers_recv hN _ _) _ hp _) fun _ _ _ => Peers.pure rfl
    · rw [e1, e2]
      exact throw _

theorem peers_acceptM (fuel : Nat) {pkt pkt' : Packet} (hp : AlikePkt τ pkt pkt') (src : Addr) :
    Peers ρ σ Eq (acceptM E fuel pkt src) (acceptM (E.withNet net) fuel pkt' src) := by
  intro w w' hw
  obtain ⟨h1, h2⟩ := peers_handlePacket (E := E) (net := net) (peers_recv hN fuel BUF_SIZE) fuel hp src w w' hw
  unfold acceptM
  rcases e : handlePacket E fuel (recv E fuel BUF_SIZE) pkt src w with ⟨r, v⟩
  rcases e' : handlePacket (E.withNet net) fuel (recv (E.withNet net) fuel BUF_SIZE) pkt' src w' with ⟨r', v'⟩
  rw [e, e'] at h1 h2
  cases h1 with
  | ok ha =>
    obtain ⟨rfl, hc⟩ := ha
    rename_i a
    cases a with
    | none => exact ⟨.err _, h2⟩
    | some q => exact sendCtl _ (hc q rfl) _ _ h2
  | err x => exact ⟨.err _, h2⟩
  | panic => exact ⟨.panic, h2⟩
  | pending => exact ⟨.pending, h2⟩

end

end Utp
