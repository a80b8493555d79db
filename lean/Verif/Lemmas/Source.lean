import Verif.Spec.Source
import Verif.Props.Strangers
/-!
# Two runs with the same datagrams from different addresses
-/

namespace Utp
open M

/-- The same kind of result, with related values. -/
inductive SameRes {α : Type} (R : α → α → Prop) : Res α → Res α → Prop
  | ok {a a' : α} : R a a' → SameRes R (.ok a) (.ok a')
  | err (e : IoErr) : SameRes R (.err e) (.err e)
  | panic : SameRes R .panic .panic
  | pending : SameRes R .pending .pending

/-- Related worlds of an established connection. -/
structure Twin (E : Env) (net : Nat → NetEvent) (w w' : World) : Prop where
  same : SameWorld E net w w'
  est : w.s.Established

/-- In related worlds, `m` and `m'` have related results and end in related worlds. -/
def Twins (E : Env) (net : Nat → NetEvent) {α : Type} (R : α → α → Prop) (m m' : M α) : Prop :=
  ∀ w w', Twin E net w w' → SameRes R (m w).1 (m' w').1 ∧ Twin E net (m w).2 (m' w').2

/-- The same bytes from renamed addresses. -/
def SameFrom (E : Env) (net : Nat → NetEvent) (x x' : Bytes × Addr) : Prop := x'.1 = x.1 ∧ Renamed E net x.2 x'.2

variable {E : Env} {net : Nat → NetEvent} {α β : Type}

namespace Twins

theorem ret {R : α → α → Prop} {a a' : α} (h : R a a') : Twins E net R (M.ret a) (M.ret a') := fun _ _ hw => ⟨.ok h, hw⟩

theorem pure {R : α → α → Prop} {a a' : α} (h : R a a') : Twins E net R (Pure.pure a) (Pure.pure a') := ret h

theorem throw {R : α → α → Prop} (e : IoErr) : Twins E net R (M.throw e) (M.throw e) := fun _ _ hw => ⟨.err e, hw⟩

theorem never {R : α → α → Prop} : Twins E net R M.never M.never := fun _ _ hw => ⟨.pending, hw⟩

theorem andThen {R : α → α → Prop} {Q : β → β → Prop} {m m' : M α} {f f' : α → M β} (h : Twins E net R m m')
    (hf : ∀ a a', R a a' → Twins E net Q (f a) (f' a')) : Twins E net Q (M.andThen m f) (M.andThen m' f') := by
  intro w w' hw
  obtain ⟨h1, h2⟩ := h w w' hw
  unfold M.andThen
  rcases e : m w with ⟨r, v⟩
  rcases e' : m' w' with ⟨r', v'⟩
  rw [e, e'] at h1 h2
  cases h1 with
  | ok ha => exact hf _ _ ha v v' h2
  | err x => exact ⟨.err x, h2⟩
  | panic => exact ⟨.panic, h2⟩
  | pending => exact ⟨.pending, h2⟩

theorem seq {R : α → α → Prop} {Q : β → β → Prop} {m m' : M α} {f f' : α → M β} (h : Twins E net R m m')
    (hf : ∀ a a', R a a' → Twins E net Q (f a) (f' a')) : Twins E net Q (m >>= f) (m' >>= f') := andThen h hf

theorem seqE {Q : β → β → Prop} {m m' : M α} {f f' : α → M β} (h : Twins E net Eq m m')
    (hf : ∀ a, Twins E net Q (f a) (f' a)) : Twins E net Q (m >>= f) (m' >>= f') := andThen h fun a _ e => e ▸ hf a

theorem get {Q : β → β → Prop} {f f' : Socket → M β} (hf : ∀ s, s.Established → Twins E net Q (f s) (f' s)) :
    Twins E net Q (getS >>= f) (getS >>= f') := by
  intro w w' hw
  show SameRes Q (f w.s w).1 (f' w'.s w').1 ∧ Twin E net (f w.s w).2 (f' w'.s w').2
  rw [hw.same.s]
  exact hf w.s hw.est w w' hw

theorem modS {f : Socket → Socket} (hf : ∀ s, s.Established → (f s).Established) : Twins E net Eq (M.modS f) (M.modS f) := by
  intro w w' hw
  refine ⟨.ok rfl, ⟨?_, hw.same.nNow, hw.same.nRand, hw.same.nNet, hw.same.nSnd, hw.same.log⟩, hf _ hw.est⟩
  show f w'.s = f w.s
  rw [hw.same.s]

theorem orPanic (o : Option α) : Twins E net Eq (M.orPanic o) (M.orPanic o) := by
  cases o with
  | none => exact fun _ _ hw => ⟨.panic, hw⟩
  | some a => exact ret rfl

theorem orPanicP {P : α → Prop} {o : Option α} (h : ∀ a, o = some a → P a) :
    Twins E net (fun a a' => a = a' ∧ P a) (M.orPanic o) (M.orPanic o) := by
  cases o with
  | none => exact fun _ _ hw => ⟨.panic, hw⟩
  | some a => exact ret ⟨rfl, h a rfl⟩

theorem overflowIf (b : Bool) : Twins E net Eq (M.overflowIf E b) (M.overflowIf (E.withNet net) b) := by
  show Twins E net Eq (M.overflowIf E b) (M.overflowIf E b)
  unfold M.overflowIf
  split
  · exact fun _ _ hw => ⟨.panic, hw⟩
  · exact ret rfl

theorem now : Twins E net Eq (M.now E) (M.now (E.withNet net)) := by
  intro w w' hw
  obtain ⟨h, he⟩ := hw
  refine ⟨?_, ⟨h.s, congrArg (· + 1) h.nNow, h.nRand, h.nNet, h.nSnd, h.log⟩, he⟩
  show SameRes Eq (.ok (E.now w.nNow)) (.ok (E.now w'.nNow))
  rw [h.nNow]; exact .ok rfl

theorem ignoreErr {R : α → α → Prop} {m m' : M α} (h : Twins E net R m m') : Twins E net Eq (M.ignoreErr m) (M.ignoreErr m') := by
  intro w w' hw
  obtain ⟨h1, h2⟩ := h w w' hw
  unfold M.ignoreErr
  rcases e : m w with ⟨r, v⟩
  rcases e' : m' w' with ⟨r', v'⟩
  rw [e, e'] at h1 h2
  cases h1 with
  | ok ha => exact ⟨.ok rfl, h2⟩
  | err e => exact ⟨.ok rfl, h2⟩
  | panic => exact ⟨.panic, h2⟩
  | pending => exact ⟨.pending, h2⟩

theorem udpSend {a a' : Addr} (ha : Renamed E net a a') (b : Bytes) : Twins E net Eq (M.udpSend E a b) (M.udpSend (E.withNet net) a' b) := by
  intro w w' hw
  obtain ⟨h, he⟩ := hw
  have key : ∀ ok, Twin E net { w with nSnd := w.nSnd + 1, log := w.log ++ [.send a b ok] } { w' with nSnd := w'.nSnd + 1, log := w'.log ++ [.send a' b ok] } := fun ok =>
    ⟨⟨h.s, h.nNow, h.nRand, h.nNet, congrArg (· + 1) h.nSnd, List.rel_append h.log (.cons (.send b ok ha) .nil)⟩, he⟩
  unfold M.udpSend
  simp only
  rw [show (E.withNet net).snd w'.nSnd = E.snd w.nSnd by rw [h.nSnd]; rfl]
  rcases E.snd w.nSnd with _ | k | _
  · exact ⟨.ok rfl, key _⟩
  · exact ⟨.err _, key _⟩
  · exact ⟨.pending, key _⟩

/-- The same outcome of a receive, but for a renamed source address. -/
def SameGot (E : Env) (net : Nat → NetEvent) : Except ErrorKind (Bytes × Addr) → Except ErrorKind (Bytes × Addr) → Prop
  | .ok x, .ok x' => SameFrom E net x x'
  | .error k, .error k' => k = k'
  | _, _ => False

theorem udpRecv (hN : ∀ k, (net k).content = (E.net k).content) (t : Option U64) (len : Nat) :
    Twins E net (SameGot E net) (M.udpRecv E t len) (M.udpRecv (E.withNet net) t len) := by
  intro w w' hw
  obtain ⟨h, he⟩ := hw
  have key : Twin E net { w with nNet := w.nNet + 1, log := w.log ++ [.wait t] } { w' with nNet := w'.nNet + 1, log := w'.log ++ [.wait t] } :=
    ⟨⟨h.s, h.nNow, h.nRand, congrArg (· + 1) h.nNet, h.nSnd, List.rel_append h.log (.cons (.wait t) .nil)⟩, he⟩
  unfold M.udpRecv
  simp only
  have e : (E.withNet net).net w'.nNet = net w.nNet := by rw [h.nNet]; rfl
  rw [e]
  have hk := hN w.nNet
  rcases h1 : E.net w.nNet with ⟨b, a⟩ | k | _ <;> rcases h2 : net w.nNet with ⟨b', a'⟩ | k' | _ <;> rw [h1, h2] at hk <;> cases hk
  · exact ⟨.ok ⟨rfl, .inr ⟨_, _, _, h1, h2⟩⟩, key⟩
  · exact ⟨.ok rfl, key⟩
  · exact ⟨.pending, key⟩

theorem whileM {c c' : M Bool} {b b' : M Unit} (hc : Twins E net Eq c c') (hb : Twins E net Eq b b') :
    ∀ n, Twins E net Eq (M.whileM n c b) (M.whileM n c' b')
  | 0 => never
  | n + 1 => by
    refine andThen hc ?_
    rintro go _ rfl
    cases go with
    | true => exact andThen hb fun _ _ _ => whileM hc hb n
    | false => exact ret rfl

end Twins

theorem Renamed.refl (a : Addr) : Renamed E net a a := .inl rfl

theorem Socket.Established.same {s s' : Socket} (h : s.Established) (e : s'.state = s.state) : s'.Established := by
  unfold Socket.Established at *; rwa [e]

open Twins in
theorem twins_flushIncoming (len : Nat) : Twins E net Eq (flushIncoming E len) (flushIncoming (E.withNet net) len) := by
  unfold flushIncoming
  refine get fun s _ => ?_
  split
  · exact seqE (modS fun s hs => hs.same (takePending_state s len)) fun _ => pure rfl
  · split
    · exact pure rfl
    · refine seqE (overflowIf _) fun _ => ?_
      split
      · exact seqE (orPanic _) fun pl => seqE (modS fun s hs => hs.same (takeHead_state s pl len)) fun _ => pure rfl
      · exact pure rfl

open Twins in
theorem twins_timeout : Twins E net Eq (handleReceiveTimeout E) (handleReceiveTimeout (E.withNet net)) := by
  have hf : Twins E net Eq (fastResendOne E) (fastResendOne (E.withNet net)) :=
    get fun s _ => seqE now fun t => ignoreErr (udpSend (.refl _) _)
  unfold handleReceiveTimeout
  refine get fun s _ => seqE (overflowIf _) fun _ => seqE (modS fun s hs => hs.same rfl) fun _ => ?_
  split
  · split
    · exact seqE now fun t => udpSend (.refl _) _
    · split
      · exact seqE hf fun _ => seqE hf fun _ => hf
      · exact pure rfl
  · exact seqE now fun t => seqE (modS fun s hs => hs.same rfl) fun _ => udpSend (.refl _) _

open Twins in
theorem twins_recvWait (hN : ∀ k, (net k).content = (E.net k).content) :
    ∀ fuel retries, Twins E net (SameFrom E net) (recvWait E fuel retries) (recvWait (E.withNet net) fuel retries)
  | 0, _ => never
  | fuel + 1, retries => by
    unfold recvWait
    refine get fun s _ => ?_
    split
    · exact seqE (modS fun s hs => ⟨by simp, by simp⟩) fun _ => throw _
    · refine seq (udpRecv hN _ _) fun r r' hr => ?_
      rcases r with k | x <;> rcases r' with k' | x'
      · cases hr
        dsimp only
        split
        · exact seqE twins_timeout fun _ => twins_recvWait hN fuel _
        · exact throw _
      · exact hr.elim
      · exact hr.elim
      · exact pure hr

section
variable {rec rec' : M (Bytes × Addr)} (hr : Twins E net (SameFrom E net) rec rec')
include hr
open Twins

theorem twins_sendPacket (fuel : Nat) (p : Packet) : Twins E net Eq (sendPacket E fuel rec p) (sendPacket (E.withNet net) fuel rec' p) := by
  unfold sendPacket
  refine get fun s _ => seqE now fun t => seqE (whileM ?_ (andThen hr fun _ _ _ => ret rfl) _) fun _ => get fun s _ => ?_
  · refine get fun s1 _ => ?_
    generalize (if (if s.remoteWnd < s.cwnd then s.remoteWnd else s.cwnd) < MIN_WND then MIN_WND
      else (if s.remoteWnd < s.cwnd then s.remoteWnd else s.cwnd)) = m
    by_cases h : m ≤ s1.currWindow
    · rw [if_pos h, if_pos h]; exact seqE now fun t => pure rfl
    · rw [if_neg h, if_neg h]; exact pure rfl
  · split
    · exact pure rfl
    · exact seqE now fun t => seqE (udpSend (.refl _) _) fun _ => pure rfl

theorem twins_resendLost (fuel : Nat) (nr : U16) : Twins E net Eq (resendLost E fuel rec nr) (resendLost (E.withNet net) fuel rec' nr) := by
  unfold resendLost
  refine get fun s _ => ?_
  split
  · exact pure rfl
  · exact ignoreErr (twins_sendPacket hr _ _)

theorem twins_resendMissing (fuel : Nat) (ack last : U16) :
    ∀ bits loss, Twins E net Eq (resendMissing E fuel rec ack last bits loss) (resendMissing (E.withNet net) fuel rec' ack last bits loss) := by
  intro bits
  induction bits with
  | nil => intro loss; exact pure rfl
  | cons x rest ih =>
    intro loss
    obtain ⟨idx, received⟩ := x
    unfold resendMissing
    split
    · exact ih _
    · refine seqE (overflowIf _) fun _ => ?_
      dsimp only
      split
      · exact seqE (twins_resendLost hr _ _) fun _ => ih _
      · exact pure rfl

theorem twins_processExtensions (fuel : Nat) (ack : U16) :
    ∀ exts loss, Twins E net Eq (processExtensions E fuel rec ack exts loss) (processExtensions (E.withNet net) fuel rec' ack exts loss) := by
  intro exts
  induction exts with
  | nil => intro loss; exact pure rfl
  | cons e rest ih =>
    intro loss
    unfold processExtensions
    split
    · refine seqE ?_ fun loss1 => get fun s _ => ?_
      · unfold resendFirst
        split
        · exact seqE (overflowIf _) fun _ => seqE (twins_resendLost hr _ _) fun _ => pure rfl
        · exact pure rfl
      · split
        · exact ih _
        · exact seqE (orPanic _) fun bits => seqE (twins_resendMissing hr _ _ _ _ _) fun _ => ih _
    · exact ih _

omit hr in
theorem subLens_withNet : ∀ (l : List Packet) (c : U32), Socket.subLens (E.withNet net) c l = Socket.subLens E c l
  | [], _ => rfl
  | p :: l, c => by
    unfold Socket.subLens
    simp only [subLens_withNet l]
    rfl

omit hr in
theorem advanceSendWindow_withNet (s : Socket) : s.advanceSendWindow (E.withNet net) = s.advanceSendWindow E := by
  unfold Socket.advanceSendWindow
  simp only [subLens_withNet]

theorem twins_handleState (fuel : Nat) (pkt : Packet) : Twins E net Eq (handleState E fuel rec pkt) (handleState (E.withNet net) fuel rec' pkt) := by
  unfold handleState
  refine seqE ?_ fun _ => seqE ?_ fun _ => get fun s _ => seqE (orPanic _) fun exts => seqE (twins_processExtensions hr _ _ _ _) fun loss =>
    seqE ?_ fun _ => seqE (modS ?_) fun _ => get fun s hs => ?_
  · unfold countAck
    refine get fun s _ => ?_
    split
    · exact seqE (overflowIf _) fun _ => modS fun s hs => hs.same rfl
    · exact seqE now fun t => modS fun s hs => hs.same rfl
  · unfold measureAck
    refine get fun s hs => ?_
    split
    · exact pure rfl
    · refine seqE now fun t => seqE (orPanic _) fun p => seq (orPanicP (P := Socket.Established) fun s' e => hs.same (onNewAck_state e)) ?_
      rintro s' _ ⟨rfl, h⟩
      exact modS fun _ _ => h
  · unfold fastRetransmit
    refine get fun s _ => ?_
    split
    · exact seqE (overflowIf _) fun _ => twins_resendLost hr _ _
    · exact pure rfl
  · intro s hs
    split
    · exact hs.same rfl
    · exact hs
  · simp only [advanceSendWindow_withNet]
    refine seq (orPanicP (P := Socket.Established) fun s' e => hs.same (advanceSendWindow_state e)) ?_
    rintro s' _ ⟨rfl, h⟩
    exact modS fun _ _ => h

omit hr in
theorem twins_withSack (s : Socket) (pkt reply : Packet) : Twins E net Eq (withSack E s pkt reply) (withSack (E.withNet net) s pkt reply) := by
  unfold withSack
  split
  · refine seqE (orPanic _) fun sack => ?_
    split
    · exact orPanic _
    · exact pure rfl
  · exact pure rfl

omit hr in
theorem twins_handleData (pkt : Packet) : Twins E net Eq (handleData E pkt) (handleData (E.withNet net) pkt) :=
  get fun _ _ => seqE now fun _ => twins_withSack _ _ _

omit hr in
theorem twins_replyWith (pkt : Packet) (ty : PacketType) : Twins E net Eq (replyWith E pkt ty) (replyWith (E.withNet net) pkt ty) :=
  get fun _ _ => seqE now fun _ => pure rfl

omit hr in
theorem twins_onFin (pkt : Packet) : Twins E net Eq (onFin E pkt) (onFin (E.withNet net) pkt) :=
  get fun _ _ => seqE now fun _ => seqE (twins_withSack _ _ _) fun _ => seqE (modS fun s _ => ⟨by simp, by simp⟩) fun _ => pure rfl

omit hr in
theorem twins_onReset : Twins E net Eq onReset onReset := seqE (modS fun s _ => ⟨by simp, by simp⟩) fun _ => throw _

omit hr in
theorem twins_onFinAck (pkt : Packet) : Twins E net Eq (onFinAck pkt) (onFinAck pkt) :=
  seqE (modS fun s hs => by split; exact ⟨by simp, by simp⟩; exact hs) fun _ => pure rfl

theorem twins_dispatch (fuel : Nat) (pkt : Packet) (src src' : Addr) {st : SocketState} (h1 : st ≠ .new) (h2 : st ≠ .synSent) (ty : PacketType) :
    Twins E net Eq (dispatch E fuel rec pkt src st ty) (dispatch (E.withNet net) fuel rec' pkt src' st ty) := by
  unfold dispatch
  split
  · exact absurd rfl h1
  · exact twins_replyWith _ _
  · exact absurd rfl h2
  · exact absurd rfl h2
  · exact seqE (twins_handleData _) fun _ => pure rfl
  · exact seqE (twins_handleData _) fun _ => pure rfl
  · exact seqE (twins_handleState hr _ _) fun _ => pure rfl
  · exact twins_onFin _
  · exact twins_onFin _
  · exact twins_replyWith _ _
  · exact twins_onFinAck _
  · exact twins_onReset
  · exact throw _

theorem twins_handlePacket (fuel : Nat) (pkt : Packet) (src src' : Addr) :
    Twins E net Eq (handlePacket E fuel rec pkt src) (handlePacket (E.withNet net) fuel rec' pkt src') := by
  unfold handlePacket
  refine seqE (modS fun s hs => hs.same (by unfold Socket.bumpAck; split <;> rfl)) fun _ => get fun s hs => seqE (orPanic _) fun ty => ?_
  split
  · exact twins_replyWith _ _
  · exact seqE now fun t => seqE (modS fun s hs => hs.same rfl) fun _ => twins_dispatch hr _ _ _ _ hs.1 hs.2 _

end

section
variable (hN : ∀ k, (net k).content = (E.net k).content)
include hN
open Twins

theorem twins_recv : ∀ fuel len, Twins E net (SameFrom E net) (recv E fuel len) (recv (E.withNet net) fuel len)
  | 0, _ => never
  | fuel + 1, len => by
    unfold recv recvBody
    refine seq (twins_recvWait hN _ _) fun x x' hx => ?_
    obtain ⟨b, src⟩ := x
    obtain ⟨b', src'⟩ := x'
    obtain ⟨e, hs⟩ := hx
    simp only at e
    subst e
    refine seqE (orPanic _) fun r => ?_
    split
    · exact get fun s _ => pure ⟨rfl, .refl _⟩
    · unfold recvPacket
      refine seqE (twins_handlePacket (twins_recv fuel _) _ _ _ _) fun reply => seqE ?_ fun _ => seqE (orPanic _) fun ty => seqE (modS ?_) fun _ =>
        seqE (twins_flushIncoming _) fun out => pure ⟨rfl, hs⟩
      · cases reply with
        | none => exact pure rfl
        | some p => exact udpSend hs _
      · intro s hs
        split
        · exact hs.same rfl
        · exact hs

theorem twins_recvFromLoop (fuel len : Nat) : ∀ n, Twins E net (SameFrom E net) (recvFromLoop E fuel len n) (recvFromLoop (E.withNet net) fuel len n)
  | 0 => never
  | n + 1 => by
    unfold recvFromLoop
    refine get fun s _ => ?_
    split
    · exact pure ⟨rfl, .refl _⟩
    · refine seq (twins_recv hN _ _) fun x x' hx => ?_
      obtain ⟨b, src⟩ := x
      obtain ⟨b', src'⟩ := x'
      obtain ⟨e, hs⟩ := hx
      simp only at e
      subst e
      dsimp only
      split
      · exact twins_recvFromLoop fuel len n
      · exact pure ⟨rfl, hs⟩

theorem twins_sendQueue (fuel : Nat) : ∀ n, Twins E net Eq (sendQueue E fuel n) (sendQueue (E.withNet net) fuel n)
  | 0 => never
  | n + 1 => by
    unfold sendQueue
    refine get fun s _ => ?_
    split
    · exact pure rfl
    · exact seqE (modS fun s hs => hs.same rfl) fun _ => seqE (twins_sendPacket (twins_recv hN _ _) _ _) fun p => get fun s _ => seqE (overflowIf _) fun _ =>
        seqE (modS fun s hs => hs.same rfl) fun _ => twins_sendQueue fuel n

theorem twins_scratchRecv (fuel : Nat) : Twins E net Eq (scratchRecv E fuel) (scratchRecv (E.withNet net) fuel) :=
  seq (twins_recv hN _ _) fun _ _ _ => pure rfl

theorem twins_flush (fuel : Nat) : Twins E net Eq (flush E fuel) (flush (E.withNet net) fuel) :=
  whileM (get fun _ _ => pure rfl) (twins_scratchRecv hN fuel) _

theorem twins_close (fuel : Nat) : Twins E net Eq (close E fuel) (close (E.withNet net) fuel) := by
  unfold close
  refine get fun s _ => ?_
  split
  · exact pure rfl
  · exact seqE (twins_flush hN _) fun _ => get fun s _ => seqE now fun t => seqE (udpSend (.refl _) _) fun _ =>
      seqE (modS fun s _ => ⟨by simp, by simp⟩) fun _ => whileM (get fun _ _ => pure rfl) (twins_scratchRecv hN fuel) _

/-- The same value, but for a renamed source address. -/
def SameVal (E : Env) (net : Nat → NetEvent) (a a' : Out) : Prop := SameOut E net (.ok a) (.ok a')

theorem twins_runOp (fuel : Nat) (op : Op) : Twins E net (SameVal E net) (runOp E fuel op) (runOp (E.withNet net) fuel op) := by
  cases op with
  | recvFrom len =>
    refine seq (R := SameFrom E net) ?_ fun x x' hx => ?_
    · unfold recvFrom
      refine seqE (twins_flushIncoming _) fun out => get fun s _ => ?_
      split
      · exact pure ⟨rfl, .refl _⟩
      · split
        · exact throw _
        · exact twins_recvFromLoop hN _ _ _
    · obtain ⟨b, src⟩ := x
      obtain ⟨b', src'⟩ := x'
      obtain ⟨e, hs⟩ := hx
      simp only at e
      subst e
      exact pure (.bytes _ hs)
  | sendTo buf =>
    refine seqE ?_ fun _ => pure (.refl _)
    unfold sendTo
    refine get fun s _ => ?_
    split
    · exact throw _
    · exact seqE (modS fun s hs => hs.same (enqueue_conn _ s).1) fun _ => seqE (twins_sendQueue hN _ _) fun _ => pure rfl
  | flush => exact seqE (twins_flush hN _) fun _ => pure (.refl _)
  | close => exact seqE (twins_close hN _) fun _ => pure (.refl _)
  | setMaxRetries n => exact seqE (modS fun s hs => hs.same rfl) fun _ => pure (.refl _)

end

end Utp
