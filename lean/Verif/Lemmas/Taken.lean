import Verif.Lemmas.Deliver
import Verif.Lemmas.Buffer
/-!
# A packet of the connection arrives at a socket that only reads
-/

namespace Utp
open M

variable {E : Env}

/-- The computation panics, or returns a value and a world that satisfy `Q`. -/
def Oks {α : Type} (m : M α) (w : World) (Q : α → World → Prop) : Prop := (m w).1 = .panic ∨ ∃ a u, m w = (.ok a, u) ∧ Q a u

theorem Oks.ret {α : Type} {a : α} {w : World} {Q : α → World → Prop} (h : Q a w) : Oks (M.ret a) w Q := .inr ⟨a, w, rfl, h⟩

theorem Oks.bind {α β : Type} {m : M α} {f : α → M β} {w : World} {Q : α → World → Prop} {R : β → World → Prop} (h : Oks m w Q)
    (h' : ∀ a u, Q a u → Oks (f a) u R) : Oks (m >>= f) w R := by
  rw [bind_def]
  rcases h with h | ⟨a, u, h, hq⟩
  · left
    generalize hg : m w = x at h
    obtain ⟨x1, x2⟩ := x
    simp only at h
    subst h
    rw [andThen_eq_panic hg]
  · have := h' a u hq
    unfold Oks at this ⊢
    rw [andThen_eq h]
    exact this

theorem Oks.overflowIf {c : Bool} {w : World} {Q : Unit → World → Prop} (h : Q () w) : Oks (M.overflowIf E c) w Q := by
  unfold M.overflowIf
  split
  · exact .inl rfl
  · exact .ret h

theorem Oks.orPanic {α : Type} {x : Option α} {w : World} {Q : α → World → Prop} (h : ∀ a, x = some a → Q a w) : Oks (M.orPanic x) w Q := by
  cases x with
  | none => exact .inl rfl
  | some a => exact .ret (h a rfl)

theorem Oks.getS {w : World} {Q : Socket → World → Prop} (h : Q w.s w) : Oks M.getS w Q := .inr ⟨_, _, rfl, h⟩

theorem Oks.modS {f : Socket → Socket} {w : World} {Q : Unit → World → Prop} (h : Q () (w.setS (f w.s))) : Oks (M.modS f) w Q := .inr ⟨_, _, rfl, h⟩

theorem Oks.now {w : World} {Q : U32 → World → Prop} (h : Q (E.now w.nNow) { w with nNow := w.nNow + 1 }) : Oks (M.now E) w Q := .inr ⟨_, _, rfl, h⟩

/-- What a State packet may change when nothing is outstanding. -/
def Idled (w v : World) : Prop :=
  v.s = { w.s with lastAcked := v.s.lastAcked, lastAckedTs := v.s.lastAckedTs, dupAcks := v.s.dupAcks, cwnd := v.s.cwnd } ∧ v.nNet = w.nNet ∧ v.nSnd = w.nSnd

theorem resendLost_idle {w : World} (hw : w.s.sendWindow = []) (fuel : Nat) (rec : M (Bytes × Addr)) (nr : U16) : resendLost E fuel rec nr w = (.ok (), w) := by
  unfold resendLost
  msimp
  rw [hw]
  rfl

theorem extensions_idle {w : World} (hw : w.s.sendWindow = []) (fuel : Nat) (rec : M (Bytes × Addr)) (ack : U16) :
    ∀ (exts : List Extension) (loss : Bool), Oks (processExtensions E fuel rec ack exts loss) w fun _ u => w = u
  | [], _ => .ret rfl
  | e :: rest, loss => by
    unfold processExtensions
    split
    · refine .bind (Q := fun _ u => w = u) ?_ fun loss' u hu => ?_
      · unfold resendFirst
        split
        · refine .bind (.overflowIf (Q := fun _ u => w = u) rfl) fun _ u hu => ?_
          subst hu
          exact .bind (Q := fun _ v => w = v) (.inr ⟨_, _, resendLost_idle hw fuel rec _, rfl⟩) fun _ _ h => .ret h
        · exact .ret rfl
      · subst hu
        refine .bind (Q := fun s v => s = w.s ∧ w = v) (.getS ⟨rfl, rfl⟩) ?_
        rintro _ _ ⟨rfl, rfl⟩
        rw [hw]
        exact extensions_idle hw fuel rec ack rest loss'
    · exact extensions_idle hw fuel rec ack rest loss

/-- A State packet arrives when nothing is outstanding. -/
theorem handleState_idle {w : World} (hw : w.s.sendWindow = []) (fuel : Nat) (rec : M (Bytes × Addr)) (pkt : Packet) :
    Oks (handleState E fuel rec pkt) w fun _ v => Idled w v := by
  unfold handleState
  refine .bind (Q := fun _ v => Idled w v) ?_ fun _ w1 h1 => ?_
  · unfold countAck
    refine .bind (Q := fun s v => s = w.s ∧ w = v) (.getS ⟨rfl, rfl⟩) ?_
    rintro _ _ ⟨rfl, rfl⟩
    split
    · refine .bind (.overflowIf (Q := fun _ v => w = v) rfl) ?_
      rintro _ _ rfl
      exact .modS ⟨rfl, rfl, rfl⟩
    · refine .bind (.now (Q := fun _ v => v = { w with nNow := w.nNow + 1 }) rfl) ?_
      rintro _ _ rfl
      exact .modS ⟨rfl, rfl, rfl⟩
  have hw1 : w1.s.sendWindow = [] := by rw [h1.1]; exact hw
  refine .bind (Q := fun _ v => w1 = v) ?_ ?_
  · unfold measureAck
    refine .bind (Q := fun s v => s = w1.s ∧ w1 = v) (.getS ⟨rfl, rfl⟩) ?_
    rintro _ _ ⟨rfl, rfl⟩
    rw [hw1]
    exact .ret rfl
  rintro _ _ rfl
  refine .bind (Q := fun s v => s = w1.s ∧ w1 = v) (.getS ⟨rfl, rfl⟩) ?_
  rintro _ _ ⟨rfl, rfl⟩
  refine .bind (.orPanic (Q := fun _ v => w1 = v) fun _ _ => rfl) ?_
  rintro exts _ rfl
  refine .bind (extensions_idle hw1 fuel rec pkt.ackNr exts _) ?_
  rintro loss _ rfl
  refine .bind (Q := fun _ v => w1 = v) ?_ ?_
  · unfold fastRetransmit
    refine .bind (Q := fun s v => s = w1.s ∧ w1 = v) (.getS ⟨rfl, rfl⟩) ?_
    rintro _ _ ⟨rfl, rfl⟩
    rw [if_neg (by simp [hw1])]
    exact .ret rfl
  rintro _ _ rfl
  refine .bind (Q := fun _ v => Idled w v) (.modS ?_) fun _ w2 h2 => ?_
  · split
    · exact ⟨by rw [setS_s, h1.1]; rfl, h1.2⟩
    · exact h1
  have hw2 : w2.s.sendWindow = [] := by rw [h2.1]; exact hw
  refine .bind (Q := fun s v => s = w2.s ∧ w2 = v) (.getS ⟨rfl, rfl⟩) ?_
  rintro _ _ ⟨rfl, rfl⟩
  have ha : w2.s.advanceSendWindow E = some w2.s := by unfold Socket.advanceSendWindow; rw [hw2]; rfl
  rw [ha]
  refine .bind (.orPanic (Q := fun s v => s = w2.s ∧ w2 = v) fun s hs => ⟨(Option.some.inj hs).symm, rfl⟩) ?_
  rintro _ _ ⟨rfl, rfl⟩
  exact .modS h2

theorem Oks.withSack (s : Socket) (pkt reply : Packet) {w : World} {Q : Packet → World → Prop} (h : ∀ r, Q r w) : Oks (Utp.withSack E s pkt reply) w Q := by
  unfold Utp.withSack
  split
  · refine .bind (.orPanic (Q := fun _ v => w = v) fun _ _ => rfl) ?_
    rintro sack _ rfl
    split
    · exact .orPanic fun r _ => h r
    · exact .ret (h _)
  · exact .ret (h _)

/-- What the arrival of a packet of type `ty` changes, up to its insertion into the buffer. -/
structure Took (w v : World) (pkt : Packet) (ty : PacketType) : Prop where
  incoming : v.s.incoming = w.s.incoming
  dropped : v.s.lastDropped = w.s.lastDropped
  pending : v.s.pending = w.s.pending
  ids : v.s.senderId = w.s.senderId ∧ v.s.receiverId = w.s.receiverId
  ack : v.s.ackNr = (w.s.bumpAck pkt).ackNr
  state : v.s.state = if ty = .fin then .closed else w.s.state
  window : v.s.sendWindow = w.s.sendWindow
  net : v.nNet = w.nNet

/-- A data packet, FIN or SYN, or a State packet when nothing is outstanding, arrives on an open connection. -/
theorem recvPacket_taken {w : World} {pkt : Packet} {ty : PacketType} (hst : w.s.state = .connected) (hty : pkt.getType = some ty) (hid : w.s.takes pkt ty)
    (hdf : ty = .data ∨ ty = .fin ∨ ty = .syn ∨ ty = .state ∧ w.s.sendWindow = []) (hok : ∀ n, E.snd n = .ok) (f len : Nat) (rec : M (Bytes × Addr)) (a : Addr) :
    (recvPacket E f rec len pkt a w).1 = .panic ∨
      ∃ v : World, recvPacket E f rec len pkt a w = M.andThen (flushIncoming E len) (fun out => M.ret (out, a)) (v.setS (v.s.keep ty pkt)) ∧ Took w v pkt ty := by
  have hh := handlePacket_takes (E := E) hty hid f rec a
  obtain ⟨v, hv⟩ : ∃ v, v = w.heard E pkt := ⟨_, rfl⟩
  rw [hst, ← hv] at hh
  have hvs : v.s = { w.s.bumpAck pkt with remoteWnd := v.s.remoteWnd, theirDelay := v.s.theirDelay } := by rw [hv]; rfl
  have hvst : v.s.state = .connected := by rw [hvs]; simpa using hst
  have hvn : v.nNet = w.nNet := by rw [hv]; rfl
  have hvw : v.s.sendWindow = w.s.sendWindow := by rw [hvs]; simp
  have took : ∀ v' : World, v'.s = { v.s with state := v'.s.state, lastAcked := v'.s.lastAcked, lastAckedTs := v'.s.lastAckedTs, dupAcks := v'.s.dupAcks, cwnd := v'.s.cwnd } →
      v'.s.state = (if ty = .fin then .closed else w.s.state) → v'.nNet = v.nNet → Took w v' pkt ty := by
    intro v' h1 h2 h3
    rw [hvs] at h1
    exact ⟨by rw [h1]; simp, by rw [h1]; simp, by rw [h1]; simp, ⟨by rw [h1]; simp, by rw [h1]; simp⟩, by rw [h1], h2, by rw [h1]; simp, h3.trans hvn⟩
  have hd : Oks (handlePacket E f rec pkt a) w fun _ v' => Took w v' pkt ty := by
    suffices h : Oks (dispatch E f rec pkt a .connected ty) v fun _ v' => Took w v' pkt ty by
      unfold Oks at h ⊢
      rw [hh]
      exact h
    rcases hdf with rfl | rfl | rfl | ⟨rfl, hwin⟩
    · unfold dispatch handleData
      refine .bind (Q := fun _ v' => Took w v' pkt .data) ?_ fun _ _ h => .ret h
      refine .bind (Q := fun s v' => v = v') (.getS rfl) ?_
      rintro s _ rfl
      refine .bind (.now (Q := fun _ v' => v' = { v with nNow := v.nNow + 1 }) rfl) ?_
      rintro _ _ rfl
      exact .withSack _ _ _ fun r => took _ rfl (by simp [hvst, hst]) rfl
    · unfold dispatch onFin
      refine .bind (Q := fun s v' => v = v') (.getS rfl) ?_
      rintro s _ rfl
      refine .bind (.now (Q := fun _ v' => v' = { v with nNow := v.nNow + 1 }) rfl) ?_
      rintro _ _ rfl
      refine .bind (.withSack (Q := fun _ v' => v' = { v with nNow := v.nNow + 1 }) _ _ _ fun r => rfl) ?_
      rintro r _ rfl
      refine .bind (.modS (Q := fun _ v' => Took w v' pkt .fin) (took _ rfl (by simp) rfl)) fun _ _ h => .ret h
    · unfold dispatch replyWith
      refine .bind (Q := fun s v' => v = v') (.getS rfl) ?_
      rintro s _ rfl
      refine .bind (.now (Q := fun _ v' => v' = { v with nNow := v.nNow + 1 }) rfl) ?_
      rintro _ _ rfl
      exact .ret (took _ rfl (by simp [hvst, hst]) rfl)
    · unfold dispatch
      refine .bind (handleState_idle (hvw.trans hwin) f rec pkt) fun _ v' h => ?_
      refine .ret (took _ (by rw [h.1]) ?_ h.2.1)
      rw [h.1]
      simp [hvst, hst]
  rcases hd with h | ⟨r, v', h, hv'⟩
  · left
    unfold recvPacket
    rw [bind_def]
    generalize hg : handlePacket E f rec pkt a w = x at h
    obtain ⟨x1, x2⟩ := x
    simp only at h
    subst h
    rw [andThen_eq_panic hg]
  · right
    cases r with
    | none => exact ⟨v', recvPacket_eq h rfl hty len, hv'⟩
    | some r =>
      exact ⟨v'.answered a r, recvPacket_eq h (sendReply_some (hok _) a r) hty len,
        ⟨hv'.incoming, hv'.dropped, hv'.pending, hv'.ids, hv'.ack, hv'.state, hv'.window, hv'.net⟩⟩

end Utp
