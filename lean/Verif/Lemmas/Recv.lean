import Verif.Lemmas.Build
import Verif.Lemmas.Eval
/-!
# What one call of `recv` does
-/

namespace Utp
open M

variable {E : Env}

/-- What a timeout may change in the socket. -/
def TimeoutFrame (a b : World) : Prop :=
  b.nNet = a.nNet ∧ b.nRand = a.nRand ∧ ∃ sw ct cw, b.s = { a.s with sendWindow := sw, congTimeout := ct, cwnd := cw } ∧
    (a.s.sendWindow = [] → sw = []) ∧ sw.map Packet.seqNr = a.s.sendWindow.map Packet.seqNr

theorem TimeoutFrame.refl (a : World) : TimeoutFrame a a := ⟨rfl, rfl, _, _, _, rfl, fun h => h, rfl⟩

theorem TimeoutFrame.trans {a b c : World} (h : TimeoutFrame a b) (h' : TimeoutFrame b c) : TimeoutFrame a c := by
  obtain ⟨h1, h1', sw, ct, cw, h2, h3, h3'⟩ := h
  obtain ⟨g1, g1', sw', ct', cw', g2, g3, g3'⟩ := h'
  refine ⟨g1.trans h1, g1'.trans h1', sw', ct', cw', by rw [g2, h2], fun h => g3 ?_, ?_⟩
  · rw [h2]; exact h3 h
  · rw [g3', h2]; exact h3'

theorem fastResendOne_frame (w : World) : TimeoutFrame w (fastResendOne E w).2 ∧ ∀ e, (fastResendOne E w).1 ≠ .err e := by
  simp only [fastResendOne, bind_def, M.andThen, getS, M.now, ignoreErr, udpSend]
  cases E.snd w.nSnd <;> exact ⟨⟨rfl, rfl, _, _, _, rfl, fun h => h, rfl⟩, by simp⟩

theorem fastResendRequest_frame (w : World) : TimeoutFrame w (fastResendRequest E w).2 ∧ ∀ e, (fastResendRequest E w).1 ≠ .err e := by
  have h1 := fastResendOne_frame (E := E) w
  unfold fastResendRequest
  rw [bind_def]
  rcases hm : fastResendOne E w with ⟨r, w1⟩
  rw [hm] at h1
  cases r with
  | ok _ =>
    rw [andThen_eq hm, bind_def]
    have h2 := fastResendOne_frame (E := E) w1
    rcases hm2 : fastResendOne E w1 with ⟨r2, w2⟩
    rw [hm2] at h2
    cases r2 with
    | ok _ =>
      have h3 := fastResendOne_frame (E := E) w2
      rw [andThen_eq hm2]
      exact ⟨(h1.1.trans h2.1).trans h3.1, h3.2⟩
    | err e => exact absurd rfl (h2.2 e)
    | panic => rw [andThen_eq_panic hm2]; exact ⟨h1.1.trans h2.1, by simp⟩
    | pending => rw [andThen_pending hm2]; exact ⟨h1.1.trans h2.1, by simp⟩
  | err e => exact absurd rfl (h1.2 e)
  | panic => rw [andThen_eq_panic hm]; exact ⟨h1.1, by simp⟩
  | pending => rw [andThen_pending hm]; exact ⟨h1.1, by simp⟩

theorem handleReceiveTimeout_frame (w : World) : TimeoutFrame w (handleReceiveTimeout E w).2 ∧
    ∀ e, (handleReceiveTimeout E w).1 = .err e → ∃ k, e = .os k := by
  unfold handleReceiveTimeout overflowIf
  msimp
  split
  · exact ⟨.refl _, by simp⟩
  · rcases hw : w.s.sendWindow with _ | ⟨p, rest⟩
    · simp only
      msimp
      have h0 : ∀ n l m, TimeoutFrame w ⟨{ w.s with sendWindow := [], congTimeout := w.s.congTimeout * 2, cwnd := MSS }, n, w.nRand, w.nNet, m, l⟩ :=
        fun _ _ _ => ⟨rfl, rfl, _, _, _, rfl, fun _ => rfl, by simp [hw]⟩
      split
      · refine ⟨?_, udpSend_err _ _ _⟩
        rw [udpSend_snd]
        exact h0 _ _ _
      · split
        · refine ⟨TimeoutFrame.trans ?_ (fastResendRequest_frame _).1, fun e h => absurd h ((fastResendRequest_frame _).2 e)⟩
          exact h0 _ _ _
        · exact ⟨h0 _ _ _, by simp⟩
    · simp only
      msimp
      refine ⟨?_, udpSend_err _ _ _⟩
      rw [udpSend_snd]
      exact ⟨rfl, rfl, _, _, _, rfl, by simp [hw], by simp [hw]⟩

/-- What waiting for a packet may change. -/
structure WaitFrame (E : Env) (w : World) (r : Res (Bytes × Addr)) (w' : World) : Prop where
  socket : ∃ sw ct cw st, w'.s = { w.s with sendWindow := sw, congTimeout := ct, cwnd := cw, state := st } ∧
    (w.s.sendWindow = [] → sw = []) ∧ sw.map Packet.seqNr = w.s.sendWindow.map Packet.seqNr ∧
    (st ≠ w.s.state → st = .closed ∧ r = .err (.sock .connectionTimedOut))
  rand : w'.nRand = w.nRand
  net : w.nNet ≤ w'.nNet
  got : ∀ x, r = .ok x → ∃ k b, k + 1 = w'.nNet ∧ w.nNet ≤ k ∧ E.net k = .dgram b x.2 ∧ x.1 = b.take 1520
  errs : ∀ e, r = .err (.sock e) → e = .connectionTimedOut ∧ w'.s.state = .closed

theorem recvWait_frame : ∀ fuel retries (w : World),
    WaitFrame E w (recvWait E fuel retries w).1 (recvWait E fuel retries w).2 := by
  intro fuel
  induction fuel with
  | zero =>
    intro retries w
    exact ⟨⟨_, _, _, _, rfl, fun h => h, rfl, fun h => absurd rfl h⟩, rfl, Nat.le_refl _, by simp [recvWait, M.never], by simp [recvWait, M.never]⟩
  | succ n ih =>
    intro retries w
    unfold recvWait
    msimp
    split
    · exact ⟨⟨_, _, _, .closed, rfl, fun h => h, rfl, fun _ => ⟨rfl, rfl⟩⟩, rfl, Nat.le_refl _, by simp, by simp⟩
    · rename_i hlt
      rcases hn : E.net w.nNet with ⟨b, src⟩ | k | _
      case never =>
        rw [andThen_pending (udpRecv_never hn _ _)]
        exact ⟨⟨_, _, _, _, rfl, fun h => h, rfl, fun h => absurd rfl h⟩, rfl, Nat.le_succ _, by simp, by simp⟩
      case dgram =>
        rw [andThen_eq (udpRecv_dgram hn _ _)]
        simp only
        msimp
        refine ⟨⟨_, _, _, _, rfl, fun h => h, rfl, fun h => absurd rfl h⟩, rfl, Nat.le_succ _, ?_, by simp⟩
        intro x hx
        simp only [Res.ok.injEq] at hx
        subst hx
        exact ⟨w.nNet, b, rfl, Nat.le_refl _, hn, rfl⟩
      case fail =>
        rw [andThen_eq (udpRecv_fail hn _ _)]
        simp only
        msimp
        split
        · obtain ⟨w1, hw1⟩ : ∃ w1, w1 = w.waited (if w.s.state ≠ .new then some w.s.congTimeout else none) := ⟨_, rfl⟩
          rw [← hw1]
          have hf := handleReceiveTimeout_frame (E := E) w1
          have hw1s : w1.s = w.s := by rw [hw1]; rfl
          have hw1n : w1.nNet = w.nNet + 1 := by rw [hw1]; rfl
          have hw1r : w1.nRand = w.nRand := by rw [hw1]; rfl
          rcases hh : handleReceiveTimeout E w1 with ⟨r, w2⟩
          rw [hh] at hf
          obtain ⟨⟨f1, f1', sw, ct, cw, f2, f3, f3'⟩, f4⟩ := hf
          rw [hw1s] at f2 f3 f3'
          simp only at f1 f1' f2
          cases r with
          | ok _ =>
            rw [andThen_eq hh]
            obtain ⟨⟨sw', ct', cw', st, g1, g2, g3, g4⟩, g5, g6, g7, g8⟩ := ih (retries + 1) w2
            refine ⟨⟨sw', ct', cw', st, by rw [g1, f2], fun h => g2 (by rw [f2]; exact f3 h), ?_, ?_⟩, ?_, ?_, ?_, g8⟩
            · rw [g3, f2]; exact f3'
            · intro h; exact g4 (by rw [f2]; exact h)
            · rw [g5, f1', hw1r]
            · omega
            · intro x hx
              obtain ⟨k, b, h1, h2, h3⟩ := g7 x hx
              exact ⟨k, b, h1, by omega, h3⟩
          | err e =>
            obtain ⟨k, rfl⟩ := f4 e rfl
            rw [andThen_err hh]
            exact ⟨⟨sw, ct, cw, _, f2, f3, f3', fun h => absurd rfl h⟩, f1'.trans hw1r, by show w.nNet ≤ w2.nNet; omega, by simp, by simp⟩
          | panic =>
            rw [andThen_eq_panic hh]
            exact ⟨⟨sw, ct, cw, _, f2, f3, f3', fun h => absurd rfl h⟩, f1'.trans hw1r, by show w.nNet ≤ w2.nNet; omega, by simp, by simp⟩
          | pending =>
            rw [andThen_pending hh]
            exact ⟨⟨sw, ct, cw, _, f2, f3, f3', fun h => absurd rfl h⟩, f1'.trans hw1r, by show w.nNet ≤ w2.nNet; omega, by simp, by simp⟩
        · exact ⟨⟨_, _, _, _, rfl, fun h => h, rfl, fun h => absurd rfl h⟩, rfl, Nat.le_succ _, by simp, by simp⟩

/-- The socket after the packet was handled: a data packet is put into the buffer unless it was just dropped. -/
def Socket.keep (s : Socket) (ty : PacketType) (pkt : Packet) : Socket :=
  if ty = .data ∧ 0 < (pkt.seqNr - s.lastDropped).toNat then s.insertIntoBuffer pkt else s

theorem recv_inv {fuel len : Nat} {w w' : World} {out : Bytes} {src : Addr} (h : recv E fuel len w = (.ok (out, src), w')) :
    ∃ f b a w1, fuel = f + 1 ∧ recvWait E f 0 w = (.ok (b, a), w1) ∧
      ((∃ e, Packet.tryFrom b = some (.error e) ∧ out = [] ∧ w' = w1) ∨
       ∃ pkt reply w2 w3 ty, Packet.tryFrom b = some (.ok pkt) ∧
        handlePacket E f (recv E f BUF_SIZE) pkt a w1 = (.ok reply, w2) ∧ sendReply E a reply w2 = (.ok (), w3) ∧
        pkt.getType = some ty ∧ flushIncoming E len (w3.setS (w3.s.keep ty pkt)) = (.ok out, w')) := by
  cases fuel with
  | zero => simp [recv, M.never] at h
  | succ f =>
    unfold recv recvBody at h
    rw [bind_def] at h
    obtain ⟨⟨b, a⟩, w1, h1, h⟩ := andThen_ok h
    refine ⟨f, b, a, w1, rfl, h1, ?_⟩
    simp only [bind_def] at h
    obtain ⟨x, w2, h2, h⟩ := andThen_ok h
    rcases hp : Packet.tryFrom b with _ | y
    · rw [hp] at h2; simp [orPanic, M.panic] at h2
    · rw [hp] at h2
      simp only [some_run, Prod.mk.injEq, Res.ok.injEq] at h2
      obtain ⟨rfl, rfl⟩ := h2
      cases y with
      | error e =>
        simp only at h
        msimp at h
        simp only [Prod.mk.injEq, Res.ok.injEq] at h
        exact .inl ⟨e, rfl, h.1.1.symm, h.2.symm⟩
      | ok pkt =>
        refine .inr ?_
        simp only at h
        unfold recvPacket at h
        simp only [bind_def] at h
        obtain ⟨reply, w2, h2, h⟩ := andThen_ok h
        obtain ⟨_, w3, h3, h⟩ := andThen_ok h
        obtain ⟨ty, w4, h4, h⟩ := andThen_ok h
        rcases ht : pkt.getType with _ | ty'
        · rw [ht] at h4; simp [orPanic, M.panic] at h4
        · rw [ht] at h4
          simp only [some_run, Prod.mk.injEq, Res.ok.injEq] at h4
          obtain ⟨rfl, rfl⟩ := h4
          msimp at h
          obtain ⟨out', w5, h5, h⟩ := andThen_ok h
          simp only [M.ret, Prod.mk.injEq, Res.ok.injEq] at h
          obtain ⟨⟨rfl, rfl⟩, rfl⟩ := h
          exact ⟨pkt, reply, w2, w3, ty', rfl, h2, h3, ht, h5⟩

theorem sendReply_ok {a : Addr} {reply : Option Packet} {w w' : World} (h : sendReply E a reply w = (.ok (), w')) :
    ∃ n l, w' = { w with nSnd := n, log := l } := by
  cases reply with
  | none =>
    simp only [sendReply, pure_def, M.ret, Prod.mk.injEq] at h
    exact ⟨_, _, h.2.symm⟩
  | some r =>
    have := udpSend_snd (E := E) a (r.setWndSize WINDOW_SIZE).bytes w
    simp only [sendReply] at h
    rw [h] at this
    exact ⟨_, _, this⟩

theorem flushIncoming_frame (len : Nat) (w : World) : ∃ inc pend ack ld,
    (flushIncoming E len w).2 = w.setS { w.s with incoming := inc, pending := pend, ackNr := ack, lastDropped := ld } := by
  unfold flushIncoming
  msimp
  split
  · unfold Socket.takePending Socket.advanceIncoming
    simp only
    split
    · split <;> exact ⟨_, _, _, _, rfl⟩
    · exact ⟨_, _, _, _, rfl⟩
  · rcases hi : w.s.incoming with _ | ⟨p, rest⟩
    · exact ⟨[], w.s.pending, w.s.ackNr, w.s.lastDropped, by simp [pure_def, M.ret, World.setS, ← hi]⟩
    · simp only
      have h0 : w = w.setS { w.s with incoming := p :: rest, pending := w.s.pending, ackNr := w.s.ackNr, lastDropped := w.s.lastDropped } := by
        simp [World.setS, ← hi]
      unfold overflowIf
      msimp
      split
      · exact ⟨_, _, _, _, h0⟩
      · split
        · cases p.payload with
          | none => exact ⟨_, _, _, _, h0⟩
          | some pl =>
            msimp
            unfold Socket.takeHead Socket.advanceIncoming
            rw [hi]
            simp only
            split <;> exact ⟨_, _, _, _, rfl⟩
        · exact ⟨_, _, _, _, h0⟩

/-! ### Evaluating `recv` on one datagram -/

/-- The timeout used for the next receive. -/
def Socket.patience (s : Socket) : Option U64 := if s.state ≠ .new then some s.congTimeout else none

theorem recvWait_dgram {w : World} {b : Bytes} {src : Addr} (hn : E.net w.nNet = .dgram b src) {fuel retries : Nat}
    (hr : retries < w.s.maxRetries.toNat) :
    recvWait E (fuel + 1) retries w = (.ok (b.take 1520, src), w.waited w.s.patience) := by
  unfold recvWait
  msimp
  rw [if_neg (by omega), andThen_eq (udpRecv_dgram hn _ _)]
  rfl

theorem recv_dgram {w : World} {b : Bytes} {src : Addr} (hn : E.net w.nNet = .dgram b src) {fuel len : Nat}
    (hr : 0 < w.s.maxRetries.toNat) {pkt : Packet} (hp : Packet.tryFrom (b.take 1520) = some (.ok pkt)) :
    recv E (fuel + 2) len w =
      recvPacket E (fuel + 1) (recv E (fuel + 1) BUF_SIZE) len pkt src (w.waited w.s.patience) := by
  rw [recv, recvBody, bind_def, andThen_eq (recvWait_dgram hn hr)]
  simp only [hp]
  msimp

theorem recv_bad {w : World} {b : Bytes} {src : Addr} (hn : E.net w.nNet = .dgram b src) {fuel len : Nat}
    (hr : 0 < w.s.maxRetries.toNat) {e : ParseError} (hp : Packet.tryFrom (b.take 1520) = some (.error e)) :
    recv E (fuel + 2) len w = (.ok ([], w.s.connectedTo), w.waited w.s.patience) := by
  rw [recv, recvBody, bind_def, andThen_eq (recvWait_dgram hn hr)]
  simp only [hp]
  msimp
  rfl

/-- The world in which a packet of this connection is dispatched. -/
def World.heard (E : Env) (w : World) (pkt : Packet) : World :=
  { (w.setS { w.s.bumpAck pkt with remoteWnd := pkt.wndSize, theirDelay := absDiff (E.now w.nNow) pkt.timestamp }) with
    nNow := w.nNow + 1 }

/-- A packet that is dispatched: a SYN, or of this connection, or while connecting. -/
def Socket.takes (s : Socket) (pkt : Packet) (ty : PacketType) : Prop :=
  ty = .syn ∨ s.state = .synSent ∨ pkt.connectionId = s.senderId ∨ pkt.connectionId = s.receiverId

theorem handlePacket_takes {w : World} {pkt : Packet} {ty : PacketType} (ht : pkt.getType = some ty)
    (hid : w.s.takes pkt ty) (fuel : Nat) (rec : M (Bytes × Addr)) (src : Addr) :
    handlePacket E fuel rec pkt src w = dispatch E fuel rec pkt src w.s.state ty (w.heard E pkt) := by
  unfold handlePacket
  rw [ht]
  msimp
  rw [if_neg]
  · simp only [World.setS, bumpAck_state, World.heard]
  · simp only [World.setS, bumpAck_state, bumpAck_senderId, bumpAck_receiverId]
    rintro ⟨h1, h2, h3⟩
    rcases hid with h | h | h
    · exact h1 h
    · exact h2 h
    · exact h3 h

theorem handlePacket_foreign {w : World} {pkt : Packet} {ty : PacketType} (ht : pkt.getType = some ty)
    (hid : ¬ w.s.takes pkt ty) (fuel : Nat) (rec : M (Bytes × Addr)) (src : Addr) :
    handlePacket E fuel rec pkt src w =
      (.ok (some ((w.s.bumpAck pkt).prepareReply (E.now w.nNow) pkt .reset)),
        { (w.setS (w.s.bumpAck pkt)) with nNow := w.nNow + 1 }) := by
  unfold handlePacket
  rw [ht]
  msimp
  rw [if_pos]
  · unfold replyWith
    msimp
    rfl
  · simp only [World.setS, bumpAck_state, bumpAck_senderId, bumpAck_receiverId]
    unfold Socket.takes at hid
    simp only [not_or] at hid
    exact ⟨hid.1, hid.2.1, fun h => h.elim hid.2.2.1 hid.2.2.2⟩

theorem withSack_world (s : Socket) (pkt reply : Packet) (w : World) : (withSack E s pkt reply w).2 = w := by
  unfold withSack orPanic
  msimp
  split
  · cases s.buildSack E with
    | none => rfl
    | some sack =>
      msimp
      split
      · cases reply.setSack sack <;> rfl
      · rfl
  · rfl

theorem withSack_ok {s : Socket} {pkt reply r : Packet} {w w' : World} (h : withSack E s pkt reply w = (.ok r, w')) : w' = w := by
  have := withSack_world (E := E) s pkt reply w
  rw [h] at this
  exact this

/-- Handling a packet while closing. -/
theorem handlePacket_finSent {fuel : Nat} {rec : M (Bytes × Addr)} {pkt : Packet} {src : Addr} {w w' : World}
    {reply : Option Packet} (hs : w.s.state = .finSent) (h : handlePacket E fuel rec pkt src w = (.ok reply, w')) :
    w'.s.seqNr = w.s.seqNr ∧ w'.nNet = w.nNet ∧ w'.s.senderId = w.s.senderId ∧ w'.s.receiverId = w.s.receiverId ∧
    (w'.s.state = .finSent ∨ w'.s.state = .closed ∧ (pkt.connectionId = w.s.senderId ∨ pkt.connectionId = w.s.receiverId) ∧
      (pkt.getType = some .fin ∨ pkt.getType = some .state ∧ pkt.ackNr = w.s.seqNr)) := by
  have hh : (w.heard E pkt).s.seqNr = w.s.seqNr ∧ (w.heard E pkt).nNet = w.nNet ∧ (w.heard E pkt).s.state = .finSent ∧
      (w.heard E pkt).s.senderId = w.s.senderId ∧ (w.heard E pkt).s.receiverId = w.s.receiverId := by
    simp [World.heard, hs]
  rcases ht : pkt.getType with _ | ty
  · unfold handlePacket at h
    rw [ht] at h
    msimp at h
    simp at h
  · by_cases hid : w.s.takes pkt ty
    · rw [handlePacket_takes ht hid, hs] at h
      generalize w.heard E pkt = v at h hh
      obtain ⟨h1, h2, h3, h4, h5⟩ := hh
      have hid' : ty ≠ .syn → pkt.connectionId = w.s.senderId ∨ pkt.connectionId = w.s.receiverId := by
        intro hn
        rcases hid with h | h | h
        · exact absurd h hn
        · simp [hs] at h
        · exact h
      cases ty with
      | data =>
        simp only [dispatch, handleData] at h
        msimp at h
        obtain ⟨r, w1, g1, g2⟩ := andThen_ok h
        have := withSack_ok g1
        simp only [ret_run, Prod.mk.injEq] at g2
        rw [← g2.2, this]
        exact ⟨h1, h2, h4, h5, .inl h3⟩
      | fin =>
        simp only [dispatch, onFin] at h
        msimp at h
        obtain ⟨r, w1, g1, g2⟩ := andThen_ok h
        have := withSack_ok g1
        msimp at g2
        simp only [Prod.mk.injEq] at g2
        rw [← g2.2, this]
        exact ⟨h1, h2, h4, h5, .inr ⟨rfl, hid' (by simp), .inl rfl⟩⟩
      | state =>
        simp only [dispatch, onFinAck] at h
        msimp at h
        simp only [Prod.mk.injEq] at h
        rw [← h.2]
        by_cases hk : pkt.ackNr = v.s.seqNr
        · simp only [hk, if_true]
          exact ⟨h1, h2, h4, h5, .inr ⟨rfl, hid' (by simp), .inr ⟨trivial, h1⟩⟩⟩
        · simp only [hk, if_false]
          exact ⟨h1, h2, h4, h5, .inl h3⟩
      | reset => simp [dispatch, onReset, bind_def, M.andThen, modS, M.throw] at h
      | syn =>
        simp only [dispatch, replyWith] at h
        msimp at h
        simp only [Prod.mk.injEq] at h
        rw [← h.2]
        exact ⟨h1, h2, h4, h5, .inl h3⟩
    · rw [handlePacket_foreign ht hid] at h
      simp only [Prod.mk.injEq] at h
      rw [← h.2]
      simp [hs]

theorem keep_frame (s : Socket) (ty : PacketType) (pkt : Packet) : ∃ inc, s.keep ty pkt = { s with incoming := inc } := by
  unfold Socket.keep Socket.insertIntoBuffer
  split <;> exact ⟨_, rfl⟩

/-- Receiving while closing. -/
theorem recv_finSent {fuel len : Nat} {w w' : World} {x : Bytes × Addr} (hs : w.s.state = .finSent)
    (h : recv E fuel len w = (.ok x, w')) :
    w'.s.seqNr = w.s.seqNr ∧ w.nNet ≤ w'.nNet ∧ w'.s.senderId = w.s.senderId ∧ w'.s.receiverId = w.s.receiverId ∧
    (w'.s.state = .finSent ∨ w'.s.state = .closed ∧ ∃ k b src pkt, w.nNet ≤ k ∧ k < w'.nNet ∧ E.net k = .dgram b src ∧
      Packet.tryFrom (b.take 1520) = some (.ok pkt) ∧
      (pkt.connectionId = w.s.senderId ∨ pkt.connectionId = w.s.receiverId) ∧
      (pkt.getType = some .fin ∨ pkt.getType = some .state ∧ pkt.ackNr = w.s.seqNr)) := by
  obtain ⟨out, src⟩ := x
  obtain ⟨f, b, a, w1, rfl, h1, h⟩ := recv_inv h
  have hf := recvWait_frame (E := E) f 0 w
  rw [h1] at hf
  obtain ⟨⟨sw, ct, cw, st, e1, _, _, e2⟩, _, e3, e4, _⟩ := hf
  have hst : st = .finSent := by
    by_cases hc : st = w.s.state
    · rw [hc, hs]
    · have := (e2 hc).2; simp at this
  obtain ⟨k, bb, hk1, hk2, hk3, hk4⟩ := e4 _ rfl
  simp only at e1 e3 hk1 hk3 hk4
  have hw1 : w1.s.state = .finSent ∧ w1.s.seqNr = w.s.seqNr ∧ w1.s.senderId = w.s.senderId ∧ w1.s.receiverId = w.s.receiverId := by
    rw [e1]; exact ⟨hst, rfl, rfl, rfl⟩
  rcases h with ⟨e, _, _, rfl⟩ | ⟨pkt, reply, w2, w3, ty, hp, h2, h3, ht, h4⟩
  · exact ⟨hw1.2.1, e3, hw1.2.2.1, hw1.2.2.2, .inl hw1.1⟩
  · obtain ⟨g1, g2, g2', g2'', g3⟩ := handlePacket_finSent hw1.1 h2
    obtain ⟨n, l, rfl⟩ := sendReply_ok h3
    obtain ⟨inc, hk⟩ := keep_frame w2.s ty pkt
    obtain ⟨inc', pend, ack, ld, hfl⟩ := flushIncoming_frame (E := E) len (({ w2 with nSnd := n, log := l } : World).setS (w2.s.keep ty pkt))
    simp only at h4
    rw [h4] at hfl
    simp only [hk] at hfl
    rw [hw1.2.1, hw1.2.2.1, hw1.2.2.2] at *
    have q1 : w'.s.seqNr = w2.s.seqNr := by rw [hfl]; rfl
    have q2 : w'.s.state = w2.s.state := by rw [hfl]; rfl
    have q3 : w'.nNet = w2.nNet := by rw [hfl]; rfl
    have q4 : w'.s.senderId = w2.s.senderId := by rw [hfl]; rfl
    have q5 : w'.s.receiverId = w2.s.receiverId := by rw [hfl]; rfl
    refine ⟨q1.trans g1, by omega, q4.trans g2', q5.trans g2'', ?_⟩
    rw [q2]
    rcases g3 with g3 | ⟨g3, g4, g5⟩
    · exact .inl g3
    · exact .inr ⟨g3, k, bb, a, pkt, hk2, by omega, hk3, hk4 ▸ hp, g4, g5⟩

/-- A `while` loop whose condition reads the socket. -/
theorem whileS_ok {P : Socket → Bool} {b : M Unit} {J : World → Prop}
    (hb : ∀ w w', J w → P w.s = true → b w = (.ok (), w') → J w') :
    ∀ n {w w'}, J w → whileM n (do let s ← getS; return P s) b w = (.ok (), w') → J w' ∧ P w'.s = false := by
  intro n
  induction n with
  | zero => intro w w' _ h; simp [whileM, M.never] at h
  | succ n ih =>
    intro w w' hj h
    unfold whileM at h
    msimp at h
    split at h
    · rename_i hp
      obtain ⟨_, w1, h1, h2⟩ := andThen_ok h
      exact ih (hb w w1 hj hp h1) h2
    · rename_i hp
      simp only [Prod.mk.injEq, true_and] at h
      rw [← h]
      exact ⟨hj, by simpa using hp⟩

end Utp
