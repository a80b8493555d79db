import Verif.Lemmas.Fuel
import Verif.Lemmas.Ops
import Verif.Lemmas.Recv
import Verif.Spec.Progress
/-!
# An operation ends well when the peer acknowledges everything
-/

namespace Utp
open M

variable {E : Env} {α β : Type}

/-! ### Computations that end without an error -/

/-- With enough fuel, the computation ends, always in the same way: it panics, or returns a value of which `Q` holds. -/
def Well (m : Nat → M α) (w : World) (Q : α → World → Prop) : Prop :=
  ∃ r w', (r = .panic ∨ ∃ a, r = .ok a ∧ Q a w') ∧ ∃ F, ∀ n, F ≤ n → m n w = (r, w')

namespace Well

theorem panics {m : Nat → M α} {w w' : World} {Q : α → World → Prop} {F : Nat} (h : ∀ n, F ≤ n → m n w = (.panic, w')) : Well m w Q :=
  ⟨.panic, w', .inl rfl, F, h⟩

theorem returns {m : Nat → M α} {w w' : World} {Q : α → World → Prop} {a : α} {F : Nat} (h : ∀ n, F ≤ n → m n w = (.ok a, w')) (hq : Q a w') : Well m w Q :=
  ⟨.ok a, w', .inr ⟨a, rfl, hq⟩, F, h⟩

theorem mono {m : Nat → M α} {w : World} {Q Q' : α → World → Prop} (h : Well m w Q) (hq : ∀ a w', Q a w' → Q' a w') : Well m w Q' := by
  obtain ⟨r, w', h1, h2⟩ := h
  exact ⟨r, w', h1.imp_right fun ⟨a, e, h⟩ => ⟨a, e, hq a w' h⟩, h2⟩

theorem congr {m m' : Nat → M α} {w w1 : World} {Q : α → World → Prop} (h : Well m w1 Q) (hm : ∀ n, m' n w = m n w1) : Well m' w Q := by
  obtain ⟨r, w', h1, F, h2⟩ := h
  exact ⟨r, w', h1, F, fun n hn => (hm n).trans (h2 n hn)⟩

theorem andThen {m : Nat → M α} {f : Nat → α → M β} {w : World} {Q : α → World → Prop} {Q' : β → World → Prop} (h : Well m w Q)
    (hf : ∀ a w', Q a w' → Well (fun n => f n a) w' Q') : Well (fun n => M.andThen (m n) (f n)) w Q' := by
  obtain ⟨r, w', rfl | ⟨a, rfl, hq⟩, F, h2⟩ := h
  · exact panics fun n hn => andThen_eq_panic (h2 n hn)
  · obtain ⟨r', w'', g1, G, g2⟩ := hf a w' hq
    refine ⟨r', w'', g1, F + G, fun n hn => ?_⟩
    show M.andThen (m n) (f n) w = _
    rw [andThen_eq (h2 n (by omega))]
    exact g2 n (by omega)

theorem bind {m : Nat → M α} {f : Nat → α → M β} {w : World} {Q : α → World → Prop} {Q' : β → World → Prop} (h : Well m w Q)
    (hf : ∀ a w', Q a w' → Well (fun n => f n a) w' Q') : Well (fun n => m n >>= f n) w Q' := andThen h hf

theorem ignoreErr {m : Nat → M α} {w : World} {Q : Unit → World → Prop} (h : Well m w fun _ => Q ()) : Well (fun n => M.ignoreErr (m n)) w Q := by
  obtain ⟨r, w', rfl | ⟨a, rfl, hq⟩, F, h2⟩ := h
  · exact panics (w' := w') (F := F) fun n hn => by simp only [M.ignoreErr, h2 n hn]
  · exact returns (w' := w') (F := F) (fun n hn => by simp only [M.ignoreErr, h2 n hn]) hq

theorem succ {m : Nat → M α} {w : World} {Q : α → World → Prop} (h : Well (fun n => m (n + 1)) w Q) : Well m w Q := by
  obtain ⟨r, w', h1, F, h2⟩ := h
  refine ⟨r, w', h1, F + 1, fun n hn => ?_⟩
  obtain ⟨k, rfl⟩ : ∃ k, n = k + 1 := ⟨n - 1, by omega⟩
  exact h2 k (by omega)

theorem ret {a : α} {w : World} {Q : α → World → Prop} (h : Q a w) : Well (fun _ => M.ret a) w Q := returns (F := 0) (fun _ _ => rfl) h
theorem pure {a : α} {w : World} {Q : α → World → Prop} (h : Q a w) : Well (fun _ => (Pure.pure a : M α)) w Q := ret h
theorem getS {w : World} {Q : Socket → World → Prop} (h : Q w.s w) : Well (fun _ => M.getS) w Q := returns (F := 0) (fun _ _ => rfl) h
theorem modS {f : Socket → Socket} {w : World} {Q : Unit → World → Prop} (h : Q () (w.setS (f w.s))) : Well (fun _ => M.modS f) w Q :=
  returns (F := 0) (fun _ _ => rfl) h
theorem now {w : World} {Q : U32 → World → Prop} (h : ∀ t, Q t { w with nNow := w.nNow + 1 }) : Well (fun _ => M.now E) w Q :=
  returns (F := 0) (fun _ _ => rfl) (h _)
theorem orPanic {o : Option α} {w : World} {Q : α → World → Prop} (h : ∀ a, o = some a → Q a w) : Well (fun _ => M.orPanic o) w Q := by
  cases o with
  | none => exact panics (F := 0) fun _ _ => rfl
  | some a => exact ret (h a rfl)
theorem overflowIf {b : Bool} {w : World} {Q : Unit → World → Prop} (h : Q () w) : Well (fun _ => M.overflowIf E b) w Q := by
  unfold M.overflowIf
  split
  · exact panics (F := 0) fun _ _ => rfl
  · exact ret h
theorem udpSend (hs : ∀ n, E.snd n = .ok) {dst : Addr} {b : Bytes} {w : World} {Q : Unit → World → Prop}
    (h : ∀ l, Q () { w with nSnd := w.nSnd + 1, log := l }) : Well (fun _ => M.udpSend E dst b) w Q :=
  returns (F := 0) (w' := { w with nSnd := w.nSnd + 1, log := w.log ++ [.send dst b true] }) (fun _ _ => by simp only [M.udpSend, hs]) (h _)
theorem ite {c : Prop} [Decidable c] {a b : Nat → M α} {w : World} {Q : α → World → Prop} (h : c → Well a w Q) (h' : ¬ c → Well b w Q) :
    Well (fun n => if c then a n else b n) w Q := by
  split
  · exact h ‹_›
  · exact h' ‹_›

/-- A loop with an invariant `X`; its body starts with `Y` and gets nearer to a bound on the number of waits. -/
theorem whileM {c : M Bool} {b : Nat → M Unit} {N : Nat} {X Y : World → Prop} {Q : Unit → World → Prop}
    (hc : ∀ w, X w → Well (fun _ => c) w fun go w' => w'.nNet = w.nNet ∧ if go then Y w' else Q () w')
    (hy : ∀ w, Y w → w.nNet ≤ N) (hb : ∀ w, Y w → Well b w fun _ w' => X w' ∧ w.nNet < w'.nNet) {w : World} (hx : X w) :
    Well (fun n => M.whileM n c (b n)) w Q := by
  have key : ∀ k w, N + 1 - w.nNet = k → X w → ∃ r w', (r = .panic ∨ ∃ a, r = .ok a ∧ Q a w') ∧ ∃ F, ∀ n f, F ≤ n → F ≤ f →
      M.whileM n c (b f) w = (r, w') := by
    intro k
    induction k using Nat.strongRecOn with
    | _ k ih =>
      intro w hk hx
      have unf : ∀ n f, M.whileM (n + 1) c (b f) w = M.andThen c (fun go => if go then M.andThen (b f) fun _ => M.whileM n c (b f) else M.ret ()) w :=
        fun _ _ => rfl
      obtain ⟨r, w1, rfl | ⟨go, rfl, e, hq⟩, F, h2⟩ := hc w hx
      · refine ⟨.panic, w1, .inl rfl, 1, fun n f hn hf => ?_⟩
        obtain ⟨n, rfl⟩ : ∃ k, n = k + 1 := ⟨n - 1, by omega⟩
        rw [unf, andThen_eq_panic (h2 F (Nat.le_refl F))]
      have h2 := h2 F (Nat.le_refl F)
      cases go with
      | false =>
        refine ⟨.ok (), w1, .inr ⟨(), rfl, hq⟩, 1, fun n f hn hf => ?_⟩
        obtain ⟨n, rfl⟩ : ∃ k, n = k + 1 := ⟨n - 1, by omega⟩
        rw [unf, andThen_eq h2]
        rfl
      | true =>
        have hn1 := hy w1 hq
        obtain ⟨r, w2, rfl | ⟨u, rfl, hx2, hlt⟩, G, g2⟩ := hb w1 hq
        · refine ⟨.panic, w2, .inl rfl, G + 1, fun n f hn hf => ?_⟩
          obtain ⟨n, rfl⟩ : ∃ k, n = k + 1 := ⟨n - 1, by omega⟩
          rw [unf, andThen_eq h2, if_pos rfl, andThen_eq_panic (g2 f (by omega))]
        · obtain ⟨r, w3, j1, H, j2⟩ := ih (N + 1 - w2.nNet) (by omega) w2 rfl hx2
          refine ⟨r, w3, j1, G + H + 1, fun n f hn hf => ?_⟩
          obtain ⟨n, rfl⟩ : ∃ k, n = k + 1 := ⟨n - 1, by omega⟩
          rw [unf, andThen_eq h2, if_pos rfl, andThen_eq (g2 f (by omega))]
          exact j2 n f (by omega) (by omega)
  obtain ⟨r, w', h1, F, h2⟩ := key _ w rfl hx
  exact ⟨r, w', h1, F, fun n hn => h2 n n hn hn⟩

end Well

/-! ### Waiting for the acknowledgement -/

/-- What stays true of the socket `s` while `flush` waits, which started with the socket `s0`. -/
structure Waits (s0 s : Socket) : Prop where
  open_ : s.state = .connected
  limit : s.maxRetries = s0.maxRetries
  sid : s.senderId = s0.senderId
  rid : s.receiverId = s0.receiverId
  nr : s.seqNr = s0.seqNr
  window : ∃ k, s.sendWindow.map Packet.seqNr = (s0.sendWindow.map Packet.seqNr).drop k
  flight : s.currWindow = BitVec.ofNat 32 (totalSize s.sendWindow)

/-- After the wait number `N`, everything is acknowledged, and nothing more is received. -/
def StillWaits (N : Nat) (s0 : Socket) (w : World) : Prop := Waits s0 w.s ∧ (w.nNet ≤ N ∨ w.s.sendWindow = [] ∧ w.nNet = N + 1)

/-- Fields that do not matter. -/
theorem Waits.same {s0 s s' : Socket} (h : Waits s0 s) (h1 : s'.state = s.state) (h2 : s'.maxRetries = s.maxRetries) (h3 : s'.senderId = s.senderId)
    (h4 : s'.receiverId = s.receiverId) (h5 : s'.seqNr = s.seqNr) (h6 : s'.sendWindow = s.sendWindow) (h7 : s'.currWindow = s.currWindow) : Waits s0 s' :=
  ⟨by rw [h1, h.open_], by rw [h2, h.limit], by rw [h3, h.sid], by rw [h4, h.rid], by rw [h5, h.nr], by rw [h6]; exact h.window, by rw [h7, h6, h.flight]⟩

variable {N : Nat} {s0 : Socket}

theorem well_fastResendOne (hs : ∀ n, E.snd n = .ok) {w : World} {P : Socket → Prop} (h : P w.s) :
    Well (fun _ => fastResendOne E) w fun _ w' => w'.nNet = w.nNet ∧ P w'.s :=
  .bind (.getS (Q := fun _ w' => w'.nNet = w.nNet ∧ P w'.s) ⟨rfl, h⟩) fun _ _ h1 => .bind (.now (Q := fun _ w' => w'.nNet = w.nNet ∧ P w'.s) fun _ => h1)
    fun _ _ h2 => .ignoreErr (.udpSend hs fun _ => h2)

theorem well_fastResendRequest (hs : ∀ n, E.snd n = .ok) {w : World} {P : Socket → Prop} (h : P w.s) :
    Well (fun _ => fastResendRequest E) w fun _ w' => w'.nNet = w.nNet ∧ P w'.s :=
  .bind (well_fastResendOne hs h) fun _ _ h1 => .bind (well_fastResendOne hs h1.2) fun _ _ h2 => (well_fastResendOne hs h2.2).mono fun _ _ h3 =>
    ⟨h3.1.trans (h2.1.trans h1.1), h3.2⟩

/-- A timeout changes the congestion timeout, the congestion window and the timestamp of the oldest packet, nothing else. -/
theorem well_handleReceiveTimeout (hs : ∀ n, E.snd n = .ok) {w : World} {P : Socket → Prop} (h : P w.s)
    (h1 : ∀ s a b, P s → P { s with congTimeout := a, cwnd := b })
    (h2 : ∀ s p rest t, s.sendWindow = p :: rest → P s → P { s with sendWindow := p.setTimestamp t :: rest }) :
    Well (fun _ => handleReceiveTimeout E) w fun _ w' => w'.nNet = w.nNet ∧ P w'.s := by
  refine .bind (.getS (Q := fun s w' => s = w.s ∧ w' = w) ⟨rfl, rfl⟩) fun s w1 e => .bind (.overflowIf (Q := fun _ w' => s = w.s ∧ w' = w) e) fun _ w2 e =>
    .bind (.modS (Q := fun _ w' => s = w.s ∧ w'.nNet = w.nNet ∧ w'.s.sendWindow = w.s.sendWindow ∧ P w'.s) ⟨e.1, by rw [e.2]; exact ⟨rfl, rfl, h1 _ _ _ h⟩⟩) fun _ w3 e3 => ?_
  obtain ⟨e1, e2, e3, e4⟩ := e3
  split
  · exact .ite (fun _ => .bind (.now (Q := fun _ w' => w'.nNet = w.nNet ∧ P w'.s) fun _ => ⟨e2, e4⟩) fun _ _ h => .udpSend hs fun _ => h) fun _ =>
      .ite (fun _ => (well_fastResendRequest hs e4).mono fun _ _ h => ⟨h.1.trans e2, h.2⟩) fun _ => .ret ⟨e2, e4⟩
  · rename_i p rest hw
    refine .bind (.now (Q := fun _ w' => w'.nNet = w.nNet ∧ w'.s.sendWindow = p :: rest ∧ P w'.s) fun _ => ⟨e2, by rw [← hw, e1]; exact e3, e4⟩) fun t w4 e5 =>
      .bind (.modS (Q := fun _ w' => w'.nNet = w.nNet ∧ P w'.s) ⟨e5.1, h2 _ _ _ _ e5.2.1 e5.2.2⟩) fun _ _ h => .udpSend hs fun _ => h

/-- A wait before which fewer timeouts come than are tolerated ends with a datagram. -/
theorem well_recvWait (hs : ∀ n, E.snd n = .ok) {P : Socket → Prop} {m : Nat} (hm : ∀ s, P s → s.maxRetries.toNat = m)
    (h1 : ∀ s a b, P s → P { s with congTimeout := a, cwnd := b })
    (h2 : ∀ s p rest t, s.sendWindow = p :: rest → P s → P { s with sendWindow := p.setTimestamp t :: rest }) :
    ∀ j r (w : World), P w.s → r + j < m → (∃ b src, E.net (w.nNet + j) = .dgram b src) →
      (∀ i, i < j → ∃ k, E.net (w.nNet + i) = .fail k ∧ isTimeout k = true) →
      Well (fun n => recvWait E n r) w fun x w' => P w'.s ∧ w'.nNet = w.nNet + j + 1 ∧ ∃ b, E.net (w.nNet + j) = .dgram b x.2 ∧ x.1 = b.take 1520 := by
  intro j
  induction j with
  | zero =>
    intro r w h hr ⟨b, src, hn⟩ hi
    refine .succ (.returns (F := 0) (a := (b.take 1520, src)) (w' := w.waited w.s.patience) (fun n _ => ?_) ⟨h, rfl, b, hn, rfl⟩)
    have := hm _ h
    simp only [recvWait, bind_def, andThen_getS]
    rw [if_neg (by omega), andThen_eq (udpRecv_dgram hn _ _)]
    rfl
  | succ j ih =>
    intro r w h hr hd hi
    obtain ⟨k, hk, hk'⟩ := hi 0 (by omega)
    have := hm _ h
    have unf : ∀ n, recvWait E (n + 1) r w = M.andThen (handleReceiveTimeout E) (fun _ => recvWait E n (r + 1)) (w.waited w.s.patience) := by
      intro n
      simp only [recvWait, bind_def, andThen_getS]
      rw [if_neg (by omega), andThen_eq (udpRecv_fail hk _ _)]
      simp only [hk', if_true]
      rfl
    refine .succ (.congr (m := fun n => M.andThen (handleReceiveTimeout E) (fun _ => recvWait E n (r + 1))) ?_ unf)
    refine .andThen (well_handleReceiveTimeout hs (w := w.waited w.s.patience) h h1 h2) fun _ w1 e => ?_
    have e1 : w1.nNet = w.nNet + 1 := e.1
    refine (ih (r + 1) w1 e.2 (by omega) ?_ ?_).mono fun x w' hx => ?_
    · rw [e1, show w.nNet + 1 + j = w.nNet + (j + 1) by omega]; exact hd
    · intro i hi'
      rw [e1, show w.nNet + 1 + i = w.nNet + (i + 1) by omega]
      exact hi _ (by omega)
    · rw [e1, show w.nNet + 1 + j = w.nNet + (j + 1) by omega] at hx
      exact hx

/-- `StillWaits`, from the wait number `k` on. -/
def Held (k N : Nat) (s0 : Socket) (w : World) : Prop := StillWaits N s0 w ∧ k ≤ w.nNet

/-- The nested receive ends well while something is outstanding. -/
def RecWell (k N : Nat) (s0 : Socket) (rec : Nat → M (Bytes × Addr)) : Prop :=
  ∀ w, Held k N s0 w → w.s.sendWindow ≠ [] → Well rec w fun _ w' => StillWaits N s0 w' ∧ w.nNet < w'.nNet

variable {k : Nat} {rec : Nat → M (Bytes × Addr)}

theorem Held.upd {w : World} (h : Held k N s0 w) {s' : Socket} (h1 : s'.state = w.s.state) (h2 : s'.maxRetries = w.s.maxRetries) (h3 : s'.senderId = w.s.senderId)
    (h4 : s'.receiverId = w.s.receiverId) (h5 : s'.seqNr = w.s.seqNr) (h6 : s'.sendWindow = w.s.sendWindow) (h7 : s'.currWindow = w.s.currWindow) :
    Held k N s0 (w.setS s') := ⟨⟨h.1.1.same h1 h2 h3 h4 h5 h6 h7, by rw [World.setS, h6]; exact h.1.2⟩, h.2⟩

theorem maxInflight_pos (m : U32) : ¬ (if m < MIN_WND then MIN_WND else m) ≤ 0 := by
  intro hc
  rw [BitVec.le_def] at hc
  have h28 : MIN_WND.toNat = 2800 := rfl
  have h0 : (0 : U32).toNat = 0 := rfl
  split at hc
  · omega
  · rename_i hm
    rw [BitVec.lt_def] at hm
    omega

theorem well_sendPacket (hs : ∀ n, E.snd n = .ok) (hr : RecWell k N s0 rec) (p : Packet) {w : World} (hw : Held k N s0 w) :
    Well (fun n => sendPacket E n (rec n) p) w fun _ => Held k N s0 := by
  refine .bind (.getS (Q := fun _ => Held k N s0) hw) fun s w1 h1 => .bind (.now (Q := fun _ => Held k N s0) fun _ => h1) fun t w2 h2 => ?_
  refine .bind (.whileM (N := N) (X := Held k N s0) (Y := fun w => Held k N s0 w ∧ w.s.sendWindow ≠ []) (Q := fun _ => Held k N s0) ?_ ?_ ?_ h2) fun _ w3 h3 => ?_
  · intro w hw
    refine .bind (.getS (Q := fun s w' => s = w.s ∧ w' = w) ⟨rfl, rfl⟩) fun s' w' ⟨e1, e2⟩ => .ite (fun hc => ?_) fun _ => .ret ⟨by rw [e2], by rw [e2]; exact hw⟩
    have hne : w.s.sendWindow ≠ [] := by
      intro h0
      have hz : s'.currWindow = 0 := by rw [e1, hw.1.1.flight, h0]; rfl
      rw [hz] at hc
      exact maxInflight_pos _ hc
    refine .bind (.now (Q := fun _ w' => w'.nNet = w.nNet ∧ w'.s = w.s) fun _ => by rw [e2]; exact ⟨rfl, rfl⟩) fun t' w' ⟨e3, e4⟩ => .ret ⟨e3, ?_⟩
    have hw' : Held k N s0 w' := by unfold Held StillWaits; rw [e3, e4]; exact hw
    cases decide (tsSub t' t < PRE_SEND_TIMEOUT)
    · exact hw'
    · exact ⟨hw', by rw [e4]; exact hne⟩
  · exact fun w hw => hw.1.1.2.resolve_right fun h => hw.2 h.1
  · exact fun w hw => .andThen (hr w hw.1 hw.2) fun _ w' h => .ret ⟨⟨h.1, Nat.le_trans hw.1.2 (Nat.le_of_lt h.2)⟩, h.2⟩
  · refine .bind (.getS (Q := fun _ => Held k N s0) h3) fun s w1 h1 => .ite (fun _ => .ret h1) fun _ => .bind (.now (Q := fun _ => Held k N s0) fun _ => h1) fun t w2 h2 =>
      .bind (.udpSend (Q := fun _ => Held k N s0) hs fun _ => h2) fun _ _ h => .ret h

theorem well_resendLost (hs : ∀ n, E.snd n = .ok) (hr : RecWell k N s0 rec) (nr : U16) {w : World} (hw : Held k N s0 w) :
    Well (fun n => resendLost E n (rec n) nr) w fun _ => Held k N s0 := by
  refine .bind (.getS (Q := fun _ => Held k N s0) hw) fun s w1 h1 => ?_
  split
  · exact .ret h1
  · exact .ignoreErr (well_sendPacket hs hr _ h1)

theorem well_resendMissing (hs : ∀ n, E.snd n = .ok) (hr : RecWell k N s0 rec) (ack last : U16) : ∀ l loss {w : World}, Held k N s0 w →
    Well (fun n => resendMissing E n (rec n) ack last l loss) w fun _ => Held k N s0
  | [], _, _, hw => .ret hw
  | (idx, received) :: rest, loss, w, hw => by
    have ih := @well_resendMissing hs hr ack last rest
    unfold resendMissing
    exact .ite (fun _ => ih _ hw) fun _ => .bind (.overflowIf (Q := fun _ => Held k N s0) hw) fun _ w1 h1 => .ite (fun _ =>
      .bind (well_resendLost hs hr _ h1) fun _ w2 h2 => ih _ h2) fun _ => .ret h1

theorem well_resendFirst (hs : ∀ n, E.snd n = .ok) (hr : RecWell k N s0 rec) (ack : U16) (data : Bytes) (loss : Bool) {w : World} (hw : Held k N s0 w) :
    Well (fun n => resendFirst E n (rec n) ack data loss) w fun _ => Held k N s0 := by
  unfold resendFirst
  exact .ite (fun _ => .bind (.overflowIf (Q := fun _ => Held k N s0) hw) fun _ w1 h1 => .bind (well_resendLost hs hr _ h1) fun _ _ h2 => .ret h2) fun _ => .ret hw

theorem well_processExtensions (hs : ∀ n, E.snd n = .ok) (hr : RecWell k N s0 rec) (ack : U16) : ∀ l loss {w : World}, Held k N s0 w →
    Well (fun n => processExtensions E n (rec n) ack l loss) w fun _ => Held k N s0
  | [], _, _, hw => .ret hw
  | e :: rest, loss, w, hw => by
    have ih := @well_processExtensions hs hr ack rest
    unfold processExtensions
    refine .ite (fun _ => .bind (well_resendFirst hs hr _ _ _ hw) fun _ w1 h1 => .bind (.getS (Q := fun _ => Held k N s0) h1) fun s w2 h2 => ?_) fun _ => ih _ hw
    split
    · exact ih _ h2
    · exact .bind (.orPanic (Q := fun _ => Held k N s0) fun _ _ => h2) fun bits w3 h3 => .bind (well_resendMissing hs hr _ _ _ _ h3) fun _ w4 h4 => ih _ h4

theorem well_fastRetransmit (hs : ∀ n, E.snd n = .ok) (hr : RecWell k N s0 rec) (pkt : Packet) (exts : List Extension) {w : World} (hw : Held k N s0 w) :
    Well (fun n => fastRetransmit E n (rec n) pkt exts) w fun _ => Held k N s0 :=
  .bind (.getS (Q := fun _ => Held k N s0) hw) fun s w1 h1 => .ite (fun _ => .bind (.overflowIf (Q := fun _ => Held k N s0) h1) fun _ w2 h2 =>
    well_resendLost hs hr _ h2) fun _ => .ret h1

/-- Counting an acknowledgement. -/
theorem well_countAck (pkt : Packet) {w : World} {P : Socket → Prop} (h : P w.s) (h1 : ∀ s a b c, P s → P { s with lastAcked := a, lastAckedTs := b, dupAcks := c }) :
    Well (fun _ => countAck E pkt) w fun _ w' => w'.nNet = w.nNet ∧ P w'.s ∧ w'.s.lastAcked = pkt.ackNr := by
  refine .bind (.getS (Q := fun s w' => s = w.s ∧ w' = w) ⟨rfl, rfl⟩) fun s w1 ⟨e1, e2⟩ => .ite (fun hc => ?_) fun _ => ?_
  · exact .bind (.overflowIf (Q := fun _ w' => w' = w) e2) fun _ w2 e3 => .modS (by rw [e3]; exact ⟨rfl, h1 _ _ _ _ h, by rw [World.setS, hc, e1]⟩)
  · exact .bind (.now (Q := fun _ w' => w'.nNet = w.nNet ∧ w'.s = w.s) fun _ => by rw [e2]; exact ⟨rfl, rfl⟩) fun t w2 ⟨e3, e4⟩ =>
      .modS ⟨e3, by rw [e4]; exact h1 _ _ _ _ h, rfl⟩

/-- The measurements. -/
theorem well_measureAck (pkt : Packet) {w : World} {P : Socket → Prop} (h : P w.s)
    (h1 : ∀ s i p t s', P s → s.onNewAck E i p t = some s' → P s') :
    Well (fun _ => measureAck E pkt) w fun _ w' => w'.nNet = w.nNet ∧ P w'.s := by
  refine .bind (.getS (Q := fun s w' => s = w.s ∧ w' = w) ⟨rfl, rfl⟩) fun s w1 ⟨e1, e2⟩ => ?_
  split
  · exact .ret ⟨by rw [e2], by rw [e2]; exact h⟩
  · refine .bind (.now (Q := fun _ w' => w'.nNet = w.nNet) fun _ => by rw [e2]) fun t w2 e3 => .bind (.orPanic (Q := fun _ w' => w'.nNet = w.nNet) fun _ _ => e3)
      fun p w3 e4 => .bind (.orPanic (Q := fun s' w' => w'.nNet = w.nNet ∧ P s') fun s' hs' => ⟨e4, h1 _ _ _ _ _ (by rw [e1]; exact h) hs'⟩)
      fun s' w4 ⟨e5, e6⟩ => .modS ⟨e5, e6⟩

/-- Removing acknowledged packets. -/
theorem Waits.advance {s s' : Socket} (h : Waits s0 s) (ha : s.advanceSendWindow E = some s') :
    Waits s0 s' ∧ (s.sendWindow = [] → s'.sendWindow = []) := by
  unfold Socket.advanceSendWindow at ha
  split at ha
  · obtain rfl := Option.some.inj ha; exact ⟨h, id⟩
  · rename_i pos hf
    split at ha
    · exact absurd ha (by simp)
    · rename_i c hc
      obtain rfl := Option.some.inj ha
      obtain ⟨j, hj⟩ := h.window
      refine ⟨⟨h.open_, h.limit, h.sid, h.rid, h.nr, ⟨j + (pos + 1), ?_⟩, ?_⟩, fun h0 => ?_⟩
      · simp only [List.map_drop, hj, List.drop_drop]
      · have h1 := subLens_exact _ _ _ hc
        have h2 := totalSize_append (s.sendWindow.take (pos + 1)) (s.sendWindow.drop (pos + 1))
        rw [List.take_append_drop] at h2
        simp only [h1, h.flight, h2]
        apply BitVec.eq_of_toNat_eq
        simp only [BitVec.toNat_sub, BitVec.toNat_ofNat]
        omega
      · simp [h0]

theorem well_handleState (hs : ∀ n, E.snd n = .ok) (hr : RecWell k N s0 rec) (pkt : Packet) {w : World} (hw : Held k N s0 w) :
    Well (fun n => handleState E n (rec n) pkt) w fun _ => Held k N s0 := by
  refine .bind (well_countAck pkt (P := fun s => Waits s0 s ∧ s.sendWindow = w.s.sendWindow) ⟨hw.1.1, rfl⟩ fun s _ _ _ h => ⟨h.1.same rfl rfl rfl rfl rfl rfl rfl, h.2⟩)
    fun _ w1 ⟨e1, ⟨h1, h1'⟩, _⟩ => ?_
  refine .bind (well_measureAck pkt (P := fun s => Waits s0 s ∧ s.sendWindow = w.s.sendWindow) ⟨h1, h1'⟩ ?_) fun _ w2 ⟨e2, h2, h2'⟩ => ?_
  · intro s i p t s' h hn
    obtain ⟨_, _, _, _, _, _, _, rfl⟩ := onNewAck_shape hn
    exact ⟨h.1.same rfl rfl rfl rfl rfl rfl rfl, h.2⟩
  have hw2 : Held k N s0 w2 := by
    refine ⟨⟨h2, ?_⟩, ?_⟩
    · rw [e2, e1, h2']; exact hw.1.2
    · rw [e2, e1]; exact hw.2
  refine .bind (.getS (Q := fun _ => Held k N s0) hw2) fun s w3 h3 => .bind (.orPanic (Q := fun _ => Held k N s0) fun _ _ => h3) fun exts w4 h4 =>
    .bind (well_processExtensions hs hr _ _ _ h4) fun loss w5 h5 => .bind (well_fastRetransmit hs hr _ _ h5) fun _ w6 h6 =>
    .bind (.modS (Q := fun _ => Held k N s0) ?_) fun _ w7 h7 => ?_
  · cases loss
    · exact h6.upd rfl rfl rfl rfl rfl rfl rfl
    · exact h6.upd rfl rfl rfl rfl rfl rfl rfl
  · refine .bind (.getS (Q := fun s w' => s = w'.s ∧ Held k N s0 w') ⟨rfl, h7⟩) fun s w8 ⟨e8, h8⟩ => .bind (.orPanic (Q := fun s' w' => Held k N s0 (w'.setS s')) fun s' ha => ?_)
      fun s' w9 h9 => .modS h9
    rw [e8] at ha
    obtain ⟨a1, a2⟩ := h8.1.1.advance ha
    exact ⟨⟨a1, h8.1.2.imp_right fun h => ⟨a2 h.1, h.2⟩⟩, h8.2⟩

/-! ### The last acknowledgement -/

theorem drop_last {l : List U16} {nr : U16} {j : Nat} (hne : (l ++ [nr]).drop j ≠ []) : (l ++ [nr]).drop j = l.drop j ++ [nr] := by
  rcases Nat.lt_or_ge l.length j with h | h
  · exact absurd (List.drop_of_length_le (by simp; omega)) hne
  · rw [List.drop_append_of_le_length h]

theorem Waits.last {s : Socket} {nr : U16} (hl : LastIs s0 nr) (h : Waits s0 s) (hne : s.sendWindow ≠ []) :
    (∃ l, s.sendWindow.map Packet.seqNr = l ++ [nr] ∧ nr ∉ l) ∧ nr + 1 ∉ s.sendWindow.map Packet.seqNr := by
  obtain ⟨l, h1, h2⟩ := hl.last
  obtain ⟨j, hj⟩ := h.window
  refine ⟨⟨l.drop j, ?_, fun hm => h2 (List.mem_of_mem_drop hm)⟩, ?_⟩
  · rw [hj, h1]
    refine drop_last fun h0 => hne ?_
    rw [h1, h0] at hj
    simpa using hj
  · rw [hj]
    exact fun hm => hl.next (List.mem_of_mem_drop hm)

/-- The acknowledgement of the last packet empties the window. -/
theorem advance_last {s s' : Socket} {nr : U16} {l : List U16} (h : s.sendWindow.map Packet.seqNr = l ++ [nr]) (hl : nr ∉ l) (ha : s.lastAcked = nr)
    (h' : s.advanceSendWindow E = some s') : s'.sendWindow = [] := by
  have hlen : s.sendWindow.length = l.length + 1 := by
    have := congrArg List.length h
    simpa using this
  have hf : (s.sendWindow.findIdx? fun p => p.seqNr == s.lastAcked) = some l.length := by
    rw [List.findIdx?_eq_some_iff_getElem]
    have hg : ∀ i (hi : i < s.sendWindow.length), (s.sendWindow[i]).seqNr = (l ++ [nr])[i]'(by simp; omega) := by
      intro i hi
      have := List.getElem_map (f := Packet.seqNr) (l := s.sendWindow) (i := i) (h := by simpa using hi)
      rw [← this]
      simp only [h]
    refine ⟨by omega, ?_, ?_⟩
    · rw [hg, ha]; simp
    · intro i hi
      rw [hg i (by omega), List.getElem_append_left hi, ha]
      simp only [beq_iff_eq, Bool.not_eq_true, beq_eq_false_iff_ne, ne_eq]
      intro e
      exact hl (e ▸ List.getElem_mem _)
  unfold Socket.advanceSendWindow at h'
  rw [hf] at h'
  simp only at h'
  split at h'
  · exact absurd h' (by simp)
  · obtain rfl := Option.some.inj h'
    simp only
    rw [List.drop_of_length_le (by omega)]

theorem well_noExtensions {w : World} {P : World → Prop} (h : P w) (ack : U16) : ∀ l loss, (∀ e ∈ l, e.ty ≠ .selectiveAck) →
    Well (fun n => processExtensions E n (rec n) ack l loss) w fun _ => P
  | [], _, _ => .ret h
  | e :: rest, loss, hl => by
    unfold processExtensions
    exact .ite (fun he => absurd he (hl e (by simp))) fun _ => well_noExtensions h ack rest loss fun e he => hl e (by simp [he])

/-- What follows a byte of the length is at most 255 bytes long. -/
theorem extensionsLoop_short (b : Bytes) : ∀ fuel index ty l, Packet.extensionsLoop b fuel index ty = some l → ∀ e ∈ l, e.data.length ≤ 255
  | 0, _, _, _, h => by simp [Packet.extensionsLoop] at h
  | fuel + 1, index, ty, l, h => by
    unfold Packet.extensionsLoop at h
    split at h
    · obtain rfl := Option.some.inj h; simp
    · split at h
      · split at h
        · rename_i len next h1 h2
          split at h
          · rw [Option.map_eq_some_iff] at h
            obtain ⟨l', h3, rfl⟩ := h
            have ih := extensionsLoop_short b fuel _ _ l' h3
            intro e he
            rcases List.mem_cons.mp he with rfl | he
            · have := len.isLt
              simp only [List.length_take]
              omega
            · exact ih e he
          · simp at h
        · simp at h
      · obtain rfl := Option.some.inj h; simp

theorem extensions_short {pkt : Packet} {l : List Extension} (h : pkt.extensions = some l) : ∀ e ∈ l, e.data.length ≤ 255 := by
  unfold Packet.extensions at h
  split at h
  · simp at h
  · exact extensionsLoop_short _ _ _ _ _ h

/-- A packet that is not outstanding is not sent again. -/
theorem well_resendNone {w : World} {nr : U16} (h : nr ∉ w.s.sendWindow.map Packet.seqNr) : Well (fun n => resendLost E n (rec n) nr) w fun _ w' => w' = w := by
  refine .bind (.getS (Q := fun s w' => s = w.s ∧ w' = w) ⟨rfl, rfl⟩) fun s w1 ⟨e1, e2⟩ => ?_
  split
  · exact .ret e2
  · rename_i p hp
    have h1 := List.mem_of_find?_eq_some hp
    have h2 := List.find?_some hp
    rw [e1] at h1
    exact absurd (show nr ∈ _ from (show p.seqNr = nr by simpa using h2) ▸ List.mem_map_of_mem h1) h

theorem well_resendMissing_none {ack last : U16} {w : World} (h : ∀ i, i < 2041 → ack + 1 + BitVec.ofNat 16 i ∉ w.s.sendWindow.map Packet.seqNr) :
    ∀ l loss, (∀ x ∈ l, x.1 < 2040) → Well (fun n => resendMissing E n (rec n) ack last l loss) w fun _ w' => w' = w
  | [], _, _ => .ret rfl
  | (idx, received) :: rest, loss, hl => by
    have hrest : ∀ x ∈ rest, x.1 < 2040 := fun x hx => hl x (by simp [hx])
    have hidx : idx < 2040 := hl (idx, received) (by simp)
    unfold resendMissing
    refine .ite (fun _ => well_resendMissing_none h rest loss hrest) fun _ => .bind (.overflowIf (Q := fun _ w' => w' = w) rfl) fun _ w1 e1 => .ite (fun _ => ?_) fun _ => .ret e1
    subst e1
    have e : ack + 2 + BitVec.ofNat 16 idx = ack + 1 + BitVec.ofNat 16 (idx + 1) := by
      apply BitVec.eq_of_toNat_eq
      simp only [BitVec.toNat_add, BitVec.toNat_ofNat]
      have h1 : (1 : U16).toNat = 1 := rfl
      have h2 : (2 : U16).toNat = 2 := rfl
      omega
    refine .bind (well_resendNone (by rw [e]; exact h _ (by omega))) fun _ w2 e2 => ?_
    subst e2
    exact well_resendMissing_none h rest true hrest

theorem well_resendFirst_none {ack : U16} {w : World} (h : ack + 1 ∉ w.s.sendWindow.map Packet.seqNr) (data : Bytes) (loss : Bool) :
    Well (fun n => resendFirst E n (rec n) ack data loss) w fun _ w' => w' = w := by
  unfold resendFirst
  refine .ite (fun _ => .bind (.overflowIf (Q := fun _ w' => w' = w) rfl) fun _ w1 e1 => ?_) fun _ => .ret rfl
  subst e1
  exact .bind (well_resendNone h) fun _ w2 e2 => .ret e2

/-- Selective acknowledgements of numbers that are not outstanding have no effect. -/
theorem well_processExtensions_none {ack : U16} {w : World} (h : ∀ i, i < 2041 → ack + 1 + BitVec.ofNat 16 i ∉ w.s.sendWindow.map Packet.seqNr) :
    ∀ l loss, (∀ e ∈ l, e.data.length ≤ 255) → Well (fun n => processExtensions E n (rec n) ack l loss) w fun _ w' => w' = w
  | [], _, _ => .ret rfl
  | e :: rest, loss, hl => by
    have hrest : ∀ e ∈ rest, e.data.length ≤ 255 := fun x hx => hl x (by simp [hx])
    have hle := hl e (by simp)
    unfold processExtensions
    refine .ite (fun _ => .bind (well_resendFirst_none (by simpa using h 0 (by omega)) _ _) fun _ w1 e1 => ?_) fun _ => well_processExtensions_none h rest loss hrest
    subst e1
    refine .bind (.getS (Q := fun _ w' => w' = w1) rfl) fun s w2 e2 => ?_
    subst e2
    split
    · exact well_processExtensions_none h rest _ hrest
    · refine .bind (.orPanic (Q := fun bits w' => w' = w2 ∧ bits.length ≤ 2040) fun bits hb => ⟨rfl, ?_⟩) fun bits w3 ⟨e3, hb⟩ => ?_
      · rw [C05_items] at hb
        obtain rfl := Option.some.inj hb
        simp
        omega
      · subst e3
        refine .bind (well_resendMissing_none h _ _ fun x hx => ?_) fun _ w4 e4 => ?_
        · obtain ⟨i, hi, rfl⟩ := List.mem_iff_getElem.mp hx
          simp only [List.length_zip, List.length_range, Nat.min_self] at hi
          simp only [List.getElem_zip, List.getElem_range]
          omega
        · subst e4
          exact well_processExtensions_none h rest _ hrest

theorem well_handleState_last {nr : U16} (hl : LastIs s0 nr) {pkt : Packet} {exts : List Extension} (hack : pkt.ackNr = nr) (hext : pkt.extensions = some exts)
    (hnos : (∀ e ∈ exts, e.ty ≠ .selectiveAck) ∨ Unnamed s0 nr) {w : World} (hw : Waits s0 w.s) (hne : w.s.sendWindow ≠ []) :
    Well (fun n => handleState E n (rec n) pkt) w fun _ w' => w'.nNet = w.nNet ∧ Waits s0 w'.s ∧ w'.s.sendWindow = [] := by
  refine .bind (well_countAck pkt (P := fun s => Waits s0 s ∧ s.sendWindow = w.s.sendWindow) ⟨hw, rfl⟩ fun s _ _ _ h => ⟨h.1.same rfl rfl rfl rfl rfl rfl rfl, h.2⟩)
    fun _ w1 ⟨e1, ⟨h1, h1'⟩, ha1⟩ => ?_
  let P : Socket → Prop := fun s => Waits s0 s ∧ s.sendWindow = w.s.sendWindow ∧ s.lastAcked = pkt.ackNr
  let G : World → Prop := fun w' => w'.nNet = w.nNet ∧ P w'.s
  refine .bind (well_measureAck pkt (P := P) ⟨h1, h1', ha1⟩ ?_) fun _ w2 ⟨e2, h2⟩ => ?_
  · intro s i p t s' h hn
    obtain ⟨_, _, _, _, _, _, _, rfl⟩ := onNewAck_shape hn
    exact ⟨h.1.same rfl rfl rfl rfl rfl rfl rfl, h.2⟩
  have g2 : G w2 := ⟨e2.trans e1, h2⟩
  refine .bind (.getS (Q := fun _ => G) g2) fun s w3 g3 => .bind (.orPanic (Q := fun x w' => G w' ∧ x = exts) fun x hx => ⟨g3, ?_⟩) fun x w4 ⟨g4, hx⟩ => ?_
  · rw [hext] at hx; exact (Option.some.inj hx).symm
  subst hx
  refine .bind (Q := fun _ => G) ?_ fun loss w5 g5 => .bind (m := fun n => fastRetransmit E n (rec n) pkt x) (Q := fun _ => G) ?_ fun _ w6 g6 => ?_
  · rcases hnos with hnos | hnos
    · exact well_noExtensions g4 _ _ _ hnos
    · refine (well_processExtensions_none (fun i hi hm => ?_) _ _ (extensions_short hext)).mono fun _ w' e => e ▸ g4
      rw [hack] at hm
      obtain ⟨j, hj⟩ := g4.2.1.window
      rw [hj] at hm
      exact hnos i hi (List.mem_of_mem_drop hm)
  · refine .bind (.getS (Q := fun s w' => G w' ∧ s = w'.s) ⟨g5, rfl⟩) fun s w6 ⟨g6, e6⟩ => .ite (fun _ => .bind (.overflowIf (Q := fun _ => G) g6) fun _ w7 g7 => ?_) fun _ => .ret g6
    refine .bind (.getS (Q := fun s w' => G w' ∧ s = w'.s) ⟨g7, rfl⟩) fun s w8 ⟨g8, e8⟩ => ?_
    have hno : (s.sendWindow.find? fun p => p.seqNr == pkt.ackNr + 1) = none := by
      rw [List.find?_eq_none]
      intro p hp hpe
      have hne' : s.sendWindow ≠ [] := fun h0 => by rw [h0] at hp; simp at hp
      have := ((e8 ▸ g8.2.1 : Waits s0 s).last hl hne').2
      apply this
      rw [← hack]
      have hpe : p.seqNr = pkt.ackNr + 1 := by simpa using hpe
      rw [← hpe]
      exact List.mem_map_of_mem hp
    split
    · exact .ret g8
    · rename_i p hp
      rw [hno] at hp
      exact absurd hp (by simp)
  refine .bind (.modS (Q := fun _ => G) ?_) fun _ w7 g7 => ?_
  · cases loss
    · exact ⟨g6.1, g6.2.1.same rfl rfl rfl rfl rfl rfl rfl, g6.2.2⟩
    · exact ⟨g6.1, g6.2.1.same rfl rfl rfl rfl rfl rfl rfl, g6.2.2⟩
  · refine .bind (.getS (Q := fun s w' => s = w'.s ∧ G w') ⟨rfl, g7⟩) fun s w8 ⟨e8, g8⟩ =>
      .bind (.orPanic (Q := fun s' w' => w'.nNet = w.nNet ∧ Waits s0 s' ∧ s'.sendWindow = []) fun s' ha => ?_) fun s' w9 h9 => .modS h9
    rw [e8] at ha
    obtain ⟨⟨l, hl1, hl2⟩, -⟩ := g8.2.1.last hl (by rw [g8.2.2.1]; exact hne)
    exact ⟨g8.1, (g8.2.1.advance ha).1, advance_last hl1 hl2 (by rw [g8.2.2.2, hack]) ha⟩

/-! ### Receiving -/

theorem well_withSack (s : Socket) (pkt reply : Packet) {w : World} {P : World → Prop} (h : P w) : Well (fun _ => withSack E s pkt reply) w fun _ => P := by
  unfold withSack
  exact .ite (fun _ => .bind (.orPanic (Q := fun _ => P) fun _ _ => h) fun _ _ h => .ite (fun _ => .orPanic fun _ _ => h) fun _ => .ret h) fun _ => .ret h

theorem well_handleData (pkt : Packet) {w : World} {P : World → Prop} (h : P w) (ht : ∀ w, P w → P { w with nNow := w.nNow + 1 }) :
    Well (fun _ => handleData E pkt) w fun _ => P :=
  .bind (.getS (Q := fun _ => P) h) fun _ _ h => .bind (.now (Q := fun _ => P) fun _ => ht _ h) fun _ _ h => well_withSack _ _ _ h

theorem well_replyWith (pkt : Packet) (t : PacketType) {w : World} {P : World → Prop} (h : P w) (ht : ∀ w, P w → P { w with nNow := w.nNow + 1 }) :
    Well (fun _ => replyWith E pkt t) w fun _ => P :=
  .bind (.getS (Q := fun _ => P) h) fun _ _ h => .bind (.now (Q := fun _ => P) fun _ => ht _ h) fun _ _ h => .ret h

/-- Delivering changes the receiving side only. -/
theorem well_flushIncoming (len : Nat) {w : World} {P : Socket → Prop} (h : P w.s)
    (h1 : ∀ s a b c d, P s → P { s with incoming := a, pending := b, ackNr := c, lastDropped := d }) :
    Well (fun _ => flushIncoming E len) w fun _ w' => w'.nNet = w.nNet ∧ P w'.s := by
  have ha : ∀ s, P s → P s.advanceIncoming := by
    intro s hs
    unfold Socket.advanceIncoming
    split
    · exact hs
    · exact h1 s _ s.pending _ _ hs
  let G : World → Prop := fun w' => w'.nNet = w.nNet ∧ P w'.s
  refine .bind (.getS (Q := fun _ => G) ⟨rfl, h⟩) fun s w1 g1 => .ite (fun _ => .bind (.modS (Q := fun _ => G) ⟨g1.1, ?_⟩) fun _ _ g => .ret g) fun _ => ?_
  · simp only [World.setS, Socket.takePending]
    split
    · exact ha _ (h1 _ _ _ _ _ g1.2)
    · exact h1 _ _ _ _ _ g1.2
  · split
    · exact .ret g1
    · refine .bind (.overflowIf (Q := fun _ => G) g1) fun _ w2 g2 => .ite (fun _ => .bind (.orPanic (Q := fun _ => G) fun _ _ => g2) fun pl w3 g3 =>
        .bind (.modS (Q := fun _ => G) ⟨g3.1, ?_⟩) fun _ _ g => .ret g) fun _ => .ret g2
      simp only [World.setS, Socket.takeHead]
      split
      · exact ha _ g3.2
      · exact h1 _ _ _ _ _ g3.2

theorem bumpAck_eq (s : Socket) (pkt : Packet) : ∃ a, s.bumpAck pkt = { s with ackNr := a } := by
  unfold Socket.bumpAck
  split
  · exact ⟨_, rfl⟩
  · exact ⟨_, rfl⟩

/-- The packets other than a FIN or a Reset of this connection. -/
theorem well_handlePacket (hs : ∀ n, E.snd n = .ok) (hr : RecWell k N s0 rec) (pkt : Packet) (src : Addr) {w : World} (hw : Held k N s0 w)
    (hp : pkt.getType = some .fin ∨ pkt.getType = some .reset → pkt.connectionId ≠ s0.senderId ∧ pkt.connectionId ≠ s0.receiverId) :
    Well (fun n => handlePacket E n (rec n) pkt src) w fun _ => Held k N s0 := by
  refine .bind (.modS (Q := fun _ => Held k N s0) ?_) fun _ w1 h1 => .bind (.getS (Q := fun s w' => s = w'.s ∧ Held k N s0 w') ⟨rfl, h1⟩) fun s w2 ⟨e2, h2⟩ =>
    .bind (.orPanic (Q := fun ty w' => s = w'.s ∧ Held k N s0 w' ∧ pkt.getType = some ty) fun ty ht => ⟨e2, h2, ht⟩) fun ty w3 ⟨e3, h3, ht⟩ =>
    .ite (fun _ => well_replyWith _ _ h3 fun _ h => h) fun hc => .bind (.now (Q := fun _ => Held k N s0) fun _ => h3) fun t w4 h4 =>
    .bind (.modS (Q := fun _ => Held k N s0) (h4.upd rfl rfl rfl rfl rfl rfl rfl)) fun _ w5 h5 => ?_
  · obtain ⟨a, ha⟩ := bumpAck_eq w.s pkt
    rw [ha]
    exact hw.upd rfl rfl rfl rfl rfl rfl rfl
  · have hst : s.state = .connected := by rw [e3]; exact h3.1.1.open_
    have hid : ty ≠ .syn → pkt.connectionId = s0.senderId ∨ pkt.connectionId = s0.receiverId := by
      intro hy
      rw [← h3.1.1.sid, ← h3.1.1.rid, ← e3]
      by_cases hi : pkt.connectionId = s.senderId ∨ pkt.connectionId = s.receiverId
      · exact hi
      · exact absurd ⟨hy, by rw [hst]; decide, hi⟩ hc
    rw [hst]
    cases ty with
    | data => exact .bind (well_handleData pkt h5 fun _ h => h) fun _ _ h => .ret h
    | fin =>
      have := hp (.inl ht)
      rcases hid (by decide) with h | h
      · exact absurd h this.1
      · exact absurd h this.2
    | state => exact .bind (well_handleState hs hr pkt h5) fun _ _ h => .ret h
    | reset =>
      have := hp (.inr ht)
      rcases hid (by decide) with h | h
      · exact absurd h this.1
      · exact absurd h this.2
    | syn => exact well_replyWith _ _ h5 fun _ h => h

/-- The acknowledgement of the last packet. -/
theorem well_handlePacket_last {nr : U16} (hl : LastIs s0 nr) {pkt : Packet} {exts : List Extension} (ht : pkt.getType = some .state) (hack : pkt.ackNr = nr)
    (hid : pkt.connectionId = s0.senderId ∨ pkt.connectionId = s0.receiverId) (hext : pkt.extensions = some exts)
    (hnos : (∀ e ∈ exts, e.ty ≠ .selectiveAck) ∨ Unnamed s0 nr) (src : Addr) {w : World} (hw : Waits s0 w.s) (hne : w.s.sendWindow ≠ []) :
    Well (fun n => handlePacket E n (rec n) pkt src) w fun _ w' => w'.nNet = w.nNet ∧ Waits s0 w'.s ∧ w'.s.sendWindow = [] := by
  let G : World → Prop := fun w' => w'.nNet = w.nNet ∧ Waits s0 w'.s ∧ w'.s.sendWindow ≠ []
  refine .bind (.modS (Q := fun _ => G) ?_) fun _ w1 h1 => .bind (.getS (Q := fun s w' => s = w'.s ∧ G w') ⟨rfl, h1⟩) fun s w2 ⟨e2, h2⟩ =>
    .bind (.orPanic (Q := fun ty w' => s = w'.s ∧ G w' ∧ ty = .state) fun ty ht' => ⟨e2, h2, ?_⟩) fun ty w3 ⟨e3, h3, ht⟩ =>
    .ite (fun hc => ?_) fun hc => .bind (.now (Q := fun _ => G) fun _ => h3) fun t w4 h4 =>
    .bind (.modS (Q := fun _ => G) ⟨h4.1, h4.2.1.same rfl rfl rfl rfl rfl rfl rfl, h4.2.2⟩) fun _ w5 h5 => ?_
  · obtain ⟨a, ha⟩ := bumpAck_eq w.s pkt
    rw [ha]
    exact ⟨rfl, hw.same rfl rfl rfl rfl rfl rfl rfl, hne⟩
  · rw [ht] at ht'; exact (Option.some.inj ht').symm
  · refine absurd ?_ hc.2.2
    rw [e3, h3.2.1.sid, h3.2.1.rid]; exact hid
  · have hst : s.state = .connected := by rw [e3]; exact h3.2.1.open_
    rw [hst, ht]
    exact .bind (well_handleState_last hl hack hext hnos h5.2.1 h5.2.2) fun _ _ h => .ret ⟨h.1.trans h5.1, h.2⟩

/-- What follows after a packet was handled. -/
theorem well_recvPacket (hs : ∀ n, E.snd n = .ok) {Q : Socket → Nat → Prop} {w : World} (len : Nat) (pkt : Packet) (src : Addr)
    (hp : Well (fun n => handlePacket E n (rec n) pkt src) w fun _ w' => Q w'.s w'.nNet)
    (h1 : ∀ s n a b c d, Q s n → Q { s with incoming := a, pending := b, ackNr := c, lastDropped := d } n) :
    Well (fun n => recvPacket E n (rec n) len pkt src) w fun _ w' => Q w'.s w'.nNet := by
  refine .bind hp fun reply w1 q1 => .bind (m := fun _ => sendReply E src reply) (Q := fun _ w' => Q w'.s w'.nNet) ?_ fun _ w2 q2 =>
    .bind (.orPanic (Q := fun _ w' => Q w'.s w'.nNet) fun _ _ => q2) fun ty w3 q3 => .bind (.modS (Q := fun _ w' => Q w'.s w'.nNet) ?_) fun _ w4 q4 => ?_
  · cases reply with
    | none => exact .ret q1
    | some r => exact .udpSend hs fun _ => q1
  · simp only [World.setS]
    split
    · exact h1 _ _ _ w3.s.pending w3.s.ackNr w3.s.lastDropped q3
    · exact q3
  · exact .bind (well_flushIncoming len (P := fun s => Q s w4.nNet) q4 fun s a b c d h => h1 s _ a b c d h) fun _ w5 ⟨e, q5⟩ => .ret (by rw [e]; exact q5)

/-- The events up to the last acknowledgement, which is the wait number `N`. -/
structure Acked (E : Env) (k N : Nat) (s0 : Socket) (nr : U16) : Prop where
  sends : ∀ n, E.snd n = .ok
  peace : ∀ n, k ≤ n → n < N → Peaceful s0 (E.net n)
  prompt : ∀ n, k ≤ n → n ≤ N → ∃ j, j < s0.maxRetries.toNat ∧ ∃ b src, E.net (n + j) = .dgram b src
  ack : AckOf s0 nr (E.net N)
  last : LastIs s0 nr
  names : Unselective (E.net N) ∨ Unnamed s0 nr

theorem Waits.touch {s : Socket} {p : Packet} {rest : List Packet} (t : U32) (hw : s.sendWindow = p :: rest) (h : Waits s0 s) :
    Waits s0 { s with sendWindow := p.setTimestamp t :: rest } := by
  refine ⟨h.open_, h.limit, h.sid, h.rid, h.nr, ?_, ?_⟩
  · obtain ⟨j, hj⟩ := h.window
    refine ⟨j, ?_⟩
    rw [← hj, hw]
    simp
  · rw [h.flight, hw]
    simp [totalSize]

/-- The first datagram from the wait number `n` on. -/
theorem first_dgram (hp : ∀ i, n ≤ i → i < N → Peaceful s0 (E.net i)) (hN : ∃ b src, E.net N = .dgram b src) : ∀ j, n + j ≤ N →
    (∃ b src, E.net (n + j) = .dgram b src) → ∃ i, i ≤ j ∧ (∃ b src, E.net (n + i) = .dgram b src) ∧
      ∀ i', i' < i → ∃ k, E.net (n + i') = .fail k ∧ isTimeout k = true := by
  intro j
  induction j using Nat.strongRecOn with
  | _ j ih =>
    intro hj hd
    by_cases h : ∃ i, i < j ∧ ∃ b src, E.net (n + i) = .dgram b src
    · obtain ⟨i, hi, hd⟩ := h
      obtain ⟨i', h1, h2⟩ := ih i hi (by omega) hd
      exact ⟨i', by omega, h2⟩
    · refine ⟨j, Nat.le_refl j, hd, fun i hi => ?_⟩
      have hp' := hp (n + i) (by omega) (by omega)
      rcases hn : E.net (n + i) with ⟨b, src⟩ | k | _
      · exact absurd ⟨i, hi, b, src, hn⟩ h
      · rw [hn] at hp'
        refine ⟨k, rfl, ?_⟩
        rcases hp' with rfl | rfl <;> rfl
      · rw [hn] at hp'; exact hp'.elim

theorem well_recv {k0 : Nat} {nr : U16} (ha : Acked E k0 N s0 nr) (len : Nat) (w : World) (hk : k0 ≤ w.nNet) (hw : StillWaits N s0 w) (hne : w.s.sendWindow ≠ []) :
    Well (fun n => recv E n len) w fun _ w' => StillWaits N s0 w' ∧ w.nNet < w'.nNet := by
  obtain ⟨d, hd⟩ : ∃ d, N + 1 - w.nNet = d := ⟨_, rfl⟩
  induction d using Nat.strongRecOn generalizing len w with
  | _ d ih =>
    have hN : w.nNet ≤ N := hw.2.resolve_right fun h => hne h.1
    obtain ⟨b0, src0, pkt0, hev, htf, hty, hid, hack⟩ := ha.ack
    obtain ⟨exts, hext⟩ : ∃ exts, pkt0.extensions = some exts := by
      obtain ⟨_, -, -, -, l, hl, -⟩ := C03_accepted htf
      exact ⟨l, hl⟩
    have hnos : (∀ e ∈ exts, e.ty ≠ .selectiveAck) ∨ Unnamed s0 nr := ha.names.imp_left fun h => h b0 src0 pkt0 exts hev htf hext
    refine .succ ?_
    simp only [recv]
    -- the wait
    obtain ⟨j, hj1, hj2, hj3⟩ : ∃ j, j < s0.maxRetries.toNat ∧ w.nNet + j ≤ N ∧ ∃ b src, E.net (w.nNet + j) = .dgram b src := by
      obtain ⟨j, h1, h2⟩ := ha.prompt w.nNet hk hN
      rcases Nat.lt_or_ge N (w.nNet + j) with h | h
      · exact ⟨N - w.nNet, by omega, by omega, by rw [show w.nNet + (N - w.nNet) = N by omega]; exact ⟨b0, src0, hev⟩⟩
      · exact ⟨j, h1, h, h2⟩
    obtain ⟨i, hi1, hi2, hi3⟩ := first_dgram (fun i h1 h2 => ha.peace i (by omega) h2) ⟨b0, src0, hev⟩ j hj2 hj3
    refine .bind (well_recvWait ha.sends (P := fun s => Waits s0 s ∧ s.sendWindow ≠ []) (m := s0.maxRetries.toNat) (fun s h => by rw [h.1.limit])
      (fun s _ _ h => ⟨h.1.same rfl rfl rfl rfl rfl rfl rfl, h.2⟩) (fun s p rest t hs h => ⟨h.1.touch t hs, by simp⟩) i 0 w ⟨hw.1, hne⟩ (by omega) hi2 hi3) fun x w1 ⟨h1, e1, b, hb, hx⟩ => ?_
    have hx' : x.1 = b.take 1520 := hx
    refine .bind (.orPanic (Q := fun r w' => w' = w1 ∧ Packet.tryFrom x.1 = some r) fun r hr => ⟨rfl, hr⟩) fun r w2 ⟨e2, hr⟩ => ?_
    subst e2
    cases r with
    | error e =>
      rcases Nat.lt_or_ge (w.nNet + i) N with hlt | hge
      · exact .bind (.getS (Q := fun _ w' => StillWaits N s0 w' ∧ w.nNet < w'.nNet) ⟨⟨h1.1, .inl (by omega)⟩, by omega⟩) fun _ _ h => .ret h
      · rw [show w.nNet + i = N by omega, hev] at hb
        injection hb with hb1 hb2
        rw [hx', ← hb1, htf] at hr
        simp at hr
    | ok pkt =>
      simp only
      rcases Nat.lt_or_ge (w.nNet + i) N with hlt | hge
      · have hpe := ha.peace (w.nNet + i) (by omega) hlt
        rw [hb] at hpe
        have hheld : Held (w2.nNet) N s0 w2 := ⟨⟨h1.1, .inl (by omega)⟩, Nat.le_refl _⟩
        refine (well_recvPacket ha.sends (Q := fun s n => (Waits s0 s ∧ (n ≤ N ∨ s.sendWindow = [] ∧ n = N + 1)) ∧ w2.nNet ≤ n) len pkt x.2
          ((well_handlePacket ha.sends ?_ pkt x.2 hheld (hpe pkt (by rw [← hx', hr]))).mono fun _ _ h => h) ?_).mono fun _ w3 h3 => ⟨h3.1, by have := h3.2; omega⟩
        · exact fun w' hw' hne' => ih (N + 1 - w'.nNet) (by have := hw'.2; omega) BUF_SIZE w' (by have := hw'.2; omega) hw'.1 hne' rfl
        · exact fun s n _ _ _ _ h => ⟨⟨h.1.1.same rfl rfl rfl rfl rfl rfl rfl, h.1.2⟩, h.2⟩
      · rw [show w.nNet + i = N by omega, hev] at hb
        injection hb with hb1 hb2
        rw [hx', ← hb1, htf] at hr
        obtain rfl : pkt0 = pkt := by simpa using hr
        refine (well_recvPacket ha.sends (Q := fun s n => n = w2.nNet ∧ Waits s0 s ∧ s.sendWindow = []) len pkt0 x.2
          (well_handlePacket_last ha.last hty hack hid hext hnos x.2 h1.1 h1.2) ?_).mono fun _ w3 h3 => ⟨⟨h3.2.1, .inr ⟨h3.2.2, by have := h3.1; omega⟩⟩, by have := h3.1; omega⟩
        exact fun s n _ _ _ _ h => ⟨h.1, h.2.1.same rfl rfl rfl rfl rfl rfl rfl, h.2.2⟩

theorem well_flush {k0 : Nat} {nr : U16} (ha : Acked E k0 N s0 nr) {w : World} (hk : k0 ≤ w.nNet) (hw : StillWaits N s0 w) :
    Well (fun n => flush E n) w fun _ w' => Waits s0 w'.s ∧ w'.s.sendWindow = [] ∧ k0 ≤ w'.nNet ∧ w'.nNet ≤ N + 1 := by
  refine .whileM (N := N) (X := fun w => k0 ≤ w.nNet ∧ StillWaits N s0 w) (Y := fun w => (k0 ≤ w.nNet ∧ StillWaits N s0 w) ∧ w.s.sendWindow ≠ []) ?_ ?_ ?_ ⟨hk, hw⟩
  · intro w hw
    refine .bind (.getS (Q := fun s w' => s = w.s ∧ w' = w) ⟨rfl, rfl⟩) fun s w' ⟨e1, e2⟩ => .ret ⟨by rw [e2], ?_⟩
    subst e2 e1
    by_cases h : w'.s.sendWindow = []
    · simp only [h, ne_eq, not_true_eq_false, decide_false]
      exact ⟨hw.2.1, trivial, hw.1, hw.2.2.elim (fun h => by omega) fun h => by omega⟩
    · simp only [h, ne_eq, not_false_eq_true, decide_true]
      exact ⟨hw, trivial⟩
  · exact fun w hw => hw.1.2.2.resolve_right fun h => hw.2 h.1
  · exact fun w hw => .bind (well_recv ha BUF_SIZE w hw.1.1 hw.1.2 hw.2) fun _ w' h => .ret ⟨⟨by have := hw.1.1; omega, h.1⟩, h.2⟩

/-! ### Closing -/

/-- What stays true of the socket `s` while `close` waits for the acknowledgement of the FIN. -/
structure Closes (s0 s : Socket) : Prop where
  limit : s.maxRetries = s0.maxRetries
  sid : s.senderId = s0.senderId
  rid : s.receiverId = s0.receiverId
  nr : s.seqNr = s0.seqNr
  window : s.sendWindow = []

theorem Closes.same {s s' : Socket} (h : Closes s0 s) (h2 : s'.maxRetries = s.maxRetries) (h3 : s'.senderId = s.senderId)
    (h4 : s'.receiverId = s.receiverId) (h5 : s'.seqNr = s.seqNr) (h6 : s'.sendWindow = s.sendWindow) : Closes s0 s' :=
  ⟨by rw [h2, h.limit], by rw [h3, h.sid], by rw [h4, h.rid], by rw [h5, h.nr], by rw [h6, h.window]⟩

/-- A packet while waiting for the acknowledgement of the FIN. -/
theorem well_handlePacket_fin (pkt : Packet) (src : Addr) {w : World} (hw : Closes s0 w.s) (hf : w.s.state = .finSent)
    (hp : pkt.getType = some .fin ∨ pkt.getType = some .reset → pkt.connectionId ≠ s0.senderId ∧ pkt.connectionId ≠ s0.receiverId) :
    Well (fun n => handlePacket E n (rec n) pkt src) w fun _ w' => w'.nNet = w.nNet ∧ Closes s0 w'.s ∧ (w'.s.state = .finSent ∨ w'.s.state = .closed) ∧
      (pkt.getType = some .state → (pkt.connectionId = s0.senderId ∨ pkt.connectionId = s0.receiverId) → pkt.ackNr = s0.seqNr → w'.s.state = .closed) := by
  let G : World → Prop := fun w' => w'.nNet = w.nNet ∧ Closes s0 w'.s ∧ w'.s.state = .finSent
  have done : ∀ w', G w' → (pkt.getType = some .state → (pkt.connectionId = s0.senderId ∨ pkt.connectionId = s0.receiverId) → False) →
      w'.nNet = w.nNet ∧ Closes s0 w'.s ∧ (w'.s.state = .finSent ∨ w'.s.state = .closed) ∧
      (pkt.getType = some .state → (pkt.connectionId = s0.senderId ∨ pkt.connectionId = s0.receiverId) → pkt.ackNr = s0.seqNr → w'.s.state = .closed) :=
    fun w' g h => ⟨g.1, g.2.1, .inl g.2.2, fun h1 h2 => (h h1 h2).elim⟩
  refine .bind (.modS (Q := fun _ => G) ?_) fun _ w1 h1 => .bind (.getS (Q := fun s w' => s = w'.s ∧ G w') ⟨rfl, h1⟩) fun s w2 ⟨e2, h2⟩ =>
    .bind (.orPanic (Q := fun ty w' => s = w'.s ∧ G w' ∧ pkt.getType = some ty) fun ty ht => ⟨e2, h2, ht⟩) fun ty w3 ⟨e3, h3, ht⟩ =>
    .ite (fun hc => (well_replyWith _ _ h3 fun _ h => h).mono fun _ w' g => done w' g fun _ h => hc.2.2 (by rw [e3, h3.2.1.sid, h3.2.1.rid]; exact h)) fun hc =>
    .bind (.now (Q := fun _ => G) fun _ => h3) fun t w4 h4 =>
    .bind (.modS (Q := fun _ => G) ⟨h4.1, h4.2.1.same rfl rfl rfl rfl rfl, h4.2.2⟩) fun _ w5 h5 => ?_
  · obtain ⟨a, ha⟩ := bumpAck_eq w.s pkt
    rw [ha]
    exact ⟨rfl, hw.same rfl rfl rfl rfl rfl, hf⟩
  · have hst : s.state = .finSent := by rw [e3]; exact h3.2.2
    have hid : ty ≠ .syn → pkt.connectionId = s0.senderId ∨ pkt.connectionId = s0.receiverId := by
      intro hy
      rw [← h3.2.1.sid, ← h3.2.1.rid, ← e3]
      by_cases hi : pkt.connectionId = s.senderId ∨ pkt.connectionId = s.receiverId
      · exact hi
      · exact absurd ⟨hy, by rw [hst]; decide, hi⟩ hc
    rw [hst]
    cases ty with
    | data => exact .bind (well_handleData pkt h5 fun _ h => h) fun _ w' g => .ret (done w' g fun h => absurd (ht.symm.trans h) (by decide))
    | fin =>
      have := hp (.inl ht)
      rcases hid (by decide) with h | h
      · exact absurd h this.1
      · exact absurd h this.2
    | state =>
      refine .bind (.modS (Q := fun _ w' => w'.nNet = w.nNet ∧ Closes s0 w'.s ∧ (w'.s.state = .finSent ∨ w'.s.state = .closed) ∧
        (pkt.getType = some .state → (pkt.connectionId = s0.senderId ∨ pkt.connectionId = s0.receiverId) → pkt.ackNr = s0.seqNr → w'.s.state = .closed)) ?_)
        fun _ _ h => .ret h
      simp only [World.setS]
      split
      · exact ⟨h5.1, h5.2.1.same rfl rfl rfl rfl rfl, .inr rfl, fun _ _ _ => rfl⟩
      · rename_i hne
        exact ⟨h5.1, h5.2.1, .inl h5.2.2, fun _ _ h => absurd (h.trans h5.2.1.nr.symm) hne⟩
    | reset =>
      have := hp (.inr ht)
      rcases hid (by decide) with h | h
      · exact absurd h this.1
      · exact absurd h this.2
    | syn => exact (well_replyWith _ _ h5 fun _ h => h).mono fun _ w' g => done w' g fun h => absurd (ht.symm.trans h) (by decide)

/-- The events up to the acknowledgement of the FIN, which is the wait number `N`. -/
structure FinAcked (E : Env) (k N : Nat) (s0 : Socket) : Prop where
  sends : ∀ n, E.snd n = .ok
  peace : ∀ n, k ≤ n → n < N → Peaceful s0 (E.net n)
  prompt : ∀ n, k ≤ n → n ≤ N → ∃ j, j < s0.maxRetries.toNat ∧ ∃ b src, E.net (n + j) = .dgram b src
  ack : AckOf s0 s0.seqNr (E.net N)

/-- After the wait number `N`, the socket is closed, and nothing more is received. -/
def FinWaiting (N : Nat) (s0 : Socket) (w : World) : Prop :=
  Closes s0 w.s ∧ (w.s.state = .finSent ∧ w.nNet ≤ N ∨ w.s.state = .closed ∧ w.nNet ≤ N + 1)

theorem well_recv_fin {k0 : Nat} (ha : FinAcked E k0 N s0) (len : Nat) {w : World} (hk : k0 ≤ w.nNet) (hw : Closes s0 w.s) (hf : w.s.state = .finSent)
    (hN : w.nNet ≤ N) : Well (fun n => recv E n len) w fun _ w' => FinWaiting N s0 w' ∧ w.nNet < w'.nNet := by
  obtain ⟨b0, src0, pkt0, hev, htf, hty, hid, hack⟩ := ha.ack
  refine .succ ?_
  simp only [recv]
  obtain ⟨j, hj1, hj2, hj3⟩ : ∃ j, j < s0.maxRetries.toNat ∧ w.nNet + j ≤ N ∧ ∃ b src, E.net (w.nNet + j) = .dgram b src := by
    obtain ⟨j, h1, h2⟩ := ha.prompt w.nNet hk hN
    rcases Nat.lt_or_ge N (w.nNet + j) with h | h
    · exact ⟨N - w.nNet, by omega, by omega, by rw [show w.nNet + (N - w.nNet) = N by omega]; exact ⟨b0, src0, hev⟩⟩
    · exact ⟨j, h1, h, h2⟩
  obtain ⟨i, hi1, hi2, hi3⟩ := first_dgram (fun i h1 h2 => ha.peace i (by omega) h2) ⟨b0, src0, hev⟩ j hj2 hj3
  refine .bind (well_recvWait ha.sends (P := fun s => Closes s0 s ∧ s.state = .finSent) (m := s0.maxRetries.toNat) (fun s h => by rw [h.1.limit])
    (fun s _ _ h => ⟨h.1.same rfl rfl rfl rfl rfl, h.2⟩) (fun s p rest t hs h => absurd (hs.symm.trans h.1.window) (by simp)) i 0 w ⟨hw, hf⟩ (by omega) hi2 hi3)
    fun x w1 ⟨h1, e1, b, hb, hx⟩ => ?_
  have hx' : x.1 = b.take 1520 := hx
  refine .bind (.orPanic (Q := fun r w' => w' = w1 ∧ Packet.tryFrom x.1 = some r) fun r hr => ⟨rfl, hr⟩) fun r w2 ⟨e2, hr⟩ => ?_
  subst e2
  have hlast : w.nNet + i = N → Packet.tryFrom x.1 = some (.ok pkt0) := by
    intro e
    rw [e, hev] at hb
    injection hb with hb1 hb2
    rw [hx', ← hb1, htf]
  cases r with
  | error e =>
    rcases Nat.lt_or_ge (w.nNet + i) N with hlt | hge
    · exact .bind (.getS (Q := fun _ w' => FinWaiting N s0 w' ∧ w.nNet < w'.nNet) ⟨⟨h1.1, .inl ⟨h1.2, by omega⟩⟩, by omega⟩) fun _ _ h => .ret h
    · rw [hlast (by omega)] at hr
      simp at hr
  | ok pkt =>
    simp only
    have hp : pkt.getType = some .fin ∨ pkt.getType = some .reset → pkt.connectionId ≠ s0.senderId ∧ pkt.connectionId ≠ s0.receiverId := by
      rcases Nat.lt_or_ge (w.nNet + i) N with hlt | hge
      · have hpe := ha.peace (w.nNet + i) (by omega) hlt
        rw [hb] at hpe
        exact hpe pkt (by rw [← hx', hr])
      · rw [hlast (by omega)] at hr
        obtain rfl : pkt0 = pkt := by simpa using hr
        rw [hty]
        rintro (h | h) <;> exact absurd h (by decide)
    refine (well_recvPacket ha.sends (Q := fun s n => n = w2.nNet ∧ Closes s0 s ∧ (s.state = .finSent ∨ s.state = .closed) ∧
      (pkt.getType = some .state → (pkt.connectionId = s0.senderId ∨ pkt.connectionId = s0.receiverId) → pkt.ackNr = s0.seqNr → s.state = .closed)) len pkt x.2
      (well_handlePacket_fin pkt x.2 h1.1 h1.2 hp) fun s n _ _ _ _ h => ⟨h.1, h.2.1.same rfl rfl rfl rfl rfl, h.2.2⟩).mono fun _ w3 ⟨g1, g2, g3, g4⟩ => ?_
    refine ⟨⟨g2, ?_⟩, by omega⟩
    rcases Nat.lt_or_ge (w.nNet + i) N with hlt | hge
    · exact g3.imp (fun h => ⟨h, by omega⟩) fun h => ⟨h, by omega⟩
    · rw [hlast (by omega)] at hr
      obtain rfl : pkt0 = pkt := by simpa using hr
      exact .inr ⟨g4 hty hid hack, by omega⟩

theorem well_finWait {k0 : Nat} (ha : FinAcked E k0 N s0) {w : World} (hk : k0 ≤ w.nNet) (hw : FinWaiting N s0 w) :
    Well (fun n => whileM n (do let s ← getS; return decide (s.state ≠ .closed)) (scratchRecv E n)) w fun _ w' => w'.s.state = .closed ∧ w'.nNet ≤ N + 1 := by
  refine .whileM (N := N) (X := fun w => k0 ≤ w.nNet ∧ FinWaiting N s0 w) (Y := fun w => k0 ≤ w.nNet ∧ Closes s0 w.s ∧ w.s.state = .finSent ∧ w.nNet ≤ N) ?_ ?_ ?_ ⟨hk, hw⟩
  · intro w hw
    refine .bind (.getS (Q := fun s w' => s = w.s ∧ w' = w) ⟨rfl, rfl⟩) fun s w' ⟨e1, e2⟩ => .ret ⟨by rw [e2], ?_⟩
    subst e2 e1
    obtain ⟨h1, h2, ⟨h3, h4⟩ | ⟨h3, h4⟩⟩ := hw
    · simp [h3, h1, h4, h2]
    · simp [h3, h4]
  · exact fun w hw => hw.2.2.2
  · exact fun w hw => .bind (well_recv_fin ha BUF_SIZE hw.1 hw.2.1 hw.2.2.1 hw.2.2.2) fun _ w' h => .ret ⟨⟨by have := hw.1; omega, h.1⟩, h.2⟩

/-- `close` from an open connection. -/
theorem well_close {M : Nat} {w : World} (hM : FinAcked E w.nNet M w.s) (hst : w.s.state = .connected) (hle : w.nNet ≤ M)
    (hfl : Well (fun n => flush E n) w fun _ w' => Waits w.s w'.s ∧ w'.s.sendWindow = [] ∧ w.nNet ≤ w'.nNet ∧ w'.nNet ≤ M) :
    Well (fun n => close E n) w fun _ w' => w'.s.state = .closed ∧ w'.nNet ≤ M + 1 := by
  let G : World → Prop := fun w' => Closes w.s w'.s ∧ w.nNet ≤ w'.nNet ∧ w'.nNet ≤ M
  refine .bind (.getS (Q := fun s w' => s = w.s ∧ w' = w) ⟨rfl, rfl⟩) fun s w1 ⟨e1, e2⟩ => .ite (fun h => ?_) fun _ => ?_
  · rw [e1, hst] at h
    exact absurd h (by decide)
  · subst e2
    refine .bind hfl fun _ w2 ⟨h1, h2, h3, h4⟩ => .bind (.getS (Q := fun _ => G) ⟨⟨h1.limit, h1.sid, h1.rid, h1.nr, h2⟩, h3, h4⟩) fun _ w3 g3 =>
      .bind (.now (Q := fun _ => G) fun _ => g3) fun _ w4 g4 => .bind (.udpSend (Q := fun _ => G) hM.sends fun _ => g4) fun _ w5 g5 =>
      .bind (.modS (Q := fun _ w' => G w' ∧ w'.s.state = .finSent) ⟨⟨g5.1.same rfl rfl rfl rfl rfl, g5.2⟩, rfl⟩) fun _ w6 ⟨g6, h6⟩ => ?_
    exact well_finWait hM g6.2.1 ⟨g6.1, .inl ⟨h6, g6.2.2⟩⟩

end Utp
