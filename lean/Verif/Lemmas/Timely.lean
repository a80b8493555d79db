import Verif.Lemmas.Stamp
/-!
# The time fields, through all functions

`Holds I P m Q`: from a world with `P`, a run of `m` that returns `a` ends in a world with `Q a`; one that fails or stays pending, in a world with `I`.
-/

namespace Utp
open M Packet

variable {E : Env} {α β : Type}

/-- Partial correctness; a panic may leave anything. -/
def Holds (I P : World → Prop) (m : M α) (Q : α → World → Prop) : Prop :=
  ∀ w, P w → match m w with
    | (.ok a, w') => Q a w'
    | (.panic, _) => True
    | (_, w') => I w'

namespace Holds

variable {I P P' : World → Prop} {Q Q' : α → World → Prop} {R : β → World → Prop}

theorem conseq {m : M α} (h : Holds I P m Q) (h1 : ∀ w, P' w → P w) (h2 : ∀ a w, Q a w → Q' a w) : Holds I P' m Q' := by
  intro w hw
  have := h w (h1 w hw)
  rcases e : m w with ⟨r, v⟩
  rw [e] at this
  cases r with
  | ok a => exact h2 a v this
  | _ => exact this

theorem pre {m : M α} (h : Holds I P m Q) (h1 : ∀ w, P' w → P w) : Holds I P' m Q := h.conseq h1 fun _ _ h => h
theorem post {m : M α} (h : Holds I P m Q) (h2 : ∀ a w, Q a w → Q' a w) : Holds I P m Q' := h.conseq (fun _ h => h) h2

theorem andThen {m : M α} {f : α → M β} (h : Holds I P m Q) (hf : ∀ a, Holds I (Q a) (f a) R) : Holds I P (M.andThen m f) R := by
  intro w hw
  have h1 := h w hw
  unfold M.andThen
  rcases e : m w with ⟨r, v⟩
  rw [e] at h1
  cases r with
  | ok a => exact hf a v h1
  | _ => exact h1

theorem seq {m : M α} {f : α → M β} (h : Holds I P m Q) (hf : ∀ a, Holds I (Q a) (f a) R) : Holds I P (m >>= f) R := andThen h hf

theorem ret {a : α} (h : ∀ w, P w → Q a w) : Holds I P (M.ret a) Q := fun w hw => h w hw
theorem pure {a : α} (h : ∀ w, P w → Q a w) : Holds I P (Pure.pure a : M α) Q := fun w hw => h w hw
theorem throw {e : IoErr} (h : ∀ w, P w → I w) : Holds I P (M.throw e : M α) Q := fun w hw => h w hw
theorem never (h : ∀ w, P w → I w) : Holds I P (M.never : M α) Q := fun w hw => h w hw

/-- Reading the socket. -/
theorem get {f : Socket → M β} (hf : ∀ s, Holds I (fun w => P w ∧ w.s = s) (f s) R) : Holds I P (M.getS >>= f) R :=
  fun w hw => hf w.s w ⟨hw, rfl⟩

theorem orPanic {o : Option α} (h : ∀ a, o = some a → ∀ w, P w → Q a w) : Holds I P (M.orPanic o) Q := by
  cases o with
  | none => exact fun w _ => trivial
  | some a => exact fun w hw => h a rfl w hw

theorem overflowIf {b : Bool} : Holds I P (M.overflowIf E b) (fun _ => P) := by
  unfold M.overflowIf
  split
  · exact fun w _ => trivial
  · exact fun w hw => hw

theorem modS {f : Socket → Socket} {Q : Unit → World → Prop} (h : ∀ w, P w → Q () { w with s := f w.s }) : Holds I P (M.modS f) Q := fun w hw => h w hw

theorem ignoreErr {m : M α} {Q : Unit → World → Prop} (h : Holds I P m (fun _ => Q ())) (hi : ∀ w, I w → Q () w) : Holds I P (M.ignoreErr m) Q := by
  intro w hw
  have h1 := h w hw
  unfold M.ignoreErr
  rcases e : m w with ⟨r, v⟩
  rw [e] at h1
  cases r with
  | err e => exact hi v h1
  | _ => exact h1

theorem whileM {c : M Bool} {b : M Unit} (hc : Holds I P c (fun _ => P)) (hb : Holds I P b (fun _ => P)) (hi : ∀ w, P w → I w) :
    ∀ n, Holds I P (M.whileM n c b) (fun _ => P)
  | 0 => never hi
  | n + 1 => andThen hc fun go => by
    cases go with
    | true => exact andThen hb fun _ => whileM hc hb hi n
    | false => exact ret fun _ h => h

end Holds

/-- A whole Data packet. -/
def WholePkt (p : Packet) : Prop := 20 ≤ p.bytes.length ∧ p.getType = some .data

/-- A change of the socket that touches neither the identifiers nor the delay, and adds no packets to those to be sent. -/
structure SameTimes (s s' : Socket) : Prop where
  sid : s'.senderId = s.senderId
  rid : s'.receiverId = s.receiverId
  delay : s'.theirDelay = s.theirDelay
  opened : s.state ≠ .new → s'.state ≠ .new
  shakes : s'.state = .synSent → s.state = .synSent
  window : ∀ p ∈ s'.sendWindow, p ∈ s.sendWindow
  unsent : ∀ p ∈ s'.unsent, p ∈ s.unsent

theorem SameTimes.of {s s' : Socket} (h1 : s'.senderId = s.senderId) (h2 : s'.receiverId = s.receiverId) (h3 : s'.theirDelay = s.theirDelay)
    (h4 : s'.state = s.state) (h5 : s'.sendWindow = s.sendWindow) (h6 : s'.unsent = s.unsent) : SameTimes s s' :=
  ⟨h1, h2, h3, fun h => by rw [h4]; exact h, fun h => by rw [← h4]; exact h, fun p h => by rw [← h5]; exact h, fun p h => by rw [← h6]; exact h⟩

/-- The receive number `i` returned no State packet. -/
def NoStateAt (E : Env) (i : Nat) : Prop :=
  ∀ b src pkt, E.net i = .dgram b src → Packet.tryFrom (b.take 1520) = some (.ok pkt) → pkt.getType ≠ some .state

/-- The timestamp difference of a packet is 0 or was measured before. -/
def OldDelay (E : Env) (syn : Option Bytes) (sid rid : U16) (k n : Nat) (p : Packet) : Prop :=
  delayOf p.bytes = 0 ∨ ∃ n', n' ≤ n ∧ Measured E syn sid rid k n' (delayOf p.bytes)

/-- The times are right: the timestamps always; the timestamp differences, if `q` holds, for a connection with the given identifiers. -/
structure Timely (q : Prop) (E : Env) (syn : Option Bytes) (sid rid : U16) (n j : Nat) (w : World) : Prop where
  stamps : Punctual E w.nNow w.log
  window : ∀ p ∈ w.s.sendWindow, WholePkt p ∧ (q → OldDelay E syn sid rid w.nNow w.nNet p)
  unsent : ∀ p ∈ w.s.unsent, WholePkt p ∧ delayOf p.bytes = 0
  ids : q → w.s.state ≠ .new ∧ w.s.senderId = sid ∧ w.s.receiverId = rid
  delays : q → Reports E syn sid rid w.nNow w.nNet w.log
  measured : q → ∃ d : Nat, w.s.theirDelay = (d : Int) ∧ d < 2 ^ 32 ∧ Measured E syn sid rid w.nNow n d
  shaking : q → w.s.state = .synSent → syn = none ∧ ∀ i, i < j → NoStateAt E i

theorem Measured.later {syn : Option Bytes} {sid rid : U16} {k k' n d : Nat} (h : Measured E syn sid rid k n d) (hk : k ≤ k') : Measured E syn sid rid k' n d := by
  cases h with
  | packet i j c h1 h2 h3 h0 h4 h5 => exact .packet i j c (by omega) h2 h3 h0 h4 h5
  | accepted i c h1 h2 h3 h4 => exact .accepted i c (by omega) h2 h3 h4
  | nothing h1 h2 h3 => exact .nothing h1 h2 h3

theorem Measured.silent {syn : Option Bytes} {sid rid : U16} {k n d : Nat} (h : Measured E syn sid rid k n d) (hs : Silent E sid rid n) : Measured E syn sid rid k (n + 1) d := by
  have hx : ∀ m, m < n + 1 → m < n ∨ m = n := by omega
  cases h with
  | packet i j c h1 h2 h3 h0 h4 h5 => exact .packet i j c h1 (by omega) h3 h0 h4 fun m g1 g2 => (hx m g2).elim (h5 m g1) (fun e => e ▸ hs)
  | accepted i c h1 h2 h3 h4 => exact .accepted i c h1 h2 h3 fun m g => (hx m g).elim (h4 m) (fun e => e ▸ hs)
  | nothing h1 h2 h3 => exact .nothing h1 h2 fun m g => (hx m g).elim (h3 m) (fun e => e ▸ hs)

section
variable {q : Prop} {syn : Option Bytes} {sid rid : U16}

/-- The times are right, everything received so far counted. -/
abbrev Tim (q : Prop) (E : Env) (syn : Option Bytes) (sid rid : U16) (w : World) : Prop := Timely q E syn sid rid w.nNet w.nNet w

/-- The clock was just read and said `t`. -/
def Due (E : Env) (t : U32) (w : World) : Prop := ∃ k, w.nNow = k + 1 ∧ E.now k = t ∧ Punctual E k w.log

theorem OldDelay.later {k k' n n' : Nat} {p : Packet} (h : OldDelay E syn sid rid k n p) (hk : k ≤ k') (hn : n ≤ n') : OldDelay E syn sid rid k' n' p :=
  h.imp id fun ⟨m, h1, h2⟩ => ⟨m, by omega, h2.later hk⟩

theorem Timely.same {n j : Nat} {w : World} (h : Timely q E syn sid rid n j w) {s : Socket} (hs : SameTimes w.s s) : Timely q E syn sid rid n j { w with s := s } :=
  ⟨h.stamps, fun p hp => h.window p (hs.window p hp), fun p hp => h.unsent p (hs.unsent p hp),
   fun hq => ⟨hs.opened (h.ids hq).1, hs.sid.trans (h.ids hq).2.1, hs.rid.trans (h.ids hq).2.2⟩, h.delays, fun hq => by
    show ∃ d : Nat, s.theirDelay = d ∧ _
    rw [hs.delay]; exact h.measured hq, fun hq h1 => h.shaking hq (hs.shakes h1)⟩

theorem Timely.tick {n j : Nat} {w : World} (h : Timely q E syn sid rid n j w) : Timely q E syn sid rid n j { w with nNow := w.nNow + 1 } :=
  ⟨.read h.stamps, fun p hp => ⟨(h.window p hp).1, fun hq => ((h.window p hp).2 hq).later (Nat.le_succ _) (Nat.le_refl _)⟩, h.unsent, h.ids, fun hq => .read (h.delays hq), fun hq => by
    obtain ⟨d, h1, h2, h3⟩ := h.measured hq
    exact ⟨d, h1, h2, h3.later (Nat.le_succ _)⟩, h.shaking⟩

/-- A function that keeps the times right. -/
abbrev KeepsTime (q : Prop) (E : Env) (syn : Option Bytes) (sid rid : U16) (m : M α) : Prop :=
  Holds (Tim q E syn sid rid) (Tim q E syn sid rid) m (fun _ => Tim q E syn sid rid)

theorem holds_now {P : World → Prop} (hP : ∀ w, P w → ∃ n j, Timely q E syn sid rid n j w) :
    Holds (Tim q E syn sid rid) P (M.now E) (fun t w => ∃ v, P v ∧ w = { v with nNow := v.nNow + 1 } ∧ t = E.now v.nNow ∧ Due E t w) :=
  fun w hw => ⟨w, hw, rfl, rfl, w.nNow, rfl, rfl, (hP w hw).choose_spec.choose_spec.stamps⟩

/-- Reading the clock and forgetting when. -/
theorem keeps_now : KeepsTime q E syn sid rid (M.now E) := fun _ hw => hw.tick

theorem keeps_modS {f : Socket → Socket} (h : ∀ s, SameTimes s (f s)) : KeepsTime q E syn sid rid (M.modS f) :=
  Holds.modS fun w hw => hw.same (h w.s)

/-- Sending. -/
theorem holds_udpSend {t : U32} {dst : Addr} {b : Bytes} (hb : stampOf b = t.toNat) :
    Holds (Tim q E syn sid rid) (fun w => Tim q E syn sid rid w ∧ Due E t w ∧ (q → DelayField E syn sid rid w.nNow w.nNet b)) (M.udpSend E dst b) (fun _ => Tim q E syn sid rid) := by
  intro w ⟨h, ⟨k, h1, h2, h3⟩, h4⟩
  have key : ∀ ok, Tim q E syn sid rid { w with nSnd := w.nSnd + 1, log := w.log ++ [.send dst b ok] } := by
    intro ok
    refine ⟨?_, h.window, h.unsent, h.ids, fun hq => .send ok (h.delays hq) (h4 hq), h.measured, h.shaking⟩
    show Punctual E w.nNow (w.log ++ [.send dst b ok])
    rw [h1]
    exact .send ok h3 (by rw [hb, h2])
  unfold M.udpSend
  dsimp only
  cases E.snd w.nSnd <;> exact key _

/-- A reading of the clock, then a datagram with it. -/
theorem Tim.due {w v : World} (h : Tim q E syn sid rid v) (e : w = { v with nNow := v.nNow + 1 }) : Tim q E syn sid rid w := by
  subst e; exact h.tick

theorem measured_field {w : World} (h : Tim q E syn sid rid w) {p : Packet} (hl : 20 ≤ p.bytes.length) (hq : q) {b : Bytes}
    (hb : (delayOf b : Int) = (p.setTimestampDifference w.s.theirDelay).timestampDifference) : DelayField E syn sid rid w.nNow w.nNet b := by
  obtain ⟨d, h1, h2, h3⟩ := h.measured hq
  refine .measured ?_
  rw [setDifference_value hl, h1, delayToU32_cast h2] at hb
  have : delayOf b = d := by exact_mod_cast hb
  rwa [this]

theorem keeps_flushIncoming (len : Nat) : KeepsTime q E syn sid rid (flushIncoming E len) := by
  unfold flushIncoming
  refine Holds.get fun s => ?_
  split
  · refine Holds.seq (Q := fun _ => Tim q E syn sid rid) (Holds.modS fun w hw => hw.1.same ?_) fun _ => Holds.pure fun _ h => h
    unfold Socket.takePending Socket.advanceIncoming; dsimp only; split
    · split <;> exact .of rfl rfl rfl rfl rfl rfl
    · exact .of rfl rfl rfl rfl rfl rfl
  · split
    · exact Holds.pure fun _ h => h.1
    · refine Holds.seq Holds.overflowIf fun _ => ?_
      split
      · refine Holds.seq (Q := fun _ => Tim q E syn sid rid) (Holds.orPanic fun _ _ w hw => hw.1) fun pl =>
          Holds.seq (keeps_modS fun s => ?_) fun _ => Holds.pure fun _ h => h
        unfold Socket.takeHead Socket.advanceIncoming; split
        · split <;> exact .of rfl rfl rfl rfl rfl rfl
        · exact .of rfl rfl rfl rfl rfl rfl
      · exact Holds.pure fun _ h => h.1

theorem finPacket_times (s : Socket) (t : U32) : stampOf (finPacket s t).bytes = t.toNat ∧ delayOf (finPacket s t).bytes = 0 ∧ kind (finPacket s t).bytes = 1 := by
  refine ⟨?_, ?_, ?_⟩
  · rw [← timestamp_stampOf]
    unfold finPacket
    rw [setType_timestamp, setTimestamp_timestamp (by simp [new_plain.len])]
  · have := difference_delayOf (finPacket s t)
    unfold finPacket at this ⊢
    simp only [setType_timestampDifference, setTimestamp_timestampDifference, setAckNr_timestampDifference, setSeqNr_timestampDifference, setConnectionId_timestampDifference] at this
    have h0 : Packet.new.timestampDifference = 0 := by decide
    rw [h0] at this
    omega
  · rw [getType_kind (finPacket_plain s t).ty]; rfl

theorem resendRequest_times (s : Socket) (t : U32) : stampOf (resendRequest s t).bytes = t.toNat ∧
    (delayOf (resendRequest s t).bytes : Int) = (Packet.new.setTimestampDifference s.theirDelay).timestampDifference := by
  refine ⟨?_, ?_⟩
  · rw [← timestamp_stampOf]
    unfold resendRequest
    rw [setAckNr_timestamp, setSeqNr_timestamp, setConnectionId_timestamp, setTimestampDifference_timestamp, setTimestamp_timestamp (by simp [new_plain.len])]
  · rw [← difference_delayOf]
    unfold resendRequest
    rw [setAckNr_timestampDifference, setSeqNr_timestampDifference, setConnectionId_timestampDifference, setDifference_value (by simp [new_plain.len]),
      setDifference_value new_plain.len]

theorem keeps_fastResendRequest : KeepsTime q E syn sid rid (fastResendRequest E) := by
  have hf : KeepsTime q E syn sid rid (fastResendOne E) := by
    unfold fastResendOne
    refine Holds.get fun s => Holds.seq (holds_now (fun w hw => ⟨_, _, hw.1⟩)) fun t => Holds.ignoreErr (Q := fun _ => Tim q E syn sid rid) ?_ fun _ h => h
    refine (holds_udpSend (t := t) (resendRequest_times s t).1).pre ?_
    rintro w ⟨v, ⟨hv, hs⟩, e, _, hd⟩
    refine ⟨hv.due e, hd, fun hq => measured_field (hv.due e) new_plain.len hq ?_⟩
    rw [(resendRequest_times s t).2, e, hs]
  exact Holds.seq hf fun _ => Holds.seq hf fun _ => hf

theorem repeat_field {k n : Nat} {p : Packet} (h : OldDelay E syn sid rid k n p) (hw : WholePkt p) (t : U32) :
    DelayField E syn sid rid k n (p.setTimestamp t).bytes := by
  have e : delayOf (p.setTimestamp t).bytes = delayOf p.bytes := by
    have h1 := difference_delayOf (p.setTimestamp t)
    rw [setTimestamp_timestampDifference, difference_delayOf] at h1
    omega
  refine .repeated ?_ (by rw [e]; exact h)
  rw [getType_kind (t := .data) (by rw [setTimestamp_getType]; exact hw.2)]; rfl

theorem delayOf_setTimestamp (p : Packet) (t : U32) : delayOf (p.setTimestamp t).bytes = delayOf p.bytes := by
  have h1 := difference_delayOf (p.setTimestamp t)
  rw [setTimestamp_timestampDifference, difference_delayOf] at h1
  omega

theorem keeps_handleReceiveTimeout : KeepsTime q E syn sid rid (handleReceiveTimeout E) := by
  unfold handleReceiveTimeout
  refine Holds.get fun s => Holds.seq Holds.overflowIf fun _ =>
    Holds.seq (Q := fun _ w => Tim q E syn sid rid w ∧ w.s.sendWindow = s.sendWindow) (Holds.modS fun w hw => ⟨hw.1.same (.of rfl rfl rfl rfl rfl rfl), by rw [← hw.2]⟩) fun _ => ?_
  rcases e : s.sendWindow with _ | ⟨p, rest⟩
  · dsimp only
    split
    · refine Holds.seq (holds_now fun w hw => ⟨_, _, hw.1⟩) fun t => ?_
      refine (holds_udpSend (t := t) (finPacket_times s t).1).pre ?_
      rintro w ⟨v, ⟨hv, _⟩, e, _, hd⟩
      exact ⟨hv.due e, hd, fun _ => .fin (finPacket_times s t).2.2 (finPacket_times s t).2.1⟩
    · split
      · exact keeps_fastResendRequest.pre fun w hw => hw.1
      · exact Holds.pure fun w hw => hw.1
  · refine Holds.seq (holds_now fun w hw => ⟨_, _, hw.1⟩) fun t => ?_
    refine Holds.seq (Q := fun _ w => (Tim q E syn sid rid w ∧ Due E t w ∧ (q → DelayField E syn sid rid w.nNow w.nNet (p.setTimestamp t).bytes)) ∧ 20 ≤ p.bytes.length) (Holds.modS ?_) fun _ => ?_
    · rintro w ⟨v, ⟨hv, hs⟩, e', _, hd⟩
      have hv' := hv.due e'
      have hp := hv'.window p (by rw [e']; show p ∈ v.s.sendWindow; rw [hs]; simp)
      refine ⟨⟨⟨hv'.stamps, ?_, hv'.unsent, hv'.ids, hv'.delays, hv'.measured, hv'.shaking⟩, hd, fun hq => repeat_field (hp.2 hq) hp.1 t⟩, hp.1.1⟩
      intro x hx
      rcases List.mem_cons.mp hx with rfl | hx
      · refine ⟨⟨by rw [setTimestamp_length]; exact hp.1.1, by rw [setTimestamp_getType]; exact hp.1.2⟩, fun hq => ?_⟩
        unfold OldDelay
        rw [delayOf_setTimestamp]
        exact hp.2 hq
      · exact hv'.window x (by rw [e']; show x ∈ v.s.sendWindow; rw [hs]; simp [hx])
    · intro w hw
      exact holds_udpSend (t := t) (by rw [← timestamp_stampOf, setTimestamp_timestamp hw.2]) w hw.1

/-- A datagram just arrived; it is not yet counted. -/
def JustArrived (q : Prop) (E : Env) (syn : Option Bytes) (sid rid : U16) (b : Bytes) (src : Addr) (w : World) : Prop :=
  ∃ m c, w.nNet = m + 1 ∧ E.net m = .dgram c src ∧ b = c.take 1520 ∧ Timely q E syn sid rid m m w

theorem noState_of_fail {n : Nat} (h : ∀ b src, E.net n ≠ .dgram b src) : NoStateAt E n := fun b src _ h1 => absurd h1 (h b src)

theorem silent_of_fail {n : Nat} (h : ∀ b src, E.net n ≠ .dgram b src) : Silent E sid rid n := fun b src _ h1 => absurd h1 (h b src)

theorem Timely.waited {w : World} (h : Tim q E syn sid rid w) (t : Option U64) :
    Timely q E syn sid rid w.nNet w.nNet { w with nNet := w.nNet + 1, log := w.log ++ [.wait t] } :=
  ⟨.wait t h.stamps, fun p hp => ⟨(h.window p hp).1, fun hq => ((h.window p hp).2 hq).later (Nat.le_refl _) (Nat.le_succ _)⟩, h.unsent, h.ids, fun hq => .wait t (h.delays hq), h.measured, h.shaking⟩

theorem Timely.skip {n : Nat} {w : World} (h : Timely q E syn sid rid n n w) (hs : q → Silent E sid rid n) (hs' : q → w.s.state = .synSent → NoStateAt E n) (hn : w.nNet = n + 1) : Tim q E syn sid rid w :=
  ⟨h.stamps, h.window, h.unsent, h.ids, h.delays, fun hq => by
    obtain ⟨d, h1, h2, h3⟩ := h.measured hq
    rw [hn]
    exact ⟨d, h1, h2, h3.silent (hs hq)⟩, fun hq h1 => ⟨(h.shaking hq h1).1, fun i hi => by
    rw [hn] at hi
    rcases Nat.lt_succ_iff_lt_or_eq.mp hi with hi | rfl
    · exact (h.shaking hq h1).2 i hi
    · exact hs' hq h1⟩⟩

theorem holds_udpRecv (t : Option U64) (len : Nat) : Holds (Tim q E syn sid rid) (Tim q E syn sid rid) (M.udpRecv E t len)
    (fun r w => match r with
      | .ok (b, src) => ∃ m c, w.nNet = m + 1 ∧ E.net m = .dgram c src ∧ b = c.take len ∧ Timely q E syn sid rid m m w
      | .error _ => Tim q E syn sid rid w) := by
  intro w hw
  unfold M.udpRecv
  dsimp only
  rcases e : E.net w.nNet with ⟨b, src⟩ | k | _
  · exact ⟨w.nNet, b, rfl, e, rfl, hw.waited t⟩
  · exact (hw.waited t).skip (fun _ => silent_of_fail fun b src h => by rw [e] at h; cases h) (fun _ _ => noState_of_fail fun b src h => by rw [e] at h; cases h) rfl
  · exact (hw.waited t).skip (fun _ => silent_of_fail fun b src h => by rw [e] at h; cases h) (fun _ _ => noState_of_fail fun b src h => by rw [e] at h; cases h) rfl

theorem holds_recvWait : ∀ fuel retries, Holds (Tim q E syn sid rid) (Tim q E syn sid rid) (recvWait E fuel retries)
    (fun r w => JustArrived q E syn sid rid r.1 r.2 w)
  | 0, _ => Holds.never fun _ h => h
  | fuel + 1, retries => by
    unfold recvWait
    refine Holds.get fun s => ?_
    split
    · refine Holds.seq (Q := fun _ => Tim q E syn sid rid) (Holds.modS fun w hw => hw.1.same ⟨rfl, rfl, rfl, fun _ => by simp, fun h => by simp at h, fun _ h => h, fun _ h => h⟩) fun _ => Holds.throw fun _ h => h
    · refine Holds.seq ((holds_udpRecv _ _).pre fun w hw => hw.1) fun r => ?_
      rcases r with k | ⟨b, src⟩
      · dsimp only
        split
        · exact Holds.seq keeps_handleReceiveTimeout fun _ => holds_recvWait fuel (retries + 1)
        · exact Holds.throw fun _ h => h
      · exact Holds.pure fun w hw => hw

section
variable {rec : M (Bytes × Addr)} (hr : KeepsTime q E syn sid rid rec)
include hr

theorem holds_sendPacket (fuel : Nat) {p : Packet} (hp : WholePkt p) : Holds (Tim q E syn sid rid) (Tim q E syn sid rid) (sendPacket E fuel rec p)
    (fun p' w => Tim q E syn sid rid w ∧ WholePkt p' ∧ (p' = p ∨ (q → Measured E syn sid rid w.nNow w.nNet (delayOf p'.bytes)))) := by
  unfold sendPacket
  refine Holds.get fun s => Holds.seq (Q := fun _ => Tim q E syn sid rid) (keeps_now.pre fun w hw => hw.1) fun t =>
    Holds.seq (Holds.whileM ?_ (Holds.andThen hr fun _ => Holds.ret fun _ h => h) (fun _ h => h) _) fun _ => Holds.get fun s => ?_
  · refine Holds.get fun s1 => ?_
    generalize (if (if s.remoteWnd < s.cwnd then s.remoteWnd else s.cwnd) < MIN_WND then MIN_WND
      else (if s.remoteWnd < s.cwnd then s.remoteWnd else s.cwnd)) = m
    by_cases h : m ≤ s1.currWindow
    · rw [if_pos h]; exact Holds.seq (Q := fun _ => Tim q E syn sid rid) (keeps_now.pre fun w hw => hw.1) fun t => Holds.pure fun _ h => h
    · rw [if_neg h]; exact Holds.pure fun _ h => h.1
  · split
    · exact Holds.pure fun w hw => ⟨hw.1, hp, .inl rfl⟩
    · refine Holds.seq (holds_now fun w hw => ⟨_, _, hw.1⟩) fun t => ?_
      dsimp only
      have hl : 20 ≤ (p.setTimestamp t).bytes.length := by rw [setTimestamp_length]; exact hp.1
      have hst : stampOf ((p.setTimestamp t).setTimestampDifference s.theirDelay).bytes = t.toNat := by
        rw [← timestamp_stampOf, setTimestampDifference_timestamp, setTimestamp_timestamp hp.1]
      intro w ⟨v, ⟨hv, hs⟩, e, _, hd⟩
      have hv' := hv.due e
      have hs' : w.s = s := by rw [e]; exact hs
      have hm : q → Measured E syn sid rid w.nNow w.nNet (delayOf ((p.setTimestamp t).setTimestampDifference s.theirDelay).bytes) := by
        intro hq
        obtain ⟨d, h1, h2, h3⟩ := hv'.measured hq
        have hb := difference_delayOf ((p.setTimestamp t).setTimestampDifference s.theirDelay)
        rw [setDifference_value hl, ← hs', h1, delayToU32_cast h2] at hb
        have : delayOf ((p.setTimestamp t).setTimestampDifference s.theirDelay).bytes = d := by rw [← hs', h1]; exact_mod_cast hb.symm
        rwa [this]
      have hu := holds_udpSend (q := q) (E := E) (syn := syn) (sid := sid) (rid := rid) (t := t) (dst := s.connectedTo) hst w ⟨hv', hd, fun hq => .measured (hm hq)⟩
      rw [bind_def]
      unfold M.andThen
      have hn : ∀ r u, M.udpSend E s.connectedTo ((p.setTimestamp t).setTimestampDifference s.theirDelay).bytes w = (r, u) → u.nNow = w.nNow ∧ u.nNet = w.nNet := by
        intro r u h
        unfold M.udpSend at h
        dsimp only at h
        cases hx : E.snd w.nSnd <;> rw [hx] at h <;> cases h <;> exact ⟨rfl, rfl⟩
      rcases ee : M.udpSend E s.connectedTo ((p.setTimestamp t).setTimestampDifference s.theirDelay).bytes w with ⟨r, u⟩
      rw [ee] at hu
      obtain ⟨n1, n2⟩ := hn r u ee
      cases r with
      | ok a =>
        refine ⟨hu, ⟨by rw [setTimestampDifference_length]; exact hl, by rw [setTimestampDifference_getType, setTimestamp_getType]; exact hp.2⟩, .inr fun hq => ?_⟩
        rw [n1, n2]; exact hm hq
      | _ => exact hu

theorem keeps_resendLost (fuel : Nat) (nr : U16) : KeepsTime q E syn sid rid (resendLost E fuel rec nr) := by
  unfold resendLost
  refine Holds.get fun s => ?_
  split
  · exact Holds.pure fun _ h => h.1
  · rename_i p e
    refine Holds.ignoreErr (Q := fun _ => Tim q E syn sid rid) ?_ fun _ h => h
    intro w hw
    have hp := (hw.1.window p (by rw [hw.2]; exact List.mem_of_find?_eq_some e)).1
    exact (holds_sendPacket hr fuel hp).post (fun _ _ h => h.1) w hw.1

theorem keeps_resendMissing (fuel : Nat) (ack last : U16) : ∀ bits loss, KeepsTime q E syn sid rid (resendMissing E fuel rec ack last bits loss) := by
  intro bits
  induction bits with
  | nil => intro loss; exact Holds.pure fun _ h => h
  | cons x rest ih =>
    intro loss
    obtain ⟨idx, received⟩ := x
    unfold resendMissing
    split
    · exact ih _
    · refine Holds.seq Holds.overflowIf fun _ => ?_
      dsimp only
      split
      · exact Holds.seq (keeps_resendLost hr _ _) fun _ => ih _
      · exact Holds.pure fun _ h => h

theorem keeps_processExtensions (fuel : Nat) (ack : U16) : ∀ exts loss, KeepsTime q E syn sid rid (processExtensions E fuel rec ack exts loss) := by
  intro exts
  induction exts with
  | nil => intro loss; exact Holds.pure fun _ h => h
  | cons e rest ih =>
    intro loss
    unfold processExtensions
    split
    · refine Holds.seq (Q := fun _ => Tim q E syn sid rid) ?_ fun loss1 => Holds.get fun s => ?_
      · unfold resendFirst
        split
        · exact Holds.seq Holds.overflowIf fun _ => Holds.seq (keeps_resendLost hr _ _) fun _ => Holds.pure fun _ h => h
        · exact Holds.pure fun _ h => h
      · split
        · exact (ih _).pre fun _ h => h.1
        · exact Holds.seq (Q := fun _ => Tim q E syn sid rid) (Holds.orPanic fun _ _ _ h => h.1) fun bits => Holds.seq (keeps_resendMissing hr _ _ _ _ _) fun _ => ih _
    · exact ih _

theorem keeps_handleState (fuel : Nat) (pkt : Packet) : KeepsTime q E syn sid rid (handleState E fuel rec pkt) := by
  unfold handleState
  refine Holds.seq (Q := fun _ => Tim q E syn sid rid) ?_ fun _ => Holds.seq (Q := fun _ => Tim q E syn sid rid) ?_ fun _ => Holds.get fun s =>
    Holds.seq (Q := fun _ => Tim q E syn sid rid) (Holds.orPanic fun _ _ _ h => h.1) fun exts => Holds.seq (keeps_processExtensions hr _ _ _ _) fun loss =>
    Holds.seq (Q := fun _ => Tim q E syn sid rid) ?_ fun _ => Holds.seq (keeps_modS fun s => ?_) fun _ => Holds.get fun s => ?_
  · unfold countAck
    refine Holds.get fun s => ?_
    split
    · exact Holds.seq Holds.overflowIf fun _ => Holds.modS fun w hw => hw.1.same (.of rfl rfl rfl rfl rfl rfl)
    · exact Holds.seq (Q := fun _ => Tim q E syn sid rid) (keeps_now.pre fun _ h => h.1) fun t => keeps_modS fun s => .of rfl rfl rfl rfl rfl rfl
  · unfold measureAck
    refine Holds.get fun s => ?_
    split
    · exact Holds.pure fun _ h => h.1
    · refine Holds.seq (Q := fun _ w => Tim q E syn sid rid w ∧ w.s = s) ?_ fun t => Holds.seq (Q := fun _ w => Tim q E syn sid rid w ∧ w.s = s) (Holds.orPanic fun _ _ _ h => h) fun p => ?_
      · exact fun w hw => ⟨hw.1.tick, hw.2⟩
      · refine Holds.seq (Q := fun s' w => (Tim q E syn sid rid w ∧ w.s = s) ∧ SameTimes s s') (Holds.orPanic fun s' e w h => ⟨h, ?_⟩) fun s' => ?_
        · exact .of (onNewAck_senderId e) (onNewAck_receiverId e) (onNewAck_theirDelay e) (onNewAck_state e) (onNewAck_sendWindow e) (onNewAck_unsent e)
        · exact Holds.modS fun w hw => hw.1.1.same (by rw [hw.1.2]; exact hw.2)
  · unfold fastRetransmit
    refine Holds.get fun s => ?_
    split
    · exact Holds.seq Holds.overflowIf fun _ => (keeps_resendLost hr _ _).pre fun _ h => h.1
    · exact Holds.pure fun _ h => h.1
  · split
    · exact .of rfl rfl rfl rfl rfl rfl
    · exact .of rfl rfl rfl rfl rfl rfl
  · refine Holds.seq (Q := fun s' w => (Tim q E syn sid rid w ∧ w.s = s) ∧ SameTimes s s') (Holds.orPanic fun s' e w h => ⟨h, ?_⟩) fun s' => ?_
    · refine ⟨advanceSendWindow_senderId e, advanceSendWindow_receiverId e, advanceSendWindow_theirDelay e, fun h => by rw [advanceSendWindow_state e]; exact h, fun h => by rw [← advanceSendWindow_state e]; exact h, fun p hp => ?_,
        fun p hp => by rw [advanceSendWindow_unsent e] at hp; exact hp⟩
      unfold Socket.advanceSendWindow at e
      split at e
      · cases e; exact hp
      · split at e
        · cases e
        · cases e; exact List.mem_of_mem_drop hp
    · exact Holds.modS fun w hw => hw.1.1.same (by rw [hw.1.2]; exact hw.2)

/-- The reply to `pkt`, which receive number `m` returned, is ready to be sent. -/
def ReplyDue (q : Prop) (E : Env) (m : Nat) (pkt : Packet) (r : Option Packet) (w : World) : Prop :=
  ∀ reply, r = some reply → ∃ t, Due E t w ∧ 20 ≤ reply.bytes.length ∧ reply.timestamp = t ∧ reply.timestampDifference = absDiff t pkt.timestamp ∧ (q → w.nNet = m + 1)

omit hr in
theorem prepareReply_times (s : Socket) (t : U32) (pkt : Packet) (ty : PacketType) :
    (s.prepareReply t pkt ty).timestamp = t ∧ (s.prepareReply t pkt ty).timestampDifference = absDiff t pkt.timestamp ∧ (s.prepareReply t pkt ty).bytes.length = 20 := by
  refine ⟨?_, ?_, (prepareReply_bytes s t pkt ty).1⟩
  · unfold Socket.prepareReply
    rw [setAckNr_timestamp, setSeqNr_timestamp, setConnectionId_timestamp, setTimestampDifference_timestamp, setTimestamp_timestamp (by simp [new_plain.len])]
  · unfold Socket.prepareReply
    rw [setAckNr_timestampDifference, setSeqNr_timestampDifference, setConnectionId_timestampDifference, setDifference_value (by simp [new_plain.len]),
      absDiff_apart, delayToU32_cast (apart_lt _ _)]

variable {m : Nat} {pkt : Packet}

/-- A reply that carries the reading just made. -/
def Prepared (q : Prop) (E : Env) (syn : Option Bytes) (sid rid : U16) (m : Nat) (pkt : Packet) (r : Option Packet) (w : World) : Prop :=
  Tim q E syn sid rid w ∧ ReplyDue q E m pkt r w

omit hr in
theorem prepared {s : Socket} {t : U32} {ty : PacketType} {w : World} (h : Tim q E syn sid rid w) (hd : Due E t w) (hn : q → w.nNet = m + 1) :
    Prepared q E syn sid rid m pkt (some (s.prepareReply t pkt ty)) w := by
  refine ⟨h, fun reply hr => ?_⟩
  cases hr
  obtain ⟨h1, h2, h3⟩ := prepareReply_times s t pkt ty
  exact ⟨t, hd, by omega, h1, h2, hn⟩

omit hr in
theorem holds_withSack {s : Socket} {t : U32} {ty : PacketType} :
    Holds (Tim q E syn sid rid) (fun w => Tim q E syn sid rid w ∧ Due E t w ∧ (q → w.nNet = m + 1)) (withSack E s pkt (s.prepareReply t pkt ty))
      (fun r => Prepared q E syn sid rid m pkt (some r)) := by
  unfold withSack
  split
  · refine Holds.seq (Q := fun sack w => (Tim q E syn sid rid w ∧ Due E t w ∧ (q → w.nNet = m + 1)) ∧ s.buildSack E = some sack) (Holds.orPanic fun _ e _ h => ⟨h, e⟩) fun sack => ?_
    split
    · rename_i hne
      refine Holds.orPanic fun r e w hw => ⟨hw.1.1, fun reply hr => ?_⟩
      cases hr
      obtain ⟨h1, h2, h3⟩ := prepareReply_times s t pkt ty
      obtain ⟨g1, g2, g3⟩ := setSack_times (prepareReply_bytes s t pkt ty).1 (prepareReply_bytes s t pkt ty).2 (buildSack_len hw.2) hne e
      exact ⟨t, hw.1.2.1, g3, g1.trans h1, g2.trans h2, hw.1.2.2⟩
    · exact Holds.pure fun w hw => prepared hw.1.1 hw.1.2.1 hw.1.2.2
  · exact Holds.pure fun w hw => prepared hw.1 hw.2.1 hw.2.2

omit hr in
theorem holds_replyWith (ty : PacketType) :
    Holds (Tim q E syn sid rid) (fun w => Tim q E syn sid rid w ∧ (q → w.nNet = m + 1)) (replyWith E pkt ty) (Prepared q E syn sid rid m pkt) := by
  unfold replyWith
  refine Holds.get fun s => Holds.seq (holds_now fun w hw => ⟨_, _, hw.1.1⟩) fun t => Holds.pure ?_
  rintro w ⟨v, ⟨hv, _⟩, e, _, hd⟩
  exact prepared (hv.1.due e) hd fun hq => by rw [e]; exact hv.2 hq

omit hr in
theorem nothing_due {w : World} (h : Tim q E syn sid rid w) : Prepared q E syn sid rid m pkt none w := ⟨h, fun _ h => by cases h⟩

omit hr in
theorem holds_handleData :
    Holds (Tim q E syn sid rid) (fun w => Tim q E syn sid rid w ∧ (q → w.nNet = m + 1)) (handleData E pkt) (fun r => Prepared q E syn sid rid m pkt (some r)) := by
  unfold handleData
  refine Holds.get fun s => Holds.seq (holds_now fun w hw => ⟨_, _, hw.1.1⟩) fun t => holds_withSack.pre ?_
  rintro w ⟨v, ⟨hv, _⟩, e, _, hd⟩
  exact ⟨hv.1.due e, hd, fun hq => by rw [e]; exact hv.2 hq⟩

omit hr in
theorem holds_onFin :
    Holds (Tim q E syn sid rid) (fun w => Tim q E syn sid rid w ∧ (q → w.nNet = m + 1)) (onFin E pkt) (Prepared q E syn sid rid m pkt) := by
  unfold onFin
  refine Holds.get fun s => Holds.seq (holds_now fun w hw => ⟨_, _, hw.1.1⟩) fun t => Holds.seq ((holds_withSack (m := m)).pre ?_) fun r => ?_
  · rintro w ⟨v, ⟨hv, _⟩, e, _, hd⟩
    exact ⟨hv.1.due e, hd, fun hq => by rw [e]; exact hv.2 hq⟩
  · refine Holds.seq (Q := fun _ => Prepared q E syn sid rid m pkt (some r)) (Holds.modS fun w hw => ⟨hw.1.same ⟨rfl, rfl, rfl, fun _ => by simp, fun h => by simp at h, fun _ h => h, fun _ h => h⟩, hw.2⟩) fun _ => Holds.pure fun _ h => h

theorem holds_dispatch (fuel : Nat) (src : Addr) (st : SocketState) (ty : PacketType) :
    Holds (Tim q E syn sid rid) (fun w => Timely q E syn sid rid w.nNet m w ∧ w.nNet = m + 1 ∧ w.s.state = st ∧ (q → ty ≠ .state → NoStateAt E m)) (dispatch E fuel rec pkt src st ty) (Prepared q E syn sid rid m pkt) := by
  have H : st ≠ .synSent ∨ ty ≠ .state → ∀ w, (Timely q E syn sid rid w.nNet m w ∧ w.nNet = m + 1 ∧ w.s.state = st ∧ (q → ty ≠ .state → NoStateAt E m)) →
      Tim q E syn sid rid w ∧ (q → w.nNet = m + 1) ∧ w.s.state = st := by
    intro h w ⟨hw, hn, hs, hns⟩
    refine ⟨⟨hw.stamps, hw.window, hw.unsent, hw.ids, hw.delays, hw.measured, fun hq h1 => ⟨(hw.shaking hq h1).1, fun i hi => ?_⟩⟩, fun _ => hn, hs⟩
    rw [hn] at hi
    rcases Nat.lt_succ_iff_lt_or_eq.mp hi with hi | rfl
    · exact (hw.shaking hq h1).2 i hi
    · exact hns hq (h.resolve_left fun h => h (hs ▸ h1))
  unfold dispatch
  split
  · refine Holds.pre (P := fun w => Tim q E syn sid rid w ∧ (q → w.nNet = m + 1) ∧ w.s.state = _) ?_ (H (by simp_all))
    unfold onSyn
    refine Holds.seq (Q := fun _ w => Tim q E syn sid rid w ∧ w.s.state = .new) (fun w hw => ⟨⟨hw.1.stamps, hw.1.window, hw.1.unsent, hw.1.ids, hw.1.delays, hw.1.measured, hw.1.shaking⟩, hw.2.2⟩) fun r =>
      Holds.seq Holds.overflowIf fun _ => Holds.seq (Q := fun _ w => Tim q E syn sid rid w ∧ (q → w.nNet = m + 1)) (Holds.modS fun w hw => ?_) fun _ =>
      Holds.get fun s => Holds.seq (holds_now fun w hw => ⟨_, _, hw.1.1⟩) fun t => Holds.pure ?_
    · exact ⟨⟨hw.1.stamps, hw.1.window, hw.1.unsent, fun hq => absurd hw.2 (hw.1.ids hq).1, hw.1.delays, hw.1.measured, fun hq => absurd hw.2 (hw.1.ids hq).1⟩, fun hq => absurd hw.2 (hw.1.ids hq).1⟩
    · rintro w ⟨v, ⟨hv, _⟩, e, _, hd⟩
      exact prepared (hv.1.due e) hd fun hq => by rw [e]; exact hv.2 hq
  · refine Holds.pre (P := fun w => Tim q E syn sid rid w ∧ (q → w.nNet = m + 1) ∧ w.s.state = _) ?_ (H (by simp_all))
    exact (holds_replyWith _).pre fun _ h => ⟨h.1, h.2.1⟩
  · unfold onSynAck
    refine Holds.get fun s => Holds.seq Holds.overflowIf fun _ => Holds.seq (Q := fun _ w => ∃ j, Timely q E syn sid rid w.nNet j w) (fun w hw => ⟨_, hw.1.1.tick⟩) fun t =>
      Holds.seq (Q := fun _ => Tim q E syn sid rid) (Holds.modS ?_) fun _ => Holds.pure fun _ h => nothing_due h
    rintro w ⟨j, hw⟩
    exact ⟨hw.stamps, hw.window, hw.unsent, fun hq => ⟨by simp, (hw.ids hq).2⟩, hw.delays, hw.measured, fun _ h => by simp at h⟩
  · refine Holds.pre (P := fun w => Tim q E syn sid rid w ∧ (q → w.nNet = m + 1) ∧ w.s.state = _) ?_ (H (by simp_all))
    exact Holds.throw fun _ h => h.1
  · refine Holds.pre (P := fun w => Tim q E syn sid rid w ∧ (q → w.nNet = m + 1) ∧ w.s.state = _) ?_ (H (by simp_all))
    exact Holds.seq (holds_handleData.pre fun _ h => ⟨h.1, h.2.1⟩) fun r => Holds.pure fun _ h => h
  · refine Holds.pre (P := fun w => Tim q E syn sid rid w ∧ (q → w.nNet = m + 1) ∧ w.s.state = _) ?_ (H (by simp_all))
    exact Holds.seq (holds_handleData.pre fun _ h => ⟨h.1, h.2.1⟩) fun r => Holds.pure fun _ h => h
  · refine Holds.pre (P := fun w => Tim q E syn sid rid w ∧ (q → w.nNet = m + 1) ∧ w.s.state = _) ?_ (H (by simp_all))
    exact Holds.seq ((keeps_handleState hr _ _).pre fun _ h => h.1) fun r => Holds.pure fun _ h => nothing_due h
  · refine Holds.pre (P := fun w => Tim q E syn sid rid w ∧ (q → w.nNet = m + 1) ∧ w.s.state = _) ?_ (H (by simp_all))
    exact holds_onFin.pre fun _ h => ⟨h.1, h.2.1⟩
  · refine Holds.pre (P := fun w => Tim q E syn sid rid w ∧ (q → w.nNet = m + 1) ∧ w.s.state = _) ?_ (H (by simp_all))
    exact holds_onFin.pre fun _ h => ⟨h.1, h.2.1⟩
  · refine Holds.pre (P := fun w => Tim q E syn sid rid w ∧ (q → w.nNet = m + 1) ∧ w.s.state = _) ?_ (H (by simp_all))
    exact (holds_replyWith _).pre fun _ h => ⟨h.1, h.2.1⟩
  · refine Holds.pre (P := fun w => Tim q E syn sid rid w ∧ (q → w.nNet = m + 1) ∧ w.s.state = _) ?_ (H (by simp_all))
    unfold onFinAck
    refine Holds.seq (Q := fun _ => Tim q E syn sid rid) (Holds.modS fun w hw => hw.1.same ?_) fun _ => Holds.pure fun _ h => nothing_due h
    split
    · exact ⟨rfl, rfl, rfl, fun _ => by simp, fun h => by simp at h, fun _ h => h, fun _ h => h⟩
    · exact .of rfl rfl rfl rfl rfl rfl
  · refine Holds.pre (P := fun w => Tim q E syn sid rid w ∧ (q → w.nNet = m + 1) ∧ w.s.state = _) ?_ (H (by simp_all))
    unfold onReset
    exact Holds.seq (Q := fun _ => Tim q E syn sid rid) (Holds.modS fun w hw => hw.1.same ⟨rfl, rfl, rfl, fun _ => by simp, fun h => by simp at h, fun _ h => h, fun _ h => h⟩) fun _ => Holds.throw fun _ h => h
  · refine Holds.pre (P := fun w => Tim q E syn sid rid w ∧ (q → w.nNet = m + 1) ∧ w.s.state = _) ?_ (H (by simp_all))
    exact Holds.throw fun _ h => h.1

/-- `pkt` is what the receive number `m` returned; either in a `recv`, or while connecting. -/
structure Fetched (q : Prop) (E : Env) (syn : Option Bytes) (sid rid : U16) (m : Nat) (pkt : Packet) (w : World) : Prop where
  net : w.nNet = m + 1
  heard : HeardAt E m pkt.bytes
  how : w.s.state = .synSent ∨ ∃ b src, E.net m = .dgram b src ∧ Packet.tryFrom (b.take 1520) = some (.ok pkt)
  times : Timely q E syn sid rid m m w

omit hr in
theorem heard_noState (h : HeardAt E m pkt.bytes) (ht : pkt.getType ≠ some .state) : NoStateAt E m := by
  obtain ⟨b, src, _, n, hn, h1, h2, _⟩ := h
  intro b' src' pkt' g1 g2
  rw [h1] at g1
  cases g1
  have hb := C02_lossless g2
  have : pkt'.getType = pkt.getType := by
    unfold getType
    rw [show byteAt pkt'.bytes 0 = byteAt pkt.bytes 0 by
      rw [hb, h2]
      rcases hn with rfl | rfl <;> (cases b <;> rfl)]
  rwa [this]

theorem holds_handlePacket (fuel : Nat) (src : Addr) :
    Holds (Tim q E syn sid rid) (Fetched q E syn sid rid m pkt) (handlePacket E fuel rec pkt src) (Prepared q E syn sid rid m pkt) := by
  unfold handlePacket
  refine Holds.seq (Q := fun _ => Fetched q E syn sid rid m pkt) (Holds.modS fun w hw => ?_) fun _ => Holds.get fun s =>
    Holds.seq (Q := fun ty w => (Fetched q E syn sid rid m pkt w ∧ w.s = s) ∧ pkt.getType = some ty) (Holds.orPanic fun _ e _ h => ⟨h, e⟩) fun ty => ?_
  · refine ⟨hw.net, hw.heard, ?_, hw.times.same ?_⟩
    · show (w.s.bumpAck pkt).state = _ ∨ _
      rw [bumpAck_state]; exact hw.how
    · unfold Socket.bumpAck
      split <;> exact .of rfl rfl rfl rfl rfl rfl
  · split
    · rename_i hc
      refine (holds_replyWith _).pre fun w hw => ⟨hw.1.1.times.skip (fun hq => ?_) (fun _ h => absurd (by rw [← hw.1.2]; exact h) hc.2.1) hw.1.1.net, fun _ => hw.1.1.net⟩
      rcases hw.1.1.how with h | ⟨b, a, h1, h2⟩
      · exact absurd (by rw [← hw.1.2]; exact h) hc.2.1
      · intro b' a' pkt' g1 g2
        rw [h1] at g1
        cases g1
        rw [h2] at g2
        cases g2
        obtain ⟨_, i1, i2⟩ := hw.1.1.times.ids hq
        rw [hw.1.2] at i1 i2
        rw [i1, i2] at hc
        refine ⟨?_, fun h => hc.2.2 (.inl h), fun h => hc.2.2 (.inr h)⟩
        rw [hw.2]
        intro h
        cases h
        exact hc.1 rfl
    · rename_i hc
      refine Holds.seq (holds_now fun w hw => ⟨_, _, hw.1.1.times⟩) fun t => Holds.seq
        (Q := fun _ w => Timely q E syn sid rid w.nNet m w ∧ w.nNet = m + 1 ∧ w.s.state = s.state ∧ (q → ty ≠ .state → NoStateAt E m)) (Holds.modS ?_) fun _ =>
        holds_dispatch hr fuel src s.state ty
      rintro w ⟨v, hv, e, et, hd⟩
      have ht : Timely q E syn sid rid m m w := by rw [e]; exact hv.1.1.times.tick
      have hn : w.nNet = m + 1 := by rw [e]; exact hv.1.1.net
      have hst : w.s.state = s.state := by rw [e]; show v.s.state = _; rw [hv.1.2]
      refine ⟨⟨ht.stamps, ht.window, ht.unsent, ht.ids, ht.delays, fun hq => ?_, ht.shaking⟩, hn, hst,
        fun _ hty => heard_noState hv.1.1.heard fun h => hty (by rw [hv.2] at h; cases h; rfl)⟩
      refine ⟨apart t.toNat (stampOf pkt.bytes), ?_, ?_, ?_⟩
      · show absDiff t pkt.timestamp = _
        rw [absDiff_apart, timestamp_stampOf]
      · rw [← timestamp_stampOf]; exact apart_lt _ _
      · show Measured E syn sid rid w.nNow w.nNet _
        rw [hn]
        refine .packet v.nNow m pkt.bytes (by rw [e]; exact Nat.lt_succ_self _) (by omega) hv.1.1.heard ?_ (by rw [et]) fun j h1 h2 => by omega
        obtain ⟨_, i1, i2⟩ := ht.ids hq
        obtain ⟨_, _, pkt', _, _, _, _, hpk⟩ := hv.1.1.heard
        have : pkt' = pkt := by
          have := C02_lossless hpk
          cases pkt'; cases pkt; simp_all
        rw [this] at hpk
        by_cases h1 : s.state = .synSent
        · exact .inr (ht.shaking hq (hst.trans h1))
        · refine .inl ⟨pkt, hpk, ?_⟩
          have e3 : w.s = s := by rw [e]; exact hv.1.2
          rw [e3] at i1 i2
          rw [← i1, ← i2, hv.2]
          by_cases h2 : ty = .syn
          · exact .inl (by rw [h2])
          · exact .inr (by
              by_contra h3
              exact hc ⟨h2, h1, h3⟩)

omit hr in
theorem reply_field {w : World} {reply : Packet} {t : U32} (hh : HeardAt E m pkt.bytes) (h1 : reply.timestamp = t) (h2 : reply.timestampDifference = absDiff t pkt.timestamp)
    (hn : w.nNet = m + 1) : DelayField E syn sid rid w.nNow w.nNet (reply.setWndSize WINDOW_SIZE).bytes := by
  refine .answer m pkt.bytes hn hh ?_
  have g1 := difference_delayOf (reply.setWndSize WINDOW_SIZE)
  have g2 := timestamp_stampOf (reply.setWndSize WINDOW_SIZE)
  rw [setWndSize_timestampDifference, h2, absDiff_apart] at g1
  rw [setWndSize_timestamp, h1] at g2
  rw [← g2, ← timestamp_stampOf]
  exact_mod_cast g1.symm

theorem keeps_recvPacket (fuel len : Nat) (src : Addr) (hh : HeardAt E m pkt.bytes) :
    Holds (Tim q E syn sid rid) (Fetched q E syn sid rid m pkt) (recvPacket E fuel rec len pkt src) (fun _ => Tim q E syn sid rid) := by
  unfold recvPacket
  refine Holds.seq (holds_handlePacket hr fuel src) fun r => Holds.seq (Q := fun _ => Tim q E syn sid rid) ?_ fun _ =>
    Holds.seq (Q := fun _ => Tim q E syn sid rid) (Holds.orPanic fun _ _ _ h => h) fun ty => Holds.seq (keeps_modS fun s => ?_) fun _ =>
    Holds.seq (keeps_flushIncoming len) fun _ => Holds.pure fun _ h => h
  · unfold sendReply
    split
    · rename_i reply
      intro w hw
      obtain ⟨t, hd, hl, h1, h2, h3⟩ := hw.2 reply rfl
      refine holds_udpSend (t := t) ?_ w ⟨hw.1, hd, fun hq => reply_field hh h1 h2 (h3 hq)⟩
      rw [← timestamp_stampOf, setWndSize_timestamp, h1]
    · exact Holds.pure fun _ h => h.1
  · split
    · exact .of rfl rfl rfl rfl rfl rfl
    · exact .of rfl rfl rfl rfl rfl rfl

theorem keeps_recvBody (fuel len : Nat) : KeepsTime q E syn sid rid (recvBody E fuel rec len) := by
  unfold recvBody
  refine Holds.seq (holds_recvWait fuel 0) fun ⟨b, src⟩ => ?_
  dsimp only
  refine Holds.seq (Q := fun r w => JustArrived q E syn sid rid b src w ∧ Packet.tryFrom b = some r) (Holds.orPanic fun _ e _ h => ⟨h, e⟩) fun r => ?_
  rcases r with e | pkt
  · refine Holds.get fun s => Holds.pure ?_
    rintro w ⟨⟨⟨m, c, h1, h2, h3, h4⟩, h5⟩, _⟩
    refine h4.skip (fun _ => ?_) (fun _ _ => ?_) h1 <;>
    · intro b' src' pkt' g1 g2
      rw [h2] at g1
      cases g1
      rw [← h3, h5] at g2
      cases g2
  · intro w hw
    obtain ⟨⟨m, c, h1, h2, h3, h4⟩, h5⟩ := hw
    have hb := C02_lossless h5
    have hh : HeardAt E m pkt.bytes := ⟨c, src, pkt, 1520, .inl rfl, h2, by rw [hb, h3], by rw [hb]; exact h5⟩
    exact keeps_recvPacket hr fuel len src hh w ⟨h1, hh, .inr ⟨c, src, h2, by rw [← h3]; exact h5⟩, h4⟩

end

theorem keeps_recv : ∀ fuel len, KeepsTime q E syn sid rid (recv E fuel len)
  | 0, _ => Holds.never fun _ h => h
  | fuel + 1, len => keeps_recvBody (keeps_recv fuel BUF_SIZE) fuel len

theorem keeps_recvFromLoop (fuel len : Nat) : ∀ n, KeepsTime q E syn sid rid (recvFromLoop E fuel len n)
  | 0 => Holds.never fun _ h => h
  | n + 1 => by
    unfold recvFromLoop
    refine Holds.get fun s => ?_
    split
    · exact Holds.pure fun _ h => h.1
    · refine Holds.seq ((keeps_recv fuel len).pre fun _ h => h.1) fun ⟨out, src⟩ => ?_
      dsimp only
      split
      · exact keeps_recvFromLoop fuel len n
      · exact Holds.pure fun _ h => h

theorem keeps_recvFrom (fuel len : Nat) : KeepsTime q E syn sid rid (recvFrom E fuel len) := by
  unfold recvFrom
  refine Holds.seq (keeps_flushIncoming len) fun out => Holds.get fun s => ?_
  split
  · exact Holds.pure fun _ h => h.1
  · split
    · exact Holds.throw fun _ h => h.1
    · exact (keeps_recvFromLoop fuel len fuel).pre fun _ h => h.1

theorem keeps_sendQueue (fuel : Nat) : ∀ n, KeepsTime q E syn sid rid (sendQueue E fuel n)
  | 0 => Holds.never fun _ h => h
  | n + 1 => by
    unfold sendQueue
    refine Holds.get fun s => ?_
    split
    · exact Holds.pure fun _ h => h.1
    · rename_i p rest e
      intro w hw
      have hp := hw.1.unsent p (by rw [hw.2, e]; simp)
      refine Holds.seq (P := fun w => Tim q E syn sid rid w ∧ w.s = s) (Q := fun _ => Tim q E syn sid rid) (Holds.modS fun w hw => ?_) (fun _ =>
        Holds.seq (holds_sendPacket (keeps_recv fuel BUF_SIZE) fuel hp.1) fun p' => Holds.get fun s1 => Holds.seq Holds.overflowIf fun _ =>
        Holds.seq (Q := fun _ => Tim q E syn sid rid) (Holds.modS fun w hw => ?_) fun _ => keeps_sendQueue fuel n) w hw
      · exact hw.1.same ⟨rfl, rfl, rfl, id, id, fun _ h => h, fun x h => by rw [hw.2, e]; simp only at h ⊢; simp [h]⟩
      · obtain ⟨⟨ht, hwp, hx⟩, _⟩ := hw
        refine ⟨ht.stamps, fun x h => ?_, ht.unsent, ht.ids, ht.delays, ht.measured, ht.shaking⟩
        rcases List.mem_append.mp h with h | h
        · exact ht.window x h
        · rw [List.mem_singleton.mp h]
          refine ⟨hwp, fun hq => ?_⟩
          rcases hx with rfl | hx
          · exact .inl hp.2
          · exact .inr ⟨_, Nat.le_refl _, hx hq⟩

theorem dataPacket_times (s : Socket) (c : Bytes) : WholePkt (dataPacket s c) ∧ delayOf (dataPacket s c).bytes = 0 := by
  refine ⟨⟨(dataPacket_fresh s c).2, ?_⟩, ?_⟩
  · exact (dataPacket_plain s c).ty
  · have := difference_delayOf (dataPacket s c)
    unfold dataPacket at this ⊢
    rw [setConnectionId_timestampDifference, setAckNr_timestampDifference, setSeqNr_timestampDifference] at this
    have h0 : (Packet.withPayload c).timestampDifference = 0 := by
      simp [timestampDifference, delayOfU32, be32, byteAt, withPayload_bytes]
    rw [h0] at this
    omega

theorem Timely.enqueued {n : Nat} : ∀ (cs : List Bytes) {w : World}, Timely q E syn sid rid n n w → Timely q E syn sid rid n n { w with s := cs.foldl enqueue w.s }
  | [], _, h => h
  | c :: cs, w, h => by
    have h1 : Timely q E syn sid rid n n { w with s := enqueue w.s c } := by
      refine ⟨h.stamps, h.window, fun p hp => ?_, h.ids, h.delays, h.measured, h.shaking⟩
      rcases List.mem_append.mp hp with hp | hp
      · exact h.unsent p hp
      · rw [List.mem_singleton.mp hp]; exact dataPacket_times w.s c
    exact Timely.enqueued cs h1

theorem keeps_sendTo (fuel : Nat) (buf : Bytes) : KeepsTime q E syn sid rid (sendTo E fuel buf) := by
  unfold sendTo
  refine Holds.get fun s => ?_
  split
  · exact Holds.throw fun _ h => h.1
  · exact Holds.seq (Q := fun _ => Tim q E syn sid rid) (Holds.modS fun w hw => hw.1.enqueued _) fun _ => Holds.seq (keeps_sendQueue fuel fuel) fun _ => Holds.pure fun _ h => h

theorem keeps_scratchRecv (fuel : Nat) : KeepsTime q E syn sid rid (scratchRecv E fuel) :=
  Holds.seq (keeps_recv fuel BUF_SIZE) fun _ => Holds.pure fun _ h => h

theorem keeps_flush (fuel : Nat) : KeepsTime q E syn sid rid (flush E fuel) :=
  Holds.whileM (Holds.get fun _ => Holds.pure fun _ h => h.1) (keeps_scratchRecv fuel) (fun _ h => h) fuel

theorem keeps_close (fuel : Nat) : KeepsTime q E syn sid rid (close E fuel) := by
  unfold close
  refine Holds.get fun s => ?_
  split
  · exact Holds.pure fun _ h => h.1
  · refine Holds.seq ((keeps_flush fuel).pre fun _ h => h.1) fun _ => Holds.get fun s => Holds.seq (holds_now fun w hw => ⟨_, _, hw.1⟩) fun t =>
      Holds.seq ((holds_udpSend (t := t) (finPacket_times s t).1).pre ?_) fun _ => Holds.seq (keeps_modS fun s => ⟨rfl, rfl, rfl, fun _ => by simp, fun h => by simp at h, fun _ h => h, fun _ h => h⟩) fun _ =>
      Holds.whileM (Holds.get fun s => Holds.pure fun _ h => h.1) (keeps_scratchRecv fuel) (fun _ h => h) fuel
    rintro w ⟨v, ⟨hv, _⟩, e, _, hd⟩
    exact ⟨hv.due e, hd, fun _ => .fin (finPacket_times s t).2.2 (finPacket_times s t).2.1⟩

theorem keeps_runOp (fuel : Nat) (op : Op) : KeepsTime q E syn sid rid (runOp E fuel op) := by
  cases op with
  | recvFrom len => exact Holds.seq (keeps_recvFrom fuel len) fun _ => Holds.pure fun _ h => h
  | sendTo buf => exact Holds.seq (keeps_sendTo fuel buf) fun _ => Holds.pure fun _ h => h
  | flush => exact Holds.seq (keeps_flush fuel) fun _ => Holds.pure fun _ h => h
  | close => exact Holds.seq (keeps_close fuel) fun _ => Holds.pure fun _ h => h
  | setMaxRetries n => exact Holds.seq (keeps_modS fun _ => .of rfl rfl rfl rfl rfl rfl) fun _ => Holds.pure fun _ h => h

theorem Run.timely {w0 w : World} (h : Run E w0 w) (h0 : Tim q E syn sid rid w0) : Tim q E syn sid rid w := by
  induction h with
  | refl => exact h0
  | @op v fuel op _ hp ih =>
    have h1 := keeps_runOp (q := q) (E := E) (syn := syn) (sid := sid) (rid := rid) fuel op v ih
    rcases e : runOp E fuel op v with ⟨r, u⟩
    rw [e] at h1 hp
    cases r with
    | panic => exact absurd rfl hp
    | _ => exact h1

end

/-- Connecting: nothing was received yet. -/
structure Dialing (E : Env) (sid rid : U16) (w : World) : Prop where
  stamps : Punctual E w.nNow w.log
  window : w.s.sendWindow = []
  unsent : w.s.unsent = []
  ids : w.s.senderId = sid ∧ w.s.receiverId = rid
  delays : Reports E none sid rid w.nNow w.nNet w.log
  delay : w.s.theirDelay = 0
  silent : ∀ m, m < w.nNet → Silent E sid rid m
  noState : ∀ m, m < w.nNet → NoStateAt E m

section
variable {q : Prop} {sid rid : U16}

theorem Dialing.timely {w : World} (h : Dialing E sid rid w) (hs : q → w.s.state ≠ .new) : Tim q E none sid rid w :=
  ⟨h.stamps, by rw [h.window]; simp, by rw [h.unsent]; simp, fun hq => ⟨hs hq, h.ids⟩, fun _ => h.delays, fun _ => ⟨0, h.delay, by decide, .nothing rfl rfl h.silent⟩, fun _ _ => ⟨rfl, h.noState⟩⟩

theorem Timely.weaken {syn : Option Bytes} {n j : Nat} {w : World} (h : Timely q E syn sid rid n j w) : Tim False E syn sid rid w :=
  ⟨h.stamps, fun p hp => ⟨(h.window p hp).1, False.elim⟩, h.unsent, False.elim, False.elim, False.elim, False.elim⟩

theorem synPacket_times (s : Socket) (t : U32) : stampOf (synPacket s t).bytes = t.toNat ∧ delayOf (synPacket s t).bytes = 0 := by
  refine ⟨?_, ?_⟩
  · rw [← timestamp_stampOf]
    unfold synPacket
    rw [setTimestamp_timestamp (by simp [new_plain.len])]
  · have := difference_delayOf (synPacket s t)
    unfold synPacket at this ⊢
    simp only [setType_timestampDifference, setTimestamp_timestampDifference, setSeqNr_timestampDifference, setConnectionId_timestampDifference] at this
    have h0 : Packet.new.timestampDifference = 0 := by decide
    rw [h0] at this
    omega

theorem holds_synLoop : ∀ n timeout, Holds (Tim False E none sid rid) (Dialing E sid rid) (synLoop E n timeout)
    (fun b w => (b = [] ∧ Dialing E sid rid w) ∨ ∃ m c src, w.nNet = m + 1 ∧ E.net m = .dgram c src ∧ b = c.take 1500 ∧ w.s.state = .synSent ∧ Timely True E none sid rid m m w)
  | 0, _ => Holds.pure fun w hw => .inl ⟨rfl, hw⟩
  | n + 1, timeout => by
    have hf : ∀ w, Dialing E sid rid w → Tim False E none sid rid w := fun w h => h.timely False.elim
    unfold synLoop
    refine Holds.get fun s => Holds.seq (holds_now fun w hw => ⟨_, _, hf w hw.1⟩) fun t => Holds.seq (Q := fun _ => Dialing E sid rid) ?_ fun _ =>
      Holds.seq (Q := fun _ w => Dialing E sid rid w ∧ w.s.state = .synSent) (Holds.modS fun w h => ⟨⟨h.stamps, h.window, h.unsent, h.ids, h.delays, h.delay, h.silent, h.noState⟩, rfl⟩) fun _ =>
      Holds.seq (Q := fun r w => w.s.state = .synSent ∧ match r with
        | .ok (b, src) => ∃ m c, w.nNet = m + 1 ∧ E.net m = .dgram c src ∧ b = c.take 1500 ∧ Timely True E none sid rid m m w
        | .error _ => Dialing E sid rid w) ?_ fun r => ?_
    · rintro w ⟨v, ⟨hv, hs⟩, e, et, k, h1, h2, h3⟩
      have hd : Dialing E sid rid w := by
        rw [e]
        exact ⟨.read hv.stamps, hv.window, hv.unsent, hv.ids, .read hv.delays, hv.delay, hv.silent, hv.noState⟩
      have key : ∀ ok, Dialing E sid rid { w with nSnd := w.nSnd + 1, log := w.log ++ [.send s.connectedTo (synPacket s t).bytes ok] } := by
        intro ok
        refine ⟨?_, hd.window, hd.unsent, hd.ids, .send ok hd.delays (.measured (.nothing rfl (synPacket_times s t).2 hd.silent)), hd.delay, hd.silent, hd.noState⟩
        show Punctual E w.nNow (w.log ++ _)
        rw [h1]
        exact .send ok h3 (by rw [(synPacket_times s t).1, h2])
      unfold M.udpSend
      dsimp only
      cases E.snd w.nSnd
      · exact key _
      · exact hf _ (key _)
      · exact hf _ (key _)
    · intro w ⟨hw, hs⟩
      unfold M.udpRecv
      dsimp only
      have ht := (hw.timely (q := True) fun _ => by rw [hs]; simp).waited (some timeout)
      have hn : (∀ b src, E.net w.nNet ≠ .dgram b src) → Dialing E sid rid { w with nNet := w.nNet + 1, log := w.log ++ [.wait (some timeout)] } := fun h =>
        ⟨.wait _ hw.stamps, hw.window, hw.unsent, hw.ids, .wait _ hw.delays, hw.delay, fun m hm => by
          rcases Nat.lt_succ_iff_lt_or_eq.mp hm with hm | rfl
          · exact hw.silent m hm
          · exact silent_of_fail h, fun m hm => by
          rcases Nat.lt_succ_iff_lt_or_eq.mp hm with hm | rfl
          · exact hw.noState m hm
          · exact noState_of_fail h⟩
      rcases e : E.net w.nNet with ⟨b, src⟩ | k | _
      · exact ⟨hs, w.nNet, b, rfl, e, rfl, ht⟩
      · exact ⟨hs, hn fun b src h => by rw [e] at h; cases h⟩
      · exact hf _ (hn fun b src h => by rw [e] at h; cases h)
    · rcases r with k | ⟨b, src⟩
      · dsimp only
        split
        · exact (holds_synLoop n _).pre fun _ h => h.2
        · exact Holds.throw fun w hw => hf w hw.2
      · refine Holds.seq (Q := fun _ w => w.s.state = .synSent ∧ ∃ m c, w.nNet = m + 1 ∧ E.net m = .dgram c src ∧ b = c.take 1500 ∧ Timely True E none sid rid m m w) (Holds.modS ?_) fun _ =>
          Holds.pure ?_
        · rintro w ⟨hs, m, c, h1, h2, h3, h4⟩
          exact ⟨hs, m, c, h1, h2, h3, h4.same (.of rfl rfl rfl rfl rfl rfl)⟩
        · rintro w ⟨hs, m, c, h1, h2, h3, h4⟩
          exact .inr ⟨m, c, src, h1, h2, h3, hs, h4⟩

theorem Holds.fails {α : Type} {I I' P : World → Prop} {m : M α} {Q : α → World → Prop} (h : Holds I P m Q) (hi : ∀ w, I w → I' w) : Holds I' P m Q := by
  intro w hw
  have := h w hw
  rcases e : m w with ⟨r, v⟩
  rw [e] at this
  cases r with
  | ok a => exact this
  | panic => trivial
  | _ => exact hi v this

theorem holds_connectM (fuel : Nat) (addr : Addr) : Holds (Tim False E none sid rid) (Dialing E sid rid) (connectM E fuel addr) (fun _ => Tim True E none sid rid) := by
  unfold connectM
  refine Holds.seq (Q := fun _ => Dialing E sid rid) (Holds.modS fun w h => ⟨h.stamps, h.window, h.unsent, h.ids, h.delays, h.delay, h.silent, h.noState⟩) fun _ => Holds.get fun s =>
    Holds.seq ((holds_synLoop _ _).pre fun _ h => h.1) fun b => Holds.get fun s => Holds.seq
      (Q := fun r w => ((b = [] ∧ Dialing E sid rid w) ∨ ∃ m c src, w.nNet = m + 1 ∧ E.net m = .dgram c src ∧ b = c.take 1500 ∧ w.s.state = .synSent ∧ Timely True E none sid rid m m w) ∧
        Packet.tryFrom b = some r) (Holds.orPanic fun _ e _ h => ⟨h.1, e⟩) fun r => ?_
  rcases r with e | pkt
  · refine Holds.throw ?_
    rintro w ⟨⟨_, h⟩ | ⟨m, c, src, _, _, _, _, h⟩, _⟩
    · exact h.timely False.elim
    · exact h.weaken
  · intro w ⟨h, hp⟩
    rcases h with ⟨rfl, _⟩ | ⟨m, c, src, h1, h2, h3, h4, h5⟩
    · have := accepted_len hp
      rw [C02_lossless hp] at this
      simp at this
    · have hb := C02_lossless hp
      have hh : HeardAt E m pkt.bytes := ⟨c, src, pkt, 1500, .inr rfl, h2, by rw [hb, h3], by rw [hb]; exact hp⟩
      refine Holds.fails (I := Tim True E none sid rid) ?_ (fun w h => h.weaken) w (P := Fetched True E none sid rid m pkt) ⟨h1, hh, .inl h4, h5⟩
      exact Holds.seq (holds_handlePacket (keeps_recv fuel BUF_SIZE) fuel s.connectedTo) fun _ => Holds.pure fun _ h => h.1

theorem dialing_fresh (la src : Addr) : Dialing E (sequentialIdentifiers (E.rand 0)).2 (sequentialIdentifiers (E.rand 0)).1 (freshWorld E la src) :=
  ⟨.start, rfl, rfl, ⟨rfl, rfl⟩, .start, rfl, fun _ h => absurd h (Nat.not_lt_zero _), fun _ h => absurd h (Nat.not_lt_zero _)⟩

theorem accept_timely {fuel : Nat} {ev : NetEvent} {bound : Except ErrorKind Addr} {r : Res Unit} {w : World} {src : Addr}
    (h : accept E fuel ev bound = .made r w src) (hp : r ≠ .panic) :
    ∃ b, ev = .dgram b src ∧ Tim True E (some (b.take 1500)) w.s.senderId w.s.receiverId w := by
  obtain ⟨b, pkt, la, h0, _, h1, h2, h3, _, rfl⟩ := accept_inv h hp
  refine ⟨b, h0, ?_⟩
  have hb := C02_lossless h1
  have ht := prepareReply_times (acceptSocket E la src pkt) (E.now 1) pkt .state
  have e1 : stampOf (acceptReply E la src pkt).bytes = (E.now 1).toNat := by
    rw [← timestamp_stampOf]; exact congrArg _ ht.1
  have e2 : delayOf (acceptReply E la src pkt).bytes = apart (E.now 1).toNat (stampOf pkt.bytes) := by
    have := difference_delayOf (acceptReply E la src pkt)
    have e := ht.2.1
    rw [absDiff_apart, timestamp_stampOf] at e
    have e' : (acceptReply E la src pkt).timestampDifference = _ := e
    rw [e'] at this
    exact_mod_cast this.symm
  refine ⟨?_, fun p hp => by simp [acceptSocket, Socket.fromRawParts] at hp, fun p hp => by simp [acceptSocket, Socket.fromRawParts] at hp, fun _ => ⟨by simp [acceptSocket], rfl, rfl⟩, fun _ => ?_, fun _ => ⟨apart (E.now 0).toNat (stampOf pkt.bytes), ?_, ?_, ?_⟩, fun _ h => by simp [acceptSocket] at h⟩
  · exact .send (l := []) _ (.read .start) e1
  · refine .send (l := []) _ (.read (.read .start)) (.measured (.accepted 1 (b.take 1500) (by show 1 < 2; omega) rfl ?_ fun _ h => absurd h (Nat.not_lt_zero _)))
    rw [e2, hb]
  · show absDiff (E.now 0) pkt.timestamp = _
    rw [absDiff_apart, timestamp_stampOf]
  · rw [← timestamp_stampOf]; exact apart_lt _ _
  · exact .accepted 0 (b.take 1500) (by show 0 < 2; omega) rfl (by rw [hb]) fun _ h => absurd h (Nat.not_lt_zero _)

end

end Utp
