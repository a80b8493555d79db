import Verif.Lemmas.Logic
import Verif.Props.Bits
import Verif.Lemmas.Fields
/-!
# Every operation is a sequence of steps
-/

namespace Utp
open M

/-- `V` survives refreshing the timestamps. -/
structure VOk (V : Ctx) : Prop where
  ts : ∀ p t, V p → V (p.setTimestamp t)
  td : ∀ p d, V p → V (p.setTimestampDifference d)

/-- Outstanding and queued packets satisfy `V`, buffered ones are valid data packets. -/
structure Inv (V : Ctx) (w : World) : Prop where
  win : ∀ p ∈ w.s.sendWindow, V p
  uns : ∀ p ∈ w.s.unsent, V p ∧ p.timestamp = 0 ∧ 20 ≤ p.bytes.length
  inc : ∀ p ∈ w.s.incoming, ValidData p
  fly : V.req ∨ w.s.currWindow = BitVec.ofNat 32 (totalSize w.s.sendWindow)

/-- A wait in this world can only time out where requests are allowed, or where there is something else to send. -/
def CanWait (V : Ctx) (w : World) : Prop := V.req ∨ w.s.sendWindow ≠ [] ∨ w.s.state = .finSent

variable {E : Env} {V : Ctx}

theorem subLens_exact : ∀ (l : List Packet) (c r : U32), Socket.subLens E c l = some r → r = c - BitVec.ofNat 32 (totalSize l) := by
  intro l
  induction l with
  | nil => intro c r h; simp [Socket.subLens] at h; simp [totalSize, h]
  | cons p l ih =>
    intro c r h
    unfold Socket.subLens at h
    simp only at h
    split at h
    · simp at h
    · rw [ih _ _ h]
      apply BitVec.eq_of_toNat_eq
      simp only [BitVec.toNat_sub, BitVec.toNat_ofNat, totalSize, List.map_cons, List.sum_cons, Packet.len]
      omega

theorem totalSize_append (a b : List Packet) : totalSize (a ++ b) = totalSize a + totalSize b := by
  simp [totalSize]

theorem advanceSendWindow_shape {s s' : Socket} (h : s.advanceSendWindow E = some s') :
    ∃ n c, s' = { s with sendWindow := s.sendWindow.drop n, currWindow := c } := by
  unfold Socket.advanceSendWindow at h
  split at h
  · simp at h; exact ⟨0, s.currWindow, by simp [← h]⟩
  · split at h
    · simp at h
    · simp at h; exact ⟨_, _, h.symm⟩

theorem onNewAck_shape {s s' : Socket} {i : Nat} {p : Packet} {t : U32} (h : s.onNewAck E i p t = some s') :
    ∃ bd cd lr cw rt rv ct, s' =
      { s with
        baseDelays := bd, currDelays := cd, lastRollover := lr, cwnd := cw, rtt := rt, rttVar := rv
        congTimeout := ct } := by
  unfold Socket.onNewAck at h
  simp only at h
  split at h
  · simp at h
  · rename_i s1 h1
    have hs1 : ∃ bd lr, s1 = { s with baseDelays := bd, lastRollover := lr } := by
      unfold Socket.updateBaseDelay at h1
      split at h1
      · simp at h1; exact ⟨_, _, h1.symm⟩
      · split at h1
        · simp at h1
        · split at h1
          · simp at h1; exact ⟨_, _, h1.symm⟩
          · simp at h1; exact ⟨s.baseDelays, s.lastRollover, by simp [← h1]⟩
    obtain ⟨bd, lr, rfl⟩ := hs1
    split at h
    · simp at h
    · rename_i s2 h2
      unfold Socket.updateCongestionWindow at h2
      split at h2
      · simp at h2
      · simp at h2
        rw [← h2] at h
        simp [Socket.updateCongestionTimeout, Socket.updateCurrentDelay] at h
        exact ⟨_, _, _, _, _, _, _, h.symm⟩

/-- The count of bytes in flight stays exact (modulo 2^32). -/
theorem flight_step {w w' : World} (h : Step E V w w')
    (hi : w.s.currWindow = BitVec.ofNat 32 (totalSize w.s.sendWindow)) :
    w'.s.currWindow = BitVec.ofNat 32 (totalSize w'.s.sendWindow) := by
  cases h with
  | touch p rest t hw _ _ =>
    have : totalSize (p.setTimestamp t :: rest) = totalSize w.s.sendWindow := by
      rw [hw]; simp [totalSize, Packet.setTimestamp, Packet.put32]
    simpa [World.setS, this] using hi
  | arrive pkt src hg =>
    have : (w.s.bumpAck pkt).sendWindow = w.s.sendWindow ∧ (w.s.bumpAck pkt).currWindow = w.s.currWindow := by
      unfold Socket.bumpAck; split <;> simp
    simpa [World.setS, this] using hi
  | push p _ _ _ _ _ =>
    simp only [World.setS, totalSize_append]
    have hp : totalSize [p] = p.bytes.length := by simp [totalSize]
    rw [hp, hi]
    apply BitVec.eq_of_toNat_eq
    simp only [BitVec.toNat_add, BitVec.toNat_ofNat, Packet.len]
    omega
  | measure pkt src i p t s' _ _ _ _ _ _ hm =>
    obtain ⟨_, _, _, _, _, _, _, rfl⟩ := onNewAck_shape hm
    exact hi
  | advance s' _ hm =>
    simp only [World.setS]
    unfold Socket.advanceSendWindow at hm
    split at hm
    · simp only [Option.some.injEq] at hm; rw [← hm]; exact hi
    · rename_i pos hf
      split at hm
      · simp at hm
      · rename_i c hc
        simp only [Option.some.injEq] at hm
        rw [← hm]
        have ht := totalSize_append (w.s.sendWindow.take (pos + 1)) (w.s.sendWindow.drop (pos + 1))
        rw [List.take_append_drop] at ht
        rw [subLens_exact _ _ _ hc, hi, ht]
        apply BitVec.eq_of_toNat_eq
        simp only [BitVec.toNat_sub, BitVec.toNat_ofNat]
        omega
  | deliverPending len _ =>
    unfold Socket.takePending Socket.advanceIncoming
    simp only; split
    · split <;> exact hi
    · exact hi
  | deliverHead p rest pl len _ hinc _ _ =>
    unfold Socket.takeHead Socket.advanceIncoming
    split
    · rw [hinc]; exact hi
    · exact hi
  | _ => exact hi

/-- The timestamp of a new packet is 0. -/
theorem dataPacket_fresh (s : Socket) (c : Bytes) : (dataPacket s c).timestamp = 0 ∧ 20 ≤ (dataPacket s c).bytes.length := by
  unfold dataPacket
  constructor
  · simp only [setConnectionId_timestamp, setAckNr_timestamp, setSeqNr_timestamp]
    simp [Packet.timestamp, Packet.be32, Packet.byteAt, Packet.withPayload, Packet.setType, Packet.defaultHeader, List.replicate]
  · simp [Packet.setConnectionId, Packet.setAckNr, Packet.setSeqNr, Packet.put16, Packet.withPayload, Packet.setType, Packet.defaultHeader]

theorem Inv.step (hV : VOk V) {w w' : World} (h : Step E V w w') (hi : Inv V w) : Inv V w' := by
  have h4 : V.req ∨ w'.s.currWindow = BitVec.ofNat 32 (totalSize w'.s.sendWindow) := hi.fly.imp_right (flight_step h)
  obtain ⟨h1, h2, h3, h0⟩ := hi
  cases h with
  | touch p rest t hw _ _ =>
    refine ⟨?_, h2, h3, h4⟩
    intro q hq
    simp only [World.setS, List.mem_cons] at hq
    rcases hq with rfl | hq
    · exact hV.ts _ _ (h1 _ (by simp [hw]))
    · exact h1 _ (by simp [hw, hq])
  | arrive pkt src hg =>
    have : (w.s.bumpAck pkt).sendWindow = w.s.sendWindow ∧ (w.s.bumpAck pkt).unsent = w.s.unsent ∧
        (w.s.bumpAck pkt).incoming = w.s.incoming := by
      unfold Socket.bumpAck; split <;> simp
    exact ⟨by simpa [World.setS, this], by simpa [World.setS, this], by simpa [World.setS, this], h4⟩
  | measure pkt src i p t s' _ _ _ _ _ _ hm =>
    obtain ⟨_, _, _, _, _, _, _, rfl⟩ := onNewAck_shape hm
    exact ⟨h1, h2, h3, h4⟩
  | advance s' _ hm =>
    obtain ⟨n, c, rfl⟩ := advanceSendWindow_shape hm
    exact ⟨fun p hp => h1 p (List.mem_of_mem_drop hp), h2, h3, h4⟩
  | insert pkt src hg ht hne =>
    refine ⟨h1, h2, fun p hp => ?_, h4⟩
    rcases mem_insertPkt hp with hp | rfl
    · exact h3 p hp
    · obtain ⟨k, b, n, _, _, _, hb⟩ := hg
      exact ⟨⟨_, hb⟩, ht⟩
  | deliverPending len _ =>
    unfold Socket.takePending Socket.advanceIncoming
    simp only
    split
    · split
      · rename_i hn; exact ⟨h1, h2, by simp [World.setS, hn], h0⟩
      · rename_i hn
        exact ⟨h1, h2, fun q hq => h3 q (by rw [hn]; exact List.mem_cons_of_mem _ hq), h0⟩
    · exact ⟨h1, h2, h3, h0⟩
  | deliverHead p rest pl len _ hinc _ _ =>
    unfold Socket.takeHead Socket.advanceIncoming
    split
    · rw [hinc]
      exact ⟨h1, h2, fun q hq => h3 q (by rw [hinc]; exact List.mem_cons_of_mem _ hq), h0⟩
    · exact ⟨h1, h2, h3, h0⟩
  | enqueue c _ _ _ _ hv =>
    refine ⟨h1, fun q hq => ?_, h3, h4⟩
    simp only [World.setS, Utp.enqueue, List.mem_append, List.mem_singleton] at hq
    rcases hq with hq | rfl
    · exact h2 q hq
    · exact ⟨hv, dataPacket_fresh w.s c⟩
  | pop p rest _ hu => exact ⟨h1, fun q hq => h2 q (by rw [hu]; exact List.mem_cons_of_mem _ hq), h3, h4⟩
  | push p _ hp _ _ _ =>
    refine ⟨fun q hq => ?_, h2, h3, h4⟩
    simp only [World.setS, List.mem_append, List.mem_singleton] at hq
    rcases hq with hq | rfl
    · exact h1 q hq
    · exact hp
  | _ => exact ⟨h1, h2, h3, h4⟩

theorem Inv.steps (hV : VOk V) {w w' : World} (h : Steps E V w w') (hi : Inv V w) : Inv V w' :=
  h.inv (fun _ _ hs => Inv.step hV hs) hi

/-- A socket that has left the handshake states never goes back. -/
theorem established_step {w w' : World} (h : Step E V w w') :
    (w.s.state ≠ .new → w'.s.state ≠ .new) ∧ (w.s.state ≠ .new ∧ w.s.state ≠ .synSent → w'.s.state ≠ .synSent) := by
  cases h with
  | arrive pkt src hg =>
    have : (w.s.bumpAck pkt).state = w.s.state := by unfold Socket.bumpAck; split <;> rfl
    simp [World.setS, this]
  | measure pkt src i p t s' _ _ _ _ _ _ hm =>
    obtain ⟨_, _, _, _, _, _, _, rfl⟩ := onNewAck_shape hm
    simp [World.setS]
  | advance s' _ hm =>
    obtain ⟨n, c, rfl⟩ := advanceSendWindow_shape hm
    simp [World.setS]
  | deliverPending len _ =>
    unfold Socket.takePending Socket.advanceIncoming
    simp only; split
    · split <;> simp [World.setS]
    · simp [World.setS]
  | deliverHead p rest pl len _ hinc _ _ =>
    unfold Socket.takeHead Socket.advanceIncoming
    split <;> simp [World.setS, hinc]
  | _ => simp [World.setS, Utp.enqueue, Socket.halveWindow, Socket.insertIntoBuffer]

def Established (w : World) : Prop := w.s.state ≠ .new ∧ w.s.state ≠ .synSent

theorem Established.steps {w w' : World} (h : Steps E V w w') (he : Established w) : Established w' :=
  h.inv (I := Established) (fun _ _ hs he => ⟨(established_step hs).1 he.1, (established_step hs).2 he⟩) he

/-! ### Bind rules for the primitives -/

section rules
variable {α β : Type} {w : World} {Q : β → World → Prop}

theorem bind_getS {f : Socket → M β} (h : At E V (f w.s) w Q) : At E V (getS >>= f) w Q :=
  At.bind (Q := fun s w' => s = w.s ∧ w' = w) (At.getS ⟨rfl, rfl⟩) fun _ _ _ hq => by rw [hq.1, hq.2]; exact h

theorem bind_modS {g : Socket → Socket} {f : Unit → M β} (hs : Steps E V w (w.setS (g w.s)))
    (h : At E V (f ()) (w.setS (g w.s)) Q) : At E V (modS g >>= f) w Q :=
  At.bind (Q := fun _ w' => w' = w.setS (g w.s)) (At.modS hs rfl) fun _ _ _ hq => by rw [hq]; exact h

theorem bind_now {f : U32 → M β} (h : ∀ t, At E V (f t) { w with nNow := w.nNow + 1 } Q) :
    At E V (now E >>= f) w Q :=
  At.bind (Q := fun _ w' => w' = { w with nNow := w.nNow + 1 }) (At.now fun _ => rfl)
    fun t _ _ hq => by rw [hq]; exact h t

/-- The same, with the value read. -/
theorem bind_clock {f : U32 → M β} (h : At E V (f (E.now w.nNow)) { w with nNow := w.nNow + 1 } Q) :
    At E V (now E >>= f) w Q :=
  At.bind (Q := fun t w' => t = E.now w.nNow ∧ w' = { w with nNow := w.nNow + 1 })
    ⟨fun _ => .single (.tick w), fun h => by simp [M.now] at h, fun a h => ⟨by simpa [M.now, eq_comm] using h, rfl⟩⟩
    fun t _ _ hq => by rw [hq.1, hq.2]; exact h

theorem bind_rand {f : U16 → M β} (h : ∀ t, At E V (f t) { w with nRand := w.nRand + 1 } Q) :
    At E V (rand E >>= f) w Q :=
  At.bind (Q := fun _ w' => w' = { w with nRand := w.nRand + 1 }) (At.rand fun _ => rfl)
    fun t _ _ hq => by rw [hq]; exact h t

theorem bind_orPanic {o : Option α} {f : α → M β} (hn : o = none → E.checks = true ∧ Overflow E V w)
    (h : ∀ a, o = some a → At E V (f a) w Q) : At E V (orPanic o >>= f) w Q :=
  At.bind (Q := fun a w' => o = some a ∧ w' = w) (At.orPanic hn fun _ ha => ⟨ha, rfl⟩)
    fun a _ _ hq => by rw [hq.2]; exact h a hq.1

theorem bind_overflow {b : Bool} {f : Unit → M β} (ho : b = true → Overflow E V w) (h : (E.checks = true → b = false) → At E V (f ()) w Q) :
    At E V (overflowIf E b >>= f) w Q :=
  At.bind (Q := fun _ w' => (E.checks = true → b = false) ∧ w' = w) (At.overflowIf ho fun hb => ⟨hb, rfl⟩)
    fun _ _ _ hq => by rw [hq.2]; exact h hq.1

end rules

/-! ### Facts about packets and replies -/

theorem ValidData.payload {p : Packet} (h : ValidData p) : ∃ pl, p.payload = some pl := by
  obtain ⟨⟨b, hb⟩, _⟩ := h
  obtain ⟨d, _, _, hp, _⟩ := C03_accepted hb
  exact ⟨_, hp⟩

theorem Received.accepted {w : World} {pkt : Packet} {src : Addr} (h : Received E w pkt src) :
    ∃ b, Packet.tryFrom b = some (.ok pkt) := by
  obtain ⟨k, b, n, _, _, _, hb⟩ := h
  exact ⟨_, hb⟩

theorem Received.type {w : World} {pkt : Packet} {src : Addr} (h : Received E w pkt src) :
    ∃ t, pkt.getType = some t := by
  obtain ⟨b, hb⟩ := h.accepted
  obtain ⟨⟨t, ht, _⟩, _⟩ := C02_first_bytes hb
  exact ⟨t, ht⟩

theorem Received.exts {w : World} {pkt : Packet} {src : Addr} (h : Received E w pkt src) :
    ∃ l, pkt.extensions = some l := by
  obtain ⟨b, hb⟩ := h.accepted
  obtain ⟨d, _, _, _, l, hl, _⟩ := C03_accepted hb
  exact ⟨l, hl⟩

theorem prepareReply_bytes (s : Socket) (t : U32) (o : Packet) (ty : PacketType) :
    (s.prepareReply t o ty).bytes.length = 20 ∧ (s.prepareReply t o ty).bytes[1]? = some 0 := by
  simp [Socket.prepareReply, Packet.setAckNr, Packet.setSeqNr, Packet.setConnectionId,
    Packet.setTimestampDifference, Packet.setTimestamp, Packet.setType, Packet.put16, Packet.put32, Packet.new,
    Packet.defaultHeader]

theorem sackGrow_eq : ∀ fuel i (b : Bytes), i / 4 * 4 + 4 ≤ b.length + fuel → (b.length + 3) / 4 * 4 ≤ b.length + fuel →
    ∃ n, Socket.sackGrow fuel i b = b ++ List.replicate n 0 ∧ i < b.length + n ∧ (b.length + n) % 4 = 0 := by
  intro fuel
  induction fuel with
  | zero => intro i b h h'; exact ⟨0, by simp [Socket.sackGrow], by omega, by omega⟩
  | succ n ih =>
    intro i b h h'
    unfold Socket.sackGrow
    split
    · rename_i hc
      obtain ⟨m, h1, h2, h3⟩ := ih i (b ++ [0]) (by simp; omega) (by simp; omega)
      simp only [List.length_append, List.length_singleton] at h2 h3
      exact ⟨m + 1, by rw [h1, List.append_assoc]; rfl, by omega, by omega⟩
    · rename_i hc
      simp only [not_or] at hc
      exact ⟨0, by simp, by omega, by omega⟩

theorem sackBit_len (b : Bytes) (d : Nat) (h : b.length % 4 = 0) :
    (Socket.sackBit b d).length % 4 = 0 ∧ d / 8 < (Socket.sackBit b d).length := by
  obtain ⟨n, h1, h2, h3⟩ := sackGrow_eq (d / 8 + 5) (d / 8) b (by omega) (by omega)
  simp only [Socket.sackBit, List.length_set, h1, List.length_append, List.length_replicate]
  omega

theorem foldl_sackBit_len (l : List Nat) (b : Bytes) (h : b.length % 4 = 0) :
    (l.foldl Socket.sackBit b).length % 4 = 0 := by
  induction l generalizing b with
  | nil => simpa
  | cons d r ih => exact ih _ (sackBit_len b d h).1

theorem buildSack_len {s : Socket} {sack : Bytes} (h : s.buildSack E = some sack) : sack.length % 4 = 0 := by
  unfold Socket.buildSack at h
  split at h
  · simp at h
  · simp only [Option.some.injEq] at h
    rw [← h]; exact foldl_sackBit_len _ _ (by simp)

theorem buildSack_release {s : Socket} (hc : E.checks = false) : s.buildSack E ≠ none := by
  unfold Socket.buildSack; simp [hc]

theorem buildSack_none {s : Socket} (h : s.buildSack E = none) : E.checks = true ∧ s.incoming ≠ [] ∧ s.ackNr = 65535 := by
  unfold Socket.buildSack at h
  split at h
  · assumption
  · simp at h

theorem setSack_plain {p : Packet} {bv : Bytes} (hl : p.bytes.length = 20) (h1 : p.bytes[1]? = some 0)
    (h4 : bv.length % 4 = 0) (hne : bv ≠ []) :
    p.setSack bv = some ⟨p.bytes.set 1 1 ++ [0, BitVec.ofNat 8 bv.length] ++ bv⟩ := by
  have : 0 < bv.length := List.length_pos_iff.mpr hne
  unfold Packet.setSack
  rw [if_neg (by omega), if_neg (by omega)]
  simp only [h1]
  have e : ExtensionType.ofU8 0 = .none := by decide
  rw [if_pos e]
  simp [HEADER_SIZE, ExtensionType.toU8, hl, List.take_of_length_le, List.drop_eq_nil_of_le]

/-! ### The functions, bottom up -/

@[simp] theorem takePending_state (s : Socket) (len : Nat) : (s.takePending len).2.state = s.state := by
  unfold Socket.takePending Socket.advanceIncoming
  simp only
  split
  · split <;> rfl
  · rfl

@[simp] theorem takeHead_state (s : Socket) (pl : Bytes) (len : Nat) : (s.takeHead pl len).state = s.state := by
  unfold Socket.takeHead Socket.advanceIncoming
  split
  · split <;> rfl
  · rfl

theorem at_flushIncoming (len : Nat) {w : World} (hi : ∀ p ∈ w.s.incoming, ValidData p) :
    At E V (flushIncoming E len) w fun _ w' => w'.s.state = w.s.state := by
  unfold flushIncoming
  refine bind_getS ?_
  split
  · rename_i hp
    exact bind_modS (.single (.deliverPending w len hp)) (.pure (takePending_state _ _))
  · rename_i hp
    simp only [ne_eq, Decidable.not_not] at hp
    split
    · exact .pure rfl
    · rename_i p rest hinc
      refine bind_overflow (fun h => .buffered (by simp at h; exact h.2) (by simp [hinc])) fun _ => ?_
      split
      · rename_i hg
        obtain ⟨pl, hpl⟩ := (hi p (by simp [hinc])).payload
        refine bind_orPanic (by simp [hpl]) fun pl' e => ?_
        refine bind_modS (.single (.deliverHead w p rest pl' len hp hinc hg e)) (.pure (takeHead_state _ _ _))
      · exact .pure rfl

theorem at_fastResendOne {w : World} (h0 : V.req) (h1 : w.s.sendWindow = []) (h2 : w.s.state ≠ .new) :
    At E V (fastResendOne E) w fun _ w' => w'.s = w.s ∧ w'.nNet = w.nNet := by
  unfold fastResendOne
  exact bind_getS (bind_now fun t => At.ignoreSend (.request (w := { w with nNow := w.nNow + 1 }) t h0 h1 h2) fun _ => ⟨rfl, rfl⟩)

theorem at_fastResendRequest {w : World} (h0 : V.req) (h1 : w.s.sendWindow = []) (h2 : w.s.state ≠ .new) :
    At E V (fastResendRequest E) w fun _ w' => w'.s = w.s ∧ w'.nNet = w.nNet := by
  unfold fastResendRequest
  refine At.bind (at_fastResendOne h0 h1 h2) fun _ w1 _ e1 => ?_
  refine At.bind (at_fastResendOne h0 (e1.1 ▸ h1) (e1.1 ▸ h2)) fun _ w2 _ e2 => ?_
  exact (at_fastResendOne h0 (e2.1 ▸ e1.1 ▸ h1) (e2.1 ▸ e1.1 ▸ h2)).mono fun _ _ _ e3 =>
    ⟨e3.1.trans (e2.1.trans e1.1), e3.2.trans (e2.2.trans e1.2)⟩

/-- Stamping the oldest packet and sending it: the packet counts as stamped once it was sent. -/
theorem At.touchSend {w : World} {p : Packet} {rest : List Packet} {t : U32} {dst : Addr} {Q : Unit → World → Prop} (hw : w.s.sendWindow = p :: rest)
    (ht : ∃ k, k < w.nNow ∧ t = E.now k) (hp : V (p.setTimestamp t)) (hd : dst = w.s.connectedTo)
    (hq : ∀ l n, Q () { w with nSnd := n, s := { w.s with sendWindow := p.setTimestamp t :: rest }, log := l }) :
    At E V (M.modS (fun s => { s with sendWindow := p.setTimestamp t :: rest }) >>= fun _ => M.udpSend E dst (p.setTimestamp t).bytes) w Q := by
  subst hd
  have key : ∀ ok, Steps E V w { w with nSnd := w.nSnd + 1, s := { w.s with sendWindow := p.setTimestamp t :: rest }, log := w.log ++ [.send w.s.connectedTo (p.setTimestamp t).bytes ok] } := by
    intro ok
    refine .tail (.single (.send w _ _ ok (.data _ hp))) (Step.touch (E := E) (V := V) { w with nSnd := w.nSnd + 1, log := w.log ++ [.send w.s.connectedTo (p.setTimestamp t).bytes ok] } p rest t hw ht ⟨w.s.connectedTo, ok, ?_⟩)
    exact List.mem_append_right _ (List.mem_singleton.mpr rfl)
  have e : (M.modS (fun s => { s with sendWindow := p.setTimestamp t :: rest }) >>= fun _ => M.udpSend E w.s.connectedTo (p.setTimestamp t).bytes) w =
      M.udpSend E w.s.connectedTo (p.setTimestamp t).bytes { w with s := { w.s with sendWindow := p.setTimestamp t :: rest } } := rfl
  unfold At
  rw [e]
  unfold M.udpSend
  simp only
  cases E.snd w.nSnd with
  | ok => exact ⟨fun _ => key true, fun h => by simp at h, fun _ _ => hq _ _⟩
  | fail k => exact ⟨fun _ => key false, fun h => by simp at h, by simp⟩
  | never => exact ⟨fun _ => key false, fun h => by simp at h, by simp⟩

theorem at_handleReceiveTimeout (hV : VOk V) {w : World} (hi : Inv V w) (hcw : CanWait V w) (hto : TimedOut E w 1) :
    At E V (handleReceiveTimeout E) w fun _ w' => w'.nNet = w.nNet ∧ w'.s.maxRetries = w.s.maxRetries ∧
      w'.s.state = w.s.state ∧ (w.s.sendWindow ≠ [] → w'.s.sendWindow ≠ []) := by
  unfold handleReceiveTimeout
  refine bind_getS (bind_overflow (fun h => .timeout (by simpa using h)) fun _ => bind_modS (.single (.timeout w hto)) ?_)
  split
  · rename_i hw
    split
    · rename_i hst
      refine bind_now fun t => ?_
      refine At.udpSend (p := finPacket w.s t) (w := { w.setS _ with nNow := _ }) ?_ ⟨rfl, rfl, rfl, fun h => h⟩
      exact .fin (w := { w.setS { w.s with congTimeout := _, cwnd := _ } with nNow := _ }) t (.inr hst) hw
        (by simp [World.setS, hst]) (by simp [World.setS, hst])
    · rename_i hnf
      split
      · rename_i hst
        have h0 : V.req := by
          rcases hcw with h | h | h
          · exact h
          · exact absurd hw h
          · exact absurd h hnf
        exact At.mono (at_fastResendRequest (w := w.setS _) h0 hw hst) fun _ _ _ e =>
          ⟨e.2, by rw [e.1]; rfl, by rw [e.1]; rfl, by rw [e.1]; exact fun h => h⟩
      · exact .pure ⟨rfl, rfl, rfl, fun h => h⟩
  · rename_i p rest hw
    refine bind_clock (At.touchSend hw ⟨w.nNow, Nat.lt_succ_self _, rfl⟩ (hV.ts _ _ (hi.win p (by simp [hw]))) rfl fun _ _ => ⟨rfl, rfl, rfl, fun _ => by simp [World.setS]⟩)

theorem at_recvWait (hV : VOk V) : ∀ fuel retries {w : World}, Inv V w → CanWait V w → TimedOut E w retries →
    retries ≤ w.s.maxRetries.toNat → At E V (recvWait E fuel retries) w fun r w' =>
      w'.s.state = w.s.state ∧ ∃ k b, k < w'.nNet ∧ E.net k = .dgram b r.2 ∧ r.1 = b.take 1520 := by
  intro fuel
  induction fuel with
  | zero => intro _ w _ _ _ _; exact .never
  | succ n ih =>
    intro retries w hi hcw hto hle
    unfold recvWait
    refine bind_getS ?_
    split
    · rename_i hge
      have : retries = w.s.maxRetries.toNat := by omega
      exact bind_modS (.single (.giveUp w (this ▸ hto))) .throw
    · rename_i hlt
      refine At.bind (At.udpRecv (Q := fun r w' => (w'.s = w.s ∧ w'.nNet = w.nNet + 1) ∧ (∀ b src, r = .ok (b, src) →
        ∃ k b0, k < w'.nNet ∧ E.net k = .dgram b0 src ∧ b = b0.take 1520) ∧ ∀ e, r = .error e → E.net w.nNet = .fail e) ?_) fun r w1 hs hq => ?_
      · intro r hr he
        refine ⟨⟨rfl, rfl⟩, fun b src e => ?_, he⟩
        obtain ⟨b0, h1, h2⟩ := hr b src e
        exact ⟨w.nNet, b0, by simp, h1, h2⟩
      · have hi1 := hi.steps hV hs
        split
        · rename_i x
          exact .pure ⟨by rw [hq.1.1], hq.2.1 x.1 x.2 rfl⟩
        · rename_i e
          split
          · rename_i hk
            have hk' : e = .timedOut ∨ e = .wouldBlock := by
              simp only [isTimeout, Bool.or_eq_true, decide_eq_true_eq] at hk
              exact hk.symm
            have hnet := hq.2.2 e rfl
            have hto1 : TimedOut E w1 (retries + 1) := by
              obtain ⟨k, h1, h2⟩ := hto
              refine ⟨k, by omega, fun j hj1 hj2 => ?_⟩
              by_cases hjn : j = w.nNet
              · exact ⟨e, by rw [hjn]; exact hnet, hk'⟩
              · exact h2 j hj1 (by omega)
            have hto2 : TimedOut E w1 1 := ⟨w.nNet, by omega, fun j hj1 hj2 => ⟨e, by
              rw [show j = w.nNet by omega]; exact hnet, hk'⟩⟩
            have hcw1 : CanWait V w1 := by unfold CanWait; rw [hq.1.1]; exact hcw
            refine At.bind (at_handleReceiveTimeout hV hi1 hcw1 hto2) fun _ w2 hs2 e2 =>
              (ih _ (hi1.steps hV hs2) ?_ ?_ ?_).mono fun _ _ _ h => ⟨h.1.trans (e2.2.2.1.trans (by rw [hq.1.1])), h.2⟩
            · rcases hcw1 with h | h | h
              · exact .inl h
              · exact .inr (.inl (e2.2.2.2 h))
              · exact .inr (.inr (e2.2.2.1.trans h))
            · obtain ⟨k, h1, h2⟩ := hto1
              exact ⟨k, by omega, fun j hj1 hj2 => h2 j hj1 (by omega)⟩
            · rw [e2.2.1, hq.1.1]; omega
          · exact .throw

/-- A socket waiting for the answer to its FIN keeps waiting or is closed. -/
def Closing (w w' : World) : Prop := w.s.state = .finSent → w'.s.state = .finSent ∨ w'.s.state = .closed

/-- What is known of the recursive `recv`. -/
def RecOk (E : Env) (V : Ctx) (rec : M (Bytes × Addr)) : Prop :=
  ∀ w, Inv V w → CanWait V w → At E V rec w fun _ w' => Closing w w'

theorem Inv.canWait {w : World} (hi : Inv V w) {m : U32} (hm : 0 < m.toNat) (h : m ≤ w.s.currWindow) : CanWait V w := by
  rcases hi.fly with hf | hf
  · exact .inl hf
  · refine .inr (.inl fun e => ?_)
    rw [hf, e, BitVec.le_def] at h
    simp [totalSize] at h
    omega

theorem sendLimit_pos (s : Socket) :
    0 < (if (if s.remoteWnd < s.cwnd then s.remoteWnd else s.cwnd) < MIN_WND then MIN_WND
    else if s.remoteWnd < s.cwnd then s.remoteWnd else s.cwnd).toNat := by
  have h0 : 0 < MIN_WND.toNat := by decide
  generalize (if s.remoteWnd < s.cwnd then s.remoteWnd else s.cwnd) = m
  split
  · exact h0
  · rename_i h
    rw [BitVec.lt_def] at h
    omega

theorem at_sendPacket' (hV : VOk V) {rec : M (Bytes × Addr)} (hr : RecOk E V rec) (fuel : Nat) {p : Packet}
    (hp : V p) {w : World} (hi : Inv V w) : At E V (sendPacket E fuel rec p) w fun p' w' =>
      V p' ∧ (p' = p ∨ ∃ t d, p' = (p.setTimestamp t).setTimestampDifference d) ∧ (20 ≤ p.bytes.length → p.timestamp = 0 → Stamped E w' p') ∧
        (p' = p ∨ ∃ dst ok, .send dst p'.bytes ok ∈ w'.log) := by
  unfold sendPacket
  refine bind_getS (bind_now fun start => ?_)
  have hpos := sendLimit_pos w.s
  generalize (if (if w.s.remoteWnd < w.s.cwnd then w.s.remoteWnd else w.s.cwnd) < MIN_WND then MIN_WND
    else if w.s.remoteWnd < w.s.cwnd then w.s.remoteWnd else w.s.cwnd) = maxInflight at hpos ⊢
  have hi0 : Inv V { w with nNow := w.nNow + 1 } := ⟨hi.win, hi.uns, hi.inc, hi.fly⟩
  refine At.bind (At.whileM (J := Inv V) (X := fun _ => True) (Y := CanWait V) ?_ ?_ fuel _ hi0) fun _ w1 hs1 hq => ?_
  · intro w2 h2
    refine bind_getS ?_
    split
    · rename_i hle
      exact bind_now fun t => .pure ⟨⟨h2.win, h2.uns, h2.inc, h2.fly⟩, fun _ => trivial, fun _ => h2.canWait hpos hle⟩
    · exact .pure ⟨h2, fun _ => trivial, by simp⟩
  · intro w2 h2 hc2
    exact At.andThen (hr w2 h2 hc2) fun _ w3 hs3 _ => .ret (h2.steps hV hs3)
  · refine bind_getS ?_
    split
    · exact .pure ⟨hp, .inl rfl, fun h1 h2 => ⟨h1, .inl h2⟩, .inl rfl⟩
    · refine bind_clock ?_
      have hp' := hV.td _ w1.s.theirDelay (hV.ts _ (E.now w1.nNow) hp)
      refine At.bind (At.udpSend (Q := fun _ w' => w'.nNow = w1.nNow + 1 ∧ ∃ dst ok, .send dst ((p.setTimestamp (E.now w1.nNow)).setTimestampDifference w1.s.theirDelay).bytes ok ∈ w'.log) (.data (w := { w1 with nNow := w1.nNow + 1 }) _ hp') ⟨rfl, _, _, List.mem_append_right _ (List.mem_singleton.mpr rfl)⟩) fun _ _ _ hq =>
        .pure ⟨hp', .inr ⟨_, _, rfl⟩, fun h1 _ => ⟨?_, .inr ⟨w1.nNow, by omega, ?_⟩⟩, .inr hq.2⟩
      · simpa [Packet.setTimestampDifference, Packet.setTimestamp, Packet.put32] using h1
      · rw [setTimestampDifference_timestamp]
        exact be32_put32 _ (by omega)

theorem at_sendPacket (hV : VOk V) {rec : M (Bytes × Addr)} (hr : RecOk E V rec) (fuel : Nat) {p : Packet}
    (hp : V p) {w : World} (hi : Inv V w) : At E V (sendPacket E fuel rec p) w fun p' _ =>
      V p' ∧ (p' = p ∨ ∃ t d, p' = (p.setTimestamp t).setTimestampDifference d) := by
  exact (at_sendPacket' hV hr fuel hp hi).mono fun _ _ _ h => ⟨h.1, h.2.1⟩

theorem at_resendLost (hV : VOk V) {rec : M (Bytes × Addr)} (hr : RecOk E V rec) (fuel : Nat) (nr : U16)
    {w : World} (hi : Inv V w) : At E V (resendLost E fuel rec nr) w fun _ _ => True := by
  unfold resendLost
  refine bind_getS ?_
  split
  · exact .pure trivial
  · rename_i p hf
    have hp := hi.win p (List.mem_of_find?_eq_some hf)
    exact At.ignoreErr ((at_sendPacket hV hr fuel hp hi).mono fun _ _ _ _ => trivial) fun _ _ => trivial

theorem at_resendMissing (hV : VOk V) {rec : M (Bytes × Addr)} (hr : RecOk E V rec) (fuel : Nat) {pkt : Packet} {src : Addr}
    (ht : pkt.getType = some .state) {exts : List Extension} (hx : pkt.extensions = some exts) {e : Extension} (he : e ∈ exts)
    (hsk : e.ty = .selectiveAck) (last : U16) : ∀ bits loss {w : World}, (∀ x ∈ bits, x.1 < 8 * e.data.length ∧ x.2 = Spec.bitAt e.data x.1) → Received E w pkt src → Inv V w → At E V (resendMissing E fuel rec pkt.ackNr last bits loss) w fun _ _ => True := by
  intro bits
  induction bits with
  | nil => intro loss w _ _ _; exact .pure trivial
  | cons x rest ih =>
    intro loss w hb hg hi
    obtain ⟨idx, received⟩ := x
    have hidx := hb (idx, received) (by simp)
    have hb' : ∀ x ∈ rest, x.1 < 8 * e.data.length ∧ x.2 = Spec.bitAt e.data x.1 := fun x hx => hb x (by simp [hx])
    unfold resendMissing
    split
    · exact ih loss hb' hg hi
    · rename_i hrc
      refine bind_overflow (fun h => .sack pkt src exts e idx hg ht hx he hsk hidx.1 (hidx.2 ▸ (by simpa using hrc)) ?_) fun _ => ?_
      · simp only [BitVec.toNat_ofNat, Bool.decide_or, Bool.or_eq_true, decide_eq_true_eq] at h
        have : idx % 2 ^ 16 ≤ idx := Nat.mod_le _ _
        omega
      simp only
      split
      · exact At.bind (at_resendLost hV hr fuel _ hi) fun _ w1 hs _ => ih true hb' (hg.mono hs.nNet) (hi.steps hV hs)
      · exact .pure trivial

theorem at_processExtensions (hV : VOk V) {rec : M (Bytes × Addr)} (hr : RecOk E V rec) (fuel : Nat) {pkt : Packet} {src : Addr}
    (ht : pkt.getType = some .state) {all : List Extension} (hx : pkt.extensions = some all) :
    ∀ exts loss {w : World}, (∀ e ∈ exts, e ∈ all) → Received E w pkt src → Inv V w →
      At E V (processExtensions E fuel rec pkt.ackNr exts loss) w fun _ _ => True := by
  intro exts
  induction exts with
  | nil => intro loss w _ _ _; exact .pure trivial
  | cons e rest ih =>
    intro loss w hm hg hi
    have hm' : ∀ e ∈ rest, e ∈ all := fun x h => hm x (by simp [h])
    unfold processExtensions
    split
    · rename_i hty
      refine At.bind (Q := fun _ _ => True) ?_ fun loss1 w1 hs1 _ => ?_
      · unfold resendFirst
        split
        · exact bind_overflow (fun h => .ack pkt src hg ht (by simpa using h)) fun _ =>
            At.bind (at_resendLost hV hr fuel _ hi) fun _ _ _ _ => .pure trivial
        · exact .pure trivial
      · have hi1 := hi.steps hV hs1
        refine bind_getS ?_
        split
        · exact ih _ hm' (hg.mono hs1.nNet) hi1
        · refine bind_orPanic (by simp [C05_items]) fun bits hbits => ?_
          have hb : ∀ x ∈ (List.range bits.length).zip bits, x.1 < 8 * e.data.length ∧ x.2 = Spec.bitAt e.data x.1 := by
            intro x hx
            rw [C05_items, Option.some.injEq] at hbits
            obtain ⟨i, hi, rfl⟩ := List.mem_iff_getElem.mp hx
            have hi' : i < 8 * e.data.length := by simp [← hbits] at hi; omega
            simp [← hbits, hi']
          exact At.bind (at_resendMissing hV hr fuel ht hx (hm e (by simp)) hty _ _ _ hb (hg.mono hs1.nNet) hi1)
            fun _ w2 hs2 _ => ih _ hm' (hg.mono (hs1.trans hs2).nNet) (hi1.steps hV hs2)
    · exact ih loss hm' hg hi

/-- A State packet acknowledging `last_acked` was received. -/
def AckSeen (E : Env) (w : World) : Prop :=
  ∃ pkt src, Received E w pkt src ∧ pkt.getType = some .state ∧ pkt.ackNr = w.s.lastAcked

theorem AckSeen.step {w w' : World} (h : Step E V w w') (ha : AckSeen E w) : AckSeen E w' := by
  have hn := step_nNet h
  obtain ⟨pkt, src, h1, h2, h3⟩ := ha
  have keep : w'.s.lastAcked = w.s.lastAcked → AckSeen E w' := fun e => ⟨pkt, src, h1.mono hn, h2, by rw [e]; exact h3⟩
  cases h with
  | arrive pkt src hg => apply keep; simp only [World.setS, Socket.bumpAck]; split <;> rfl
  | synAck p s t hg ht _ => exact ⟨p, s, hg, ht, rfl⟩
  | newAck p s t hg ht _ _ => exact ⟨p, s, hg, ht, rfl⟩
  | measure pkt src i p t s' _ _ _ _ _ _ hm =>
    obtain ⟨_, _, _, _, _, _, _, rfl⟩ := onNewAck_shape hm
    exact keep rfl
  | advance s' _ hm =>
    obtain ⟨n, c, rfl⟩ := advanceSendWindow_shape hm
    exact keep rfl
  | deliverPending len _ =>
    apply keep
    unfold Socket.takePending Socket.advanceIncoming
    simp only; split
    · split <;> rfl
    · rfl
  | deliverHead p rest pl len _ hinc _ _ =>
    apply keep
    unfold Socket.takeHead Socket.advanceIncoming
    split <;> simp [World.setS, hinc]
  | _ => exact keep rfl

theorem AckSeen.steps {w w' : World} (h : Steps E V w w') (ha : AckSeen E w) : AckSeen E w' :=
  h.inv (fun _ _ hs => AckSeen.step hs) ha

theorem subLens_release (hc : E.checks = false) (c : U32) (l : List Packet) : Socket.subLens E c l ≠ none := by
  induction l generalizing c with
  | nil => simp [Socket.subLens]
  | cons p r ih => simp [Socket.subLens, hc, ih]

theorem advanceSendWindow_release (hc : E.checks = false) (s : Socket) : s.advanceSendWindow E ≠ none := by
  unfold Socket.advanceSendWindow
  split
  · simp
  · split
    · rename_i h; exact absurd h (subLens_release hc _ _)
    · simp

theorem advanceSendWindow_none {s : Socket} (h : s.advanceSendWindow E = none) : E.checks = true := by
  cases hc : E.checks with
  | true => rfl
  | false => exact absurd h (advanceSendWindow_release hc s)

theorem updateBaseDelay_currWindow {s s' : Socket} {d : Int} {t : U32} (h : s.updateBaseDelay d t = some s') : s'.currWindow = s.currWindow := by
  unfold Socket.updateBaseDelay at h
  split at h
  · simp only [Option.some.injEq] at h
    rw [← h]
  · split at h
    · simp at h
    · split at h <;> simp only [Option.some.injEq] at h <;> rw [← h]

theorem updateBaseDelay_some (s : Socket) (d : Int) (t : U32) : ∃ s', s.updateBaseDelay d t = some s' := by
  unfold Socket.updateBaseDelay
  split
  · exact ⟨_, rfl⟩
  · rename_i h
    simp only [List.isEmpty_iff, not_or] at h
    split
    · rename_i hn; exact absurd (List.getLast?_eq_none_iff.mp hn) h.1
    · split <;> exact ⟨_, rfl⟩

theorem onNewAck_none {s : Socket} {i : Nat} {p : Packet} {t : U32} (h : s.onNewAck E i p t = none) :
    E.checks = true ∧ 2 ^ 32 ≤ s.currWindow.toNat + 1400 := by
  unfold Socket.onNewAck at h
  obtain ⟨s', hs'⟩ := updateBaseDelay_some s (tsSub t p.timestamp) t
  have hc := updateBaseDelay_currWindow hs'
  simp only [hs', Socket.updateCongestionWindow] at h
  split at h
  · rename_i hn
    split at hn
    · rename_i hcw
      refine ⟨hcw.1, ?_⟩
      have := hcw.2
      simp only [Socket.updateCurrentDelay, hc] at this
      exact this
    · simp at hn
  · simp at h

theorem onNewAck_release (hc : E.checks = false) (s : Socket) (i : Nat) (p : Packet) (t : U32) : s.onNewAck E i p t ≠ none := by
  intro h
  have := (onNewAck_none h).1
  simp [hc] at this

theorem at_countAck {pkt : Packet} {src : Addr} {w : World} (hg : Received E w pkt src)
    (ht : pkt.getType = some .state) (hst : w.s.state = .connected) :
    At E V (countAck E pkt) w fun _ w' => w'.s.lastAcked = pkt.ackNr ∧ w'.s.state = .connected := by
  unfold countAck
  refine bind_getS ?_
  split
  · rename_i he
    exact bind_overflow (fun h => .dupAcks (by simpa using h)) fun _ => At.modS (.single (.dupAck w pkt src hg ht hst he)) ⟨he.symm, hst⟩
  · rename_i he
    exact bind_now fun t => At.modS (.single (.newAck _ pkt src t hg ht hst he)) ⟨rfl, hst⟩

theorem at_measureAck {pkt : Packet} {src : Addr} {w : World} (hg : Received E w pkt src)
    (ht : pkt.getType = some .state) (hst : w.s.state = .connected) (hl : w.s.lastAcked = pkt.ackNr) :
    At E V (measureAck E pkt) w fun _ _ => True := by
  unfold measureAck
  refine bind_getS ?_
  split
  · exact .pure trivial
  · rename_i i hf
    refine bind_clock ?_
    refine bind_orPanic ?_ fun p hp => ?_
    · intro hn
      exfalso
      have := (List.findIdx?_eq_some_iff_getElem.mp hf).1
      rw [List.getElem?_eq_none_iff] at hn; omega
    · refine bind_orPanic (fun h => (onNewAck_none h).imp id .window) fun s' hs' => ?_
      exact At.modS (.single (.measure { w with nNow := w.nNow + 1 } pkt src i p _ s' hg ht hst hl.symm hf hp hs' ⟨Nat.succ_pos _, rfl⟩)) trivial

theorem at_fastRetransmit (hV : VOk V) {rec : M (Bytes × Addr)} (hr : RecOk E V rec) (fuel : Nat) {pkt : Packet} {src : Addr}
    (exts : List Extension) {w : World} (hi : Inv V w) (hg : Received E w pkt src) (ht : pkt.getType = some .state) :
    At E V (fastRetransmit E fuel rec pkt exts) w fun _ _ => True := by
  unfold fastRetransmit
  refine bind_getS ?_
  split
  · exact bind_overflow (fun h => .ack pkt src hg ht (by simpa using h)) fun _ => at_resendLost hV hr fuel _ hi
  · exact .pure trivial

theorem at_handleState (hV : VOk V) {rec : M (Bytes × Addr)} (hr : RecOk E V rec) (fuel : Nat) {pkt : Packet}
    {src : Addr} {w : World} (hi : Inv V w) (hg : Received E w pkt src) (ht : pkt.getType = some .state)
    (hst : w.s.state = .connected) : At E V (handleState E fuel rec pkt) w fun _ _ => True := by
  unfold handleState
  refine At.bind (at_countAck hg ht hst) fun _ w1 hs1 hq => ?_
  have hi1 := hi.steps hV hs1
  have hg1 := hg.mono hs1.nNet
  have ha1 : AckSeen E w1 := ⟨pkt, src, hg1, ht, hq.1.symm⟩
  refine At.bind (at_measureAck hg1 ht hq.2 hq.1) fun _ w2 hs2 _ => ?_
  have hi2 := hi1.steps hV hs2
  have ha2 := ha1.steps hs2
  refine bind_getS ?_
  obtain ⟨l, hl⟩ := hg.exts
  refine bind_orPanic (by simp [hl]) fun exts hexts => ?_
  have hg2 := hg1.mono hs2.nNet
  refine At.bind (at_processExtensions hV hr fuel ht hexts _ _ (fun _ h => h) hg2 hi2) fun loss w3 hs3 _ => ?_
  have hi3 := hi2.steps hV hs3
  have ha3 := ha2.steps hs3
  refine At.bind (at_fastRetransmit hV hr fuel _ hi3 (hg2.mono hs3.nNet) ht) fun _ w4 hs4 _ => ?_
  have hi4 := hi3.steps hV hs4
  have ha4 := ha3.steps hs4
  have hs5 : Steps E V w4 (w4.setS (if loss then w4.s.halveWindow else w4.s)) := by
    cases loss
    · exact .refl _
    · exact .single (.halve w4 pkt src (hg1.mono ((hs2.trans (hs3.trans hs4)).nNet)) ht)
  refine bind_modS hs5 (bind_getS (bind_orPanic (fun h => ⟨advanceSendWindow_none h, .advance h⟩) fun s' hs' => ?_))
  exact At.modS (.single (.advance _ s' (ha4.steps hs5) hs')) trivial

theorem at_withSack {s : Socket} {pkt : Packet} {t : U32} {ty : PacketType} {w : World}
    (hs : w.s = s) (hty : ty = .state ∨ (ty = .fin ∧ s.state = .finSent)) :
    At E V (withSack E s pkt (s.prepareReply t pkt ty)) w fun r w' => IsReply E s pkt r ∧ w' = w := by
  have hplain : IsReply E s pkt (s.prepareReply t pkt ty) :=
    ⟨t, ty, by rcases hty with h | h <;> simp [h], .inl rfl⟩
  unfold withSack
  split
  · refine bind_orPanic (fun h => (buildSack_none h).imp id fun h => .buffered (hs ▸ h.2) (hs ▸ h.1)) fun sack hsack => ?_
    split
    · rename_i hne
      have hset := setSack_plain (prepareReply_bytes s t pkt ty).1 (prepareReply_bytes s t pkt ty).2
        (buildSack_len hsack) hne
      refine At.orPanic (by simp [hset]) fun r hr => ⟨?_, rfl⟩
      exact ⟨t, ty, by rcases hty with h | h <;> simp [h], .inr ⟨sack, hsack, hne, by rcases hty with h | h <;> simp [h], hr⟩⟩
    · exact .pure ⟨hplain, rfl⟩
  · exact .pure ⟨hplain, rfl⟩

/-- The reply, if any, is a reply made from the current state to a packet that is answered; `w0` is the world before. -/
def ReplyOk (E : Env) (pkt : Packet) (w0 : World) (r : Option Packet) (w : World) : Prop :=
  (∀ reply, r = some reply → IsReply E w.s pkt reply ∧ Answerable w.s pkt) ∧ Closing w0 w

theorem at_replyWith {pkt : Packet} {ty : PacketType} (hty : ty = .state ∨ ty = .reset) {w : World}
    (ha : Answerable w.s pkt) : At E V (replyWith E pkt ty) w (ReplyOk E pkt w) := by
  unfold replyWith
  refine bind_getS (bind_now fun t => .pure ⟨?_, .inl⟩)
  rintro r ⟨⟩
  exact ⟨⟨t, ty, by rcases hty with h | h <;> simp [h], .inl rfl⟩, ha⟩

theorem at_handleData {pkt : Packet} {w : World} :
    At E V (handleData E pkt) w fun r w' => IsReply E w'.s pkt r ∧ w'.s = w.s := by
  unfold handleData
  refine bind_getS (bind_now fun t => ?_)
  refine (at_withSack (w := { w with nNow := w.nNow + 1 }) rfl ?_).mono fun r w' _ h => ?_
  · split
    · rename_i h; exact .inr ⟨rfl, h⟩
    · exact .inl rfl
  · rw [h.2]; exact ⟨h.1, rfl⟩

theorem at_onFin {pkt : Packet} {src : Addr} {w : World} (hg : Received E w pkt src) (ht : pkt.getType = some .fin)
    (hst : w.s.state = .connected ∨ w.s.state = .finSent) : At E V (onFin E pkt) w (ReplyOk E pkt w) := by
  unfold onFin
  refine bind_getS (bind_now fun t => ?_)
  refine At.bind (Q := fun r w' => (∃ t, r = w.s.prepareReply t pkt .state ∨
      ∃ sack, w.s.buildSack E = some sack ∧ sack ≠ [] ∧ (w.s.prepareReply t pkt .state).setSack sack = some r) ∧
      w' = { w with nNow := w.nNow + 1 }) ?_ fun r w1 _ hq => ?_
  · unfold withSack
    split
    · refine bind_orPanic (fun h => (buildSack_none h).imp id fun h => .buffered h.2 h.1) fun sack hsack => ?_
      split
      · rename_i hne
        have hset := setSack_plain (prepareReply_bytes w.s t pkt .state).1 (prepareReply_bytes w.s t pkt .state).2
          (buildSack_len hsack) hne
        exact At.orPanic (by simp [hset]) fun r hr => ⟨⟨t, .inr ⟨sack, hsack, hne, hr⟩⟩, rfl⟩
      · exact .pure ⟨⟨t, .inl rfl⟩, rfl⟩
    · exact .pure ⟨⟨t, .inl rfl⟩, rfl⟩
  · obtain ⟨⟨t, hq⟩, rfl⟩ := hq
    refine bind_modS (.single (.finClose _ pkt src hg ht hst)) (.pure ⟨?_, fun _ => .inr rfl⟩)
    rintro r' ⟨⟩
    refine ⟨⟨t, .state, by simp, ?_⟩, .inl (by simp [ht])⟩
    rcases hq with h | ⟨sack, h1, h2, h3⟩
    · exact .inl h
    · exact .inr ⟨sack, h1, h2, by simp, h3⟩

theorem at_onSyn {pkt : Packet} {src : Addr} {w : World} (hg : Received E w pkt src) (ht : pkt.getType = some .syn)
    (hst : w.s.state = .new) : At E V (onSyn E pkt src) w (ReplyOk E pkt w) := by
  unfold onSyn
  refine bind_rand fun r => bind_overflow (fun h => .syn pkt src hg ht (by simpa using h) hst) fun _ => ?_
  refine bind_modS (.single (.syn _ pkt src r hg ht hst)) (bind_getS (bind_now fun t => .pure ⟨?_, by simp [Closing, hst]⟩))
  rintro r' ⟨⟩
  exact ⟨⟨t, .state, by simp, .inl rfl⟩, .inl (by simp [ht])⟩

theorem at_onSynAck {pkt : Packet} {src : Addr} {w : World} (hg : Received E w pkt src) (ht : pkt.getType = some .state)
    (hst : w.s.state = .synSent) : At E V (onSynAck E pkt src) w (ReplyOk E pkt w) := by
  unfold onSynAck
  refine bind_getS (bind_overflow (fun h => .synAck (by simpa using h) hst) fun _ => bind_now fun t => ?_)
  exact bind_modS (.single (.synAck _ pkt src t hg ht hst)) (.pure ⟨by rintro _ ⟨⟩, by simp [Closing, hst]⟩)

theorem at_onReset {pkt : Packet} {src : Addr} {w : World} (hg : Received E w pkt src) (ht : pkt.getType = some .reset)
    (hst : w.s.state ≠ .synSent) : At E V onReset w (ReplyOk E pkt w) :=
  bind_modS (.single (.reset _ pkt src hg ht hst)) .throw

theorem at_onFinAck {pkt : Packet} {src : Addr} {w : World} (hg : Received E w pkt src) (ht : pkt.getType = some .state)
    (hst : w.s.state = .finSent) : At E V (onFinAck pkt) w (ReplyOk E pkt w) := by
  unfold onFinAck
  refine bind_modS ?_ (.pure ⟨by rintro _ ⟨⟩, fun h => ?_⟩)
  rotate_left
  · simp only [World.setS]
    split
    · exact .inr rfl
    · exact .inl h
  split
  · rename_i he; exact .single (.finAck _ pkt src hg ht hst he)
  · exact .refl _

theorem at_dispatch (hV : VOk V) {rec : M (Bytes × Addr)} (hr : RecOk E V rec) (fuel : Nat) {pkt : Packet}
    {src : Addr} {st : SocketState} {ty : PacketType} {w : World} (hi : Inv V w) (hg : Received E w pkt src)
    (ht : pkt.getType = some ty) (hst : w.s.state = st) :
    At E V (dispatch E fuel rec pkt src st ty) w (ReplyOk E pkt w) := by
  have hdata : ty = .data → At E V (do let reply ← handleData E pkt; return some reply) w (ReplyOk E pkt w) := fun hd =>
    At.bind at_handleData fun r w1 _ hq => .pure ⟨by
      rintro r' ⟨⟩
      exact ⟨hq.1, .inl (by rw [ht]; simp [hd])⟩, by unfold Closing; rw [hq.2]; exact .inl⟩
  cases ty with
  | syn =>
    have ha : Answerable w.s pkt := .inl (by simp [ht])
    cases st with
    | new => exact at_onSyn hg ht hst
    | _ => exact at_replyWith (.inr rfl) ha
  | data =>
    cases st with
    | connected => exact hdata rfl
    | finSent => exact hdata rfl
    | _ => exact .throw
  | state =>
    cases st with
    | synSent => exact at_onSynAck hg ht hst
    | connected => exact At.bind (at_handleState hV hr fuel hi hg ht hst) fun _ _ _ _ => At.pure (by
        exact ⟨by rintro r' ⟨⟩, by simp [Closing, hst]⟩)
    | finSent => exact at_onFinAck hg ht hst
    | _ => exact .throw
  | fin =>
    cases st with
    | connected => exact at_onFin hg ht (.inl hst)
    | finSent => exact at_onFin hg ht (.inr hst)
    | closed => exact at_replyWith (.inl rfl) (.inl (by simp [ht]))
    | _ => exact .throw
  | reset =>
    cases st with
    | synSent => exact .throw
    | _ => exact at_onReset hg ht (by simp [hst])

theorem at_handlePacket (hV : VOk V) {rec : M (Bytes × Addr)} (hr : RecOk E V rec) (fuel : Nat) {pkt : Packet}
    {src : Addr} {w : World} (hi : Inv V w) (hg : Received E w pkt src) :
    At E V (handlePacket E fuel rec pkt src) w (ReplyOk E pkt w) := by
  unfold handlePacket
  have hs1 : Steps E V w (w.setS (w.s.bumpAck pkt)) := .single (.arrive w pkt src hg)
  refine bind_modS hs1 (bind_getS ?_)
  have hi1 := hi.steps hV hs1
  obtain ⟨ty, hty⟩ := hg.type
  refine bind_orPanic (by simp [hty]) fun ty' hty' => ?_
  have hst : (w.s.bumpAck pkt).state = w.s.state ∧ (w.s.bumpAck pkt).senderId = w.s.senderId ∧
      (w.s.bumpAck pkt).receiverId = w.s.receiverId := by unfold Socket.bumpAck; split <;> simp
  split
  · rename_i hc
    refine (at_replyWith (w := w.setS (w.s.bumpAck pkt)) (.inr rfl) (.inr hc.2.2)).mono fun r w' _ h => ⟨h.1, fun e => h.2 ?_⟩
    simpa [World.setS, hst.1] using e
  · refine bind_now fun t => ?_
    have hs2 := Step.remote (V := V) { w.setS (w.s.bumpAck pkt) with nNow := w.nNow + 1 } pkt src t hg
    refine bind_modS (.single hs2) ?_
    refine (at_dispatch hV hr fuel (Inv.step hV hs2 (Inv.step hV (.tick (E := E) _) hi1)) hg hty' rfl).mono
      fun r w' _ h => ⟨h.1, fun e => h.2 ?_⟩
    simpa [World.setS, hst.1] using e

theorem at_recvPacket (hV : VOk V) {rec : M (Bytes × Addr)} (hr : RecOk E V rec) (fuel len : Nat) {pkt : Packet}
    {src : Addr} {w : World} (hi : Inv V w) (hg : Received E w pkt src) :
    At E V (recvPacket E fuel rec len pkt src) w fun _ w' => Closing w w' := by
  unfold recvPacket
  refine At.bind (at_handlePacket hV hr fuel hi hg) fun reply w1 hs1 hq => ?_
  have hi1 := hi.steps hV hs1
  have hg1 := hg.mono hs1.nNet
  refine At.bind (Q := fun _ w2 => w2.s = w1.s) ?_ fun _ w2 hs2 e2 => ?_
  · unfold sendReply
    split
    · rename_i r
      exact At.udpSend (.reply src pkt r hg1 (hq.1 r rfl).1 (hq.1 r rfl).2) rfl
    · exact .pure rfl
  · have hi2 := hi1.steps hV hs2
    have hg2 := hg1.mono hs2.nNet
    obtain ⟨ty, hty⟩ := hg.type
    refine bind_orPanic (by simp [hty]) fun ty' hty' => ?_
    have hs3 : Steps E V w2 (w2.setS (if ty' = .data ∧ 0 < (pkt.seqNr - w2.s.lastDropped).toNat then
        w2.s.insertIntoBuffer pkt else w2.s)) := by
      split
      · rename_i hc
        refine .single (.insert _ pkt src hg2 (hc.1 ▸ hty') ?_)
        intro e
        rw [e] at hc
        simp at hc
      · exact .refl _
    refine bind_modS hs3 (At.bind (at_flushIncoming len (hi2.steps hV hs3).inc) fun _ w4 _ e4 => .pure fun hf => ?_)
    have := hq.2 hf
    rw [← e2] at this
    rw [e4]
    simp only [World.setS]
    split
    · exact this
    · exact this

theorem tryFrom_some (b : Bytes) : Packet.tryFrom b ≠ none := by
  rcases C01_decides b with ⟨p, h⟩ | ⟨e, h⟩ <;> simp [h]

theorem at_recvBody (hV : VOk V) {rec : M (Bytes × Addr)} (hr : RecOk E V rec) (fuel len : Nat) {w : World}
    (hi : Inv V w) (hcw : CanWait V w) : At E V (recvBody E fuel rec len) w fun _ w' => Closing w w' := by
  unfold recvBody
  refine At.bind (at_recvWait hV fuel 0 hi hcw ⟨w.nNet, rfl, fun j _ _ => by omega⟩ (Nat.zero_le _)) fun r w1 hs1 hq => ?_
  obtain ⟨b, src⟩ := r
  obtain ⟨hst, k, b0, hk, hn, hb⟩ := hq
  simp only at hn hb ⊢
  refine bind_orPanic (fun h => absurd h (tryFrom_some _)) fun x hx => ?_
  split
  · exact bind_getS (.pure fun h => .inl (hst.trans h))
  · rename_i pkt
    exact (at_recvPacket hV hr fuel len (hi.steps hV hs1) ⟨k, b0, 1520, hk, .inl rfl, hn, by rw [← hb]; exact hx⟩).mono
      fun _ _ _ h e => h (hst.trans e)

theorem recv_ok (hV : VOk V) : ∀ fuel len, RecOk E V (recv E fuel len) := by
  intro fuel
  induction fuel with
  | zero => intro len w _ _; exact .never
  | succ n ih => intro len w hi hcw; exact at_recvBody hV (ih BUF_SIZE) n len hi hcw

theorem at_recvFromLoop (hV : VOk V) (hq : V.req) (fuel len : Nat) : ∀ n {w : World}, Inv V w →
    At E V (recvFromLoop E fuel len n) w fun _ _ => True := by
  intro n
  induction n with
  | zero => intro w _; exact .never
  | succ n ih =>
    intro w hi
    unfold recvFromLoop
    refine bind_getS ?_
    split
    · exact .pure trivial
    · refine At.bind (recv_ok hV fuel len w hi (.inl hq)) fun r w1 hs1 _ => ?_
      obtain ⟨out, src⟩ := r
      simp only
      split
      · exact ih (hi.steps hV hs1)
      · exact .pure trivial

theorem at_recvFrom (hV : VOk V) (hq : V.req) (fuel len : Nat) {w : World} (hi : Inv V w) :
    At E V (recvFrom E fuel len) w fun _ _ => True := by
  unfold recvFrom
  refine At.bind (at_flushIncoming len hi.inc) fun out w1 hs1 _ => bind_getS ?_
  split
  · exact .pure trivial
  · split
    · exact .throw
    · exact at_recvFromLoop hV hq fuel len fuel (hi.steps hV hs1)

theorem at_sendQueue (hV : VOk V) (hu : V.que) (fuel : Nat) : ∀ n {w : World}, Inv V w →
    At E V (sendQueue E fuel n) w fun _ _ => True := by
  intro n
  induction n with
  | zero => intro w _; exact .never
  | succ n ih =>
    intro w hi
    unfold sendQueue
    refine bind_getS ?_
    split
    · exact .pure trivial
    · rename_i p rest hun
      have hs1 : Steps E V w (w.setS { w.s with unsent := rest }) := .single (.pop w p rest hu hun)
      refine bind_modS hs1 ?_
      have hi1 := hi.steps hV hs1
      refine At.bind (at_sendPacket' hV (recv_ok hV fuel BUF_SIZE) fuel (hi.uns p (by simp [hun])).1 hi1)
        fun p' w2 hs2 hp' => ?_
      have hi2 := hi1.steps hV hs2
      refine bind_getS (bind_overflow (fun h => .push p' hp'.1 (by simpa using h)) fun ho => ?_)
      have hs3 := Step.push (E := E) w2 p' hu hp'.1 (hp'.2.2.1 (hi.uns p (by simp [hun])).2.2 (hi.uns p (by simp [hun])).2.1)
        (hp'.2.2.2.imp (fun h => by rw [h]; exact (hi.uns p (by simp [hun])).2.1) id) (fun hc => by simpa using ho hc)
      exact bind_modS (.single hs3) (ih (Inv.step hV hs3 hi2))

theorem steps_enqueue (hu : V.enq) (l : List Bytes) : ∀ {w : World}, w.s.state ≠ .closed →
    (∀ c ∈ l, 0 < c.length ∧ c.length ≤ CHUNK) →
    (∀ p ∈ (l.foldl enqueue w.s).unsent, V p) → Steps E V w (w.setS (l.foldl enqueue w.s)) := by
  induction l with
  | nil => intro w _ _ _; exact .refl _
  | cons c r ih =>
    intro w hst hl hv
    have hmem : ∀ (l : List Bytes) (s : Socket), ∀ p ∈ s.unsent, p ∈ (l.foldl enqueue s).unsent := by
      intro l
      induction l with
      | nil => intro s p hp; exact hp
      | cons d r ih => intro s p hp; exact ih _ p (by simp [enqueue, hp])
    have hv0 : V (dataPacket w.s c) := hv _ (hmem r _ _ (by simp [enqueue, dataPacket]))
    have hs : Step E V w (w.setS (enqueue w.s c)) :=
      .enqueue w c hu hst (hl c (by simp)).1 (hl c (by simp)).2 hv0
    exact Steps.trans (.single hs)
      (ih (w := w.setS (enqueue w.s c)) hst (fun d hd => hl d (by simp [hd])) hv)

theorem chunks_bounds : ∀ n buf, ∀ c ∈ chunks n buf, 0 < c.length ∧ c.length ≤ CHUNK := by
  intro n
  induction n with
  | zero => intro buf c hc; simp [chunks] at hc
  | succ n ih =>
    intro buf c hc
    unfold chunks at hc
    split at hc
    · simp at hc
    · rename_i hne
      have := List.length_pos_iff.mpr hne
      simp only [List.mem_cons] at hc
      rcases hc with rfl | hc
      · simp [CHUNK]; omega
      · exact ih _ c hc

theorem at_sendTo (hV : VOk V) (he : V.enq) (hu : V.que) (fuel : Nat) (buf : Bytes) {w : World} (hi : Inv V w)
    (hv : ∀ p ∈ ((chunks buf.length buf).foldl enqueue w.s).unsent, V p) :
    At E V (sendTo E fuel buf) w fun _ _ => True := by
  unfold sendTo
  refine bind_getS ?_
  split
  · exact .throw
  · rename_i hst
    have hs := steps_enqueue (E := E) (V := V) he (chunks buf.length buf) hst (chunks_bounds _ _) hv
    exact bind_modS hs (At.bind (at_sendQueue hV hu fuel fuel (hi.steps hV hs)) fun _ _ _ _ => .pure trivial)

theorem at_scratchRecv (hV : VOk V) (fuel : Nat) {w : World} (hi : Inv V w) (hcw : CanWait V w) :
    At E V (scratchRecv E fuel) w fun _ w' => Closing w w' :=
  At.bind (recv_ok hV fuel BUF_SIZE w hi hcw) fun _ _ _ h => .pure h

theorem at_flush (hV : VOk V) (fuel : Nat) {w : World} (hi : Inv V w) :
    At E V (flush E fuel) w fun _ w' => w'.s.sendWindow = [] := by
  unfold flush
  refine (At.whileM (J := Inv V) (X := fun w' => w'.s.sendWindow = []) (Y := fun w' => w'.s.sendWindow ≠ []) ?_ ?_ fuel w hi).mono fun _ _ _ h => h.2
  · intro w1 h1
    exact bind_getS (.pure ⟨h1, by simp, by simp⟩)
  · intro w1 h1 hne
    exact (at_scratchRecv hV fuel h1 (.inr (.inl hne))).mono fun _ _ hs _ => h1.steps hV hs

theorem at_close (hV : VOk V) (hu : V.ctl) (fuel : Nat) {w : World} (hi : Inv V w) :
    At E V (close E fuel) w fun _ _ => True := by
  unfold close
  refine bind_getS ?_
  split
  · exact .pure trivial
  · rename_i hst
    simp only [not_or] at hst
    have he : Established w := hst.2
    refine At.bind (at_flush hV fuel hi) fun _ w1 hs1 hw => bind_getS (bind_now fun t => ?_)
    have hi1 := hi.steps hV hs1
    have he1 := he.steps hs1
    refine At.bind (At.udpSend (Q := fun _ w' => w'.s = w1.s)
      (.fin (w := { w1 with nNow := w1.nNow + 1 }) t (.inl hu) hw he1.1 he1.2) rfl) fun _ w2 hs2 hq => ?_
    have hi2 := hi1.steps hV (Steps.trans (.single (.tick _)) hs2)
    have hs3 := Step.finSent (E := E) (V := V) w2 hu (hq ▸ hw) (hq ▸ he1.1) (hq ▸ he1.2)
    refine bind_modS (.single hs3) ?_
    refine (At.whileM (J := fun w => Inv V w ∧ (w.s.state = .finSent ∨ w.s.state = .closed)) (X := fun _ => True)
      (Y := fun w => w.s.state ≠ .closed) ?_ ?_ fuel _ ⟨Inv.step hV hs3 hi2, .inl rfl⟩).mono fun _ _ _ _ => trivial
    · intro w3 h3
      exact bind_getS (.pure ⟨h3, by simp, by simp⟩)
    · intro w3 h3 hne
      have hf := h3.2.resolve_right hne
      exact (at_scratchRecv hV fuel h3.1 (.inr (.inr hf))).mono fun _ _ hs h => ⟨h3.1.steps hV hs, h hf⟩

/-- Every operation is a sequence of steps, and does not panic without overflow checks. -/
theorem at_runOp (hV : VOk V) (fuel : Nat) (op : Op) (hs : ∀ buf, op = .sendTo buf → V.enq ∧ V.que)
    (hc : (op = .close ∨ ∃ n, op = .setMaxRetries n) → V.ctl) (hrq : (∃ len, op = .recvFrom len) → V.req) {w : World} (hi : Inv V w)
    (hv : ∀ buf, op = .sendTo buf → ∀ p ∈ ((chunks buf.length buf).foldl enqueue w.s).unsent, V p) :
    At E V (runOp E fuel op) w fun _ _ => True := by
  cases op with
  | recvFrom len => exact At.bind (at_recvFrom hV (hrq ⟨len, rfl⟩) fuel len hi) fun _ _ _ _ => .pure trivial
  | sendTo buf => exact At.bind (at_sendTo hV (hs buf rfl).1 (hs buf rfl).2 fuel buf hi (hv buf rfl)) fun _ _ _ _ => .pure trivial
  | flush => exact At.bind (at_flush hV fuel hi) fun _ _ _ _ => .pure trivial
  | close => exact At.bind (at_close hV (hc (.inl rfl)) fuel hi) fun _ _ _ _ => .pure trivial
  | setMaxRetries n => exact bind_modS (.single (.setRetries w n (hc (.inr ⟨n, rfl⟩)))) (.pure trivial)

end Utp
