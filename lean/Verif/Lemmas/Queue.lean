import Verif.Lemmas.Log
import Verif.Spec.Stream
/-!
# Queueing and framing
-/

namespace Utp
open M

variable {E : Env} {V : Ctx}

/-! ### Framing -/

theorem chunks_framing : ∀ n (buf : Bytes), buf.length ≤ n → Framing buf (chunks n buf) := by
  intro n
  induction n with
  | zero =>
    intro buf h
    have : buf = [] := List.eq_nil_of_length_eq_zero (by omega)
    subst this
    exact ⟨rfl, by simp [chunks], by simp [chunks], by simp [chunks]⟩
  | succ n ih =>
    intro buf h
    unfold chunks
    split
    · rename_i h0; subst h0; exact ⟨rfl, by simp, by simp, by simp⟩
    · rename_i hne
      have hpos := List.length_pos_iff.mpr hne
      have hr := ih (buf.drop CHUNK) (by simp [CHUNK]; omega)
      refine ⟨?_, ?_, ?_, ?_⟩
      · simp [hr.whole]
      · intro c hc
        simp only [List.mem_cons] at hc
        rcases hc with rfl | hc
        · intro e
          have := congrArg List.length e
          rw [List.length_take] at this
          simp only [CHUNK, List.length_nil] at this; omega
        · exact hr.nonempty c hc
      · intro c hc
        simp only [List.mem_cons] at hc
        rcases hc with rfl | hc
        · simp [CHUNK]; omega
        · exact hr.bound c hc
      · intro c hc
        cases hrest : chunks n (buf.drop CHUNK) with
        | nil => rw [hrest] at hc; simp at hc
        | cons d r =>
          have hw := hr.whole
          rw [hrest] at hc hw
          simp only [List.dropLast_cons_cons, List.mem_cons] at hc
          rcases hc with rfl | hc
          · have hd := hr.nonempty d (by rw [hrest]; simp)
            have hd' := List.length_pos_iff.mpr hd
            have : 0 < (buf.drop CHUNK).length := by rw [← hw]; simp; omega
            simp [CHUNK] at this ⊢; omega
          · exact hr.full c (by rw [hrest]; exact hc)

/-- There is only one framing. -/
theorem Framing.unique : ∀ (cs cs' : List Bytes) (buf : Bytes), Framing buf cs → Framing buf cs' → cs = cs' := by
  have pos : ∀ {buf c r}, Framing buf (c :: r) → 0 < c.length := fun h =>
    List.length_pos_iff.mpr (h.nonempty _ (by simp))
  have nilcase : ∀ (cs : List Bytes), Framing [] cs → cs = [] := by
    intro cs h
    cases cs with
    | nil => rfl
    | cons c r =>
      have := pos h
      have hw := congrArg List.length h.whole
      simp only [List.flatten_cons, List.length_append, List.length_nil] at hw; omega
  have tail : ∀ {buf c r}, Framing buf (c :: r) → Framing (buf.drop c.length) r ∧ c = buf.take c.length ∧
      (r ≠ [] → c.length = 1380) ∧ c.length ≤ 1380 ∧ buf.length = c.length + r.flatten.length := by
    intro buf c r h
    have hw := h.whole
    simp only [List.flatten_cons] at hw
    refine ⟨⟨?_, fun d hd => h.nonempty d (by simp [hd]), fun d hd => h.bound d (by simp [hd]), ?_⟩, ?_, ?_, h.bound c (by simp), ?_⟩
    · rw [← hw]; simp
    · intro d hd
      refine h.full d ?_
      cases r with
      | nil => simp at hd
      | cons e r => simp only [List.dropLast_cons_cons, List.mem_cons]; exact .inr hd
    · rw [← hw]; simp
    · intro hr
      refine h.full c ?_
      cases r with
      | nil => exact absurd rfl hr
      | cons e r => simp
    · rw [← hw]; simp
  intro cs
  induction cs with
  | nil =>
    intro cs' buf h h'
    have : buf = [] := by have := h.whole; simpa using this.symm
    subst this
    exact (nilcase _ h').symm
  | cons c r ih =>
    intro cs' buf h h'
    cases cs' with
    | nil =>
      have : buf = [] := by have := h'.whole; simpa using this.symm
      subst this
      exact nilcase _ h
    | cons c' r' =>
      obtain ⟨t1, t2, t3, t4, t5⟩ := tail h
      obtain ⟨u1, u2, u3, u4, u5⟩ := tail h'
      have hl : c.length = c'.length := by
        by_cases hr : r = []
        · by_cases hr' : r' = []
          · subst hr hr'; simp at t5 u5; omega
          · have := u3 hr'; subst hr; simp at t5
            have : 0 < r'.flatten.length := by
              cases r' with
              | nil => exact absurd rfl hr'
              | cons e s => have := pos u1; simp; omega
            omega
        · have hc := t3 hr
          by_cases hr' : r' = []
          · subst hr'; simp at u5
            have : 0 < r.flatten.length := by
              cases r with
              | nil => exact absurd rfl hr
              | cons e s => have := pos t1; simp; omega
            omega
          · rw [hc, u3 hr']
      have hcc : c = c' := by rw [t2, u2, hl]
      subst hcc
      rw [ih r' _ t1 u1]

/-! ### The queue -/

/-- The packets `send_to` makes of the pieces `l`. -/
def framed (s : Socket) : List Bytes → List Packet
  | [] => []
  | c :: r => dataPacket s c :: framed { s with seqNr := s.seqNr + 1 } r

theorem framed_fresh : ∀ (l : List Bytes) (s : Socket), ∀ p ∈ framed s l, p.timestamp = 0 ∧ 20 ≤ p.bytes.length
  | [], _, _, h => by simp [framed] at h
  | c :: r, s, p, h => by
    rcases List.mem_cons.mp h with rfl | h
    · exact dataPacket_fresh s c
    · exact framed_fresh r _ p h

theorem framed_congr {s s' : Socket} (h1 : s.seqNr = s'.seqNr) (h2 : s.ackNr = s'.ackNr) (h3 : s.senderId = s'.senderId) :
    ∀ l, framed s l = framed s' l := by
  intro l
  induction l generalizing s s' with
  | nil => rfl
  | cons c r ih =>
    simp only [framed]
    rw [ih (s := { s with seqNr := s.seqNr + 1 }) (s' := { s' with seqNr := s'.seqNr + 1 }) (by simp [h1]) h2 h3]
    simp [dataPacket, h1, h2, h3]

theorem succ_ofNat (s : U16) (i : Nat) : s + 1 + BitVec.ofNat 16 i = s + BitVec.ofNat 16 (i + 1) := by
  have h1 : (1 : U16).toNat = 1 := rfl
  apply BitVec.eq_of_toNat_eq
  simp only [BitVec.toNat_add, BitVec.toNat_ofNat, h1]
  omega

theorem fold_enqueue (l : List Bytes) : ∀ s : Socket,
    l.foldl enqueue s = { s with unsent := s.unsent ++ framed s l, seqNr := s.seqNr + BitVec.ofNat 16 l.length } := by
  induction l with
  | nil => intro s; simp [framed]
  | cons c r ih =>
    intro s
    rw [List.foldl_cons, ih (enqueue s c)]
    have e : framed (enqueue s c) r = framed { s with seqNr := s.seqNr + 1 } r :=
      framed_congr (by simp [enqueue]) (by simp [enqueue]) (by simp [enqueue]) r
    rw [e]
    have h2 : s.seqNr + 1 + BitVec.ofNat 16 r.length = s.seqNr + BitVec.ofNat 16 (c :: r).length := by
      rw [List.length_cons, succ_ofNat]
    simp only [enqueue, h2, framed, dataPacket, List.append_assoc, List.singleton_append]

theorem framed_getElem? (l : List Bytes) : ∀ (s : Socket) (i : Nat),
    (framed s l)[i]? = (l[i]?).map fun c => dataPacket { s with seqNr := s.seqNr + BitVec.ofNat 16 i } c := by
  induction l with
  | nil => intro s i; simp [framed]
  | cons c r ih =>
    intro s i
    cases i with
    | zero => simp [framed]
    | succ i =>
      simp only [framed, List.getElem?_cons_succ]
      rw [ih]
      congr 1
      funext c
      simp only [dataPacket, succ_ofNat]

theorem framed_length (l : List Bytes) (s : Socket) : (framed s l).length = l.length := by
  induction l generalizing s with
  | nil => rfl
  | cons c r ih => simp [framed, ih]

/-- The state after `send_to` has cut the buffer. -/
def queued (w : World) (buf : Bytes) : World := w.setS ((chunks buf.length buf).foldl enqueue w.s)

theorem sendTo_eq (fuel : Nat) (buf : Bytes) {w : World} (h : w.s.state ≠ .closed) :
    sendTo E fuel buf w = M.andThen (sendQueue E fuel fuel) (fun _ => M.ret buf.length) (queued w buf) := by
  simp [sendTo, bind_def, M.andThen, getS, h, modS, pure_def, queued, World.setS]

theorem sendTo_closed (fuel : Nat) (buf : Bytes) {w : World} (h : w.s.state = .closed) :
    sendTo E fuel buf w = (.err (.sock .connectionClosed), w) := by
  simp [sendTo, bind_def, M.andThen, getS, h, M.throw]

/-- Receiving and sending queued packets keeps the next sequence number of an established connection, its ids
and its peer. -/
theorem steps_fixed (hn : ¬ V.enq) {a b : World} (h : Steps E V a b) (he : Established a) :
    b.s.seqNr = a.s.seqNr ∧ b.s.senderId = a.s.senderId ∧ b.s.receiverId = a.s.receiverId ∧ b.s.connectedTo = a.s.connectedTo := by
  induction h with
  | refl => simp
  | @tail b c h hs ih =>
    have heb := he.steps h
    have : c.s.seqNr = b.s.seqNr ∧ c.s.senderId = b.s.senderId ∧ c.s.receiverId = b.s.receiverId ∧ c.s.connectedTo = b.s.connectedTo := by
      cases hs with
      | syn pkt src r _ _ hst => exact absurd hst heb.1
      | synAck pkt src t _ _ hst => exact absurd hst heb.2
      | measure pkt src i p t s' hg ht _ _ hf hp hm =>
        simp [onNewAck_seqNr hm, onNewAck_senderId hm, onNewAck_receiverId hm, onNewAck_connectedTo hm]
      | advance s' _ hm =>
        simp [advanceSendWindow_seqNr hm, advanceSendWindow_senderId hm, advanceSendWindow_receiverId hm, advanceSendWindow_connectedTo hm]
      | enqueue c h => exact absurd h hn
      | _ => simp [Socket.insertIntoBuffer, Socket.halveWindow]
    simp [this, ih]

theorem setS_established {w : World} {s : Socket} (h : s.state = w.s.state) (he : Established w) : Established (w.setS s) := by
  unfold Established at *
  simpa [World.setS, h] using he

end Utp
