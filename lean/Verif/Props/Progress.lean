import Verif.Lemmas.Progress
import Verif.Props.Window
/-!
# C66: what the peer acknowledges is flushed
-/

namespace Utp
open M

variable {E : Env}

/-- The events in the form the lemmas use. -/
theorem Undisturbed.acked {w : World} {N : Nat} {nr : U16} (h : Undisturbed E w N) (hl : LastIs w.s nr) (ha : AckOf w.s nr (E.net N))
    (hx : Unselective (E.net N) ∨ Unnamed w.s nr) : Acked E w.nNet N w.s nr := ⟨h.sends, h.peace, h.prompt, ha, hl, hx⟩

theorem Reach.waits {w : World} (hw : Reach E w) (hst : w.s.state = .connected) : Waits w.s w.s :=
  ⟨hst, rfl, rfl, rfl, rfl, ⟨0, rfl⟩, (C17_exact hw).1⟩

/-- **C66** (partial: the peer does not close or reset the connection first, and if the last acknowledgement is a selective one as well then no outstanding packet
has one of the numbers it can name).  If the peer acknowledges the last outstanding packet in the wait number `N`, and until then the connection is undisturbed, then `flush` ends (with enough fuel, always in the same way):
unless it panics, it succeeds, nothing is outstanding any more, the connection is still open, and nothing that arrives later was waited for. -/
theorem C66_partial {w : World} {N : Nat} {nr : U16} (hw : Reach E w) (hst : w.s.state = .connected) (hN : w.nNet ≤ N) (hu : Undisturbed E w N)
    (hl : LastIs w.s nr) (ha : AckOf w.s nr (E.net N)) (hx : Unselective (E.net N) ∨ Unnamed w.s nr) :
    ∃ r w', (r = .panic ∨ r = .ok .unit ∧ w'.s.sendWindow = [] ∧ w'.s.state = .connected ∧ w'.nNet ≤ N + 1) ∧
      ∃ F, ∀ fuel, F ≤ fuel → runOp E fuel .flush w = (r, w') := by
  have h : Well (fun n => runOp E n .flush) w fun o w' => o = .unit ∧ w'.s.sendWindow = [] ∧ w'.s.state = .connected ∧ w'.nNet ≤ N + 1 :=
    .bind (well_flush (hu.acked hl ha hx) (Nat.le_refl _) ⟨hw.waits hst, .inl hN⟩) fun _ w' h => .ret ⟨rfl, h.2.1, h.1.open_, h.2.2.2⟩
  obtain ⟨r, w', h1, h2⟩ := h
  refine ⟨r, w', h1.imp_right fun ⟨a, e, h, h'⟩ => ⟨by rw [e, h], h'⟩, h2⟩

/-- The same for `close`: if then, in the wait number `K`, the peer acknowledges the FIN, `close` succeeds and the socket is closed. -/
theorem C66_close_partial {w : World} {N K : Nat} {nr : U16} (hw : Reach E w) (hst : w.s.state = .connected) (hu : Undisturbed E w K)
    (hN : w.nNet ≤ N) (hNK : N < K) (hl : w.s.sendWindow = [] ∨ LastIs w.s nr ∧ AckOf w.s nr (E.net N) ∧ (Unselective (E.net N) ∨ Unnamed w.s nr)) (hK : AckOf w.s w.s.seqNr (E.net K)) :
    ∃ r w', (r = .panic ∨ r = .ok .unit ∧ w'.s.state = .closed ∧ w'.nNet ≤ K + 1) ∧ ∃ F, ∀ fuel, F ≤ fuel → runOp E fuel .close w = (r, w') := by
  have hfl : Well (fun n => flush E n) w fun _ w' => Waits w.s w'.s ∧ w'.s.sendWindow = [] ∧ w.nNet ≤ w'.nNet ∧ w'.nNet ≤ K := by
    rcases hl with h0 | ⟨hl, ha, hx⟩
    · refine .returns (F := 1) (a := ()) (w' := w) (fun n hn => ?_) ⟨hw.waits hst, h0, Nat.le_refl _, by omega⟩
      obtain ⟨n, rfl⟩ : ∃ k, n = k + 1 := ⟨n - 1, by omega⟩
      unfold flush whileM
      msimp
      simp [h0]
    · have hu' : Undisturbed E w N := ⟨hu.sends, fun n h1 h2 => hu.peace n h1 (by omega), fun n h1 h2 => hu.prompt n h1 (by omega)⟩
      exact (well_flush (hu'.acked hl ha hx) (Nat.le_refl _) ⟨hw.waits hst, .inl hN⟩).mono fun _ w' h => ⟨h.1, h.2.1, h.2.2.1, by have := h.2.2.2; omega⟩
  have h : Well (fun n => runOp E n .close) w fun o w' => o = .unit ∧ w'.s.state = .closed ∧ w'.nNet ≤ K + 1 :=
    .bind (well_close ⟨hu.sends, hu.peace, hu.prompt, hK⟩ hst (by omega) hfl) fun _ w' h => .ret ⟨rfl, h⟩
  obtain ⟨r, w', h1, h2⟩ := h
  refine ⟨r, w', h1.imp_right fun ⟨a, e, h, h'⟩ => ⟨by rw [e, h], h'⟩, h2⟩

/-- After sends that all succeeded, with fewer than 65536 packets outstanding, the last outstanding packet is the one before the next number. -/
theorem C66_last {w0 w : World} {cs : List Bytes} (h0 : Fresh w0) (h : Exec E SendsOk w0 cs w) (hne : w.s.sendWindow ≠ [])
    (hlen : w.s.sendWindow.length < 65536) : LastIs w.s (w.s.seqNr - 1) := by
  obtain ⟨base, hc, hn⟩ := C16_consecutive h0 h
  have hget : ∀ i (hi : i < w.s.sendWindow.length), (w.s.sendWindow[i]).seqNr = base + BitVec.ofNat 16 i :=
    fun i hi => hc i _ (List.getElem?_eq_getElem hi)
  have hpos : 0 < w.s.sendWindow.length := List.length_pos_iff.mpr hne
  obtain ⟨m, hm⟩ : ∃ m, w.s.sendWindow.length = m + 1 := ⟨w.s.sendWindow.length - 1, by omega⟩
  have hlast : w.s.seqNr - 1 = base + BitVec.ofNat 16 m := by
    rw [← hn, hm]
    apply BitVec.eq_of_toNat_eq
    simp only [BitVec.toNat_sub, BitVec.toNat_add, BitVec.toNat_ofNat]
    have := base.isLt
    have h1 : (1 : U16).toNat = 1 := rfl
    omega
  have hnext : w.s.seqNr - 1 + 1 = base + BitVec.ofNat 16 (m + 1) := by
    rw [← hm, hn]
    apply BitVec.eq_of_toNat_eq
    simp only [BitVec.toNat_sub, BitVec.toNat_add]
    have := w.s.seqNr.isLt
    have h1 : (1 : U16).toNat = 1 := rfl
    omega
  refine ⟨⟨(w.s.sendWindow.map Packet.seqNr).take m, ?_, ?_⟩, ?_⟩
  · apply List.ext_getElem (by simp; omega)
    intro i h1 h2
    rw [List.getElem_map, hget i (by simpa using h1)]
    rw [List.length_map] at h1
    rcases Nat.lt_or_ge i m with h | h
    · rw [List.getElem_append_left (by simp; omega)]
      simp only [List.getElem_take, List.getElem_map, hget]
    · rw [List.getElem_append_right (by simp; omega), List.getElem_singleton, hlast]
      rw [show i = m by omega]
  · intro hmem
    obtain ⟨i, hi, e⟩ := List.getElem_of_mem hmem
    simp only [List.length_take, List.length_map] at hi
    simp only [List.getElem_take, List.getElem_map, hget, hlast] at e
    have := ofNat16_inj (by omega) (by omega) e
    omega
  · intro hmem
    obtain ⟨i, hi, e⟩ := List.getElem_of_mem hmem
    simp only [List.length_map] at hi
    simp only [List.getElem_map, hget, hnext] at e
    have := ofNat16_inj (by omega) (by omega) e
    omega

/-- With at most 63495 packets outstanding, a selective acknowledgement in a packet that acknowledges the last of them names none of them. -/
theorem C66_unnamed {w0 w : World} {cs : List Bytes} (h0 : Fresh w0) (h : Exec E SendsOk w0 cs w) (hlen : w.s.sendWindow.length ≤ 63495) :
    Unnamed w.s (w.s.seqNr - 1) := by
  obtain ⟨base, hc, hn⟩ := C16_consecutive h0 h
  intro j hj hmem
  obtain ⟨i, hi, e⟩ := List.getElem_of_mem hmem
  simp only [List.length_map] at hi
  rw [List.getElem_map, hc i _ (List.getElem?_eq_getElem hi), ← hn] at e
  have e' := congrArg BitVec.toNat e
  simp only [BitVec.toNat_sub, BitVec.toNat_add, BitVec.toNat_ofNat] at e'
  have := base.isLt
  have h1 : (1 : U16).toNat = 1 := rfl
  omega

/-- What was sent is flushed: after any execution in which every `send_to` succeeded, with at most 63495 packets outstanding, if the peer acknowledges the last packet sent, `flush` succeeds unless it
panics, and nothing is outstanding. -/
theorem C66_sent_partial {w0 w : World} {cs : List Bytes} {N : Nat} (h0 : Fresh w0) (hr : Made E w0) (h : Exec E SendsOk w0 cs w) (hst : w.s.state = .connected)
    (hne : w.s.sendWindow ≠ []) (hlen : w.s.sendWindow.length ≤ 63495) (hN : w.nNet ≤ N) (hu : Undisturbed E w N) (ha : AckOf w.s (w.s.seqNr - 1) (E.net N)) :
    ∃ r w', (r = .panic ∨ r = .ok .unit ∧ w'.s.sendWindow = [] ∧ w'.s.state = .connected ∧ w'.nNet ≤ N + 1) ∧
      ∃ F, ∀ fuel, F ≤ fuel → runOp E fuel .flush w = (r, w') :=
  C66_partial ⟨w0, hr, h.run⟩ hst hN hu (C66_last h0 h hne (by omega)) ha (.inr (C66_unnamed h0 h hlen))

/-! ### Examples -/

section
open Sample

/-- A check that implies `Peaceful`. -/
def peacefulB (s : Socket) : NetEvent → Bool
  | .dgram b _ =>
    match Packet.tryFrom (b.take 1520) with
    | some (.ok pkt) => pkt.getType ≠ some .fin ∧ pkt.getType ≠ some .reset ∨ pkt.connectionId ≠ s.senderId ∧ pkt.connectionId ≠ s.receiverId
    | _ => true
  | .fail k => k = .timedOut ∨ k = .wouldBlock
  | .never => false

theorem peaceful_of {s : Socket} {ev : NetEvent} (h : peacefulB s ev = true) : Peaceful s ev := by
  cases ev with
  | dgram b src =>
    intro pkt hp ht
    simp only [peacefulB, hp, decide_eq_true_eq] at h
    rcases h with h | h
    · rcases ht with ht | ht
      · exact absurd ht h.1
      · exact absurd ht h.2
    · exact h
  | fail k => simpa [peacefulB, Peaceful] using h
  | never => simp [peacefulB] at h

/-- A check that implies `Undisturbed`. -/
theorem undisturbed_of {w : World} {N : Nat} (hs : ∀ n, E.snd n = .ok) (hp : ∀ n ∈ List.range N, w.nNet ≤ n → peacefulB w.s (E.net n) = true)
    (hq : ∀ n ∈ List.range (N + 1), w.nNet ≤ n → ∃ j ∈ List.range w.s.maxRetries.toNat, (match E.net (n + j) with | .dgram _ _ => true | _ => false) = true) :
    Undisturbed E w N := by
  refine ⟨hs, fun n h1 h2 => peaceful_of (hp n (by simpa using h2) h1), fun n h1 h2 => ?_⟩
  obtain ⟨j, h3, h4⟩ := hq n (by simp; omega) h1
  refine ⟨j, by simpa using h3, ?_⟩
  split at h4
  · rename_i b src e; exact ⟨b, src, e⟩
  · simp at h4

/-- Two packets are sent.  Then: two timeouts, garbage, a Reset of another connection, the acknowledgement of the first packet three times, data of the peer, a
timeout, the acknowledgement of the second packet, a timeout, the acknowledgement of the FIN. -/
def lively : Env :=
  env [.fail .timedOut, .fail .wouldBlock, arr [1, 2, 3], .dgram (dg .reset 77 9 9) other, arr (dg .state 6 2 100), arr (dg .state 6 2 100), arr (dg .state 6 2 100),
    arr (dg .data 6 2 100 [42]), .fail .timedOut, arr (dg .state 6 2 101), .fail .timedOut, arr (dg .state 6 2 102)]

/-- The world when the packets were sent. -/
def livelyAt : World := runs lively 20 [.sendTo [1], .sendTo [2, 3]] (server lively)

theorem lively_reach : Reach lively livelyAt :=
  reach_server _ _ (by decide +kernel) (by decide +kernel)

theorem lively_undisturbed : Undisturbed lively livelyAt 11 :=
  undisturbed_of (fun n => by simp [lively, env]) (by decide +kernel) (by decide +kernel)

theorem lively_last : LastIs livelyAt.s 101 := ⟨⟨[100], by decide +kernel, by decide⟩, by decide +kernel⟩

theorem ackOf_state {s : Socket} {ev : NetEvent} {nr : U16} {cid seq : U16} (h : ev = arr (dg .state cid seq nr)) (hid : cid = s.senderId ∨ cid = s.receiverId)
    (hv : Packet.tryFrom ((dg .state cid seq nr).take 1520) = some (.ok ⟨dg .state cid seq nr⟩)) (hp : (Packet.mk (dg .state cid seq nr)).getType = some .state ∧
      (Packet.mk (dg .state cid seq nr)).connectionId = cid ∧ (Packet.mk (dg .state cid seq nr)).ackNr = nr) : AckOf s nr ev :=
  ⟨_, _, _, h, hv, hp.1, by rw [hp.2.1]; exact hid, hp.2.2⟩

/-- A case of `C66_partial`, and what `flush` did. -/
example : Reach lively livelyAt ∧ livelyAt.s.state = .connected ∧ Undisturbed lively livelyAt 9 ∧ LastIs livelyAt.s 101 ∧ AckOf livelyAt.s 101 (lively.net 9) ∧
    (runOp lively 20 .flush livelyAt).1 = .ok .unit ∧ (runOp lively 20 .flush livelyAt).2.nNet = 10 :=
  ⟨lively_reach, by decide +kernel, ⟨lively_undisturbed.sends, fun n h1 h2 => lively_undisturbed.peace n h1 (by omega),
    fun n h1 h2 => lively_undisturbed.prompt n h1 (by omega)⟩, lively_last, ackOf_state (cid := 6) (seq := 2) rfl (by decide +kernel) rfl (by decide +kernel),
    by decide +kernel, by decide +kernel⟩

/-- The same packets; after a timeout the peer acknowledges the first, then the second in a packet with a selective acknowledgement of four later ones (which
were never sent). -/
def livelySack : Env := env [.fail .timedOut, arr (dg .state 6 2 100), arr (sackDg 6 2 101 [15, 0, 0, 0])]

/-- The world when the packets were sent. -/
def livelySackAt : World := runs livelySack 20 [.sendTo [1], .sendTo [2, 3]] (server livelySack)

theorem unnamed_of {s : Socket} {l : List U16} {nr : U16} (h : s.sendWindow.map Packet.seqNr = l) (hl : ∀ x ∈ l, 2041 ≤ (x - (nr + 1)).toNat) : Unnamed s nr := by
  intro i hi hm
  rw [h] at hm
  have := hl _ hm
  rw [show nr + 1 + BitVec.ofNat 16 i - (nr + 1) = BitVec.ofNat 16 i by rw [BitVec.add_comm (nr + 1)]; exact BitVec.add_sub_cancel _ _, BitVec.toNat_ofNat] at this
  omega

theorem livelySack_ack : AckOf livelySackAt.s 101 (livelySack.net 2) :=
  have h : livelySack.net 2 = .dgram (sackDg 6 2 101 [15, 0, 0, 0]) peer := rfl
  have hp : Packet.tryFrom ((sackDg 6 2 101 [15, 0, 0, 0]).take 1520) = some (.ok ⟨sackDg 6 2 101 [15, 0, 0, 0]⟩) := rfl
  ⟨_, _, _, h, hp, by decide +kernel, by decide +kernel, by decide +kernel⟩

theorem livelySack_unnamed : Unnamed livelySackAt.s 101 := unnamed_of (l := [100, 101]) (by decide +kernel) (by simp)

theorem livelySack_undisturbed : Undisturbed livelySack livelySackAt 2 :=
  undisturbed_of (fun n => by simp [livelySack, env]) (by decide +kernel) (by decide +kernel)

/-- A case of `C66_partial` with a selective acknowledgement: the conclusion holds, and it is the case without a panic. -/
example : ∃ r w', (r = .panic ∨ r = .ok .unit ∧ w'.s.sendWindow = [] ∧ w'.s.state = .connected ∧ w'.nNet ≤ 2 + 1) ∧
    ∃ F, ∀ fuel, F ≤ fuel → runOp livelySack fuel .flush livelySackAt = (r, w') :=
  C66_partial (E := livelySack) (w := livelySackAt) (N := 2) (nr := 101) (reach_server _ _ (by decide +kernel) (by decide +kernel)) (by decide +kernel)
    (by decide +kernel) livelySack_undisturbed ⟨⟨[100], by decide +kernel, by decide⟩, by decide +kernel⟩ livelySack_ack (.inr livelySack_unnamed)

example : (runOp livelySack 20 .flush livelySackAt).1 = .ok .unit ∧ (runOp livelySack 20 .flush livelySackAt).2.nNet = 3 ∧
    (runOp livelySack 20 .flush livelySackAt).2.s.sendWindow = [] := by decide +kernel

/-- A case of `C66_close_partial`. -/
example : Undisturbed lively livelyAt 11 ∧ AckOf livelyAt.s livelyAt.s.seqNr (lively.net 11) ∧
    (runOp lively 20 .close livelyAt).1 = .ok .unit ∧ (runOp lively 20 .close livelyAt).2.s.state = .closed := by
  have : livelyAt.s.seqNr = 102 := by decide +kernel
  refine ⟨lively_undisturbed, ?_, by decide +kernel, by decide +kernel⟩
  rw [this]
  exact ackOf_state (cid := 6) (seq := 2) rfl (by decide +kernel) rfl (by decide +kernel)

/-- The peer finishes its own side first (it has nothing more to send), and then acknowledges what it received. -/
def halfClosed : Env := env [arr (dg .fin 6 2 99), arr (dg .state 6 3 100), arr (dg .state 6 3 100)]

/-- **The full C66 does not hold**: when the peer's FIN comes before its acknowledgement, `flush` fails with the error "other", although the acknowledgement
arrives, and the packet stays outstanding forever. -/
theorem C66_counterexample : Reach halfClosed (runs halfClosed 20 [.sendTo [1]] (server halfClosed)) ∧
    (runs halfClosed 20 [.sendTo [1]] (server halfClosed)).s.state = .connected ∧
    LastIs (runs halfClosed 20 [.sendTo [1]] (server halfClosed)).s 100 ∧ AckOf (runs halfClosed 20 [.sendTo [1]] (server halfClosed)).s 100 (halfClosed.net 1) ∧
    (runOp halfClosed 20 .flush (runs halfClosed 20 [.sendTo [1]] (server halfClosed))).1 = .err (.sock .other) ∧
    (runOp halfClosed 20 .flush (runs halfClosed 20 [.sendTo [1]] (server halfClosed))).2.nNet = 2 ∧
    (runOp halfClosed 20 .flush (runs halfClosed 20 [.sendTo [1]] (server halfClosed))).2.s.sendWindow ≠ [] :=
  ⟨reach_server _ _ (by decide +kernel) (by decide +kernel), by decide +kernel, ⟨⟨[], by decide +kernel, by decide⟩, by decide +kernel⟩,
    ackOf_state (cid := 6) (seq := 3) rfl (by decide +kernel) rfl (by decide +kernel), by decide +kernel, by decide +kernel, by decide +kernel⟩

end

end Utp
