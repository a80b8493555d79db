import Verif.Spec.Readable
import Verif.Props.EndOfStream
/-!
# C97: what has arrived can be read
-/

namespace Utp
open M

variable {E : Env}

/-- One call. -/
theorem readable_one {b : Nat} {cs : List Bytes} {s0 : Socket} {w : World} {B : Bytes} (hne : ∀ c ∈ cs, c ≠ [])
    (h : Advanced E ⟨True, False, 0⟩ b cs s0 w B) {n : Nat} (ha : AllArrived E w b n) (hlt : B.length < (cs.take n).flatten.length) {len : Nat} (hl : 0 < len) :
    ∃ out w', out ≠ [] ∧ Offline w w' ∧ w'.s.connectedTo = w.s.connectedTo ∧ ∀ fuel, runOp E fuel (.recvFrom len) w = (.ok (.bytes out w.s.connectedTo), w') := by
  suffices hk : ∃ out, out ≠ [] ∧ (flushIncoming E len w).1 = .ok out by
    obtain ⟨out, h1, h2⟩ := hk
    obtain ⟨out', w', he, _, _, hob, _⟩ := flushIncoming_spec (E := E) len w (by rw [h2]; simp)
    obtain rfl : out' = out := by rw [he] at h2; simpa using h2
    obtain ⟨_, _, _, _, hw', _⟩ := hob
    have hc : w'.s.connectedTo = w.s.connectedTo := by rw [hw']; rfl
    refine ⟨out', w', h1, ⟨by rw [hw']; rfl, by rw [hw']; rfl⟩, hc, fun fuel => ?_⟩
    show M.andThen (recvFrom E fuel len) _ w = _
    have : recvFrom E fuel len w = (.ok (out', w.s.connectedTo), w') := by
      unfold recvFrom
      rw [bind_def, andThen_eq he]
      msimp
      rw [if_pos h1, hc]
    rw [andThen_eq this]
    rfl
  obtain ⟨htidy, -, -, D, k, hR, hP, hk, hBM⟩ := h
  have htidy := htidy trivial
  obtain rfl : k = 0 := hk.resolve_right fun h => h.1
  have hdr := hR.dropped.resolve_right fun h => h.1
  have hne' : ∀ u : Bytes, u ≠ [] → u.take len ≠ [] := by
    intro u hu
    rw [ne_eq, List.take_eq_nil_iff]
    rintro (h | h)
    · omega
    · exact hu h
  by_cases hpe : w.s.pending = []
  · have hbet := hBM.resolve_right fun h => h.elim (fun h => h.1 hpe) fun h => h.1
    have hB : B = (cs.take D).flatten := by simpa [hpe] using hP.2
    have hD : D < n := by
      refine Nat.lt_of_not_le fun hge => ?_
      have hp : cs.take n <+: cs.take D := List.take_prefix_take_left (by omega)
      obtain ⟨t, ht⟩ := hp
      rw [hB, ← ht, List.flatten_append, List.length_append] at hlt
      omega
    obtain ⟨kk, hk1, hk2⟩ := ha D hD
    have hin : ∃ x ∈ w.s.incoming, x.seqNr.toNat = b + D := (htidy.kept _ _ hk1 hk2).resolve_left (by omega)
    obtain ⟨x, hx, hxs⟩ := hin
    rcases hi : w.s.incoming with _ | ⟨y, rest⟩
    · simp [hi] at hx
    · have hy := htidy.clean y (by simp [hi])
      have hle' : y.seqNr.toNat ≤ x.seqNr.toNat := by
        rw [hi] at hx
        rcases List.mem_cons.mp hx with rfl | hx
        · exact Nat.le_refl _
        · have hso := hR.sorted
          rw [hi] at hso
          exact Nat.le_of_lt ((List.pairwise_cons.mp hso).1 x hx)
      have hack : w.s.ackNr.toNat + 1 = b + D := by
        rcases hbet.2 with ⟨h, _⟩ | ⟨_, q, rest', h1, h2⟩ | ⟨h, _⟩
        · exact h
        · rw [hi] at h1
          simp only [List.cons.injEq] at h1
          rw [← h1.1] at h2
          omega
        · rw [hi] at h; simp at h
      obtain ⟨i, c, g1, g2, g3, _⟩ := hR.held y (by simp [hi])
      have hc := hne c (List.mem_of_getElem? g1)
      refine ⟨c.take len, hne' c hc, ?_⟩
      unfold flushIncoming overflowIf
      msimp
      rw [if_neg (by simp [hpe]), hi]
      simp only
      msimp
      rw [if_neg, if_pos, g3]
      · rfl
      · right
        refine BitVec.eq_of_toNat_eq ?_
        rw [BitVec.toNat_add]
        have h1 : (1 : U16).toNat = 1 := rfl
        rw [h1]
        omega
      · simp only [Bool.and_eq_true, decide_eq_true_eq, not_and]
        intro _ _ h
        have := congrArg BitVec.toNat h
        have h1 : (65535 : U16).toNat = 65535 := rfl
        rw [h1] at this
        omega
  · refine ⟨w.s.pending.take len, hne' _ hpe, ?_⟩
    unfold flushIncoming
    msimp
    rw [if_pos hpe]
    unfold Socket.takePending
    simp only
    split <;> rfl

theorem flatten_prefix {a b : List Bytes} (h : a <+: b) : a.flatten <+: b.flatten := by
  obtain ⟨t, rfl⟩ := h
  exact ⟨t.flatten, by simp⟩

/-- Calls in a row. -/
theorem readable_many {b : Nat} {cs : List Bytes} {w0 : World} (hb : 1 ≤ b) (hbN : b + cs.length ≤ 65535) (hne : ∀ c ∈ cs, c ≠ []) (hno : NoLate E) (hok : ∀ n, E.snd n = .ok)
    (hnet : PeerNet E w0.s b cs) {n : Nat} (fuel : Nat) : ∀ (lens : List Nat) {w : World} {B : Bytes}, Advanced E ⟨True, False, 0⟩ b cs w0.s w B →
    AllArrived E w b n → (∀ l ∈ lens, 0 < l) → (cs.take n).flatten.length ≤ B.length + lens.length →
    ∃ m, m ≤ lens.length ∧ (∀ r ∈ results E fuel ((lens.take m).map .recvFrom) w, ∃ x, r = .ok (.bytes x w.s.connectedTo)) ∧
      Offline w (runs E fuel ((lens.take m).map .recvFrom) w) ∧
      (cs.take n).flatten <+: B ++ ((results E fuel ((lens.take m).map .recvFrom) w).map Res.read).flatten
  | [], w, B, h, ha, hl, hlen => by
    refine ⟨0, Nat.le_refl _, by simp [results], ⟨rfl, rfl⟩, ?_⟩
    obtain ⟨_, _, _, D, k, hR, hP, hk, _⟩ := h
    obtain rfl : k = 0 := hk.resolve_right fun h => h.1
    simp only [List.take_nil, List.map_nil, results, List.flatten_nil, List.append_nil]
    exact List.prefix_of_prefix_length_le (flatten_prefix (List.take_prefix n cs)) hP.prefix (by simpa using hlen)
  | l :: lens, w, B, h, ha, hl, hlen => by
    by_cases hlt : B.length < (cs.take n).flatten.length
    · obtain ⟨out, w', h1, h2, h3, h4⟩ := readable_one hne h ha hlt (hl l (by simp))
      have hadv := (op_reading hb hbN hne (fun _ => ⟨hno, id⟩) hok hnet.fromNet (hl l (by simp)) h (by rw [h4 fuel]; simp)).1
      rw [h4 fuel] at hadv
      have hpos := List.length_pos_iff.mpr h1
      obtain ⟨m, g1, g2, g3, g4⟩ := readable_many hb hbN hne hno hok hnet fuel lens hadv (by unfold AllArrived; rw [h2.1]; exact ha) (fun x hx => hl x (by simp [hx]))
        (by simp only [Res.read, List.length_append, List.length_cons] at hlen ⊢; omega)
      refine ⟨m + 1, by simp; omega, ?_, ?_, ?_⟩
      · simp only [List.take_succ_cons, List.map_cons, results, List.mem_cons, h4 fuel]
        rintro r (rfl | hr)
        · exact ⟨out, rfl⟩
        · rw [← h3]; exact g2 r hr
      · simp only [List.take_succ_cons, List.map_cons, runs, h4 fuel]
        exact ⟨g3.1.trans h2.1, g3.2.trans h2.2⟩
      · simp only [List.take_succ_cons, List.map_cons, results, h4 fuel, List.flatten_cons]
        simpa [List.append_assoc] using g4
    · refine ⟨0, Nat.zero_le _, by simp [results], ⟨rfl, rfl⟩, ?_⟩
      obtain ⟨_, _, _, D, k, hR, hP, hk, _⟩ := h
      obtain rfl : k = 0 := hk.resolve_right fun h => h.1
      simp only [List.take_zero, List.map_nil, results, List.flatten_nil, List.append_nil]
      exact List.prefix_of_prefix_length_le (flatten_prefix (List.take_prefix n cs)) hP.prefix (by omega)

/-- A connected socket before it has received data. -/
theorem advanced_start {w0 : World} {cs : List Bytes} (hst : w0.s.state = .connected) (hp : w0.s.pending = []) (hi : w0.s.incoming = [])
    (ha : w0.s.ackNr = w0.s.lastDropped) (hnone : ∀ k x, k < w0.nNet → ¬ DataAt E k x) : Advanced E ⟨True, False, 0⟩ (w0.s.lastDropped.toNat + 1) cs w0.s w0 [] := by
  refine ⟨fun _ => ⟨by simp [hi], fun j h1 h2 => by omega, by simp [hi], fun j k hk hd => absurd hd (hnone k j hk)⟩, False.elim, ⟨rfl, rfl⟩, 0, 0,
    ⟨.inl hst, Nat.zero_le _, .inl (by omega), by rw [hi]; exact .nil, by simp [hi]⟩, ⟨Nat.le_refl _, by simp [hp]⟩, .inl rfl, .inl ⟨hp, .inl ⟨by rw [ha], False.elim⟩⟩⟩

/-- **C97.**  The pieces `cs` of the peer are numbered from `last_dropped + 1`, and arrive in any order, some of them never.  When the first `n` of them have arrived and not all of
their bytes have been returned yet, the next call of `recv_from` returns at least one byte at once: it receives and sends nothing.

Partial: no data packet arrives again after one with a larger number (`C97_counterexample`); the numbers do not wrap around; this side only reads and its replies are taken by
the operating system. -/
theorem C97_partial {w0 w : World} {cs : List Bytes} {B : Bytes} (hld : w0.s.lastDropped.toNat + 1 + cs.length ≤ 65535)
    (hne : ∀ c ∈ cs, c ≠ []) (hst : w0.s.state = .connected) (hp : w0.s.pending = []) (hi : w0.s.incoming = [])
    (ha : w0.s.ackNr = w0.s.lastDropped) (hnone : ∀ k x, k < w0.nNet → ¬ DataAt E k x) (hnet : PeerNet E w0.s (w0.s.lastDropped.toNat + 1) cs) (hok : ∀ n, E.snd n = .ok)
    (hno : NoLate E) (h : Reads E w0 w B) {n len : Nat} (hall : AllArrived E w (w0.s.lastDropped.toNat + 1) n)
    (hlt : B.length < (cs.take n).flatten.length) (hl : 0 < len) :
    ∃ out w', out ≠ [] ∧ Offline w w' ∧ B ++ out <+: cs.flatten ∧ ∀ fuel, runOp E fuel (.recvFrom len) w = (.ok (.bytes out w.s.connectedTo), w') := by
  have hadv := reads_advanced (by omega) hld hne (fun _ => ⟨hno, id⟩) hok hnet.fromNet (advanced_start hst hp hi ha hnone) h
  obtain ⟨out, w', h1, h2, _, h4⟩ := readable_one hne hadv hall hlt hl
  refine ⟨out, w', h1, h2, ?_, h4⟩
  have hadv' := (op_reading (by omega) hld hne (fun _ => ⟨hno, id⟩) hok hnet.fromNet hl hadv (fuel := 0) (by rw [h4]; simp)).1
  rw [h4] at hadv'
  obtain ⟨_, _, _, D, k, _, hP, hk, _⟩ := hadv'
  obtain rfl : k = 0 := hk.resolve_right fun h => h.1
  exact hP.prefix

/-- **C97**, calls in a row: as many calls as there are bytes left are enough to get all of them, whatever the sizes of the buffers.  Partial as `C97_partial`. -/
theorem C97_all_partial {w0 w : World} {cs : List Bytes} {B : Bytes} (hld : w0.s.lastDropped.toNat + 1 + cs.length ≤ 65535)
    (hne : ∀ c ∈ cs, c ≠ []) (hst : w0.s.state = .connected) (hp : w0.s.pending = []) (hi : w0.s.incoming = [])
    (ha : w0.s.ackNr = w0.s.lastDropped) (hnone : ∀ k x, k < w0.nNet → ¬ DataAt E k x) (hnet : PeerNet E w0.s (w0.s.lastDropped.toNat + 1) cs) (hok : ∀ n, E.snd n = .ok)
    (hno : NoLate E) (h : Reads E w0 w B) {n : Nat} (hall : AllArrived E w (w0.s.lastDropped.toNat + 1) n)
    (fuel : Nat) (lens : List Nat) (hl : ∀ l ∈ lens, 0 < l) (hlen : (cs.take n).flatten.length ≤ B.length + lens.length) :
    ∃ m, m ≤ lens.length ∧ (∀ r ∈ results E fuel ((lens.take m).map .recvFrom) w, ∃ x, r = .ok (.bytes x w.s.connectedTo)) ∧
      Offline w (runs E fuel ((lens.take m).map .recvFrom) w) ∧
      (cs.take n).flatten <+: B ++ ((results E fuel ((lens.take m).map .recvFrom) w).map Res.read).flatten :=
  readable_many (by omega) hld hne hno hok hnet fuel lens
    (reads_advanced (by omega) hld hne (fun _ => ⟨hno, id⟩) hok hnet.fromNet (advanced_start hst hp hi ha hnone) h) hall hl hlen

/-- **C97**, for a connection between two sockets: a client that sends in any way, a server that reads, and any network between them that does not forge datagrams.  When the first
`n` packets of the client have arrived, the server can read their bytes at once.  Partial as `C97_partial`. -/
theorem C97_session_partial {A B : Env} {P : Op → Res Out → Prop} {cs : List Bytes} {a b : World} {bs d : Bytes} {dst : Addr} (hs : Sender A P cs a) (hr : Receiver B d b bs)
    (hd : Sent a dst d) (hA : Delivers A b) (hB : Delivers B a) (hn : cs.length ≤ 65533) (hok : ∀ n, B.snd n = .ok) (hno : NoLate B)
    {n len : Nat} (hall : AllArrived B b 2 n) (hlt : bs.length < (cs.take n).flatten.length) (hl : 0 < len) :
    ∃ out b', out ≠ [] ∧ Offline b b' ∧ bs ++ out <+: cs.flatten ∧ ∀ fuel, runOp B fuel (.recvFrom len) b = (.ok (.bytes out b.s.connectedTo), b') := by
  obtain ⟨f0, resolved, wild, a0, a1, hc, hx1, hx2⟩ := hs
  obtain ⟨fuel', src', bound, b0, hacc, hreads⟩ := hr
  have hj := joined_at hc hx1 hx2 hacc hreads hd hA
  have hne : ∀ c ∈ cs, c ≠ [] := fun c hc => (exec_pieces hj.exec c hc).1
  have hadv := reads_advanced (by omega) (by omega) hne (fun _ => ⟨hno, id⟩) hok (hj.peerNet hB).fromNet hj.start hreads
  obtain ⟨out, w', h1, h2, _, h4⟩ := readable_one hne hadv hall hlt hl
  refine ⟨out, w', h1, h2, ?_, h4⟩
  have hadv' := (op_reading (by omega) (by omega) hne (fun _ => ⟨hno, id⟩) hok (hj.peerNet hB).fromNet hl hadv (fuel := 0) (by rw [h4]; simp)).1
  rw [h4] at hadv'
  obtain ⟨_, _, _, D, k, _, hP, hk, _⟩ := hadv'
  obtain rfl : k = 0 := hk.resolve_right fun h => h.1
  exact hP.prefix

section
open Sample

/-- The hypotheses of `C97_partial` can be met: see `mixedUp`; the reader has got two bytes. -/
example : ∃ out w', out ≠ [] ∧ Offline (runs mixedUp 20 [.recvFrom 2] (server mixedUp)) w' ∧ [1, 2] ++ out <+: [1, 2, 3, 4, 5] ∧
    ∀ fuel, runOp mixedUp fuel (.recvFrom 1) (runs mixedUp 20 [.recvFrom 2] (server mixedUp)) = (.ok (.bytes out peer), w') := by
  have h0 : (runOp mixedUp 20 (.recvFrom 2) (server mixedUp)).1 = .ok (.bytes [1, 2] peer) := by decide +kernel
  have h : Reads mixedUp (server mixedUp) (runs mixedUp 20 [.recvFrom 2] (server mixedUp)) [1, 2] := by
    have := Reads.read (E := mixedUp) 20 2 (.refl (w0 := server mixedUp)) (by decide) (by rw [h0]; simp)
    rw [h0] at this
    exact this
  have hd : ∀ k x, dataNum (mixedUp.net k) = some x → DataAt mixedUp k x := by
    intro k x hx
    unfold dataNum at hx
    split at hx
    · rename_i d src hn
      split at hx
      · rename_i p hp
        split at hx
        · rename_i ht
          exact ⟨d, src, p, hn, hp, ht, by simpa using hx⟩
        · simp at hx
      · simp at hx
    · simp at hx
  have e : (server mixedUp).s.lastDropped.toNat + 1 = 2 := by decide +kernel
  have h1 : (server mixedUp).nNet = 0 := by decide +kernel
  have h5 : (runs mixedUp 20 [.recvFrom 2] (server mixedUp)).nNet = 5 := by decide +kernel
  have h6 : (runs mixedUp 20 [.recvFrom 2] (server mixedUp)).s.connectedTo = peer := by decide +kernel
  have d0 : DataAt mixedUp 4 2 := hd _ _ (by decide +kernel)
  have d1 : DataAt mixedUp 3 3 := hd _ _ (by decide +kernel)
  have d2 : DataAt mixedUp 0 4 := hd _ _ (by decide +kernel)
  have hall : AllArrived mixedUp (runs mixedUp 20 [.recvFrom 2] (server mixedUp)) ((server mixedUp).s.lastDropped.toNat + 1) 3 := by
    unfold AllArrived
    rw [e, h5]
    intro i hi
    match i, hi with
    | 0, _ => exact ⟨4, by omega, d0⟩
    | 1, _ => exact ⟨3, by omega, d1⟩
    | 2, _ => exact ⟨0, by omega, d2⟩
  have hno : NoLate mixedUp := noLate_net (fun _ => rfl) (by decide +kernel)
  have hz : ∀ k x, k < (server mixedUp).nNet → ¬ DataAt mixedUp k x := by
    rw [h1]; intro k x hk; omega
  have hnet : PeerNet mixedUp (server mixedUp).s ((server mixedUp).s.lastDropped.toNat + 1) [[1, 2, 3], [4], [5]] := by
    rw [e]; exact mixedUp_net
  obtain ⟨out, w', g1, g2, g3, g4⟩ := C97_partial (len := 1) (by rw [e]; decide) (by simp) (by decide +kernel) (by decide +kernel)
    (by decide +kernel) (by decide +kernel) hz hnet (fun _ => rfl) hno h hall (by decide) (by decide)
  exact ⟨out, w', g1, g2, g3, fun fuel => by rw [g4 fuel, h6]⟩

/-- The first packet arrives again after the second one. -/
def comesBack : Env := env [arr (dg .data 6 2 100 [1]), arr (dg .data 6 3 100 [2]), arr (dg .data 6 2 100 [1]), arr (dg .data 6 4 100 [3])]

/-- **C97 is false** if old packets come back: all three packets have arrived, but the third one is never returned. -/
theorem C97_counterexample : Reach comesBack (server comesBack) ∧ results comesBack 9 [.recvFrom 9, .recvFrom 9, .recvFrom 9] (server comesBack) =
      [.ok (.bytes [1] peer), .ok (.bytes [2] peer), .pending] ∧
    (runs comesBack 9 [.recvFrom 9, .recvFrom 9, .recvFrom 9] (server comesBack)).nNet ≥ 4 ∧
    results comesBack 9 [.recvFrom 9] (runs comesBack 9 [.recvFrom 9, .recvFrom 9, .recvFrom 9] (server comesBack)) = [.pending] :=
  ⟨reach_server 1 [] (by decide +kernel) (by decide +kernel), by decide +kernel, by decide +kernel, by decide +kernel⟩

end

end Utp
