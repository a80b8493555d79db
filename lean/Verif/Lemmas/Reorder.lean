import Verif.Spec.Order
import Verif.Lemmas.Taken
/-!
# A socket that only reads, from a peer that numbers its packets without wrap-around
-/

namespace Utp
open M

variable {E : Env}

/-- Nothing was returned yet, or the first chunk was skipped and the second one is being returned. -/
def Stale (b : Nat) (s : Socket) (D : Nat) : Prop :=
  s.lastDropped.toNat < b ∧ (D = 0 ∨ D = 1 ∧ s.ackNr.toNat = b + 1 ∧ ∃ p rest, s.incoming = p :: rest ∧ p.seqNr.toNat = b + 1)

/-- How far the reader is: `D` chunks were returned completely (or skipped, if the reader is a client, `y`). -/
structure Reading (y : Prop) (b : Nat) (cs : List Bytes) (s : Socket) (D : Nat) : Prop where
  state : s.state = .connected ∨ s.state = .closed
  le : D ≤ cs.length
  dropped : s.lastDropped.toNat + 1 = b + D ∨ y ∧ Stale b s D
  sorted : Sorted s.incoming
  held : ∀ p ∈ s.incoming, ∃ i c, cs[i]? = some c ∧ p.seqNr.toNat = b + i ∧ p.payload = some c ∧ i + 1 ≠ D

/-- An old packet is at the front of the buffer: nothing will be returned any more. -/
def Stuck (b : Nat) (s : Socket) (D : Nat) : Prop :=
  b + D ≤ s.ackNr.toNat + 1 ∧ ∃ p rest, s.incoming = p :: rest ∧ p.seqNr.toNat < b + D

/-- No chunk is partly read. -/
def Between (y : Prop) (b N : Nat) (s : Socket) (D : Nat) : Prop :=
  s.pending = [] ∧ ((s.ackNr.toNat + 1 = b + D ∧ (y → 0 < D)) ∨ Stuck b s D ∨ (s.incoming = [] ∧ s.state = .closed ∧ (D = N ∨ y ∧ D = 0)))

/-- A client before the first chunk: its acknowledgement number is that of the first chunk already. -/
structure Early (b : Nat) (s : Socket) (D : Nat) : Prop where
  zero : D = 0
  pending : s.pending = []
  ack : s.ackNr.toNat = b
  far : ∀ p ∈ s.incoming, b + 2 ≤ p.seqNr.toNat

/-- Chunk `D` is partly read. -/
def Midway (b : Nat) (s : Socket) (D : Nat) : Prop :=
  s.pending ≠ [] ∧ (s.ackNr.toNat + 1 = b + D ∨ s.ackNr.toNat = b + D) ∧ ∃ p rest, s.incoming = p :: rest ∧ p.seqNr.toNat = b + D

/-- Chunk `D` has just arrived. -/
def Arrived (b : Nat) (s : Socket) (D : Nat) : Prop :=
  s.pending = [] ∧ s.ackNr.toNat = b + D ∧ ∃ p rest, s.incoming = p :: rest ∧ p.seqNr.toNat = b + D

/-- `B` was returned so far; the first `k` chunks were skipped. -/
def Progress (k : Nat) (cs : List Bytes) (B : Bytes) (s : Socket) (D : Nat) : Prop :=
  k ≤ D ∧ B ++ s.pending = ((cs.take (if s.pending = [] then D else D + 1)).drop k).flatten

theorem Progress.prefix {k : Nat} {cs : List Bytes} {B : Bytes} {s : Socket} {D : Nat} (h : Progress k cs B s D) : B <+: (cs.drop k).flatten := by
  have h1 : B <+: ((cs.take (if s.pending = [] then D else D + 1)).drop k).flatten := ⟨_, h.2⟩
  refine h1.trans ?_
  rw [List.drop_take]
  refine ⟨((cs.drop k).drop ((if s.pending = [] then D else D + 1) - k)).flatten, ?_⟩
  rw [← List.flatten_append, List.take_append_drop]

/-- The first packet in the buffer is not the next one to return. -/
def Quiet1 (s : Socket) : Prop := ∀ p rest, s.incoming = p :: rest → s.ackNr ≠ p.seqNr ∧ s.ackNr + 1 ≠ p.seqNr

/-- If old packets do not come back: the buffer has only packets that were not returned yet, and all of them that have arrived. -/
structure Tidy (E : Env) (b n : Nat) (s : Socket) : Prop where
  clean : ∀ p ∈ s.incoming, s.lastDropped.toNat < p.seqNr.toNat
  come : ∀ j, b ≤ j → j ≤ s.lastDropped.toNat → ∃ k, k < n ∧ DataAt E k j
  held : ∀ p ∈ s.incoming, ∃ k, k < n ∧ DataAt E k p.seqNr.toNat
  kept : ∀ j k, k < n → DataAt E k j → j ≤ s.lastDropped.toNat ∨ ∃ p ∈ s.incoming, p.seqNr.toNat = j

theorem Tidy.congr {b n : Nat} {s s' : Socket} (h : Tidy E b n s) (h1 : s'.incoming = s.incoming) (h2 : s'.lastDropped = s.lastDropped) : Tidy E b n s' :=
  ⟨by rw [h1, h2]; exact h.clean, by rw [h2]; exact h.come, by rw [h1]; exact h.held, by rw [h1, h2]; exact h.kept⟩

/-- Events that are not data packets. -/
theorem Tidy.later {b n m : Nat} {s : Socket} (h : Tidy E b n s) (hn : n ≤ m) (hno : ∀ k x, n ≤ k → k < m → ¬ DataAt E k x) : Tidy E b m s := by
  refine ⟨h.clean, fun j h1 h2 => ?_, fun p hp => ?_, fun j k hk hd => ?_⟩
  · obtain ⟨k, g1, g2⟩ := h.come j h1 h2
    exact ⟨k, by omega, g2⟩
  · obtain ⟨k, g1, g2⟩ := h.held p hp
    exact ⟨k, by omega, g2⟩
  · by_cases hlt : k < n
    · exact h.kept j k hlt hd
    · exact absurd hd (hno k j (by omega) hk)

/-- The first packet of the buffer is returned. -/
theorem Tidy.advance {b n : Nat} {s s' : Socket} (h : Tidy E b n s) {p : Packet} {rest : List Packet} (hs : Sorted s.incoming) (hi : s.incoming = p :: rest)
    (hp : p.seqNr.toNat = s.lastDropped.toNat + 1) (h1 : s'.incoming = rest) (h2 : s'.lastDropped = p.seqNr) : Tidy E b n s' := by
  rw [hi] at hs
  have hs := List.pairwise_cons.mp hs
  refine ⟨?_, fun j g1 g2 => ?_, ?_, fun j k hk hd => ?_⟩
  · rw [h1, h2]; exact hs.1
  · rw [h2, hp] at g2
    by_cases hj : j ≤ s.lastDropped.toNat
    · exact h.come j g1 hj
    · obtain rfl : j = p.seqNr.toNat := by omega
      exact h.held p (by simp [hi])
  · rw [h1]
    exact fun q hq => h.held q (by simp [hi, hq])
  · rw [h1, h2]
    rcases h.kept j k hk hd with g | ⟨q, hq, rfl⟩
    · left; omega
    · rw [hi] at hq
      rcases List.mem_cons.mp hq with rfl | hq
      · exact .inl (Nat.le_refl _)
      · exact .inr ⟨q, hq, rfl⟩

theorem take_succ_flatten {cs : List Bytes} {k D : Nat} {c : Bytes} (h : cs[D]? = some c) (hk : k ≤ D) :
    ((cs.take (D + 1)).drop k).flatten = ((cs.take D).drop k).flatten ++ c := by
  have := (List.getElem?_eq_some_iff.mp h).1
  rw [List.take_add_one, h, List.drop_append_of_le_length (by rw [List.length_take]; omega)]
  simp

theorem Reading.advance {y : Prop} {b : Nat} {cs : List Bytes} {s : Socket} {D : Nat} (h : Reading y b cs s D) {p : Packet} {rest : List Packet}
    (hi : s.incoming = p :: rest) (hp : p.seqNr.toNat = b + D) (pend : Bytes) :
    Reading y b cs { s with incoming := rest, ackNr := p.seqNr, lastDropped := p.seqNr, pending := pend } (D + 1) := by
  obtain ⟨i, c, h1, h2, h3, h4⟩ := h.held p (by simp [hi])
  have hlt : D < cs.length := by
    have : i = D := by omega
    subst this
    exact (List.getElem?_eq_some_iff.mp h1).1
  have hs := h.sorted
  rw [hi] at hs
  have hs := List.pairwise_cons.mp hs
  refine ⟨h.state, hlt, .inl ?_, hs.2, ?_⟩
  · show p.seqNr.toNat + 1 = b + (D + 1)
    omega
  · intro q hq
    obtain ⟨j, c', g1, g2, g3, g4⟩ := h.held q (by rw [hi]; exact List.mem_cons_of_mem _ hq)
    have := hs.1 q hq
    exact ⟨j, c', g1, g2, g3, by omega⟩

/-- One flush of the buffers into the caller's buffer. -/
theorem flush_reading {y U : Prop} {b k : Nat} {cs : List Bytes} {w w' : World} {D : Nat} {B : Bytes} {len : Nat} {r : Res Bytes} (hb : 1 ≤ b) (hbN : b + cs.length ≤ 65535)
    (hne : ∀ c ∈ cs, c ≠ []) (hl : 0 < len) (h : Reading y b cs w.s D)
    (hm : Between y b cs.length w.s D ∨ Midway b w.s D ∨ Arrived b w.s D ∨ y ∧ Early b w.s D ∧ U) (hg : Progress k cs B w.s D)
    (he : flushIncoming E len w = (r, w')) (hr : r ≠ .panic) :
    ∃ out D', r = .ok out ∧ Reading y b cs w'.s D' ∧ (Between y b cs.length w'.s D' ∨ Midway b w'.s D' ∨ y ∧ Early b w'.s D' ∧ U) ∧
      Progress k cs (B ++ out) w'.s D' ∧
      (out = [] → w'.s.pending = [] ∧ Quiet1 w'.s) ∧ (¬ y → ∀ n, Tidy E b n w.s → Tidy E b n w'.s) ∧ w'.nNet = w.nNet ∧ w'.s.sendWindow = w.s.sendWindow ∧ w'.s.state = w.s.state ∧ w'.s.senderId = w.s.senderId ∧ w'.s.receiverId = w.s.receiverId := by
  by_cases hp : w.s.pending = []
  · -- from the head of the buffer
    unfold flushIncoming at he
    msimp at he
    rw [if_neg (by simp [hp])] at he
    rcases hi : w.s.incoming with _ | ⟨p, rest⟩
    · rw [hi] at he
      simp only [M.ret, Prod.mk.injEq] at he
      obtain ⟨rfl, rfl⟩ := he
      refine ⟨[], D, rfl, h, ?_, by simpa using hg, fun _ => ⟨hp, by simp [Quiet1, hi]⟩, fun _ _ h => h, rfl, rfl, rfl, rfl, rfl⟩
      rcases hm with hm | hm | hm | hm
      · exact .inl hm
      · exact absurd hp hm.1
      · obtain ⟨_, _, q, rest, h1, _⟩ := hm; simp [hi] at h1
      · exact .inr (.inr hm)
    · rw [hi] at he
      simp only at he
      unfold overflowIf at he
      msimp at he
      split at he
      · exact absurd (by simpa using (congrArg Prod.fst he).symm) hr
      · obtain ⟨i, c, g1, g2, g3, g4⟩ := h.held p (by simp [hi])
        have hiN := (List.getElem?_eq_some_iff.mp g1).1
        have hcne := hne c (List.mem_of_getElem? g1)
        split at he
        · -- delivered
          rename_i hd
          have hiD : i = D := by
            have hd' : w.s.ackNr.toNat = p.seqNr.toNat ∨ (w.s.ackNr.toNat + 1) % 65536 = p.seqNr.toNat := by
              rcases hd with hd | hd
              · left; rw [hd]
              · right; rw [← hd, BitVec.toNat_add]; rfl
            have := w.s.ackNr.isLt
            rcases hm with ⟨_, ⟨hm, _⟩ | ⟨hm, q, rest', hq, hq2⟩ | hm⟩ | hm | ⟨_, hm, q, rest', hq, hq2⟩ | ⟨_, hm, _⟩
            · omega
            · rw [hi] at hq; simp only [List.cons.injEq] at hq; rw [← hq.1] at hq2; omega
            · rw [hi] at hm; simp at hm
            · exact absurd hp hm.1
            · rw [hi] at hq; simp only [List.cons.injEq] at hq; rw [← hq.1] at hq2; omega
            · have h1 := hm.far p (by simp [hi])
              have h2 := hm.ack
              omega
          subst hiD
          rw [g3] at he
          msimp at he
          simp only [Prod.mk.injEq] at he
          obtain ⟨rfl, rfl⟩ := he
          have hki := hg.1
          have hB : B = ((cs.take i).drop k).flatten := by simpa [hp] using hg.2
          have hsuc := take_succ_flatten (k := k) g1 hki
          unfold Socket.takeHead
          split
          · rename_i hlen
            have hall : c.take len = c := List.take_of_length_le (by simp at hlen; omega)
            have hdr := h.dropped
            refine ⟨c.take len, i + 1, rfl, ?_, .inl ⟨?_, .inl ⟨?_, fun _ => by omega⟩⟩, ⟨by omega, ?_⟩, ?_, fun hy n ht => ht.advance h.sorted hi
              (by have := hdr.resolve_right fun h => hy h.1; omega) (by simp [World.setS, Socket.advanceIncoming, hi])
              (by simp [World.setS, Socket.advanceIncoming, hi]), rfl, ?_, ?_, ?_⟩
            · simp only [World.setS, Socket.advanceIncoming, hi]
              have := h.advance hi g2 w.s.pending
              simpa using this
            · simp [World.setS, Socket.advanceIncoming, hi, hp]
            · simp only [World.setS, Socket.advanceIncoming, hi]; omega
            · simp only [World.setS, Socket.advanceIncoming, hi, hp, hall, hB]
              simp [hsuc]
            · intro h0; rw [hall] at h0; exact absurd h0 hcne
            · simp [World.setS, Socket.advanceIncoming, hi]
            · simp [World.setS, Socket.advanceIncoming, hi]
            · simp [World.setS, Socket.advanceIncoming, hi]
          · rename_i hlen
            have hdne : c.drop len ≠ [] := by
              intro h; rw [List.drop_eq_nil_iff] at h; simp at hlen; omega
            refine ⟨c.take len, i, rfl, ⟨h.state, h.le, h.dropped, h.sorted, h.held⟩, .inr (.inl ⟨hdne, ?_, p, rest, hi, g2⟩), ⟨hki, ?_⟩, ?_,
              fun _ _ ht => ht.congr rfl rfl, rfl, rfl, rfl, rfl, rfl⟩
            · show w.s.ackNr.toNat + 1 = b + i ∨ w.s.ackNr.toNat = b + i
              have := w.s.ackNr.isLt
              rcases hd with hd | hd
              · right; rw [hd]; exact g2
              · left
                have : (w.s.ackNr.toNat + 1) % 65536 = p.seqNr.toNat := by rw [← hd, BitVec.toNat_add]; rfl
                omega
            · simp only [World.setS, hdne, if_false, hsuc, hB]
              simp [List.append_assoc]
            · intro h0
              rw [List.take_eq_nil_iff] at h0
              rcases h0 with h0 | h0
              · omega
              · exact absurd h0 hcne
        · -- not deliverable
          rename_i hd
          simp only [Prod.mk.injEq] at he
          obtain ⟨rfl, rfl⟩ := he
          refine ⟨[], D, rfl, h, ?_, by simpa using hg, fun _ => ⟨hp, fun q rest' hq => ?_⟩, fun _ _ h => h, rfl, rfl, rfl, rfl, rfl⟩
          rotate_left
          · rw [hi, List.cons.injEq] at hq
            rw [← hq.1]
            exact ⟨fun h => hd (.inl h), fun h => hd (.inr h)⟩
          rcases hm with hm | hm | ⟨_, hm, q, rest', hq, hq2⟩ | hm
          · exact .inl hm
          · exact absurd hp hm.1
          · rw [hi] at hq
            simp only [List.cons.injEq] at hq
            rw [← hq.1] at hq2
            exact absurd (.inl (BitVec.eq_of_toNat_eq (by omega))) hd
          · exact .inr (.inr hm)
  · -- the rest of a chunk
    obtain ⟨ha, p, rest, hi, hpq⟩ : (w.s.ackNr.toNat + 1 = b + D ∨ w.s.ackNr.toNat = b + D) ∧ ∃ p rest, w.s.incoming = p :: rest ∧ p.seqNr.toNat = b + D := by
      rcases hm with hm | hm | hm | hm
      · exact absurd hm.1 hp
      · exact hm.2
      · exact absurd hm.1 hp
      · exact absurd hm.2.1.pending hp
    have hki := hg.1
    have hB : B ++ w.s.pending = ((cs.take (D + 1)).drop k).flatten := by simpa [hp] using hg.2
    unfold flushIncoming at he
    msimp at he
    rw [if_pos hp] at he
    unfold Socket.takePending at he
    simp only at he
    split at he
    · rename_i hlen
      have hall : w.s.pending.take len = w.s.pending := List.take_of_length_le (by simp at hlen; omega)
      simp only [Prod.mk.injEq] at he
      obtain ⟨rfl, rfl⟩ := he
      have hdr := h.dropped
      refine ⟨_, D + 1, rfl, ?_, .inl ⟨?_, .inl ⟨?_, fun _ => by omega⟩⟩, ⟨by omega, ?_⟩, ?_, fun hy n ht => ht.advance h.sorted hi
        (by have := hdr.resolve_right fun h => hy h.1; omega) (by simp [World.setS, Socket.advanceIncoming, hi])
        (by simp [World.setS, Socket.advanceIncoming, hi]), rfl, ?_, ?_, ?_⟩
      · simp only [World.setS, Socket.advanceIncoming, hi]
        exact h.advance hi hpq []
      · simp [World.setS, Socket.advanceIncoming, hi]
      · simp only [World.setS, Socket.advanceIncoming, hi]; omega
      · simp [World.setS, Socket.advanceIncoming, hi, hall, hB]
      · intro h0; rw [hall] at h0; exact absurd h0 hp
      · simp [World.setS, Socket.advanceIncoming, hi]
      · simp [World.setS, Socket.advanceIncoming, hi]
      · simp [World.setS, Socket.advanceIncoming, hi]
    · rename_i hlen
      have hdne : w.s.pending.drop len ≠ [] := by
        intro h; rw [List.drop_eq_nil_iff] at h; simp at hlen; omega
      simp only [Prod.mk.injEq] at he
      obtain ⟨rfl, rfl⟩ := he
      refine ⟨_, D, rfl, ⟨h.state, h.le, h.dropped, h.sorted, h.held⟩, .inr (.inl ⟨hdne, ha, p, rest, hi, hpq⟩), ⟨hki, ?_⟩, ?_, fun _ _ ht => ht.congr rfl rfl,
        rfl, rfl, rfl, rfl, rfl⟩
      · simp only [World.setS, hdne, if_false, ← hB]
        simp [List.append_assoc]
      · intro h0
        rw [List.take_eq_nil_iff] at h0
        rcases h0 with h0 | h0
        · omega
        · exact absurd h0 hp

/-- Nothing that matters for reading changed. -/
theorem Reading.congr {y : Prop} {b : Nat} {cs : List Bytes} {s s' : Socket} {D : Nat} (h : Reading y b cs s D) (h1 : s'.incoming = s.incoming)
    (h2 : s'.lastDropped = s.lastDropped) (h4 : s'.ackNr = s.ackNr) (h3 : s'.state = .connected ∨ s'.state = .closed) : Reading y b cs s' D :=
  ⟨h3, h.le, by unfold Stale; rw [h2, h4, h1]; exact h.dropped, by rw [h1]; exact h.sorted, by rw [h1]; exact h.held⟩

/-- Between chunks, the number of the chunk returned last is known, if there is one. -/
theorem Reading.settled {y : Prop} {b : Nat} {cs : List Bytes} {s : Socket} {D : Nat} (h : Reading y b cs s D) (hm : Between y b cs.length s D) (hst : s.state = .connected) :
    s.lastDropped.toNat + 1 = b + D ∨ y ∧ D = 0 ∧ s.lastDropped.toNat < b := by
  rcases h.dropped with h | ⟨hy, h1, h2 | ⟨h2, h3, p, rest, h4, h5⟩⟩
  · exact .inl h
  · exact .inr ⟨hy, h2, h1⟩
  · exfalso
    rcases hm.2 with ⟨g, _⟩ | ⟨_, q, rest', g1, g2⟩ | ⟨_, g, _⟩
    · omega
    · rw [h4, List.cons.injEq] at g1
      rw [← g1.1] at g2
      omega
    · rw [hst] at g; simp at g

theorem Early.congr {b : Nat} {s s' : Socket} {D : Nat} (h : Early b s D) (h1 : s'.incoming = s.incoming)
    (h2 : s'.pending = s.pending) (h3 : s'.ackNr = s.ackNr) : Early b s' D :=
  ⟨h.zero, by rw [h2]; exact h.pending, by rw [h3]; exact h.ack, by rw [h1]; exact h.far⟩

theorem Between.congr {y : Prop} {b N : Nat} {s s' : Socket} {D : Nat} (h : Between y b N s D) (h1 : s'.incoming = s.incoming)
    (h2 : s'.pending = s.pending) (h3 : s'.ackNr = s.ackNr) (h4 : s'.state = s.state ∨ s'.state = .closed) : Between y b N s' D := by
  unfold Between Stuck at h ⊢
  rw [h1, h2, h3]
  refine ⟨h.1, ?_⟩
  rcases h.2 with h | h | ⟨h, h', hN⟩
  · exact .inl h
  · exact .inr (.inl h)
  · refine .inr (.inr ⟨h, ?_, hN⟩)
    rcases h4 with h4 | h4
    · rw [h4]; exact h'
    · exact h4

theorem head_insert {buf : List Packet} (h : Sorted buf) (p : Packet) {q : Packet} {rest : List Packet} (hb : buf = q :: rest) :
    ∃ q' rest', Socket.insertPkt buf p = q' :: rest' ∧ q'.seqNr.toNat ≤ q.seqNr.toNat := by
  rcases insertPkt_spec h p with ⟨_, e⟩ | ⟨a, c, e1, e2, e3, e4⟩
  · exact ⟨q, rest, by rw [e, hb], Nat.le_refl _⟩
  · rw [e4]
    cases a with
    | nil =>
      refine ⟨p, c, rfl, ?_⟩
      have := e3 q (by rw [List.nil_append] at e1; rw [← e1, hb]; simp)
      omega
    | cons x a =>
      refine ⟨x, a ++ p :: c, rfl, ?_⟩
      rw [hb, List.cons_append, List.cons.injEq] at e1
      rw [e1.1]
      exact Nat.le_refl _

/-- A data packet arrives. -/
theorem Reading.data {y : Prop} {b : Nat} {cs : List Bytes} {s : Socket} {D : Nat} (hb : 1 ≤ b) (hbN : b + cs.length ≤ 65535)
    (h : Reading y b cs s D) (hm : Between y b cs.length s D) (hst : s.state = .connected) {i : Nat} {c : Bytes} {p : Packet} (hc : cs[i]? = some c)
    (hp : DataPkt s (BitVec.ofNat 16 (b + i)) c p) {s1 : Socket} (e1 : s1.incoming = (s.bumpAck p).incoming)
    (e2 : s1.ackNr = (s.bumpAck p).ackNr) (e3 : s1.lastDropped = (s.bumpAck p).lastDropped) (e4 : s1.state = s.state)
    (e5 : s1.pending = s.pending) :
    Reading y b cs (s1.keep .data p) D ∧ (Between y b cs.length (s1.keep .data p) D ∨ Arrived b (s1.keep .data p) D) := by
  have hiN := (List.getElem?_eq_some_iff.mp hc).1
  have hseq : p.seqNr.toNat = b + i := by
    rw [hp.seq, BitVec.toNat_ofNat]; omega
  have e1 : s1.incoming = s.incoming := by rw [e1]; unfold Socket.bumpAck; split <;> rfl
  have e3 : s1.lastDropped = s.lastDropped := by rw [e3]; unfold Socket.bumpAck; split <;> rfl
  have hack : (s1.ackNr.toNat = b + i ∧ s.ackNr.toNat + 1 = b + i) ∨ (s1.ackNr = s.ackNr ∧ s.ackNr.toNat + 1 ≠ b + i) := by
    by_cases hbu : p.seqNr = s.ackNr + 1
    · left
      rw [e2, bumpAck_of_eq hbu]
      refine ⟨hseq, ?_⟩
      have := s.ackNr.isLt
      have h' : p.seqNr.toNat = (s.ackNr.toNat + 1) % 65536 := by rw [hbu, BitVec.toNat_add]; rfl
      omega
    · right
      rw [e2, bumpAck_of_ne hbu]
      refine ⟨rfl, fun h' => hbu (BitVec.eq_of_toNat_eq ?_)⟩
      rw [BitVec.toNat_add, hseq, ← h']
      have : (1 : U16).toNat = 1 := rfl
      rw [this]
      omega
  have hdr := h.settled hm hst
  have hpe : (s1.keep .data p).pending = s.pending := by unfold Socket.keep; split <;> exact e5
  have hak : (s1.keep .data p).ackNr = s1.ackNr := by unfold Socket.keep; split <;> rfl
  have hdk : (s1.keep .data p).lastDropped = s1.lastDropped := by unfold Socket.keep; split <;> rfl
  have hsk : (s1.keep .data p).state = s.state := by unfold Socket.keep; split <;> exact e4
  have hik : (i + 1 = D ∧ (s1.keep .data p).incoming = s.incoming) ∨ (i + 1 ≠ D ∧ (s1.keep .data p).incoming = Socket.insertPkt s.incoming p) := by
    unfold Socket.keep
    by_cases hd : i + 1 = D
    · left
      refine ⟨hd, ?_⟩
      rw [if_neg]
      · exact e1
      · rintro ⟨_, h'⟩
        have : p.seqNr = s1.lastDropped := by rw [e3]; exact BitVec.eq_of_toNat_eq (by omega)
        rw [this] at h'
        simp at h'
    · right
      refine ⟨hd, ?_⟩
      rw [if_pos]
      · simp [Socket.insertIntoBuffer, e1]
      · refine ⟨rfl, ?_⟩
        rw [e3, BitVec.toNat_sub]
        have := s.lastDropped.isLt
        omega
  obtain ⟨s2, hs2⟩ : ∃ s2, s2 = s1.keep .data p := ⟨_, rfl⟩
  rw [← hs2] at hpe hak hdk hsk hik ⊢
  have hread : Reading y b cs s2 D := by
    refine ⟨by rw [hsk]; exact h.state, h.le, by unfold Stale; rw [hdk, e3]; exact hdr.imp id fun h => ⟨h.1, h.2.2, .inl h.2.1⟩, ?_, ?_⟩
    · rcases hik with ⟨_, e⟩ | ⟨_, e⟩ <;> rw [e]
      · exact h.sorted
      · exact insertPkt_sorted h.sorted p
    · intro q hq
      rcases hik with ⟨_, e⟩ | ⟨hne, e⟩ <;> rw [e] at hq
      · exact h.held q hq
      · rcases mem_insertPkt hq with hq | rfl
        · exact h.held q hq
        · exact ⟨i, c, hc, hseq, hp.payload, hne⟩
  refine ⟨hread, ?_⟩
  obtain ⟨hpend, hm⟩ := hm
  -- an old packet in front
  have stuck : ∀ q rest, s.incoming = q :: rest → q.seqNr.toNat < b + D → b + D ≤ s.ackNr.toNat + 1 → Between y b cs.length s2 D := by
    intro q rest hq hlt hge
    refine ⟨by rw [hpe]; exact hpend, .inr (.inl ⟨?_, ?_⟩)⟩
    · rw [hak]
      rcases hack with ⟨h1, h2⟩ | ⟨h1, _⟩
      · omega
      · rw [h1]; exact hge
    · rcases hik with ⟨_, e⟩ | ⟨_, e⟩ <;> rw [e]
      · exact ⟨q, rest, hq, hlt⟩
      · obtain ⟨q', rest', h1, h2⟩ := head_insert h.sorted p hq
        exact ⟨q', rest', h1, by omega⟩
  rcases hm with ⟨hm, hyD⟩ | ⟨h1, q, rest, h2, h3⟩ | ⟨_, hcl, _⟩
  · by_cases hiD : i = D
    · subst hiD
      rcases hack with ⟨ha1, _⟩ | ⟨_, ha2⟩
      · by_cases hold : ∃ q ∈ s.incoming, q.seqNr.toNat < b + i
        · obtain ⟨q, hq, hlt⟩ := hold
          rcases hi : s.incoming with _ | ⟨x, rest⟩
          · simp [hi] at hq
          · refine .inl (stuck x rest hi ?_ (by omega))
            rw [hi] at hq
            rcases List.mem_cons.mp hq with rfl | hq
            · exact hlt
            · have hs := h.sorted
              rw [hi] at hs
              have := (List.pairwise_cons.mp hs).1 q hq
              omega
        · right
          refine ⟨by rw [hpe]; exact hpend, by rw [hak]; exact ha1, ?_⟩
          rcases hik with ⟨e', _⟩ | ⟨_, e⟩
          · omega
          · rw [e]
            rcases insertPkt_spec h.sorted p with ⟨⟨q, hq, hqe⟩, e'⟩ | ⟨a, cc, f1, f2, f3, f4⟩
            · rw [e']
              rcases hi : s.incoming with _ | ⟨x, rest⟩
              · simp [hi] at hq
              · refine ⟨x, rest, rfl, ?_⟩
                have hx : ¬ x.seqNr.toNat < b + i := fun hlt => hold ⟨x, by simp [hi], hlt⟩
                rw [hi] at hq
                rcases List.mem_cons.mp hq with rfl | hq
                · rw [hqe]; exact hseq
                · have hs := h.sorted
                  rw [hi] at hs
                  have := (List.pairwise_cons.mp hs).1 q hq
                  rw [hqe] at this
                  omega
            · have : a = [] := by
                cases a with
                | nil => rfl
                | cons x a =>
                  exact absurd ⟨x, by rw [f1]; simp, by have := f2 x (by simp); omega⟩ hold
              subst this
              exact ⟨p, cc, by rw [f4]; rfl, hseq⟩
      · exact absurd hm ha2
    · left
      refine ⟨by rw [hpe]; exact hpend, .inl ⟨?_, hyD⟩⟩
      rw [hak]
      rcases hack with ⟨_, h2⟩ | ⟨h1, _⟩
      · omega
      · rw [h1]; exact hm
  · exact .inl (stuck q rest h2 h3 h1)
  · rw [hst] at hcl; simp at hcl

/-- A data packet arrives at a client that has not returned anything yet. -/
theorem Early.data {y : Prop} {b : Nat} {cs : List Bytes} {s : Socket} {D : Nat} (hb : 1 ≤ b) (hbN : b + cs.length ≤ 65535) (hy : y)
    (h : Reading y b cs s D) (hm : Early b s D) {i : Nat} {c : Bytes} {p : Packet} (hc : cs[i]? = some c)
    (hp : DataPkt s (BitVec.ofNat 16 (b + i)) c p) {s1 : Socket} (e1 : s1.incoming = (s.bumpAck p).incoming)
    (e2 : s1.ackNr = (s.bumpAck p).ackNr) (e3 : s1.lastDropped = (s.bumpAck p).lastDropped) (e4 : s1.state = s.state)
    (e5 : s1.pending = s.pending) :
    (i = 0 ∧ Reading y b cs (s1.keep .data p) 0 ∧ Arrived b (s1.keep .data p) 0) ∨
      (i = 1 ∧ Reading y b cs (s1.keep .data p) 1 ∧ Arrived b (s1.keep .data p) 1) ∨
      (2 ≤ i ∧ Reading y b cs (s1.keep .data p) 0 ∧ Early b (s1.keep .data p) 0) := by
  obtain ⟨rfl, hpend, hackb, hfar⟩ := hm
  have hiN := (List.getElem?_eq_some_iff.mp hc).1
  have hseq : p.seqNr.toNat = b + i := by
    rw [hp.seq, BitVec.toNat_ofNat]; omega
  have e1 : s1.incoming = s.incoming := by rw [e1]; unfold Socket.bumpAck; split <;> rfl
  have e3 : s1.lastDropped = s.lastDropped := by rw [e3]; unfold Socket.bumpAck; split <;> rfl
  have hack : (s1.ackNr.toNat = b + i ∧ s.ackNr.toNat + 1 = b + i) ∨ (s1.ackNr = s.ackNr ∧ s.ackNr.toNat + 1 ≠ b + i) := by
    by_cases hbu : p.seqNr = s.ackNr + 1
    · left
      rw [e2, bumpAck_of_eq hbu]
      refine ⟨hseq, ?_⟩
      have := s.ackNr.isLt
      have h' : p.seqNr.toNat = (s.ackNr.toNat + 1) % 65536 := by rw [hbu, BitVec.toNat_add]; rfl
      omega
    · right
      rw [e2, bumpAck_of_ne hbu]
      refine ⟨rfl, fun h' => hbu (BitVec.eq_of_toNat_eq ?_)⟩
      rw [BitVec.toNat_add, hseq, ← h']
      have : (1 : U16).toNat = 1 := rfl
      rw [this]
      omega
  have hlow : s.lastDropped.toNat < b := by
    rcases h.dropped with h | ⟨_, h, _⟩ <;> omega
  have hpe : (s1.keep .data p).pending = s.pending := by unfold Socket.keep; split <;> exact e5
  have hak : (s1.keep .data p).ackNr = s1.ackNr := by unfold Socket.keep; split <;> rfl
  have hdk : (s1.keep .data p).lastDropped = s.lastDropped := by unfold Socket.keep; split <;> exact e3
  have hsk : (s1.keep .data p).state = s.state := by unfold Socket.keep; split <;> exact e4
  have hik : (s1.keep .data p).incoming = Socket.insertPkt s.incoming p := by
    unfold Socket.keep
    rw [if_pos]
    · simp [Socket.insertIntoBuffer, e1]
    · refine ⟨rfl, ?_⟩
      rw [e3, BitVec.toNat_sub]
      have := s.lastDropped.isLt
      omega
  obtain ⟨s2, hs2⟩ : ∃ s2, s2 = s1.keep .data p := ⟨_, rfl⟩
  rw [← hs2] at hpe hak hdk hsk hik ⊢
  have hsorted : Sorted s2.incoming := by rw [hik]; exact insertPkt_sorted h.sorted p
  have hheld : ∀ D, D ≤ 1 → ∀ q ∈ s2.incoming, (D = 1 → q.seqNr.toNat ≠ b) → ∃ i c, cs[i]? = some c ∧ q.seqNr.toNat = b + i ∧ q.payload = some c ∧ i + 1 ≠ D := by
    intro D hD q hq hne
    rw [hik] at hq
    rcases mem_insertPkt hq with hq | rfl
    · obtain ⟨j, c', g1, g2, g3, _⟩ := h.held q hq
      have := hfar q hq
      exact ⟨j, c', g1, g2, g3, by omega⟩
    · exact ⟨i, c, hc, hseq, hp.payload, by rintro rfl; obtain rfl : i = 0 := by omega
                                            exact hne rfl (by omega)⟩
  have hhead : i < 2 → ∃ rest, s2.incoming = p :: rest := by
    intro hi2
    rw [hik]
    rcases insertPkt_spec h.sorted p with ⟨⟨q, hq, hqe⟩, _⟩ | ⟨a, cc, f1, f2, f3, f4⟩
    · have := hfar q hq
      rw [hqe] at this
      omega
    · have : a = [] := by
        cases a with
        | nil => rfl
        | cons x a =>
          have g1 := hfar x (by rw [f1]; simp)
          have g2 := f2 x (by simp)
          omega
      subst this
      exact ⟨cc, by rw [f4]; rfl⟩
  have hst2 : s2.state = .connected ∨ s2.state = .closed := by rw [hsk]; exact h.state
  rcases Nat.lt_or_ge i 2 with hi2 | hi2
  · obtain ⟨rest, hr⟩ := hhead hi2
    rcases (by omega : i = 0 ∨ i = 1) with rfl | rfl
    · refine .inl ⟨rfl, ⟨hst2, Nat.zero_le _, .inr ⟨hy, by rw [hdk]; exact hlow, .inl rfl⟩, hsorted, fun q hq => hheld 0 (by omega) q hq (by simp)⟩, by rw [hpe]; exact hpend, ?_, p, rest, hr, hseq⟩
      rw [hak]
      rcases hack with ⟨_, _⟩ | ⟨h1, _⟩
      · omega
      · rw [h1]; exact hackb
    · have ha : s2.ackNr.toNat = b + 1 := by
        rw [hak]
        rcases hack with ⟨h1, _⟩ | ⟨_, h2⟩
        · exact h1
        · omega
      refine .inr (.inl ⟨rfl, ⟨hst2, by omega, .inr ⟨hy, by rw [hdk]; exact hlow, .inr ⟨rfl, ha, p, rest, hr, hseq⟩⟩, hsorted, fun q hq => hheld 1 (by omega) q hq fun _ => ?_⟩,
        by rw [hpe]; exact hpend, ha, p, rest, hr, hseq⟩)
      rw [hr] at hq hsorted
      rcases List.mem_cons.mp hq with rfl | hq
      · omega
      · have := (List.pairwise_cons.mp hsorted).1 q hq
        omega
  · refine .inr (.inr ⟨hi2, ⟨hst2, Nat.zero_le _, .inr ⟨hy, by rw [hdk]; exact hlow, .inl rfl⟩, hsorted, fun q hq => hheld 0 (by omega) q hq (by simp)⟩, rfl, by rw [hpe]; exact hpend, ?_, ?_⟩)
    · rw [hak]
      rcases hack with ⟨_, _⟩ | ⟨h1, _⟩
      · omega
      · rw [h1]; exact hackb
    · intro q hq
      rw [hik] at hq
      rcases mem_insertPkt hq with hq | rfl
      · exact hfar q hq
      · omega

/-- A FIN arrives. -/
theorem Reading.fin {y : Prop} {b : Nat} {cs : List Bytes} {s : Socket} {D : Nat} (hb : 1 ≤ b) (hbN : b + cs.length ≤ 65535)
    (h : Reading y b cs s D) (hm : Between y b cs.length s D) (hst : s.state = .connected) {p : Packet} (hp : p.seqNr = BitVec.ofNat 16 (b + cs.length))
    {s1 : Socket} (e1 : s1.incoming = (s.bumpAck p).incoming)
    (e2 : s1.ackNr = (s.bumpAck p).ackNr) (e3 : s1.lastDropped = (s.bumpAck p).lastDropped) (e4 : s1.state = .closed)
    (e5 : s1.pending = s.pending) : Reading y b cs s1 D ∧ Between y b cs.length s1 D := by
  have e1 : s1.incoming = s.incoming := by rw [e1]; unfold Socket.bumpAck; split <;> rfl
  have e3 : s1.lastDropped = s.lastDropped := by rw [e3]; unfold Socket.bumpAck; split <;> rfl
  have hseq : p.seqNr.toNat = b + cs.length := by
    rw [hp, BitVec.toNat_ofNat]; omega
  refine ⟨⟨.inr e4, h.le, by unfold Stale; rw [e3]; exact (h.settled hm hst).imp id fun h => ⟨h.1, h.2.2, .inl h.2.1⟩, by rw [e1]; exact h.sorted, by rw [e1]; exact h.held⟩,
    by rw [e5]; exact hm.1, ?_⟩
  have hack : (s1.ackNr.toNat = b + cs.length ∧ s.ackNr.toNat + 1 = b + cs.length) ∨ s1.ackNr = s.ackNr := by
    by_cases hbu : p.seqNr = s.ackNr + 1
    · left
      rw [e2, bumpAck_of_eq hbu]
      refine ⟨hseq, ?_⟩
      have := s.ackNr.isLt
      have h' : p.seqNr.toNat = (s.ackNr.toNat + 1) % 65536 := by rw [hbu, BitVec.toNat_add]; rfl
      omega
    · exact .inr (by rw [e2, bumpAck_of_ne hbu])
  unfold Stuck
  rw [e1, e4]
  rcases hm.2 with ⟨hm', hyD⟩ | ⟨h1, h2⟩ | ⟨_, hcl, _⟩
  · rcases hack with ⟨h1, h2⟩ | h1
    · rcases hi : s.incoming with _ | ⟨q, rest⟩
      · exact .inr (.inr ⟨rfl, rfl, .inl (by omega)⟩)
      · refine .inr (.inl ⟨by omega, q, rest, rfl, ?_⟩)
        obtain ⟨i, c, g1, g2, _, _⟩ := h.held q (by simp [hi])
        have := (List.getElem?_eq_some_iff.mp g1).1
        omega
    · exact .inl ⟨by rw [h1]; exact hm', hyD⟩
  · refine .inr (.inl ⟨?_, h2⟩)
    rcases hack with ⟨_, _⟩ | h1'
    · omega
    · rw [h1']; exact h1
  · rw [hst] at hcl; simp at hcl

/-- A FIN arrives at a client that has not returned anything yet. -/
theorem Early.fin {y : Prop} {b : Nat} {cs : List Bytes} {s : Socket} {D : Nat} (hb : 1 ≤ b) (hbN : b + cs.length ≤ 65535) (hy : y)
    (h : Reading y b cs s D) (hm : Early b s D) {p : Packet} (hp : p.seqNr = BitVec.ofNat 16 (b + cs.length))
    {s1 : Socket} (e1 : s1.incoming = (s.bumpAck p).incoming)
    (e2 : s1.ackNr = (s.bumpAck p).ackNr) (e3 : s1.lastDropped = (s.bumpAck p).lastDropped) (e4 : s1.state = .closed)
    (e5 : s1.pending = s.pending) : Reading y b cs s1 D ∧ (Between y b cs.length s1 D ∨ Early b s1 D) := by
  have e1 : s1.incoming = s.incoming := by rw [e1]; unfold Socket.bumpAck; split <;> rfl
  have e3 : s1.lastDropped = s.lastDropped := by rw [e3]; unfold Socket.bumpAck; split <;> rfl
  have hseq : p.seqNr.toNat = b + cs.length := by
    rw [hp, BitVec.toNat_ofNat]; omega
  obtain ⟨rfl, hpend, hackb, hfar⟩ := hm
  have hlow : s.lastDropped.toNat < b := by
    rcases h.dropped with h | ⟨_, h, _⟩ <;> omega
  have hack : (s1.ackNr.toNat = b + cs.length ∧ s.ackNr.toNat + 1 = b + cs.length) ∨ s1.ackNr = s.ackNr := by
    by_cases hbu : p.seqNr = s.ackNr + 1
    · left
      rw [e2, bumpAck_of_eq hbu]
      refine ⟨hseq, ?_⟩
      have := s.ackNr.isLt
      have h' : p.seqNr.toNat = (s.ackNr.toNat + 1) % 65536 := by rw [hbu, BitVec.toNat_add]; rfl
      omega
    · exact .inr (by rw [e2, bumpAck_of_ne hbu])
  refine ⟨⟨.inr e4, h.le, .inr ⟨hy, by rw [e3]; exact hlow, .inl rfl⟩, by rw [e1]; exact h.sorted, by rw [e1]; exact h.held⟩, ?_⟩
  rcases hack with ⟨h1, h2⟩ | h1
  · left
    refine ⟨by rw [e5]; exact hpend, .inr (.inr ⟨?_, e4, .inr ⟨hy, rfl⟩⟩)⟩
    rw [e1]
    rcases hi : s.incoming with _ | ⟨q, rest⟩
    · rfl
    · obtain ⟨i, c, g1, g2, _, _⟩ := h.held q (by simp [hi])
      have := (List.getElem?_eq_some_iff.mp g1).1
      have := hfar q (by simp [hi])
      omega
  · exact .inr ⟨rfl, by rw [e5]; exact hpend, by rw [h1]; exact hackb, by rw [e1]; exact hfar⟩

/-- A repeated SYN changes nothing. -/
theorem Between.syn {y : Prop} {b N : Nat} {s : Socket} {D : Nat} (hm : Between y b N s D)
    (hst : s.state = .connected) {p : Packet} (hp : p.seqNr.toNat + 1 = b) (h0 : p.seqNr ≠ 0) : s.bumpAck p = s := by
  refine bumpAck_of_ne fun e => ?_
  have h0' : p.seqNr.toNat ≠ 0 := fun h => h0 (BitVec.eq_of_toNat_eq h)
  have h' : p.seqNr.toNat = (s.ackNr.toNat + 1) % 65536 := by rw [e, BitVec.toNat_add]; rfl
  have := s.ackNr.isLt
  rcases hm.2 with ⟨hm', _⟩ | ⟨h1, h2⟩ | ⟨_, hcl, _⟩
  · omega
  · omega
  · rw [hst] at hcl; simp at hcl

theorem Early.bump {b : Nat} {s : Socket} {D : Nat} (hm : Early b s D) {p : Packet} (hp : p.seqNr.toNat ≤ b) (h0 : p.seqNr ≠ 0) : s.bumpAck p = s := by
  refine bumpAck_of_ne fun e => ?_
  have h0' : p.seqNr.toNat ≠ 0 := fun h => h0 (BitVec.eq_of_toNat_eq h)
  have h' : p.seqNr.toNat = (s.ackNr.toNat + 1) % 65536 := by rw [e, BitVec.toNat_add]; rfl
  have := s.ackNr.isLt
  have := hm.ack
  omega

/-- The answer to its SYN changes nothing for a client. -/
theorem Between.reply {y : Prop} {b : Nat} {cs : List Bytes} {s : Socket} {D : Nat} (hb : 1 ≤ b) (hy : y) (h : Reading y b cs s D) (hm : Between y b cs.length s D)
    (hst : s.state = .connected) {p : Packet} (hp : p.seqNr.toNat = b) : s.bumpAck p = s := by
  refine bumpAck_of_ne fun e => ?_
  have h' : p.seqNr.toNat = (s.ackNr.toNat + 1) % 65536 := by rw [e, BitVec.toNat_add]; rfl
  have := s.ackNr.isLt
  rcases hm.2 with ⟨hm', hD⟩ | ⟨h1, q, rest, h2, h3⟩ | ⟨_, hcl, _⟩
  · have := hD hy
    omega
  · obtain ⟨i, c, _, g, _⟩ := h.held q (by simp [h2])
    omega
  · rw [hst] at hcl; simp at hcl

/-- While waiting, only the last event may be a datagram, which is then returned. -/
theorem recvWait_none : ∀ fuel retries (w : World) k d src, w.nNet ≤ k → k < (recvWait E fuel retries w).2.nNet → E.net k = .dgram d src →
    k + 1 = (recvWait E fuel retries w).2.nNet ∧ ∃ x, (recvWait E fuel retries w).1 = .ok x := by
  intro fuel
  induction fuel with
  | zero =>
    intro retries w k d src h1 h2
    simp only [recvWait, M.never] at h2
    omega
  | succ n ih =>
    intro retries w k d src h1 h2 hk
    unfold recvWait at h2 ⊢
    msimp at h2 ⊢
    split at h2
    · rename_i hge
      simp only [World.setS] at h2
      omega
    · rename_i hlt
      rw [if_neg hlt]
      rcases hn : E.net w.nNet with ⟨b, src'⟩ | e | _
      case never =>
        rw [andThen_pending (udpRecv_never hn _ _)] at h2 ⊢
        simp only at h2
        obtain rfl : k = w.nNet := by simp only [World.waited] at h2; omega
        rw [hn] at hk; simp at hk
      case dgram =>
        rw [andThen_eq (udpRecv_dgram hn _ _)] at h2 ⊢
        simp only at h2 ⊢
        msimp at h2 ⊢
        exact ⟨by simp only [World.waited] at h2 ⊢; omega, _, rfl⟩
      case fail =>
        have hne : k ≠ w.nNet := by rintro rfl; rw [hn] at hk; simp at hk
        rw [andThen_eq (udpRecv_fail hn _ _)] at h2 ⊢
        simp only at h2 ⊢
        msimp at h2 ⊢
        split at h2
        · rename_i hto
          rw [if_pos hto]
          obtain ⟨w1, hw1⟩ : ∃ w1, w1 = w.waited (if w.s.state ≠ .new then some w.s.congTimeout else none) := ⟨_, rfl⟩
          rw [← hw1] at h2 ⊢
          have hw1n : w1.nNet = w.nNet + 1 := by rw [hw1]; rfl
          have hf := (handleReceiveTimeout_frame (E := E) w1).1.1
          rcases hh : handleReceiveTimeout E w1 with ⟨r, w2⟩
          rw [hh] at hf
          simp only at hf
          cases r with
          | ok _ =>
            rw [andThen_eq hh] at h2 ⊢
            exact ih (retries + 1) w2 k d src (by omega) h2 hk
          | err e => rw [andThen_err hh] at h2; simp only at h2; omega
          | pending => rw [andThen_pending hh] at h2; simp only at h2; omega
          | panic => rw [andThen_eq_panic hh] at h2; simp only at h2; omega
        · simp only [World.waited] at h2
          omega

/-- If the connection is closed then a FIN has arrived. -/
def Ceased (E : Env) (n : Nat) (s : Socket) : Prop :=
  s.state = .closed → ∃ k d src p, k < n ∧ E.net k = .dgram d src ∧ Packet.tryFrom (d.take 1520) = some (.ok p) ∧ p.getType = some .fin

/-- A data packet is put into the buffer. -/
theorem Tidy.keep {b n : Nat} {s : Socket} (hno : NoLate E) (hb : 1 ≤ b) (hs : Sorted s.incoming) (h : Tidy E b n s) {p : Packet} (hp : DataAt E n p.seqNr.toNat)
    (hlo : b ≤ p.seqNr.toNat) : Tidy E b (n + 1) (s.keep .data p) := by
  have hge : s.lastDropped.toNat ≤ p.seqNr.toNat := by
    by_cases hlt : s.lastDropped.toNat ≤ p.seqNr.toNat
    · exact hlt
    · obtain ⟨k, k1, k2⟩ := h.come _ hlo (by omega)
      obtain ⟨m, m1, m2⟩ := h.come s.lastDropped.toNat (by omega) (Nat.le_refl _)
      exact hno k n m _ _ k1 m1 k2 hp m2
  have hold : ∀ j k, k < n + 1 → DataAt E k j → j = p.seqNr.toNat ∨ j ≤ s.lastDropped.toNat ∨ ∃ q ∈ s.incoming, q.seqNr.toNat = j := by
    intro j k hk hd
    by_cases hkn : k < n
    · exact .inr (h.kept j k hkn hd)
    · obtain rfl : k = n := by omega
      obtain ⟨d, src, q, h1, h2, h3, h4⟩ := hd
      obtain ⟨d', src', q', g1, g2, g3, g4⟩ := hp
      rw [h1] at g1
      cases g1
      rw [h2] at g2
      cases g2
      exact .inl (h4.symm.trans g4)
  unfold Socket.keep
  by_cases hd : p.seqNr = s.lastDropped
  · rw [if_neg (by rw [hd]; simp)]
    refine ⟨h.clean, fun j h1 h2 => ?_, fun q hq => ?_, fun j k hk hd' => ?_⟩
    · obtain ⟨k, k1, k2⟩ := h.come j h1 h2
      exact ⟨k, by omega, k2⟩
    · obtain ⟨k, k1, k2⟩ := h.held q hq
      exact ⟨k, by omega, k2⟩
    · rcases hold j k hk hd' with rfl | g
      · left; rw [hd]; exact Nat.le_refl _
      · exact g
  · have hlt : s.lastDropped.toNat < p.seqNr.toNat := by
      have : s.lastDropped.toNat ≠ p.seqNr.toNat := fun e => hd (BitVec.eq_of_toNat_eq e.symm)
      omega
    have hmem : ∀ q, q ∈ Socket.insertPkt s.incoming p → q ∈ s.incoming ∨ q = p := fun q hq => mem_insertPkt hq
    rw [if_pos ⟨rfl, by rw [BitVec.toNat_sub]; have := s.lastDropped.isLt; have := p.seqNr.isLt; omega⟩]
    refine ⟨fun q hq => ?_, fun j h1 h2 => ?_, fun q hq => ?_, fun j k hk hd' => ?_⟩
    · rcases hmem q hq with hq | rfl
      · exact h.clean q hq
      · exact hlt
    · obtain ⟨k, k1, k2⟩ := h.come j h1 h2
      exact ⟨k, by omega, k2⟩
    · rcases hmem q hq with hq | rfl
      · obtain ⟨k, k1, k2⟩ := h.held q hq
        exact ⟨k, by omega, k2⟩
      · exact ⟨n, by omega, hp⟩
    · show j ≤ s.lastDropped.toNat ∨ ∃ q ∈ Socket.insertPkt s.incoming p, _
      have hin : ∀ q ∈ s.incoming, q ∈ Socket.insertPkt s.incoming p := by
        intro q hq
        rcases insertPkt_spec hs p with ⟨_, e⟩ | ⟨a, c, e1, _, _, e4⟩
        · rw [e]; exact hq
        · rw [e1] at hq
          rw [e4]
          simp only [List.mem_append, List.mem_cons] at hq ⊢
          exact hq.imp id .inr
      rcases hold j k hk hd' with rfl | g | ⟨q, hq, e⟩
      · right
        rcases insertPkt_spec hs p with ⟨⟨q, hq, hqe⟩, e⟩ | ⟨a, c, e1, _, _, e4⟩
        · exact ⟨q, by rw [e]; exact hq, by rw [hqe]⟩
        · exact ⟨p, by rw [e4]; simp, rfl⟩
      · exact .inl g
      · exact .inr ⟨q, hin q hq, e⟩

/-- What is assumed about the reader: `T`, the buffer stays tidy; `y`, it is a client, whose `connect` returned after `n0` events of the network. -/
structure Mode where
  T : Prop
  y : Prop
  n0 : Nat

theorem Skipped.later {b n0 n m : Nat} (h : Skipped E b n0 n) (hn : n ≤ m) : Skipped E b n0 m := by
  obtain ⟨j, h1, h2, h3⟩ := h
  exact ⟨j, h1, by omega, h3⟩

theorem Unseen.later {b n0 n m : Nat} (h : Unseen E b n0 n) (hno : ∀ k, n ≤ k → k < m → ¬ DataAt E k b) : Unseen E b n0 m := by
  intro l h1 h2
  by_cases hl : l < n
  · exact h l h1 hl
  · exact hno l (by omega) h2

/-- The packets that come from the network: those of the peer and, for a client, the answer to its SYN. -/
def FromNet (E : Env) (m : Mode) (s : Socket) (b : Nat) (cs : List Bytes) : Prop :=
  ∀ n d src p, E.net n = .dgram d src → Packet.tryFrom (d.take 1520) = some (.ok p) → FromPeer s b cs p ∨ m.y ∧ SynAnswer s b p

theorem PeerNet.fromNet {m : Mode} {s : Socket} {b : Nat} {cs : List Bytes} (h : PeerNet E s b cs) : FromNet E m s b cs :=
  fun n d src p h1 h2 => .inl (h n d src p h1 h2)

/-- A call that made progress. -/
structure Advanced (E : Env) (m : Mode) (b : Nat) (cs : List Bytes) (s0 : Socket) (w : World) (B : Bytes) : Prop where
  tidy : m.T → Tidy E b w.nNet w.s
  win : m.y → w.s.sendWindow = [] ∧ m.n0 ≤ w.nNet
  ids : w.s.senderId = s0.senderId ∧ w.s.receiverId = s0.receiverId
  at_ : ∃ D k, Reading m.y b cs w.s D ∧ Progress k cs B w.s D ∧ (k = 0 ∨ m.y ∧ k = 1 ∧ Skipped E b m.n0 w.nNet) ∧
    (Between m.y b cs.length w.s D ∨ Midway b w.s D ∨ m.y ∧ Early b w.s D ∧ Unseen E b m.n0 w.nNet)

/-- The bytes of a result. -/
def outOf : Res (Bytes × Addr) → Bytes
  | .ok (b, _) => b
  | _ => []

theorem recv_reading {b : Nat} {cs : List Bytes} {s0 : Socket} {w w' : World} {B : Bytes} {fuel len : Nat} {r : Res (Bytes × Addr)} (hb : 1 ≤ b)
    (hbN : b + cs.length ≤ 65535) (hne : ∀ c ∈ cs, c ≠ []) {m : Mode} (hT : m.T → NoLate E ∧ ¬ m.y) (hok : ∀ n, E.snd n = .ok) (hnet : FromNet E m s0 b cs) (hl : 0 < len)
    (h : Advanced E m b cs s0 w B) (hp : w.s.pending = []) (hq : Quiet1 w.s) (hst : w.s.state = .connected)
    (he : recv E fuel len w = (r, w')) (hr : r ≠ .panic) :
    Advanced E m b cs s0 w' (B ++ outOf r) ∧ (outOf r = [] → w'.s.pending = []) ∧ (∀ src, r = .ok ([], src) → Quiet1 w'.s) ∧
      ((∀ e, r ≠ .err e) → Ceased E w'.nNet w'.s) := by
  cases fuel with
  | zero =>
    simp only [recv, M.never, Prod.mk.injEq] at he
    obtain ⟨rfl, rfl⟩ := he
    exact ⟨by simpa [outOf] using h, fun _ => hp, by simp, fun _ h => by rw [hst] at h; simp at h⟩
  | succ f =>
    obtain ⟨htidy, hwin, hids, D, k, hR, hP, hS, hB⟩ := h
    have hB : Between m.y b cs.length w.s D ∨ m.y ∧ Early b w.s D ∧ Unseen E b m.n0 w.nNet := hB.imp id fun h => h.resolve_left fun h => h.1 hp
    have hsil := recvWait_none (E := E) f 0 w
    have hf := recvWait_frame (E := E) f 0 w
    unfold recv recvBody at he
    rw [bind_def] at he
    rcases hw : recvWait E f 0 w with ⟨r1, w1⟩
    rw [hw] at hf hsil
    simp only at hsil
    obtain ⟨⟨sw, ct, cw, st, f1, f2, f3, f4⟩, _, f5, f6, _⟩ := hf
    simp only at f5
    have hwin1 : m.y → w1.s.sendWindow = [] ∧ m.n0 ≤ w1.nNet := by
      intro hy
      obtain ⟨h1, h2⟩ := hwin hy
      refine ⟨?_, by omega⟩
      rw [f1]
      exact f2 h1
    have hend1 : (∀ e, r1 ≠ .err e) → w1.s.state ≠ .closed := by
      intro hr1 hcl
      rw [f1] at hcl
      by_cases hh : st = w.s.state
      · simp only at hcl; rw [hh, hst] at hcl; simp at hcl
      · exact hr1 _ (f4 hh).2
    have hst1 : w1.s.state = .connected ∨ w1.s.state = .closed := by
      rw [f1]
      by_cases hh : st = w.s.state
      · left; rw [← hst, ← hh]
      · right; exact (f4 hh).1
    have hR1 : Reading m.y b cs w1.s D := hR.congr (by rw [f1]) (by rw [f1]) (by rw [f1]) hst1
    have hB1 : Between m.y b cs.length w1.s D ∨ m.y ∧ Early b w1.s D ∧ Unseen E b m.n0 w.nNet := by
      rcases hB with hB | ⟨hy, hB, hU⟩
      · refine .inl (hB.congr (by rw [f1]) (by rw [f1]) (by rw [f1]) ?_)
        rcases hst1 with h | h
        · left; rw [h, hst]
        · right; exact h
      · exact .inr ⟨hy, hB.congr (by rw [f1]) (by rw [f1]) (by rw [f1]), hU⟩
    have hp1 : w1.s.pending = [] := by rw [f1]; exact hp
    have hi1 : w1.s.senderId = s0.senderId ∧ w1.s.receiverId = s0.receiverId := by rw [f1]; exact hids
    have hP1 : Progress k cs B w1.s D := by unfold Progress at hP ⊢; rw [f1]; exact hP
    -- no data packet so far
    have still : (∀ j x, w.nNet ≤ j → j < w1.nNet → ¬ DataAt E j x) → Advanced E m b cs s0 w1 B := fun hno =>
      ⟨fun hT' => ((htidy hT').later f5 hno).congr (by rw [f1]) (by rw [f1]), hwin1, hi1, D, k, hR1, hP1, hS.imp id fun h => ⟨h.1, h.2.1, h.2.2.later f5⟩,
        hB1.imp id fun h => .inr ⟨h.1, h.2.1, h.2.2.later fun j => hno j b⟩⟩
    have none1 : (∀ x, r1 ≠ .ok x) → Advanced E m b cs s0 w1 B := by
      refine fun hr1 => still ?_
      rintro j x hk1 hk2 ⟨d, src, p, hj, _⟩
      obtain ⟨_, y, hy⟩ := hsil j d src hk1 hk2 hj
      exact hr1 y hy
    cases r1 with
    | err e =>
      rw [andThen_err hw] at he
      simp only [Prod.mk.injEq] at he
      obtain ⟨rfl, rfl⟩ := he
      exact ⟨by simpa [outOf] using none1 (by simp), fun _ => hp1, by simp, fun h => absurd rfl (h e)⟩
    | pending =>
      rw [andThen_pending hw] at he
      simp only [Prod.mk.injEq] at he
      obtain ⟨rfl, rfl⟩ := he
      exact ⟨by simpa [outOf] using none1 (by simp), fun _ => hp1, by simp, fun _ h => absurd h (hend1 (by simp))⟩
    | panic =>
      rw [andThen_eq_panic hw] at he
      exact absurd (congrArg Prod.fst he).symm hr
    | ok x =>
      obtain ⟨bs, a⟩ := x
      rw [andThen_eq hw] at he
      simp only at he
      have hst1 : w1.s.state = .connected := by
        rw [f1]
        by_cases hh : st = w.s.state
        · rw [← hst, ← hh]
        · have := (f4 hh).2; simp at this
      obtain ⟨g, d, hk, hkw, hkn, hkd⟩ := f6 _ rfl
      simp only at hkd hkn hk
      have honly : ∀ j d' src, w.nNet ≤ j → j < w1.nNet → E.net j = .dgram d' src → j = g ∧ d' = d ∧ src = a := by
        intro j d' src hk1 hk2 hj
        obtain ⟨g1, _⟩ := hsil j d' src hk1 hk2 hj
        obtain rfl : j = g := by omega
        rw [hkn] at hj
        cases hj
        exact ⟨rfl, rfl, rfl⟩
      rcases htf : Packet.tryFrom bs with _ | y
      · rw [htf] at he
        msimp at he
        exact absurd (congrArg Prod.fst he).symm hr
      · rw [htf] at he
        msimp at he
        cases y with
        | error e =>
          simp only at he
          msimp at he
          simp only [Prod.mk.injEq] at he
          obtain ⟨rfl, rfl⟩ := he
          refine ⟨?_, fun _ => hp1, fun _ _ => by rw [f1]; exact hq, fun _ h => absurd h (hend1 (by simp))⟩
          simp only [outOf, List.append_nil]
          refine still ?_
          rintro j x hk1 hk2 ⟨d', src, p, hj, hj2, _⟩
          obtain ⟨rfl, rfl, rfl⟩ := honly j d' src hk1 hk2 hj
          rw [← hkd, htf] at hj2
          simp at hj2
        | ok pkt =>
          simp only at he
          rw [hkd] at htf
          have hfp := hnet g d a pkt hkn htf
          have hbefore : ∀ j x, w.nNet ≤ j → j < g → ¬ DataAt E j x := by
            rintro j x hk1 hk2 ⟨d', src, p, hj, _⟩
            obtain ⟨rfl, _⟩ := honly j d' src hk1 (by omega) hj
            omega
          -- the arrival
          have took : ∀ ty, pkt.getType = some ty → (ty = .syn ∨ pkt.connectionId = s0.senderId ∨ pkt.connectionId = s0.receiverId) →
              (ty = .data ∨ ty = .fin ∨ ty = .syn ∨ ty = .state ∧ w1.s.sendWindow = []) →
              ∃ v : World, M.andThen (flushIncoming E len) (fun out => M.ret (out, a)) (v.setS (v.s.keep ty pkt)) = (r, w') ∧ Took w1 v pkt ty := by
            intro ty hty hid hdf
            have hid1 : w1.s.takes pkt ty := hid.imp id fun hid => .inr (by rw [hi1.1, hi1.2]; exact hid)
            rcases recvPacket_taken hst1 hty hid1 hdf hok f len (recv E f BUF_SIZE) a with h | ⟨v, h1, h2⟩
            · rw [he] at h; exact absurd h hr
            · rw [h1] at he
              exact ⟨v, he, h2⟩
          -- reading from the buffer
          have fin : ∀ (v : World) (ty : PacketType) (s2 : Socket) (D k : Nat), Took w1 v pkt ty → s2 = v.s.keep ty pkt →
              Reading m.y b cs s2 D → Progress k cs B s2 D → (k = 0 ∨ m.y ∧ k = 1 ∧ Skipped E b m.n0 w1.nNet) →
              (Between m.y b cs.length s2 D ∨ Midway b s2 D ∨ Arrived b s2 D ∨ m.y ∧ Early b s2 D ∧ Unseen E b m.n0 w1.nNet) →
              (m.T → Tidy E b w1.nNet s2) → Ceased E w1.nNet s2 →
              M.andThen (flushIncoming E len) (fun out => M.ret (out, a)) (v.setS s2) = (r, w') →
              Advanced E m b cs s0 w' (B ++ outOf r) ∧ (outOf r = [] → w'.s.pending = []) ∧ (∀ src, r = .ok ([], src) → Quiet1 w'.s) ∧
                ((∀ e, r ≠ .err e) → Ceased E w'.nNet w'.s) := by
            intro v ty s2 D k hv hs2 hR2 hP2 hS2 hB2 ht2 hen2 he2
            rcases hfl : flushIncoming E len (v.setS s2) with ⟨r3, w3⟩
            have hr3 : r3 ≠ .panic := by
              rintro rfl
              rw [andThen_eq_panic hfl] at he2
              exact hr (congrArg Prod.fst he2).symm
            have hkeep : s2.senderId = v.s.senderId ∧ s2.receiverId = v.s.receiverId ∧ s2.sendWindow = v.s.sendWindow := by
              rw [hs2]; unfold Socket.keep; split <;> exact ⟨rfl, rfl, rfl⟩
            obtain ⟨out, D', rfl, g1, g2, g3, g4, gt, gn, gw, g5, g6, g7⟩ := flush_reading hb hbN hne hl (w := v.setS s2) hR2 hB2 hP2 hfl hr3
            have gn : w3.nNet = w1.nNet := gn.trans hv.net
            rw [andThen_eq hfl] at he2
            simp only [M.ret, Prod.mk.injEq] at he2
            obtain ⟨rfl, rfl⟩ := he2
            refine ⟨⟨fun hno => ?_, fun hy => ?_, ⟨?_, ?_⟩, D', k, g1, g3, by rw [gn]; exact hS2, ?_⟩, fun h => (g4 h).1, fun src h => ?_, fun _ h => ?_⟩
            · rw [gn]; exact gt (hT hno).2 _ (ht2 hno)
            · rw [gn, gw]
              exact ⟨by rw [setS_s, hkeep.2.2, hv.window]; exact (hwin1 hy).1, (hwin1 hy).2⟩
            · rw [g6, setS_s, hkeep.1, hv.ids.1]; exact hi1.1
            · rw [g7, setS_s, hkeep.2.1, hv.ids.2]; exact hi1.2
            · rw [gn]; exact g2
            · simp only [Res.ok.injEq, Prod.mk.injEq] at h
              exact (g4 h.1).2
            · rw [gn]; exact hen2 (g5 ▸ h)
          have hpk : ∀ v ty, Took w1 v pkt ty → (v.s.keep ty pkt).pending = [] := by
            intro v ty hv
            have : (v.s.keep ty pkt).pending = v.s.pending := by unfold Socket.keep; split <;> rfl
            rw [this, hv.pending]; exact hp1
          have hPk : ∀ s2 : Socket, s2.pending = [] → Progress k cs B s2 D := by
            intro s2 h2
            unfold Progress at hP1 ⊢
            rw [h2]; rw [hp1] at hP1; exact hP1
          -- a packet without data
          have other : ∀ v ty, ty ≠ .data → pkt.getType = some ty → Took w1 v pkt ty →
              M.andThen (flushIncoming E len) (fun out => M.ret (out, a)) (v.setS (v.s.keep ty pkt)) = (r, w') →
              Reading m.y b cs v.s D → (Between m.y b cs.length v.s D ∨ m.y ∧ Early b v.s D ∧ Unseen E b m.n0 w.nNet) →
              Advanced E m b cs s0 w' (B ++ outOf r) ∧ (outOf r = [] → w'.s.pending = []) ∧ (∀ src, r = .ok ([], src) → Quiet1 w'.s) ∧
                ((∀ e, r ≠ .err e) → Ceased E w'.nNet w'.s) := by
            intro v ty hnd hty hv he2 hR2 hB2
            have hkf : v.s.keep ty pkt = v.s := by unfold Socket.keep; rw [if_neg (by simp [hnd])]
            have hno : ∀ j x, w.nNet ≤ j → j < w1.nNet → ¬ DataAt E j x := by
              rintro j x hk1 hk2 ⟨d', src, p, hj, hj2, hj3, _⟩
              obtain ⟨rfl, rfl, rfl⟩ := honly j d' src hk1 hk2 hj
              rw [htf] at hj2
              cases hj2
              rw [hty] at hj3
              exact hnd (Option.some.inj hj3)
            have hpv := hpk v ty hv
            rw [hkf] at he2 hpv
            refine fin v ty v.s D k hv hkf.symm hR2 (hPk v.s hpv) (hS.imp id fun h => ⟨h.1, h.2.1, h.2.2.later f5⟩)
              (hB2.imp id fun h => .inr (.inr ⟨h.1, h.2.1, h.2.2.later fun j => hno j b⟩)) (fun hT' => ?_) (fun hcl => ?_) he2
            · exact ((htidy hT').later f5 hno).congr (by rw [hv.incoming, f1]) (by rw [hv.dropped, f1])
            · rw [hv.state, hst1] at hcl
              by_cases hf : ty = .fin
              · exact ⟨g, d, a, pkt, by omega, hkn, htf, by rw [hty, hf]⟩
              · rw [if_neg hf] at hcl; simp at hcl
          rcases hfp with hfp | ⟨hy, ⟨hty, hseq, hid⟩⟩
          · cases hfp with
            | data hc hcar =>
              rename_i i c
              obtain ⟨v, he2, hv⟩ := took .data hcar.ty (.inr hcar.id) (.inl rfl)
              have hcar1 : DataPkt w1.s (BitVec.ofNat 16 (b + i)) c pkt := ⟨hcar.ty, hcar.seq, hcar.payload, by rw [hi1.1, hi1.2]; exact hcar.id⟩
              have hseq : pkt.seqNr.toNat = b + i := by
                have := (List.getElem?_eq_some_iff.mp hc).1
                rw [hcar.seq, BitVec.toNat_ofNat]; omega
              have hat : DataAt E g (b + i) := ⟨d, a, pkt, hkn, htf, hcar.ty, hseq⟩
              have hcea : Ceased E w1.nNet (v.s.keep .data pkt) := by
                intro h
                have : (v.s.keep .data pkt).state = v.s.state := by unfold Socket.keep; split <;> rfl
                rw [this, hv.state, hst1] at h
                simp at h
              have e1 : v.s.incoming = (w1.s.bumpAck pkt).incoming := by rw [hv.incoming, bumpAck_incoming]
              have e3 : v.s.lastDropped = (w1.s.bumpAck pkt).lastDropped := by rw [hv.dropped, bumpAck_lastDropped]
              have e4 : v.s.state = w1.s.state := by rw [hv.state]; simp
              rcases hB1 with hB1 | ⟨hy, hB1, hU⟩
              · obtain ⟨g1, g2⟩ := hR1.data hb hbN hB1 hst1 hc hcar1 (s1 := v.s) e1 hv.ack e3 e4 hv.pending
                refine fin v .data _ D k hv rfl g1 (hPk _ (hpk v .data hv)) (hS.imp id fun h => ⟨h.1, h.2.1, h.2.2.later f5⟩) (g2.imp id fun h => .inr (.inl h)) (fun hno => ?_) hcea he2
                have hvi : v.s.incoming = w.s.incoming := by rw [hv.incoming, f1]
                have ht : Tidy E b g v.s := ((htidy hno).later hkw hbefore).congr hvi (by rw [hv.dropped, f1])
                rw [← hk]
                exact ht.keep (hT hno).1 hb (by rw [hvi]; exact hR.sorted) (hseq ▸ hat) (by omega)
              · have hD := hB1.zero
                have hk0 : k = 0 := by have := hP.1; omega
                subst hD hk0
                have hB0 : B = [] := by simpa [hp1] using hP1.2
                have hno : m.T → Tidy E b w1.nNet (v.s.keep .data pkt) := fun h => absurd hy (hT h).2
                rcases Early.data hb hbN hy hR1 hB1 hc hcar1 (s1 := v.s) e1 hv.ack e3 e4 hv.pending with ⟨rfl, g1, g2⟩ | ⟨rfl, g1, g2⟩ | ⟨hi2, g1, g2⟩
                · exact fin v .data _ 0 0 hv rfl g1 (hPk _ (hpk v .data hv)) (.inl rfl) (.inr (.inr (.inl g2))) hno hcea he2
                · refine fin v .data _ 1 1 hv rfl g1 ⟨Nat.le_refl _, ?_⟩ (.inr ⟨hy, rfl, g, ?_, by omega, hat, hU.later fun j => hbefore j b⟩) (.inr (.inr (.inl g2))) hno hcea he2
                  · rw [hpk v .data hv, hB0]
                    cases cs <;> simp
                  · have := (hwin hy).2
                    omega
                · refine fin v .data _ 0 0 hv rfl g1 (hPk _ (hpk v .data hv)) (.inl rfl) (.inr (.inr (.inr ⟨hy, g2, hU.later fun j h1 h2 h3 => ?_⟩))) hno hcea he2
                  obtain ⟨d', src, p, j1, j2, j3, j4⟩ := h3
                  obtain ⟨rfl, rfl, rfl⟩ := honly j d' src h1 h2 j1
                  rw [htf] at j2
                  cases j2
                  omega
            | fin hty hseq hid =>
              obtain ⟨v, he2, hv⟩ := took .fin hty (.inr hid) (.inr (.inl rfl))
              have e1 : v.s.incoming = (w1.s.bumpAck pkt).incoming := by rw [hv.incoming, bumpAck_incoming]
              have e3 : v.s.lastDropped = (w1.s.bumpAck pkt).lastDropped := by rw [hv.dropped, bumpAck_lastDropped]
              have e4 : v.s.state = .closed := by rw [hv.state]; simp
              rcases hB1 with hB1 | ⟨hy, hB1, hU⟩
              · obtain ⟨g1, g2⟩ := hR1.fin hb hbN hB1 hst1 hseq (s1 := v.s) e1 hv.ack e3 e4 hv.pending
                exact other v .fin (by simp) hty hv he2 g1 (.inl g2)
              · obtain ⟨g1, g2⟩ := Early.fin hb hbN hy hR1 hB1 hseq (s1 := v.s) e1 hv.ack e3 e4 hv.pending
                exact other v .fin (by simp) hty hv he2 g1 (g2.imp id fun h => ⟨hy, h, hU⟩)
            | syn hty hseq h0 =>
              obtain ⟨v, he2, hv⟩ := took .syn hty (.inl rfl) (.inr (.inr (.inl rfl)))
              have hbu : w1.s.bumpAck pkt = w1.s := by
                rcases hB1 with hB1 | ⟨hy, hB1, hU⟩
                · exact hB1.syn hst1 hseq h0
                · exact hB1.bump (by omega) h0
              have ha := hv.ack
              rw [hbu] at ha
              have e4 : v.s.state = w1.s.state := by rw [hv.state]; simp
              exact other v .syn (by simp) hty hv he2 (hR1.congr hv.incoming hv.dropped ha (.inl (by rw [e4]; exact hst1)))
                (hB1.imp (fun h => h.congr hv.incoming hv.pending ha (.inl e4)) fun h => ⟨h.1, h.2.1.congr hv.incoming hv.pending ha, h.2.2⟩)
          · obtain ⟨v, he2, hv⟩ := took .state hty (.inr hid) (.inr (.inr (.inr ⟨rfl, (hwin1 hy).1⟩)))
            have hbu : w1.s.bumpAck pkt = w1.s := by
              rcases hB1 with hB1 | ⟨hy, hB1, hU⟩
              · exact hB1.reply hb hy hR1 hst1 hseq
              · refine hB1.bump (by omega) fun h => ?_
                rw [h] at hseq
                have h1 : (0 : U16).toNat = 0 := rfl
                omega
            have ha := hv.ack
            rw [hbu] at ha
            have e4 : v.s.state = w1.s.state := by rw [hv.state]; simp
            exact other v .state (by simp) hty hv he2 (hR1.congr hv.incoming hv.dropped ha (.inl (by rw [e4]; exact hst1)))
              (hB1.imp (fun h => h.congr hv.incoming hv.pending ha (.inl e4)) fun h => ⟨h.1, h.2.1.congr hv.incoming hv.pending ha, h.2.2⟩)

/-- What a call of `recv_from` tells the reader. -/
def Drained (E : Env) (w : World) (r : Res (Bytes × Addr)) (w' : World) : Prop :=
  ((∃ src, r = .ok ([], src)) → w'.s.pending = [] ∧ Quiet1 w'.s ∧ w'.s.state = .closed) ∧
    (Ceased E w.nNet w.s → (∀ e, r ≠ .err e) → Ceased E w'.nNet w'.s)

theorem loop_reading {b : Nat} {cs : List Bytes} {s0 : Socket} {B : Bytes} {fuel len : Nat} (hb : 1 ≤ b)
    (hbN : b + cs.length ≤ 65535) (hne : ∀ c ∈ cs, c ≠ []) {m : Mode} (hT : m.T → NoLate E ∧ ¬ m.y) (hok : ∀ n, E.snd n = .ok) (hnet : FromNet E m s0 b cs) (hl : 0 < len) :
    ∀ n {w w' : World} {r : Res (Bytes × Addr)}, Advanced E m b cs s0 w B → w.s.pending = [] → Quiet1 w.s → recvFromLoop E fuel len n w = (r, w') →
      r ≠ .panic → Advanced E m b cs s0 w' (B ++ outOf r) ∧ Drained E w r w'
  | 0, w, w', r, h, _, _, he, _ => by
    simp only [recvFromLoop, M.never, Prod.mk.injEq] at he
    obtain ⟨rfl, rfl⟩ := he
    exact ⟨by simpa [outOf] using h, by simp, fun h _ => h⟩
  | n + 1, w, w', r, h, hp, hq, he, hr => by
    rw [recvFromLoop] at he
    msimp at he
    split at he
    · rename_i hcl
      simp only [Prod.mk.injEq] at he
      obtain ⟨rfl, rfl⟩ := he
      exact ⟨by simpa [outOf] using h, fun _ => ⟨hp, hq, hcl⟩, fun h _ => h⟩
    · rename_i hcl
      have hst : w.s.state = .connected := by
        obtain ⟨D, k, hR, _⟩ := h.at_
        exact hR.state.resolve_right hcl
      rcases hrec : recv E fuel len w with ⟨r1, w1⟩
      cases r1 with
      | ok x =>
        obtain ⟨out, src⟩ := x
        rw [andThen_eq hrec] at he
        simp only at he
        obtain ⟨g1, g2, g3, g4⟩ := recv_reading hb hbN hne hT hok hnet hl h hp hq hst hrec (by simp)
        by_cases ho : out = []
        · rw [if_pos ho] at he
          subst ho
          simp only [outOf, List.append_nil] at g1 g2
          obtain ⟨i1, i2, i3⟩ := loop_reading hb hbN hne hT hok hnet hl n g1 (g2 trivial) (g3 src rfl) he hr
          exact ⟨i1, i2, fun _ => i3 (g4 (by simp))⟩
        · rw [if_neg ho] at he
          simp only [M.ret, Prod.mk.injEq] at he
          obtain ⟨rfl, rfl⟩ := he
          refine ⟨g1, ?_, fun _ h => g4 h⟩
          rintro ⟨src', h⟩
          simp only [Res.ok.injEq, Prod.mk.injEq] at h
          exact absurd h.1 ho
      | err e =>
        rw [andThen_err hrec] at he
        simp only [Prod.mk.injEq] at he
        obtain ⟨rfl, rfl⟩ := he
        exact ⟨(recv_reading hb hbN hne hT hok hnet hl h hp hq hst hrec (by simp)).1, by simp, fun _ h => absurd rfl (h e)⟩
      | pending =>
        rw [andThen_pending hrec] at he
        simp only [Prod.mk.injEq] at he
        obtain ⟨rfl, rfl⟩ := he
        obtain ⟨g1, _, _, g4⟩ := recv_reading hb hbN hne hT hok hnet hl h hp hq hst hrec (by simp)
        exact ⟨g1, by simp, fun _ h => g4 (by simp)⟩
      | panic =>
        rw [andThen_eq_panic hrec] at he
        exact absurd (congrArg Prod.fst he).symm hr

theorem recvFrom_reading {b : Nat} {cs : List Bytes} {s0 : Socket} {B : Bytes} {fuel len : Nat} (hb : 1 ≤ b)
    (hbN : b + cs.length ≤ 65535) (hne : ∀ c ∈ cs, c ≠ []) {m : Mode} (hT : m.T → NoLate E ∧ ¬ m.y) (hok : ∀ n, E.snd n = .ok) (hnet : FromNet E m s0 b cs) (hl : 0 < len)
    {w w' : World} {r : Res (Bytes × Addr)} (h : Advanced E m b cs s0 w B) (he : recvFrom E fuel len w = (r, w')) (hr : r ≠ .panic) :
    Advanced E m b cs s0 w' (B ++ outOf r) ∧ Drained E w r w' := by
  obtain ⟨htidy, hwin, hids, D, k, hR, hP, hS, hB⟩ := h
  unfold recvFrom at he
  rw [bind_def] at he
  rcases hfl : flushIncoming E len w with ⟨r3, w3⟩
  have hr3 : r3 ≠ .panic := by
    rintro rfl
    rw [andThen_eq_panic hfl] at he
    exact hr (congrArg Prod.fst he).symm
  obtain ⟨out, D', rfl, g1, g2, g3, g4, gt, gn, gw, g5, g6, g7⟩ := flush_reading hb hbN hne hl hR (hB.imp id fun h => h.imp id .inr) hP hfl hr3
  rw [andThen_eq hfl] at he
  msimp at he
  have hadv : Advanced E m b cs s0 w3 (B ++ out) := ⟨fun hno => by rw [gn]; exact gt (hT hno).2 _ (htidy hno), fun hy => by rw [gw, gn]; exact hwin hy,
    ⟨g6.trans hids.1, g7.trans hids.2⟩, D', k, g1, g3, by rw [gn]; exact hS, by rw [gn]; exact g2⟩
  have hend : Ceased E w.nNet w.s → Ceased E w3.nNet w3.s := by
    intro h hc
    rw [gn]
    exact h (g5 ▸ hc)
  by_cases ho : out = []
  · rw [if_neg (by simp [ho]), if_neg (by rcases g1.state with h | h <;> simp [h])] at he
    rw [ho, List.append_nil] at hadv
    obtain ⟨i1, i2, i3⟩ := loop_reading hb hbN hne hT hok hnet hl fuel hadv (g4 ho).1 (g4 ho).2 he hr
    exact ⟨i1, i2, fun h => i3 (hend h)⟩
  · rw [if_pos ho] at he
    simp only [Prod.mk.injEq] at he
    obtain ⟨rfl, rfl⟩ := he
    refine ⟨hadv, ?_, fun h _ => hend h⟩
    rintro ⟨src', h⟩
    simp only [Res.ok.injEq, Prod.mk.injEq] at h
    exact absurd h.1 ho

/-- One call of `recv_from`. -/
theorem op_reading {b : Nat} {cs : List Bytes} {s0 : Socket} {w : World} {B : Bytes} {fuel len : Nat} (hb : 1 ≤ b)
    (hbN : b + cs.length ≤ 65535) (hne : ∀ c ∈ cs, c ≠ []) {m : Mode} (hT : m.T → NoLate E ∧ ¬ m.y) (hok : ∀ n, E.snd n = .ok) (hnet : FromNet E m s0 b cs) (hl : 0 < len)
    (h : Advanced E m b cs s0 w B) (hp : (runOp E fuel (.recvFrom len) w).1 ≠ .panic) :
    Advanced E m b cs s0 (runOp E fuel (.recvFrom len) w).2 (B ++ (runOp E fuel (.recvFrom len) w).1.read) ∧
      ((∃ src, (runOp E fuel (.recvFrom len) w).1 = .ok (.bytes [] src)) → (runOp E fuel (.recvFrom len) w).2.s.pending = [] ∧
        Quiet1 (runOp E fuel (.recvFrom len) w).2.s ∧ (runOp E fuel (.recvFrom len) w).2.s.state = .closed) ∧
      (Ceased E w.nNet w.s → (∀ e, (runOp E fuel (.recvFrom len) w).1 ≠ .err e) →
        Ceased E (runOp E fuel (.recvFrom len) w).2.nNet (runOp E fuel (.recvFrom len) w).2.s) := by
  rcases hrf : recvFrom E fuel len w with ⟨r, w'⟩
  have e : runOp E fuel (.recvFrom len) w = M.andThen (recvFrom E fuel len) (fun x => M.ret (.bytes x.1 x.2)) w := rfl
  rw [e] at hp ⊢
  cases r with
  | ok x =>
    rw [andThen_eq hrf]
    obtain ⟨h1, h2, h3⟩ := recvFrom_reading hb hbN hne hT hok hnet hl h hrf (by simp)
    refine ⟨h1, ?_, fun h _ => h3 h (by simp)⟩
    rintro ⟨src, hx⟩
    simp only [M.ret, Res.ok.injEq, Out.bytes.injEq] at hx
    exact h2 ⟨x.2, by rw [← hx.1]⟩
  | err x =>
    rw [andThen_err hrf]
    obtain ⟨h1, h2, h3⟩ := recvFrom_reading hb hbN hne hT hok hnet hl h hrf (by simp)
    exact ⟨h1, by simp, fun _ h => absurd rfl (h x)⟩
  | pending =>
    rw [andThen_pending hrf]
    obtain ⟨h1, h2, h3⟩ := recvFrom_reading hb hbN hne hT hok hnet hl h hrf (by simp)
    exact ⟨h1, by simp, fun h _ => h3 h (by simp)⟩
  | panic =>
    rw [andThen_eq_panic hrf] at hp
    exact absurd rfl hp

theorem reads_advanced {b : Nat} {cs : List Bytes} {w0 w : World} {B : Bytes} (hb : 1 ≤ b)
    (hbN : b + cs.length ≤ 65535) (hne : ∀ c ∈ cs, c ≠ []) {m : Mode} (hT : m.T → NoLate E ∧ ¬ m.y) (hok : ∀ n, E.snd n = .ok) (hnet : FromNet E m w0.s b cs)
    (h0 : Advanced E m b cs w0.s w0 []) (h : Reads E w0 w B) : Advanced E m b cs w0.s w B := by
  induction h with
  | refl => exact h0
  | read fuel len _ hl hp ih => exact (op_reading hb hbN hne hT hok hnet hl ih hp).1

theorem ReadsOk.reads {w0 w : World} {B : Bytes} (h : ReadsOk E w0 w B) : Reads E w0 w B := by
  induction h with
  | refl => exact .refl
  | read fuel len _ hl hp _ ih => exact .read fuel len ih hl hp

/-- If no call failed, a connection that is closed was closed by a FIN. -/
theorem readsOk_ends {b : Nat} {cs : List Bytes} {w0 w : World} {B : Bytes} (hb : 1 ≤ b)
    (hbN : b + cs.length ≤ 65535) (hne : ∀ c ∈ cs, c ≠ []) {m : Mode} (hT : m.T → NoLate E ∧ ¬ m.y) (hok : ∀ n, E.snd n = .ok) (hnet : FromNet E m w0.s b cs)
    (h0 : Advanced E m b cs w0.s w0 []) (hst : w0.s.state = .connected) (h : ReadsOk E w0 w B) : Ceased E w.nNet w.s := by
  induction h with
  | refl => intro h; rw [hst] at h; simp at h
  | read fuel len h hl hp he ih => exact (op_reading hb hbN hne hT hok hnet hl (reads_advanced hb hbN hne hT hok hnet h0 h.reads) hp).2.2 ih he

end Utp
