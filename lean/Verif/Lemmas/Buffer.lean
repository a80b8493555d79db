import Verif.Lemmas.Deliver
/-!
# The reorder buffer
-/

namespace Utp
open M

/-- Strictly increasing sequence numbers. -/
def Sorted (l : List Packet) : Prop := l.Pairwise fun a b => a.seqNr.toNat < b.seqNr.toNat

theorem filter_prefix {α : Type} (f : α → Bool) : ∀ (a b : List α), (∀ x ∈ a, f x = true) → (∀ x ∈ b, f x = false) →
    (a ++ b).filter f = a := by
  intro a b ha hb
  rw [List.filter_append, List.filter_eq_self.mpr ha, List.filter_eq_nil_iff.mpr (by intro x hx; simp [hb x hx])]
  simp

theorem insertIdx_mid {α : Type} (x : α) : ∀ (a b : List α), (a ++ b).insertIdx a.length x = a ++ x :: b
  | [], b => by simp
  | y :: a, b => by simp [insertIdx_mid x a b]

/-- A sorted list splits at a number. -/
theorem Sorted.split {l : List Packet} (h : Sorted l) (n : Nat) : ∃ a b, l = a ++ b ∧ (∀ p ∈ a, p.seqNr.toNat < n) ∧
    ∀ p ∈ b, n ≤ p.seqNr.toNat := by
  induction l with
  | nil => exact ⟨[], [], rfl, by simp, by simp⟩
  | cons p r ih =>
    rw [Sorted, List.pairwise_cons] at h
    by_cases hp : p.seqNr.toNat < n
    · obtain ⟨a, b, h1, h2, h3⟩ := ih h.2
      refine ⟨p :: a, b, by rw [h1]; rfl, ?_, h3⟩
      intro q hq
      rcases List.mem_cons.mp hq with rfl | hq
      · exact hp
      · exact h2 q hq
    · refine ⟨[], p :: r, rfl, by simp, ?_⟩
      intro q hq
      rcases List.mem_cons.mp hq with rfl | hq
      · omega
      · have := h.1 q hq; omega

/-- What `insert_into_buffer` does to a sorted buffer. -/
theorem insertPkt_spec {buf : List Packet} (h : Sorted buf) (p : Packet) :
    ((∃ q ∈ buf, q.seqNr = p.seqNr) ∧ Socket.insertPkt buf p = buf) ∨
    ∃ a b, buf = a ++ b ∧ (∀ q ∈ a, q.seqNr.toNat < p.seqNr.toNat) ∧ (∀ q ∈ b, p.seqNr.toNat < q.seqNr.toNat) ∧
      Socket.insertPkt buf p = a ++ p :: b := by
  obtain ⟨a, b, rfl, ha, hb⟩ := h.split p.seqNr.toNat
  have hfil : (a ++ b).filter (fun q => decide (q.seqNr < p.seqNr)) = a := by
    apply filter_prefix
    · intro q hq; simpa [BitVec.lt_def] using ha q hq
    · intro q hq; simpa [BitVec.lt_def] using hb q hq
  unfold Socket.insertPkt
  by_cases hal : Socket.afterLast (a ++ b) p = true
  · rw [if_pos hal]
    have hbn : b = [] := by
      unfold Socket.afterLast at hal
      rcases hl : (a ++ b).getLast? with _ | l
      · rw [hl] at hal; simp at hal
      · rw [hl] at hal
        simp only [decide_eq_true_eq, BitVec.lt_def] at hal
        rcases List.eq_nil_or_concat b with hb0 | ⟨b', x, hb0⟩
        · exact hb0
        · subst hb0
          rw [List.concat_eq_append] at hl hb
          rw [← List.append_assoc, List.getLast?_append] at hl
          simp only [List.getLast?_singleton, Option.some_or, Option.some.injEq] at hl
          have := hb x (by simp)
          rw [hl] at this
          omega
    subst hbn
    exact .inr ⟨a, [], rfl, ha, by simp, by simp⟩
  · rw [if_neg hal]
    simp only [hfil]
    rcases b with _ | ⟨q, b'⟩
    · refine .inr ⟨a, [], rfl, ha, by simp, ?_⟩
      have : (a ++ ([] : List Packet))[a.length]? = none := by simp
      rw [this]
      exact insertIdx_mid p a []
    · have hq : (a ++ q :: b')[a.length]? = some q := by simp
      rw [hq]
      simp only
      by_cases he : q.seqNr = p.seqNr
      · exact .inl ⟨⟨q, by simp, he⟩, by rw [if_neg (by simp [he])]⟩
      · rw [if_pos he]
        refine .inr ⟨a, q :: b', rfl, ha, ?_, insertIdx_mid p a _⟩
        have hqp : p.seqNr.toNat < q.seqNr.toNat := by
          have := hb q (by simp)
          have hne : q.seqNr.toNat ≠ p.seqNr.toNat := fun h => he (BitVec.eq_of_toNat_eq h)
          omega
        intro x hx
        rcases List.mem_cons.mp hx with rfl | hx
        · exact hqp
        · have := (List.pairwise_append.mp h).2.1
          have := (List.pairwise_cons.mp this).1 x hx
          omega

theorem insertPkt_sorted {buf : List Packet} (h : Sorted buf) (p : Packet) : Sorted (Socket.insertPkt buf p) := by
  rcases insertPkt_spec h p with ⟨_, h2⟩ | ⟨a, b, rfl, ha, hb, h2⟩
  · rw [h2]; exact h
  · rw [h2]
    have := List.pairwise_append.mp h
    refine List.pairwise_append.mpr ⟨this.1, List.pairwise_cons.mpr ⟨hb, this.2.1⟩, ?_⟩
    intro x hx y hy
    rcases List.mem_cons.mp hy with rfl | hy
    · exact ha x hx
    · exact this.2.2 x hx y hy

theorem insertPkt_held {buf : List Packet} (h : Sorted buf) {p q : Packet} (hq : q ∈ buf) (he : q.seqNr = p.seqNr) :
    Socket.insertPkt buf p = buf := by
  rcases insertPkt_spec h p with ⟨_, h2⟩ | ⟨a, b, rfl, ha, hb, h2⟩
  · exact h2
  · rcases List.mem_append.mp hq with h | h
    · have := ha q h; rw [he] at this; omega
    · have := hb q h; rw [he] at this; omega

theorem advanceIncoming_sorted {s : Socket} (h : Sorted s.incoming) : Sorted s.advanceIncoming.incoming := by
  unfold Socket.advanceIncoming
  split
  · exact h
  · rename_i hi
    rw [hi] at h
    exact (List.pairwise_cons.mp h).2

variable {E : Env} {V : Ctx}

theorem step_sorted {a b : World} (h : Step E V a b) (hs : Sorted a.s.incoming) : Sorted b.s.incoming := by
  cases h with
  | insert pkt src _ _ _ => exact insertPkt_sorted hs pkt
  | deliverPending len h =>
    show Sorted (a.s.takePending len).2.incoming
    unfold Socket.takePending
    simp only
    split
    · exact advanceIncoming_sorted (s := { a.s with pending := [] }) hs
    · exact hs
  | deliverHead p rest pl len h1 h2 h3 h4 =>
    show Sorted (a.s.takeHead pl len).incoming
    unfold Socket.takeHead
    split
    · exact advanceIncoming_sorted hs
    · exact hs
  | measure pkt src i p t s' hg ht _ _ hf hp hm => rw [show (a.setS s').s.incoming = s'.incoming from rfl, onNewAck_incoming hm]; exact hs
  | advance s' _ hm => rw [show (a.setS s').s.incoming = s'.incoming from rfl, advanceSendWindow_incoming hm]; exact hs
  | arrive pkt src _ => simpa using hs
  | _ => exact hs

/-! ### The selective ack bitmap -/

theorem bitAt_lsb (b : Bytes) (i : Nat) : Spec.bitAt b i = (b.getD (i / 8) 0).getLsbD (i % 8) := by
  unfold Spec.bitAt
  rw [BitVec.getLsbD, Nat.testBit, Nat.shiftRight_eq_div_pow, Nat.one_and_eq_mod_two]
  have h := Nat.mod_two_eq_zero_or_one ((b.getD (i / 8) 0).toNat / 2 ^ (i % 8))
  generalize (b.getD (i / 8) 0).toNat / 2 ^ (i % 8) % 2 = x at h
  rcases h with h | h <;> subst h <;> rfl

theorem bitAt_nil (i : Nat) : Spec.bitAt [] i = false := by simp [Spec.bitAt]

theorem bitAt_sackBit (b : Bytes) (h : b.length % 4 = 0) (d i : Nat) :
    Spec.bitAt (Socket.sackBit b d) i = (Spec.bitAt b i || decide (i = d)) := by
  obtain ⟨n, h1, h2, h3⟩ := sackGrow_eq (d / 8 + 5) (d / 8) b (by omega) (by omega)
  have hg : ∀ j, (b ++ List.replicate n (0 : U8)).getD j 0 = b.getD j 0 := by
    intro j
    simp only [List.getD, List.getElem?_append, List.getElem?_replicate]
    split
    · rfl
    · rename_i hj
      rw [List.getElem?_eq_none (by omega)]
      split <;> rfl
  rw [bitAt_lsb, bitAt_lsb]
  simp only [Socket.sackBit, h1, hg]
  by_cases hb : i / 8 = d / 8
  · have : ((b ++ List.replicate n (0 : U8)).set (d / 8) (b.getD (d / 8) 0 ||| 1#8 <<< (d % 8))).getD (i / 8) 0 =
        b.getD (d / 8) 0 ||| 1#8 <<< (d % 8) := by
      rw [hb]
      simp only [List.getD]
      rw [List.getElem?_set_self (by simp; omega)]
      rfl
    rw [this, hb, BitVec.getLsbD_or]
    congr 1
    have hi8 : i % 8 < 8 := Nat.mod_lt _ (by omega)
    have hd8 : d % 8 < 8 := Nat.mod_lt _ (by omega)
    simp only [BitVec.getLsbD_shiftLeft, hi8, decide_true, Bool.true_and, BitVec.getLsbD_one]
    by_cases he : i = d
    · subst he; simp
    · have : i % 8 ≠ d % 8 := by omega
      by_cases hlt : i % 8 < d % 8
      · simp [hlt, he]
      · simp [he]; omega
  · have : ((b ++ List.replicate n (0 : U8)).set (d / 8) (b.getD (d / 8) 0 ||| 1#8 <<< (d % 8))).getD (i / 8) 0 = b.getD (i / 8) 0 := by
      rw [← hg (i / 8)]
      simp only [List.getD]
      rw [List.getElem?_set_ne (by omega)]
    rw [this]
    have : i ≠ d := by rintro rfl; exact hb rfl
    simp [this]

theorem bitAt_fold (l : List Nat) : ∀ (b : Bytes), b.length % 4 = 0 → ∀ i,
    Spec.bitAt (l.foldl Socket.sackBit b) i = (Spec.bitAt b i || decide (i ∈ l)) := by
  induction l with
  | nil => intro b _ i; simp
  | cons d r ih =>
    intro b hb i
    rw [List.foldl_cons, ih _ (sackBit_len b d hb).1, bitAt_sackBit b hb]
    simp [Bool.or_assoc]

/-- The bits of the bitmap. -/
theorem buildSack_bits {s : Socket} {sack : Bytes} (h : s.buildSack E = some sack) (i : Nat) :
    Spec.bitAt sack i = true ↔ ∃ p ∈ s.incoming, s.ackNr + 1 < p.seqNr ∧ (p.seqNr - s.ackNr - 2).toNat = i := by
  unfold Socket.buildSack at h
  split at h
  · simp at h
  · simp only [Option.some.injEq] at h
    rw [← h, bitAt_fold _ _ rfl, bitAt_nil]
    simp only [Bool.false_or, decide_eq_true_eq, List.mem_map, List.mem_filter]
    exact ⟨fun ⟨p, ⟨h1, h2⟩, h3⟩ => ⟨p, h1, h2, h3⟩, fun ⟨p, h1, h2, h3⟩ => ⟨p, ⟨h1, h2⟩, h3⟩⟩

theorem buildSack_nil {s : Socket} {sack : Bytes} (h : s.buildSack E = some sack) :
    sack = [] ↔ ∀ p ∈ s.incoming, ¬ s.ackNr + 1 < p.seqNr := by
  constructor
  · intro h0 p hp hlt
    have := (buildSack_bits h (p.seqNr - s.ackNr - 2).toNat).mpr ⟨p, hp, hlt, rfl⟩
    rw [h0, bitAt_nil] at this
    simp at this
  · intro hall
    unfold Socket.buildSack at h
    split at h
    · simp at h
    · simp only [Option.some.injEq] at h
      have : s.incoming.filter (fun p => decide (s.ackNr + 1 < p.seqNr)) = [] := by
        rw [List.filter_eq_nil_iff]
        intro p hp
        simpa using hall p hp
      rw [← h, this]
      rfl

theorem sackGrow_le : ∀ fuel i (b : Bytes), (Socket.sackGrow fuel i b).length ≤ max ((b.length + 3) / 4 * 4) ((i / 4 + 1) * 4) := by
  intro fuel
  induction fuel with
  | zero => intro i b; simp only [Socket.sackGrow]; omega
  | succ n ih =>
    intro i b
    unfold Socket.sackGrow
    split
    · rename_i h
      have := ih i (b ++ [0])
      simp only [List.length_append, List.length_cons, List.length_nil] at this
      omega
    · omega

theorem foldl_sackBit_le (n : Nat) (l : List Nat) (h : ∀ d ∈ l, d < n * 32) : ∀ b : Bytes, b.length ≤ n * 4 →
    (l.foldl Socket.sackBit b).length ≤ n * 4 := by
  induction l with
  | nil => intro b hb; exact hb
  | cons d r ih =>
    intro b hb
    refine ih (fun x hx => h x (List.mem_cons_of_mem _ hx)) _ ?_
    have := sackGrow_le (d / 8 + 5) (d / 8) b
    have := h d (by simp)
    simp only [Socket.sackBit, List.length_set]
    omega

theorem buildSack_le {s : Socket} {sack : Bytes} (h : s.buildSack E = some sack) (n : Nat)
    (hn : ∀ p ∈ s.incoming, s.ackNr + 1 < p.seqNr → (p.seqNr - s.ackNr - 2).toNat < n * 32) : sack.length ≤ n * 4 := by
  unfold Socket.buildSack at h
  split at h
  · simp at h
  · simp only [Option.some.injEq] at h
    rw [← h]
    refine foldl_sackBit_le n _ ?_ [] (by simp)
    intro d hd
    simp only [List.mem_map, List.mem_filter, decide_eq_true_eq] at hd
    obtain ⟨p, ⟨h1, h2⟩, rfl⟩ := hd
    exact hn p h1 h2

open Spec Packet in
theorem setWndSize_datagram {d : Datagram} (hd : d.Ok) (v : U32) :
    ∃ hd', (⟨hd', d.exts, d.payload⟩ : Datagram).Ok ∧ (Packet.mk d.bytes).setWndSize v = ⟨(⟨hd', d.exts, d.payload⟩ : Datagram).bytes⟩ := by
  refine ⟨put32 d.header 12 v, ⟨?_, ?_, ?_, ?_, hd.extsOk⟩, ?_⟩
  · simp [put32, hd.headerLen]
  · simpa [List.getD, put32_other] using hd.version
  · simpa [List.getD, put32_other] using hd.typeCode
  · simpa [List.getD, put32_other] using hd.announced
  · have h20 := hd.headerLen
    simp only [setWndSize, put32, Datagram.bytes]
    rw [List.set_append_left _ _ (by omega), List.set_append_left _ _ (by simp; omega),
      List.set_append_left _ _ (by simp; omega), List.set_append_left _ _ (by simp; omega)]

end Utp
