import Verif.Lemmas.LossySend
import Verif.Lemmas.LossyRead
import Verif.Lemmas.FuelLog
/-!
# A network that loses datagrams: both sides together
-/

namespace Utp
open M

/-- What the theorem about the lossy network assumes. -/
structure LossyPair (A B : Env) (a b : World) (bufs : List Bytes) (len : Nat) (since since' which which' : Nat → Nat) : Prop where
  linked : Linked a b
  settled : CaughtUp a.s b.s
  bSent : b.s.sendWindow = []
  fits : ∀ c ∈ bufs, 0 < c.length ∧ c.length ≤ 1380
  room : 0 < len
  aRelease : A.checks = false
  bRelease : B.checks = false
  aSends : ∀ n, A.snd n = .ok
  bSends : ∀ n, B.snd n = .ok
  causal : ∀ p q, p < since' q ↔ since p ≤ q
  toA : Channel (fun f => readUntil B len bufs.flatten.length f) b A a since which
  toB : Channel (fun f => transfer A f (bufs.map fun c => [c])) a B b since' which'
  aPatient : Patient A a (fun f => transfer A f (bufs.map fun c => [c]))
  bPatient : Patient B b (fun f => readUntil B len bufs.flatten.length f)

namespace LossyPair

variable {A B : Env} {a b : World} {bufs : List Bytes} {len : Nat} {since since' which which' : Nat → Nat}

/-- How many pieces were acknowledged after `n` waits of the sender. -/
def told (A : Env) (a : World) (bufs : List Bytes) : Nat → Nat := counted A a.nNet a.s.seqNr bufs.length Packet.ackNr

/-- How many pieces arrived after `n` waits of the reader. -/
def read (B : Env) (a b : World) (bufs : List Bytes) : Nat → Nat := counted B b.nNet a.s.seqNr bufs.length Packet.seqNr

/-- What arrives at the sender in its wait `n`, if it waits for an acknowledgement: one of the last acknowledgements that the reader sent. -/
def AckEv (A B : Env) (a b : World) (bufs : List Bytes) (len : Nat) (since which : Nat → Nat) (n : Nat) : Prop :=
  told A a bufs n < bufs.length → ∀ d src, A.net (a.nNet + n) = .dgram d src →
    ∃ s F, s ≤ since n ∧ (∀ f, F ≤ f → DatagramAt (effectsOf (fun f => readUntil B len bufs.flatten.length f) b f) (which n) s d) ∧
      AckAt b a.s.seqNr (read B a b bufs) s d ∧ (read B a b bufs s = told A a bufs n ∨ read B a b bufs s = told A a bufs n + 1)

/-- What arrives at the reader in its wait `q`, if it waits for data: one of the last pieces that the sender sent. -/
def DataEv (A B : Env) (a b : World) (bufs : List Bytes) (since' which' : Nat → Nat) (q : Nat) : Prop :=
  read B a b bufs q < bufs.length → ∀ d src, B.net (b.nNet + q) = .dgram d src →
    ∃ s F, s ≤ since' q ∧ (∀ f, F ≤ f → DatagramAt (effectsOf (fun f => transfer A f (bufs.map fun c => [c])) a f) (which' q) s d) ∧
      PieceAt a bufs (told A a bufs) s d ∧ (told A a bufs s + 1 = read B a b bufs q ∨ told A a bufs s = read B a b bufs q)

theorem toNat_one : (1 : U16).toNat = 1 := rfl

theorem succ_ne (k : U16) : k ≠ k + 1 := by
  have := toNat_one
  intro h
  bv_omega

theorem pred_number (k : U16) (i : Nat) : k + BitVec.ofNat 16 (i + 1) - 1 = k + BitVec.ofNat 16 i := by
  rw [BitVec.ofNat_add, ← BitVec.add_assoc]
  exact BitVec.add_sub_cancel _ _

theorem succ_pred (k : U16) : k - 1 + 1 = k := BitVec.sub_add_cancel k 1

/-- How the count of acknowledgements goes on. -/
theorem AckEv.step {n : Nat} (h : AckEv A B a b bufs len since which n) (hl : Linked a b) (hn : told A a bufs n < bufs.length) {d : Bytes} {src : Addr} (hd : A.net (a.nNet + n) = .dgram d src) :
    ∃ s F, s ≤ since n ∧ (∀ f, F ≤ f → DatagramAt (effectsOf (fun f => readUntil B len bufs.flatten.length f) b f) (which n) s d) ∧ read B a b bufs s = told A a bufs (n + 1) ∧
      ∃ k, Acks a.s.receiverId b.s.seqNr k (A.net (a.nNet + n)) ∧
        (k + 1 = a.s.seqNr + BitVec.ofNat 16 (told A a bufs n) ∧ told A a bufs (n + 1) = told A a bufs n ∨
          k = a.s.seqNr + BitVec.ofNat 16 (told A a bufs n) ∧ told A a bufs (n + 1) = told A a bufs n + 1) := by
  obtain ⟨s, F, h1, h2, ⟨r, h3, rfl⟩, h4⟩ := h hn d src hd
  have ha : Acks a.s.receiverId b.s.seqNr (a.s.seqNr + BitVec.ofNat 16 (read B a b bufs s) - 1) (A.net (a.nNet + n)) := ⟨r, src, hd, by rw [← hl.toA]; exact h3⟩
  have hack := h3.ack
  rcases h4 with h4 | h4
  · have hk : a.s.seqNr + BitVec.ofNat 16 (told A a bufs n) - 1 + 1 = a.s.seqNr + BitVec.ofNat 16 (told A a bufs n) := succ_pred _
    have hm : told A a bufs (n + 1) = told A a bufs n := counted_miss hd (by
      rw [hack, h4]
      intro hc
      rw [show counted A a.nNet a.s.seqNr bufs.length Packet.ackNr n = told A a bufs n from rfl] at hc
      exact succ_ne _ (hc.trans hk.symm))
    refine ⟨s, F, h1, h2, by omega, _, ha, .inl ⟨?_, hm⟩⟩
    rw [h4]; exact hk
  · have hk : a.s.seqNr + BitVec.ofNat 16 (read B a b bufs s) - 1 = a.s.seqNr + BitVec.ofNat 16 (told A a bufs n) := by rw [h4]; exact pred_number _ _
    have hm : told A a bufs (n + 1) = told A a bufs n + 1 := counted_hit hd hn (hack.trans hk)
    exact ⟨s, F, h1, h2, by omega, _, ha, .inr ⟨hk, hm⟩⟩

/-- How the count of pieces goes on. -/
theorem DataEv.step {q : Nat} (h : DataEv A B a b bufs since' which' q) (hl : Linked a b) (hn : read B a b bufs q < bufs.length) {d : Bytes} {src : Addr} (hd : B.net (b.nNet + q) = .dgram d src) :
    ∃ s F, s ≤ since' q ∧ (∀ f, F ≤ f → DatagramAt (effectsOf (fun f => transfer A f (bufs.map fun c => [c])) a f) (which' q) s d) ∧ told A a bufs s + 1 = read B a b bufs (q + 1) ∧
      ∃ p src c κ, B.net (b.nNet + q) = .dgram p.bytes src ∧ Piece κ b.s.receiverId c p ∧
        (κ + 1 = a.s.seqNr + BitVec.ofNat 16 (read B a b bufs q) ∧ read B a b bufs (q + 1) = read B a b bufs q ∨
          κ = a.s.seqNr + BitVec.ofNat 16 (read B a b bufs q) ∧ bufs[read B a b bufs q]? = some c ∧ read B a b bufs (q + 1) = read B a b bufs q + 1) := by
  obtain ⟨s, F, h1, h2, ⟨c, p, h3, h5, rfl⟩, h4⟩ := h hn d src hd
  have hp : Piece (a.s.seqNr + BitVec.ofNat 16 (told A a bufs s)) b.s.receiverId c p := hl.toB ▸ h5
  have hseq := hp.seq
  rcases h4 with h4 | h4
  · have hk : a.s.seqNr + BitVec.ofNat 16 (told A a bufs s) + 1 = a.s.seqNr + BitVec.ofNat 16 (read B a b bufs q) := by
      rw [← h4, BitVec.ofNat_add, ← BitVec.add_assoc]; rfl
    have hm : read B a b bufs (q + 1) = read B a b bufs q := counted_miss hd (by
      rw [hseq]
      intro hc
      exact succ_ne _ (hc.trans hk.symm))
    exact ⟨s, F, h1, h2, by omega, p, src, c, _, hd, hp, .inl ⟨hk, hm⟩⟩
  · have hm : read B a b bufs (q + 1) = read B a b bufs q + 1 := counted_hit hd hn (by
      rw [hseq, h4]; rfl)
    exact ⟨s, F, h1, h2, by omega, p, src, c, _, hd, hp, .inr ⟨by rw [h4], by rw [← h4]; exact h3, hm⟩⟩

/-- The sender finished within `n` waits. -/
def SenderDone (A : Env) (a : World) (bufs : List Bytes) (n : Nat) : Prop :=
  ∃ n' w', n' ≤ n ∧ SendsAt a bufs (told A a bufs) n' none w' ∧ told A a bufs n' = bufs.length ∧ ∃ F, ∀ f, F ≤ f → transfer A f (bufs.map fun c => [c]) a = (.ok (), w')

/-- The reader finished within `n` waits. -/
def ReaderDone (B : Env) (a b : World) (bufs : List Bytes) (len n : Nat) : Prop :=
  ∃ n' w', n' ≤ n ∧ ReadsAt b a.s.seqNr (read B a b bufs) n' [] w' ∧ read B a b bufs n' = bufs.length ∧ ∃ F, ∀ f, F ≤ f → readUntil B len bufs.flatten.length f b = (.ok bufs.flatten, w')

/-- There are `n` more waits than in `l`, which follow `x`. -/
theorem waits_of_past {x w v : World} {P : Nat → Bytes → Prop} {n : Nat} {t : Option U64} (h : Tells x P n w) (hp : w.log ++ [.wait t] <+: v.log) :
    n + 1 ≤ waitsOf (v.log.drop x.log.length) := by
  obtain ⟨l, h1, h2, _⟩ := h
  obtain ⟨r, hr⟩ := hp
  rw [h1] at hr
  rw [← hr, List.append_assoc, List.append_assoc, List.drop_left, waitsOf_append, h2, waitsOf_append]
  show n + 1 ≤ n + (1 + _)
  omega

theorem prefix_drop {γ : Type} {l l' : List γ} (h : l <+: l') (n : Nat) : l.drop n <+: l'.drop n := by
  obtain ⟨r, rfl⟩ := h
  rw [List.drop_append]
  exact List.prefix_append _ _

theorem sender_effects {f f' : Nat} (hf : f ≤ f') :
    effectsOf (fun f => transfer A f (bufs.map fun c => [c])) a f <+: effectsOf (fun f => transfer A f (bufs.map fun c => [c])) a f' :=
  prefix_drop ((ext_transfer hf _).log a) _

theorem reader_effects {f f' : Nat} (hf : f ≤ f') :
    effectsOf (fun f => readUntil B len bufs.flatten.length f) b f <+: effectsOf (fun f => readUntil B len bufs.flatten.length f) b f' :=
  prefix_drop ((ext_readUntil hf _ _).log b) _

variable (H : LossyPair A B a b bufs len since since' which which')
include H

theorem sender_start : SendsAt a bufs (told A a bufs) 0 none a := by
  refine ⟨H.linked.aOpen, rfl, rfl, rfl, rfl, ?_, H.linked.aRead, H.settled.sent.2.1, H.settled.sent.1, H.settled.sent.2.2, ?_, by simp, .start⟩
  · rw [H.settled.acked]; simp [told, counted]
  · simp [told, counted]

theorem reader_start : ReadsAt b a.s.seqNr (read B a b bufs) 0 [] b := by
  have htr : 0 < b.s.maxRetries.toNat := by
    have : b.s.maxRetries.toNat ≠ 0 := fun e => H.linked.bTries (BitVec.eq_of_toNat_eq e)
    omega
  refine ⟨⟨H.linked.bOpen, htr, H.linked.bRead.2, fun _ => H.linked.bRead.1, fun _ => ?_, fun h => absurd rfl h⟩, rfl, rfl, rfl, ⟨rfl, rfl, rfl, rfl, rfl, rfl⟩, .start⟩
  rw [if_pos rfl]
  have h0 : a.s.seqNr + BitVec.ofNat 16 (read B a b bufs 0) = a.s.seqNr := by simp [read, counted]
  rw [h0]
  exact ⟨by rw [← H.settled.next.1]; exact (BitVec.add_sub_cancel _ _).symm, by rw [← H.settled.next.2]; exact (BitVec.add_sub_cancel _ _).symm⟩

theorem sender_run (p : Nat) (hp : ∀ n, n < p → AckEv A B a b bufs len since which n) :
    SenderDone A a bufs p ∨ (∀ n, n + a.s.maxRetries.toNat ≤ p → ∃ j, j < a.s.maxRetries.toNat ∧ Comes (A.net (a.nNet + n + j))) ∧
      ∃ F, ∀ f, F ≤ f → SenderPast a bufs (told A a bufs) p (transfer A f (bufs.map fun c => [c]) a).2 := by
  have htr : a.s.maxRetries.toNat ≠ 0 := fun e => H.linked.aTries (BitVec.eq_of_toNat_eq e)
  induction p with
  | zero =>
    have hoft : ∀ n, n + a.s.maxRetries.toNat ≤ 0 → ∃ j, j < a.s.maxRetries.toNat ∧ Comes (A.net (a.nNet + n + j)) := by intro n h; omega
    have hE : AckedWell A a b.s.seqNr bufs (told A a bufs) 0 := ⟨H.aRelease, H.aSends, H.linked.aTries, H.aPatient.ends, hoft, fun n h => counted_expires h, fun n h => by omega⟩
    rcases sends_transfer hE bufs 0 a (Nat.le_refl _) (by simp [told, counted]) H.fits H.sender_start with ⟨_, w', ⟨n', g1, g2, g3⟩, F, hF⟩ | hF
    · exact .inl ⟨n', w', g1, g2, by rw [g3]; simp [told, counted], F, hF⟩
    · exact .inr ⟨hoft, hF⟩
  | succ p ih =>
    rcases ih fun n hn => hp n (by omega) with ⟨n', w', h1, h2⟩ | ⟨hoft, F, hF⟩
    · exact .inl ⟨n', w', by omega, h2⟩
    · have hoft' : ∀ n, n + a.s.maxRetries.toNat ≤ p + 1 → ∃ j, j < a.s.maxRetries.toNat ∧ Comes (A.net (a.nNet + n + j)) := by
        intro n hn
        by_cases hle : n + a.s.maxRetries.toNat ≤ p
        · exact hoft n hle
        · refine H.aPatient.often n F ?_
          obtain ⟨w, t, ⟨q, h1⟩, h2⟩ := hF F (Nat.le_refl _)
          have := waits_of_past h1.tells h2
          exact Nat.le_trans hn this
      have hE : AckedWell A a b.s.seqNr bufs (told A a bufs) (p + 1) := by
        refine ⟨H.aRelease, H.aSends, H.linked.aTries, H.aPatient.ends, hoft', fun n h => counted_expires h, fun n hn hlt hc => ?_⟩
        obtain ⟨d, src, hd⟩ := hc
        obtain ⟨s, F, _, _, _, h5⟩ := (hp n hn).step H.linked hlt hd
        exact h5
      rcases sends_transfer hE bufs 0 a (Nat.zero_le _) (by simp [told, counted]) H.fits H.sender_start with ⟨_, w', ⟨n', g1, g2, g3⟩, F, hF⟩ | hF
      · exact .inl ⟨n', w', g1, g2, by rw [g3]; simp [told, counted], F, hF⟩
      · exact .inr ⟨hoft', hF⟩

theorem reader_run (p : Nat) (hp : ∀ n, n < p → DataEv A B a b bufs since' which' n) :
    ReaderDone B a b bufs len p ∨ (∀ n, n + b.s.maxRetries.toNat ≤ p → ∃ j, j < b.s.maxRetries.toNat ∧ Comes (B.net (b.nNet + n + j))) ∧
      ∃ F, ∀ f, F ≤ f → ReaderPast b a.s.seqNr (read B a b bufs) p (readUntil B len bufs.flatten.length f b).2 := by
  have htr : b.s.maxRetries.toNat ≠ 0 := fun e => H.linked.bTries (BitVec.eq_of_toNat_eq e)
  have run : ∀ N, FedWell B b a.s.seqNr bufs (read B a b bufs) N → ReaderDone B a b bufs len N ∨
      ∃ F, ∀ f, F ≤ f → ReaderPast b a.s.seqNr (read B a b bufs) N (readUntil B len bufs.flatten.length f b).2 := by
    intro N hE
    rcases reads_readLoop hE H.room bufs.flatten.length 0 0 [] [] b (Nat.zero_le _) (by omega) H.reader_start (by simp [read, counted]) (by simp [read, counted]) with
      ⟨x, w', ⟨rfl, n', g1, g2, g3, g4⟩, F, hF⟩ | hF
    · refine .inl ⟨n', w', g1, g2, Nat.le_antisymm g3 (take_all (fun c hc he => ?_) g4), F, hF⟩
      have := (H.fits c hc).1
      rw [he] at this
      exact absurd this (by simp)
    · exact .inr hF
  induction p with
  | zero =>
    have hoft : ∀ n, n + b.s.maxRetries.toNat ≤ 0 → ∃ j, j < b.s.maxRetries.toNat ∧ Comes (B.net (b.nNet + n + j)) := by intro n h; omega
    exact (run 0 ⟨H.bRelease, H.bSends, H.bSent, H.bPatient.ends, hoft, fun n h => counted_expires h, fun n h => by omega⟩).imp_right fun h => ⟨hoft, h⟩
  | succ p ih =>
    rcases ih fun n hn => hp n (by omega) with ⟨n', w', h1, h2⟩ | ⟨hoft, F, hF⟩
    · exact .inl ⟨n', w', by omega, h2⟩
    · have hoft' : ∀ n, n + b.s.maxRetries.toNat ≤ p + 1 → ∃ j, j < b.s.maxRetries.toNat ∧ Comes (B.net (b.nNet + n + j)) := by
        intro n hn
        by_cases hle : n + b.s.maxRetries.toNat ≤ p
        · exact hoft n hle
        · refine H.bPatient.often n F ?_
          obtain ⟨w, t, h1, h2⟩ := hF F (Nat.le_refl _)
          have := waits_of_past h1.tells h2
          exact Nat.le_trans hn this
      refine (run (p + 1) ?_).imp_right fun h => ⟨hoft', h⟩
      refine ⟨H.bRelease, H.bSends, H.bSent, H.bPatient.ends, hoft', fun n h => counted_expires h, fun n hn hlt hc => ?_⟩
      obtain ⟨d, src, hd⟩ := hc
      obtain ⟨s, F, _, _, _, h5⟩ := (hp n hn).step H.linked hlt hd
      exact h5

omit H in
/-- A datagram that a program sends for any fuel from some amount on, after `s` waits, is as its log tells up to that point. -/
theorem tells_of_past {α : Type} {m : Nat → M α} {x : World} {P : Nat → Bytes → Prop} {p F G i s : Nat} {d : Bytes}
    (hpast : ∀ f, F ≤ f → ∃ w t, Tells x P p w ∧ w.log ++ [.wait t] <+: (m f x).2.log) (hd : ∀ f, G ≤ f → DatagramAt (effectsOf m x f) i s d) (hs : s ≤ p) : P s d := by
  obtain ⟨w, t, ⟨l, h1, h2, h3⟩, r, hr⟩ := hpast (F + G) (by omega)
  have hd := hd (F + G) (by omega)
  rcases hd.within (l := l) (t := t) ⟨r, by unfold effectsOf; rw [← hr, h1]; simp⟩ with h | ⟨h, _⟩
  · exact h3 _ _ _ h
  · omega

omit H in
theorem tells_of_done {α : Type} {m : Nat → M α} {x w : World} {y : α} {P : Nat → Bytes → Prop} {n F G i s : Nat} {d : Bytes}
    (hdone : ∀ f, F ≤ f → m f x = (.ok y, w)) (ht : Tells x P n w) (hd : ∀ f, G ≤ f → DatagramAt (effectsOf m x f) i s d) : P s d := by
  have hd := hd (F + G) (by omega)
  obtain ⟨l, h1, h2, h3⟩ := ht
  unfold effectsOf at hd
  rw [hdone _ (by omega)] at hd
  simp only [h1, List.drop_left] at hd
  exact h3 _ _ _ hd

theorem sender_tells {p : Nat} (hp : ∀ n, n < p → AckEv A B a b bufs len since which n) {F i s : Nat} {d : Bytes}
    (hd : ∀ f, F ≤ f → DatagramAt (effectsOf (fun f => transfer A f (bufs.map fun c => [c])) a f) i s d) (hs : s ≤ p) : PieceAt a bufs (told A a bufs) s d := by
  rcases H.sender_run p hp with ⟨n', w', _, h1, _, G, h2⟩ | ⟨_, G, h2⟩
  · exact tells_of_done (m := fun f => transfer A f (bufs.map fun c => [c])) h2 h1.tells hd
  · refine tells_of_past (m := fun f => transfer A f (bufs.map fun c => [c])) (F := G) (fun f hf => ?_) hd hs
    obtain ⟨w, t, ⟨q, g1⟩, g2⟩ := h2 f hf
    exact ⟨w, t, g1.tells, g2⟩

theorem reader_tells {p : Nat} (hp : ∀ n, n < p → DataEv A B a b bufs since' which' n) {F i s : Nat} {d : Bytes}
    (hd : ∀ f, F ≤ f → DatagramAt (effectsOf (fun f => readUntil B len bufs.flatten.length f) b f) i s d) (hs : s ≤ p) : AckAt b a.s.seqNr (read B a b bufs) s d := by
  rcases H.reader_run p hp with ⟨n', w', _, h1, _, G, h2⟩ | ⟨_, G, h2⟩
  · exact tells_of_done (m := fun f => readUntil B len bufs.flatten.length f) h2 h1.tells hd
  · refine tells_of_past (m := fun f => readUntil B len bufs.flatten.length f) (F := G) (fun f hf => ?_) hd hs
    obtain ⟨w, t, g1, g2⟩ := h2 f hf
    exact ⟨w, t, g1.tells, g2⟩

/-- The acknowledgement that told the sender of the piece before the piece number `j`. -/
theorem told_from {n j : Nat} (hj : 0 < j) (h : told A a bufs n = j) (hp : ∀ m, m < n → AckEv A B a b bufs len since which m) :
    ∃ m s F d, m < n ∧ Comes (A.net (a.nNet + m)) ∧ s ≤ since m ∧
      (∀ f, F ≤ f → DatagramAt (effectsOf (fun f => readUntil B len bufs.flatten.length f) b f) (which m) s d) ∧ read B a b bufs s = j := by
  obtain ⟨m, h1, h2, d, src, h3, h4⟩ := counted_from hj h
  have hlt : told A a bufs m < bufs.length := by
    have := counted_le (E := A) (x := a.nNet) (k := a.s.seqNr) (total := bufs.length) (num := Packet.ackNr) n
    unfold told at h ⊢
    omega
  obtain ⟨s, F, g1, g2, g3, _⟩ := (hp m h1).step H.linked hlt h3
  refine ⟨m, s, F, d, h1, ⟨d, src, h3⟩, g1, g2, ?_⟩
  rw [g3, show told A a bufs (m + 1) = told A a bufs m + 1 from counted_hit (p := ⟨d⟩) h3 hlt h4]
  exact h2

/-- The packet that brought the reader the piece before the piece number `i`. -/
theorem read_from {q i : Nat} (hi : 0 < i) (h : read B a b bufs q = i) (hp : ∀ m, m < q → DataEv A B a b bufs since' which' m) :
    ∃ m s F d, m < q ∧ Comes (B.net (b.nNet + m)) ∧ s ≤ since' m ∧
      (∀ f, F ≤ f → DatagramAt (effectsOf (fun f => transfer A f (bufs.map fun c => [c])) a f) (which' m) s d) ∧ told A a bufs s + 1 = i := by
  obtain ⟨m, h1, h2, d, src, h3, h4⟩ := counted_from hi h
  have hlt : read B a b bufs m < bufs.length := by
    have := counted_le (E := B) (x := b.nNet) (k := a.s.seqNr) (total := bufs.length) (num := Packet.seqNr) q
    unfold read at h ⊢
    omega
  obtain ⟨s, F, g1, g2, g3, _⟩ := (hp m h1).step H.linked hlt h3
  refine ⟨m, s, F, d, h1, ⟨d, src, h3⟩, g1, g2, ?_⟩
  rw [g3, show read B a b bufs (m + 1) = read B a b bufs m + 1 from counted_hit (p := ⟨d⟩) h3 hlt h4]
  exact h2

theorem ack_next {p : Nat} (hp : ∀ n, n < p → AckEv A B a b bufs len since which n) (hq : ∀ q, q < since p → DataEv A B a b bufs since' which' q) :
    AckEv A B a b bufs len since which p := by
  intro hlt d src hd
  obtain ⟨s, h1, F, h2⟩ := H.toA.sent p d src hd
  replace h2 := fun f (hf : F ≤ f) => h2.extend (reader_effects hf)
  have hack := H.reader_tells hq h2 h1
  refine ⟨s, F, h1, h2, hack, ?_⟩
  have hup : read B a b bufs s ≤ told A a bufs p + 1 := by
    by_cases h0 : read B a b bufs s = 0
    · omega
    · obtain ⟨m, s', F', d', g1, _, g2, _, g4⟩ := H.read_from (Nat.pos_of_ne_zero h0) rfl fun m hm => hq m (by omega)
      have hle : since' m ≤ p := Nat.le_of_not_lt fun hc => by
        have := (H.causal p m).mp hc
        omega
      have := counted_mono (E := A) (x := a.nNet) (k := a.s.seqNr) (total := bufs.length) (num := Packet.ackNr) (show s' ≤ p by omega)
      unfold told at g4 ⊢
      omega
  have hlo : told A a bufs p ≤ read B a b bufs s := by
    by_cases h0 : told A a bufs p = 0
    · omega
    · obtain ⟨m, s', F', d', g1, gc, g2, g3, g4⟩ := H.told_from (Nat.pos_of_ne_zero h0) rfl hp
      have ho := H.toA.order m p (by omega) gc ⟨d, src, hd⟩
      have hs := (g3 (F + F') (by omega)).order (h2 (F + F') (by omega)) ho
      have := counted_mono (E := B) (x := b.nNet) (k := a.s.seqNr) (total := bufs.length) (num := Packet.seqNr) hs
      unfold read at g4 ⊢
      omega
  omega

theorem data_next {q : Nat} (hq : ∀ m, m < q → DataEv A B a b bufs since' which' m) (hp : ∀ n, n < since' q → AckEv A B a b bufs len since which n) :
    DataEv A B a b bufs since' which' q := by
  intro hlt d src hd
  obtain ⟨s, h1, F, h2⟩ := H.toB.sent q d src hd
  replace h2 := fun f (hf : F ≤ f) => h2.extend (sender_effects hf)
  refine ⟨s, F, h1, h2, H.sender_tells hp h2 h1, ?_⟩
  have hup : told A a bufs s ≤ read B a b bufs q := by
    by_cases h0 : told A a bufs s = 0
    · omega
    · obtain ⟨m, s', F', d', g1, _, g2, _, g4⟩ := H.told_from (Nat.pos_of_ne_zero h0) rfl fun m hm => hp m (by omega)
      have hle : since m ≤ q := (H.causal m q).mp (by omega)
      have := counted_mono (E := B) (x := b.nNet) (k := a.s.seqNr) (total := bufs.length) (num := Packet.seqNr) (show s' ≤ q by omega)
      unfold read at g4 ⊢
      omega
  have hlo : read B a b bufs q ≤ told A a bufs s + 1 := by
    by_cases h0 : read B a b bufs q = 0
    · omega
    · obtain ⟨m, s', F', d', g1, gc, g2, g3, g4⟩ := H.read_from (Nat.pos_of_ne_zero h0) rfl hq
      have ho := H.toB.order m q (by omega) gc ⟨d, src, hd⟩
      have hs := (g3 (F + F') (by omega)).order (h2 (F + F') (by omega)) ho
      have := counted_mono (E := A) (x := a.nNet) (k := a.s.seqNr) (total := bufs.length) (num := Packet.ackNr) hs
      unfold told at g4 ⊢
      omega
  omega

theorem acks (p : Nat) : AckEv A B a b bufs len since which p := by
  induction p using Nat.strongRecOn with
  | _ p ih =>
    refine H.ack_next ih fun q hq => ?_
    induction q using Nat.strongRecOn with
    | _ q ihq =>
      refine H.data_next (fun m hm => ihq m hm (by omega)) fun n hn => ih n ?_
      have hle : since' q ≤ p := Nat.le_of_not_lt fun hc => by
        have := (H.causal p q).mp hc
        omega
      omega

theorem data (q : Nat) : DataEv A B a b bufs since' which' q := by
  induction q using Nat.strongRecOn with
  | _ q ih => exact H.data_next ih fun n _ => H.acks n

/-- The sender finishes. -/
theorem sender_done : ∃ n, SenderDone A a bufs n := by
  refine Classical.byContradiction fun hno => ?_
  have hA : ∀ p, _ := fun p => (H.sender_run p fun n _ => H.acks n).resolve_left fun h => hno ⟨p, h⟩
  have hlt : ∀ p, told A a bufs p < bufs.length := by
    intro p
    obtain ⟨_, F, hF⟩ := hA p
    obtain ⟨w, t, ⟨q, h1⟩, _⟩ := hF F (Nat.le_refl _)
    obtain ⟨c, hc, _⟩ := h1.piece q rfl
    exact (List.getElem?_eq_some_iff.mp hc).1
  have hmono : ∀ {m n}, m ≤ n → told A a bufs m ≤ told A a bufs n := fun h => counted_mono h
  have hmono' : ∀ {m n}, m ≤ n → read B a b bufs m ≤ read B a b bufs n := fun h => counted_mono h
  -- the count of acknowledgements does not change after some point
  obtain ⟨p0, hp0⟩ : ∃ p0, ∀ p, p0 ≤ p → told A a bufs p = told A a bufs p0 := by
    have key : ∀ d p, bufs.length - told A a bufs p ≤ d → ∃ p0, ∀ p, p0 ≤ p → told A a bufs p = told A a bufs p0 := by
      intro d
      induction d with
      | zero => intro p hd; have := hlt p; omega
      | succ d ih =>
        intro p hd
        by_cases hc : ∃ p', p ≤ p' ∧ told A a bufs p < told A a bufs p'
        · obtain ⟨p', h1, h2⟩ := hc
          have := hlt p'
          exact ih p' (by omega)
        · refine ⟨p, fun p' hp' => ?_⟩
          have h1 := hmono hp'
          have h2 : ¬ told A a bufs p < told A a bufs p' := fun h => hc ⟨p', hp', h⟩
          omega
    exact key _ 0 (Nat.le_refl _)
  have comesA : ∀ n, ∃ m, n ≤ m ∧ Comes (A.net (a.nNet + m)) := by
    intro n
    obtain ⟨j, _, hj⟩ := (hA (n + a.s.maxRetries.toNat)).1 n (Nat.le_refl _)
    exact ⟨n + j, by omega, by rw [← Nat.add_assoc]; exact hj⟩
  -- acknowledgements of the same number arrive again and again
  have stale : ∀ D, ∃ m s F d, D < which m ∧ (∀ f, F ≤ f → DatagramAt (effectsOf (fun f => readUntil B len bufs.flatten.length f) b f) (which m) s d) ∧ read B a b bufs s = told A a bufs p0 := by
    intro D
    obtain ⟨P, hP⟩ := H.toA.finite D
    obtain ⟨m, h1, d, src, hd⟩ := comesA (P + p0)
    obtain ⟨s, F, _, g2, g3, _⟩ := (H.acks m).step H.linked (hlt m) hd
    exact ⟨m, s, F, d, hP m (by omega) ⟨d, src, hd⟩, g2, g3.trans (hp0 _ (by omega))⟩
  -- so the reader goes on as well
  have hB : ∀ q, _ := fun q => (H.reader_run q fun n _ => H.data n).resolve_left fun ⟨n', w', _, h1, _, G, hG⟩ => by
    obtain ⟨l, e1, _, _⟩ := h1.tells
    obtain ⟨m, s, F, d, g1, g2, _⟩ := stale (datagramsOf l).length
    have hd := (g2 (F + G) (by omega)).index
    unfold effectsOf at hd
    have hG := hG (F + G) (by omega)
    simp only [hG, e1, List.drop_left] at hd
    omega
  have hread : ∀ q, read B a b bufs q ≤ told A a bufs p0 := by
    intro q
    obtain ⟨_, G, hG⟩ := hB q
    obtain ⟨w, t, h1, r, hr⟩ := hG G (Nat.le_refl _)
    obtain ⟨l, e1, e2, _⟩ := h1.tells
    obtain ⟨m, s, F, d, g1, g2, g3⟩ := stale (datagramsOf l).length
    have hpre : l ++ [.wait t] <+: effectsOf (fun f => readUntil B len bufs.flatten.length f) b (F + G) :=
      .trans ⟨r, by unfold effectsOf; simp only [← hr, e1]; simp⟩ (reader_effects (Nat.le_add_left G F))
    rcases (g2 (F + G) (by omega)).within hpre with h | ⟨h, _⟩
    · have := h.index
      omega
    · rw [← g3]; exact hmono' (by omega)
  -- the reader gets datagrams again and again, and they carry pieces that were acknowledged before
  obtain ⟨_, G, hG⟩ := hA p0
  obtain ⟨w, t, ⟨q, h1⟩, r, hr⟩ := hG G (Nat.le_refl _)
  obtain ⟨l, e1, e2, _⟩ := h1.tells
  obtain ⟨P, hP⟩ := H.toB.finite (datagramsOf l).length
  obtain ⟨j, _, d, src, hd⟩ := (hB (P + b.s.maxRetries.toNat)).1 P (Nat.le_refl _)
  rw [Nat.add_assoc] at hd
  have hw := hP (P + j) (by omega) ⟨d, src, hd⟩
  have hlt' := hlt p0
  have hr1 := hread (P + j)
  obtain ⟨s, F, _, g2, g3, _⟩ := (H.data (P + j)).step H.linked (by omega) hd
  have hpre : l ++ [.wait t] <+: effectsOf (fun f => transfer A f (bufs.map fun c => [c])) a (F + G) :=
    .trans ⟨r, by unfold effectsOf; simp only [← hr, e1]; simp⟩ (sender_effects (Nat.le_add_left G F))
  rcases (g2 (F + G) (by omega)).within hpre with h | ⟨h, _⟩
  · have := h.index
    omega
  · have h5 := hmono (show p0 ≤ s by omega)
    have h6 := hread (P + j + 1)
    omega

/-- The reader finishes. -/
theorem reader_done : ∃ n, ReaderDone B a b bufs len n := by
  refine Classical.byContradiction fun hno => ?_
  have hB : ∀ q, _ := fun q => (H.reader_run q fun n _ => H.data n).resolve_left fun h => hno ⟨q, h⟩
  obtain ⟨n, n', w', _, h1, _, G, hG⟩ := H.sender_done
  obtain ⟨l, e1, _, _⟩ := h1.tells
  obtain ⟨P, hP⟩ := H.toB.finite (datagramsOf l).length
  obtain ⟨j, _, d, src, hd⟩ := (hB (P + b.s.maxRetries.toNat)).1 P (Nat.le_refl _)
  rw [Nat.add_assoc] at hd
  have hw := hP (P + j) (by omega) ⟨d, src, hd⟩
  obtain ⟨s, _, F, g⟩ := H.toB.sent (P + j) d src hd
  have hi := (g.extend (sender_effects (Nat.le_add_right F G))).index
  unfold effectsOf at hi
  have hG := hG (F + G) (by omega)
  simp only [hG, e1, List.drop_left] at hi
  omega

/-- Both sides finish. -/
theorem delivered : ∃ a' b', Delivered A B a b (bufs.map fun c => [c]) len a' b' ∧ Linked a' b' ∧ CaughtUp a'.s b'.s ∧ b'.s.sendWindow = [] ∧
    a'.s.seqNr = a.s.seqNr + BitVec.ofNat 16 bufs.length := by
  obtain ⟨_, n, a', _, h1, h2, F, h3⟩ := H.sender_done
  obtain ⟨_, m, b', _, g1, g2, G, g3⟩ := H.reader_done
  have hfl : (bufs.map fun c => [c]).flatten = bufs := by
    rw [← List.flatMap_def]; exact List.flatMap_singleton' bufs
  have hseq : a'.s.seqNr = a.s.seqNr + BitVec.ofNat 16 bufs.length := by rw [h1.next, h2]; rfl
  have hfr := g1.exp.fresh rfl
  rw [if_pos rfl, g2, ← hseq] at hfr
  refine ⟨a', b', ⟨F + G, fun f hf => ⟨h3 f (by omega), by rw [hfl]; exact g3 f (by omega)⟩⟩, ?_, ?_, by rw [g1.kept.sendWindow]; exact H.bSent, hseq⟩
  · refine ⟨h1.state, g1.exp.state, by rw [h1.tries]; exact H.linked.aTries, by rw [g1.kept.maxRetries]; exact H.linked.bTries, ?_, ?_, h1.quiet, g1.exp.empty rfl, g1.exp.pending⟩
    · rw [h1.sid, g1.rid]; exact H.linked.toB
    · rw [g1.sid, h1.rid]; exact H.linked.toA
  · refine ⟨⟨h1.window, h1.unsent, h1.size⟩, by rw [h1.acked, h2, hseq], ?_, ?_⟩
    · rw [hfr.1]; exact succ_pred _
    · rw [hfr.2]; exact succ_pred _

end LossyPair

end Utp
