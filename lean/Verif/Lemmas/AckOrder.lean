import Verif.Spec.AckOrder
import Verif.Lemmas.Resend
import Verif.Props.Memory
/-!
# The order of acknowledgements, through all functions
-/

namespace Utp
open M Packet Spec

variable {E : Env} {α β : Type} {m c : Nat} {l0 : List Act} {a : Nat} {q : Prop} {k : Nat}

theorem ackNumbers_append (x y : List Act) : ackNumbers (x ++ y) = ackNumbers x ++ ackNumbers y := by
  induction x with
  | nil => rfl
  | cons z x ih =>
    cases z with
    | wait t => exact ih
    | send d b o =>
      simp only [List.cons_append, ackNumbers]
      split
      · rw [ih]; rfl
      · exact ih

theorem ackNr_bytes (p : Packet) : (p.bytes.getD 18 0).toNat * 256 + (p.bytes.getD 19 0).toNat = p.ackNr.toNat := by
  have h := fun i => (byteAt p.bytes i).isLt
  have h1 := h 18; have h2 := h 19
  simp only [ackNr, be16, BitVec.toNat_ofNat, Nat.reduceAdd, byteAt] at *
  omega

/-- The acknowledgement numbers in `l` are `a + x` for a list of numbers `x` that does not decrease and does not exceed `u`. -/
def AckSorted (a u : Nat) (l : List Act) : Prop :=
  ∃ us : List Nat, us.Pairwise (· ≤ ·) ∧ (∀ x ∈ us, x ≤ u) ∧ ackNumbers l = us.map fun x => (a + x) % 65536

theorem waits_append (x y : List Act) : waits (x ++ y) = waits x + waits y := by
  induction x with
  | nil => simp [waits]
  | cons z x ih =>
    cases z with
    | wait t => simp only [List.cons_append, waits, ih]; omega
    | send d b o => simpa only [List.cons_append, waits] using ih

theorem NoJump.mono {a : U16} {n n' : Nat} (h : NoJump E a m n') (hn : n ≤ n') : NoJump E a m n := fun k hk => h k (by omega)

theorem highest_none {a : U16} {k : Nat} (h : arrival E (m + k) = none) : highest E a m (k + 1) = highest E a m k := by simp only [highest, h]

theorem CompleteAnswers.said {a : U16} {l : List Act} (h : CompleteAnswers E a m l) {dst : Addr} {b : Bytes} {ok : Bool}
    (hb : kind b = 2 → (b.getD 18 0).toNat * 256 + (b.getD 19 0).toNat = (highest E a m (waits l)).toNat) : CompleteAnswers E a m (l ++ [.send dst b ok]) := by
  intro x dst' b' ok' y e
  rcases List.eq_nil_or_concat y with rfl | ⟨y', z, rfl⟩
  · obtain ⟨e1, e2⟩ := List.append_inj' e rfl
    cases e2
    rw [← e1]
    exact hb
  · have e : l ++ [.send dst b ok] = (x ++ .send dst' b' ok' :: y') ++ [z] := by rw [e]; simp
    obtain ⟨e1, _⟩ := List.append_inj' e rfl
    exact h x dst' b' ok' y' e1

theorem CompleteAnswers.wait {a : U16} {l : List Act} (h : CompleteAnswers E a m l) (t : Option U64) : CompleteAnswers E a m (l ++ [.wait t]) := by
  intro x dst' b' ok' y e
  rcases List.eq_nil_or_concat y with rfl | ⟨y', z, rfl⟩
  · obtain ⟨_, e2⟩ := List.append_inj' e rfl
    cases e2
  · have e : l ++ [.wait t] = (x ++ .send dst' b' ok' :: y') ++ [z] := by rw [e]; simp
    obtain ⟨e1, _⟩ := List.append_inj' e rfl
    exact h x dst' b' ok' y' e1

/-- What is known in addition if the first `n` packets arrived in order. -/
structure FullRun (E : Env) (m : Nat) (l0 : List Act) (a : U16) (n : Nat) (nr : U16) (inc : List Packet) (lg : List Act) : Prop where
  ack : nr = highest E a m n
  held : ∀ p ∈ inc, (nr - p.seqNr).toNat < 32768 + n
  log : ∀ l, lg = l0 ++ l → CompleteAnswers E a m l

/-- What is known at `w`: the acknowledgement number is `u` ahead of `a`, where `u` is limited by the number of receives (with `k` to spare), and those sent so far were in order.
`q` says that no packet is partly read. -/
structure AckRun (E : Env) (m c : Nat) (l0 : List Act) (a : Nat) (q : Prop) (k : Nat) (w : World) : Prop where
  lo : m ≤ w.nNet
  opened : w.s.state ≠ .new ∧ w.s.state ≠ .synSent
  whole : q → w.s.pending = []
  head : w.s.pending ≠ [] → ∃ p rest, w.s.incoming = p :: rest ∧ (p.seqNr = w.s.ackNr ∨ p.seqNr = w.s.ackNr + 1)
  small : ∀ p ∈ w.s.incoming, ∀ pl, p.payload = some pl → pl.length ≤ 1500
  data : ∀ p, p ∈ w.s.sendWindow ∨ p ∈ w.s.unsent → p.getType = some .data
  num : ∃ u, w.s.ackNr.toNat = (a + u) % 65536 ∧ u + w.s.incoming.length + k ≤ 2 * (w.nNet - m) + c ∧ ∃ l, w.log = l0 ++ l ∧ waits l = w.nNet - m ∧ AckSorted a u l
  full : k / 2 ≤ w.nNet - m ∧ (NoJump E (BitVec.ofNat 16 a) m (w.nNet - m - k / 2) → w.nNet - m - k / 2 ≤ 32767 → FullRun E m l0 (BitVec.ofNat 16 a) (w.nNet - m - k / 2) w.s.ackNr w.s.incoming w.log)

abbrev KeepsAcks (E : Env) (m c : Nat) (l0 : List Act) (a : Nat) (f : M α) : Prop :=
  Holds (AckRun E m c l0 a True 0) (AckRun E m c l0 a True 0) f (fun _ => AckRun E m c l0 a True 0)

/-- A change of the socket that does not matter here. -/
structure SameAckRun (s s' : Socket) : Prop where
  ack : s'.ackNr = s.ackNr
  inc : s'.incoming = s.incoming
  pend : s'.pending = s.pending
  win : ∀ p, p ∈ s'.sendWindow ∨ p ∈ s'.unsent → p ∈ s.sendWindow ∨ p ∈ s.unsent
  opened : s.state ≠ .new ∧ s.state ≠ .synSent → s'.state ≠ .new ∧ s'.state ≠ .synSent

theorem SameAckRun.of {s s' : Socket} (h1 : s'.ackNr = s.ackNr) (h2 : s'.incoming = s.incoming) (h3 : s'.pending = s.pending)
    (h4 : s'.sendWindow = s.sendWindow) (h5 : s'.unsent = s.unsent) (h6 : s'.state = s.state) : SameAckRun s s' :=
  ⟨h1, h2, h3, fun p h => by rwa [h4, h5] at h, fun h => by rwa [h6]⟩

theorem AckRun.same {w : World} (h : AckRun E m c l0 a q k w) {s : Socket} (hs : SameAckRun w.s s) : AckRun E m c l0 a q k { w with s := s } :=
  ⟨h.lo, hs.opened h.opened, fun hq => hs.pend.trans (h.whole hq), by
    show s.pending ≠ [] → ∃ p rest, s.incoming = p :: rest ∧ (p.seqNr = s.ackNr ∨ p.seqNr = s.ackNr + 1)
    rw [hs.pend, hs.inc, hs.ack]; exact h.head, by
    show ∀ p ∈ s.incoming, _
    rw [hs.inc]; exact h.small, fun p hp => h.data p (hs.win p hp), by
    show ∃ u, s.ackNr.toNat = _ ∧ u + s.incoming.length + k ≤ _ ∧ _
    rw [hs.ack, hs.inc]; exact h.num, by
    show _ ∧ (_ → _ → FullRun E m l0 _ _ s.ackNr s.incoming w.log)
    rw [hs.ack, hs.inc]; exact h.full⟩

theorem AckRun.less {k' : Nat} {w : World} (h : AckRun E m c l0 a q k w) (hk : k' ≤ k) (h2 : k < 2) : AckRun E m c l0 a q k' w :=
  ⟨h.lo, h.opened, h.whole, h.head, h.small, h.data, h.num.imp fun _ h => ⟨h.1, by omega, h.2.2⟩, by
    have := h.full
    rwa [show k / 2 = k' / 2 by omega] at this⟩

theorem AckRun.loose {w : World} (h : AckRun E m c l0 a q k w) : AckRun E m c l0 a False k w :=
  ⟨h.lo, h.opened, fun h => h.elim, h.head, h.small, h.data, h.num, h.full⟩

theorem AckRun.tight {w : World} (h : AckRun E m c l0 a q k w) (hp : w.s.pending = []) : AckRun E m c l0 a True k w :=
  ⟨h.lo, h.opened, fun _ => hp, h.head, h.small, h.data, h.num, h.full⟩

theorem AckRun.tick {w : World} (h : AckRun E m c l0 a q k w) : AckRun E m c l0 a q k { w with nNow := w.nNow + 1 } :=
  ⟨h.lo, h.opened, h.whole, h.head, h.small, h.data, h.num, h.full⟩

theorem acks_now : Holds (AckRun E m c l0 a True 0) (AckRun E m c l0 a q k) (M.now E) (fun _ => AckRun E m c l0 a q k) := fun _ hw => hw.tick

theorem acks_modS {f : Socket → Socket} (h : ∀ s, SameAckRun s (f s)) : KeepsAcks E m c l0 a (M.modS f) :=
  Holds.modS fun w hw => hw.same (h w.s)

/-- If the datagram is a State datagram, it carries this number. -/
def Says (b : Bytes) (n : U16) : Prop := kind b = 2 → (b.getD 18 0).toNat * 256 + (b.getD 19 0).toNat = n.toNat

theorem AckSorted.said {u : Nat} {l : List Act} (h : AckSorted a u l) {b : Bytes} {n : U16} (hn : n.toNat = (a + u) % 65536) (hb : Says b n) (dst : Addr) (ok : Bool) :
    AckSorted a u (l ++ [.send dst b ok]) := by
  obtain ⟨us, h1, h2, h3⟩ := h
  unfold AckSorted
  rw [ackNumbers_append, h3]
  simp only [ackNumbers]
  split
  · rename_i hk
    refine ⟨us ++ [u], List.pairwise_append.mpr ⟨h1, by simp, fun x hx y hy => by rw [List.mem_singleton.mp hy]; exact h2 x hx⟩, ?_, ?_⟩
    · intro x hx
      rcases List.mem_append.mp hx with hx | hx
      · exact h2 x hx
      · rw [List.mem_singleton.mp hx]
    · rw [hb hk, hn]; simp
  · exact ⟨us, h1, h2, by simp⟩

theorem AckSorted.wait {u : Nat} {l : List Act} (h : AckSorted a u l) (t : Option U64) : AckSorted a u (l ++ [.wait t]) := by
  obtain ⟨us, h1, h2, h3⟩ := h
  exact ⟨us, h1, h2, by rw [ackNumbers_append, h3]; simp [ackNumbers]⟩

theorem AckSorted.more {u u' : Nat} {l : List Act} (h : AckSorted a u l) (hu : u ≤ u') : AckSorted a u' l := by
  obtain ⟨us, h1, h2, h3⟩ := h
  exact ⟨us, h1, fun x hx => Nat.le_trans (h2 x hx) hu, h3⟩

theorem acks_udpSend (hk : k < 2) {I : World → Prop} (hI : ∀ w, AckRun E m c l0 a q k w → I w) {dst : Addr} {b : Bytes} : Holds I (fun w => AckRun E m c l0 a q k w ∧ Says b w.s.ackNr) (M.udpSend E dst b) (fun _ => AckRun E m c l0 a q k) := by
  intro w ⟨hw, hb⟩
  have key : ∀ ok, AckRun E m c l0 a q k { w with nSnd := w.nSnd + 1, log := w.log ++ [.send dst b ok] } := fun ok =>
    ⟨hw.lo, hw.opened, hw.whole, hw.head, hw.small, hw.data, by
      obtain ⟨u, h1, h2, l, h3, h0, h4⟩ := hw.num
      exact ⟨u, h1, h2, l ++ [.send dst b ok], by rw [h3, List.append_assoc], by rw [waits_append, h0]; rfl, h4.said h1 hb dst ok⟩, by
      obtain ⟨u, h1, h2, l, h3, h0, h4⟩ := hw.num
      refine ⟨hw.full.1, fun hj hn => ?_⟩
      have hf := hw.full.2 hj hn
      refine ⟨hf.ack, hf.held, fun l' hl' => ?_⟩
      have : l' = l ++ [.send dst b ok] := List.append_cancel_left (hl'.symm.trans (by show w.log ++ _ = _; rw [h3, List.append_assoc]))
      rw [this]
      refine (hf.log l h3).said fun hkd => ?_
      rw [hb hkd, hf.ack, h0, show w.nNet - m - k / 2 = w.nNet - m by omega]⟩
  unfold M.udpSend
  dsimp only
  cases E.snd w.nSnd with
  | ok => exact key _
  | fail _ => exact hI _ (key _)
  | never => exact hI _ (key _)

theorem says_data {p : Packet} (h : p.getType = some .data) (n : U16) : Says p.bytes n := by
  intro hk
  rw [getType_kind h] at hk
  exact absurd hk (by decide)

/-- A packet is taken from the front of the buffer. -/
theorem AckRun.popped {w : World} (h : AckRun E m c l0 a q k w) {p : Packet} {rest : List Packet} (hi : w.s.incoming = p :: rest) (hp : p.seqNr = w.s.ackNr ∨ p.seqNr = w.s.ackNr + 1) :
    AckRun E m c l0 a True k { w with s := { w.s with pending := [], incoming := rest, ackNr := p.seqNr, lastDropped := p.seqNr } } := by
  refine ⟨h.lo, h.opened, fun _ => rfl, fun h => absurd rfl h, fun x hx => h.small x (by rw [hi]; exact List.mem_cons_of_mem _ hx), h.data, ?_, h.full.1, fun hj hn => ?_⟩
  rotate_left
  · have hf := h.full.2 hj hn
    have hp' : p.seqNr = w.s.ackNr := by
      rcases hp with hp | hp
      · exact hp
      · have := hf.held p (by rw [hi]; exact List.mem_cons_self)
        rw [hp] at this
        have e : (w.s.ackNr - (w.s.ackNr + 1)).toNat = 65535 := by bv_omega
        dsimp only at hn
        omega
    exact ⟨by rw [← hf.ack, ← hp'], fun x hx => by rw [hp']; exact hf.held x (by rw [hi]; exact List.mem_cons_of_mem _ hx), hf.log⟩
  obtain ⟨u, h1, h2, l, h3, h4⟩ := h.num
  rw [hi, List.length_cons] at h2
  rcases hp with hp | hp
  · exact ⟨u, by rw [← h1, ← hp], by dsimp only; omega, l, h3, h4⟩
  · refine ⟨u + 1, ?_, by dsimp only; omega, l, h3, h4.1, h4.2.more (Nat.le_succ _)⟩
    show p.seqNr.toNat = _
    rw [hp, BitVec.toNat_add, h1]
    simp
    omega

theorem acks_flushIncoming {I : World → Prop} (len : Nat) : Holds I (AckRun E m c l0 a q k) (flushIncoming E len)
    (fun out w => AckRun E m c l0 a False k w ∧ (0 < len → out = [] → w.s.pending = []) ∧ (q → 1500 ≤ len → w.s.pending = [])) := by
  unfold flushIncoming
  refine Holds.get fun s => ?_
  split
  · rename_i hne
    intro w ⟨hw, hs⟩
    subst hs
    obtain ⟨p, rest, hi, hp⟩ := hw.head hne
    show AckRun E m c l0 a False k (w.setS (w.s.takePending len).2) ∧ (0 < len → (w.s.takePending len).1 = [] → (w.s.takePending len).2.pending = []) ∧ (q → 1500 ≤ len → (w.s.takePending len).2.pending = [])
    unfold Socket.takePending
    dsimp only
    split
    · have : Socket.advanceIncoming { w.s with pending := [] } = { w.s with pending := [], incoming := rest, ackNr := p.seqNr, lastDropped := p.seqNr } := by
        simp only [Socket.advanceIncoming, hi]
      rw [this]
      exact ⟨(hw.popped hi hp).loose, fun _ _ => rfl, fun _ _ => rfl⟩
    · refine ⟨⟨hw.lo, hw.opened, fun h => h.elim, fun _ => hw.head hne, hw.small, hw.data, hw.num, hw.full⟩, fun hl ho => ?_, fun hq _ => absurd (hw.whole hq) hne⟩
      rw [List.take_eq_nil_iff] at ho
      rcases ho with ho | ho
      · omega
      · exact absurd ho hne
  · rename_i hpe
    have hpe : s.pending = [] := by simpa using hpe
    rcases hi : s.incoming with _ | ⟨p, rest⟩
    · exact Holds.pure fun w hw => ⟨hw.1.loose, fun _ _ => by rw [hw.2]; exact hpe, fun _ _ => by rw [hw.2]; exact hpe⟩
    · refine Holds.seq Holds.overflowIf fun _ => ?_
      split
      · rename_i hh
        rcases hpl : p.payload with _ | pl
        · exact Holds.seq (Q := fun _ _ => False) (Holds.orPanic fun _ e => by cases e) fun _ _ h => h.elim
        · intro w ⟨hw, hs⟩
          subst hs
          show AckRun E m c l0 a False k (w.setS (w.s.takeHead pl len)) ∧ (0 < len → pl.take len = [] → (w.s.takeHead pl len).pending = []) ∧ (q → 1500 ≤ len → (w.s.takeHead pl len).pending = [])
          have hp : p.seqNr = w.s.ackNr ∨ p.seqNr = w.s.ackNr + 1 := hh.imp Eq.symm Eq.symm
          have hsm := hw.small p (by rw [hi]; exact List.mem_cons_self) pl hpl
          unfold Socket.takeHead
          split
          · have : w.s.advanceIncoming = { w.s with pending := [], incoming := rest, ackNr := p.seqNr, lastDropped := p.seqNr } := by
              simp only [Socket.advanceIncoming, hi]
              rw [← hpe]
            rw [this]
            exact ⟨(hw.popped hi hp).loose, fun _ _ => rfl, fun _ _ => rfl⟩
          · rename_i hlen
            rw [List.length_take] at hlen
            refine ⟨⟨hw.lo, hw.opened, fun h => h.elim, fun _ => ⟨p, rest, hi, hp⟩, hw.small, hw.data, hw.num, hw.full⟩, fun hl ho => ?_, fun _ hl => ?_⟩
            · rw [List.take_eq_nil_iff] at ho
              rcases ho with ho | ho
              · omega
              · rw [ho] at hlen; simp at hlen
            · omega
      · exact Holds.pure fun w hw => ⟨hw.1.loose, fun _ _ => by rw [hw.2]; exact hpe, fun _ _ => by rw [hw.2]; exact hpe⟩

/-- Weakening to what is carried through errors. -/
theorem AckRun.any' {w : World} (h : AckRun E m c l0 a True k w) (hk : k < 2) : AckRun E m c l0 a q 0 w :=
  ⟨h.lo, h.opened, fun _ => h.whole trivial, h.head, h.small, h.data, (h.less (Nat.zero_le k) hk).num, (h.less (Nat.zero_le k) hk).full⟩

theorem AckRun.any {w : World} (h : AckRun E m c l0 a True 0 w) : AckRun E m c l0 a q 0 w := h.any' (by omega)

/-- What arrived was no packet. -/
theorem AckRun.missed {w : World} (h : AckRun E m c l0 a True 2 w) (hn : arrival E (w.nNet - 1) = none) : AckRun E m c l0 a True 0 w := by
  refine ⟨h.lo, h.opened, h.whole, h.head, h.small, h.data, h.num.imp fun _ h => ⟨h.1, by omega, h.2.2⟩, Nat.zero_le _, fun hj hb => ?_⟩
  have h1 := h.full.1
  have h2 := h.full.2 (hj.mono (by omega)) (by omega)
  have e : w.nNet - m - 0 / 2 = (w.nNet - m - 2 / 2) + 1 := by omega
  rw [e]
  refine ⟨?_, fun p hp => by have := h2.held p hp; omega, h2.log⟩
  rw [highest_none (by rw [show m + (w.nNet - m - 2 / 2) = w.nNet - 1 by omega]; exact hn)]
  exact h2.ack

abbrev Ak (E : Env) (m c : Nat) (l0 : List Act) (a : Nat) : World → Prop := AckRun E m c l0 a True 0

theorem acks_fastResendRequest : KeepsAcks E m c l0 a (fastResendRequest E) := by
  have hf : KeepsAcks E m c l0 a (fastResendOne E) := by
    unfold fastResendOne
    refine Holds.get fun s => Holds.seq (Q := fun _ w => Ak E m c l0 a w ∧ w.s = s) (show Holds _ _ (M.now E) _ from fun w hw => ⟨hw.1.tick, hw.2⟩) fun t =>
      Holds.ignoreErr (Q := fun _ => Ak E m c l0 a) ((acks_udpSend (by omega) fun _ h => h).pre fun w hw => ⟨hw.1, fun _ => ?_⟩) fun _ h => h
    rw [ackNr_bytes, (resendRequest_facts s t).2.1, hw.2]
  exact Holds.seq hf fun _ => Holds.seq hf fun _ => hf

theorem acks_handleReceiveTimeout : KeepsAcks E m c l0 a (handleReceiveTimeout E) := by
  unfold handleReceiveTimeout
  refine Holds.get fun s => Holds.seq Holds.overflowIf fun _ =>
    Holds.seq (Q := fun _ w => Ak E m c l0 a w ∧ w.s.sendWindow = s.sendWindow ∧ w.s.ackNr = s.ackNr) (Holds.modS fun w hw => ⟨hw.1.same (.of rfl rfl rfl rfl rfl rfl), by rw [← hw.2], by rw [← hw.2]⟩) fun _ => ?_
  rcases e : s.sendWindow with _ | ⟨p, rest⟩
  · dsimp only
    split
    · refine Holds.seq (Q := fun _ w => Ak E m c l0 a w ∧ w.s.ackNr = s.ackNr) (show Holds _ _ (M.now E) _ from fun w hw => ⟨hw.1.tick, hw.2.2⟩) fun t => (acks_udpSend (by omega) fun _ h => h).pre fun w hw => ⟨hw.1, fun _ => ?_⟩
      rw [ackNr_bytes, (finPacket_facts s t).2.1, hw.2]
    · split
      · exact acks_fastResendRequest.pre fun _ h => h.1
      · exact Holds.pure fun w hw => hw.1
  · refine Holds.seq (Q := fun _ w => Ak E m c l0 a w ∧ w.s.sendWindow = p :: rest) (show Holds _ _ (M.now E) _ from fun w hw => ⟨hw.1.tick, hw.2.1⟩) fun t =>
      Holds.seq (Q := fun _ w => Ak E m c l0 a w ∧ (p.setTimestamp t).getType = some .data) (Holds.modS fun w hw => ?_) fun _ => (acks_udpSend (by omega) fun _ h => h).pre fun w hw => ⟨hw.1, says_data hw.2 _⟩
    obtain ⟨hw, hwin⟩ := hw
    have hp : (p.setTimestamp t).getType = some .data := by
      rw [setTimestamp_getType]
      exact hw.data p (.inl (by rw [hwin]; exact List.mem_cons_self))
    refine ⟨⟨hw.lo, hw.opened, hw.whole, hw.head, hw.small, fun x hx => ?_, hw.num, hw.full⟩, hp⟩
    rcases hx with hx | hx
    · rcases List.mem_cons.mp hx with rfl | hx
      · exact hp
      · exact hw.data x (.inl (by rw [hwin]; exact List.mem_cons_of_mem _ hx))
    · exact hw.data x (.inr hx)

theorem AckRun.waited {w : World} (h : Ak E m c l0 a w) (t : Option U64) :
    AckRun E m c l0 a True 2 { w with nNet := w.nNet + 1, log := w.log ++ [.wait t] } := by
  have hl := h.lo
  obtain ⟨u, h1, h2, l, h3, h0, h4⟩ := h.num
  have e : w.nNet + 1 - m - 2 / 2 = w.nNet - m - 0 / 2 := by omega
  refine ⟨Nat.le_succ_of_le h.lo, h.opened, h.whole, h.head, h.small, h.data, ?_, by dsimp only; omega, fun hj hn => ?_⟩
  · exact ⟨u, h1, by dsimp only; omega, l ++ [.wait t], by rw [h3, List.append_assoc], by rw [waits_append, h0]; simp only [waits]; omega, h4.wait t⟩
  · dsimp only at hj hn ⊢
    rw [e] at hj hn ⊢
    have hf := h.full.2 hj hn
    refine ⟨hf.ack, hf.held, fun l' hl' => ?_⟩
    have : l' = l ++ [.wait t] := List.append_cancel_left (hl'.symm.trans (by rw [h3, List.append_assoc]))
    rw [this]
    exact (hf.log l h3).wait t

/-- A datagram just arrived. -/
def AckDgram (E : Env) (m c : Nat) (l0 : List Act) (a : Nat) (b : Bytes) (w : World) : Prop :=
  AckRun E m c l0 a True 2 w ∧ ∃ d src, E.net (w.nNet - 1) = .dgram d src ∧ b = d.take 1520

theorem acks_recvWait : ∀ fuel retries, Holds (Ak E m c l0 a) (Ak E m c l0 a) (recvWait E fuel retries) (fun r w => AckDgram E m c l0 a r.1 w)
  | 0, _ => Holds.never fun _ h => h
  | fuel + 1, retries => by
    unfold recvWait
    refine Holds.get fun s => ?_
    split
    · exact Holds.seq (Q := fun _ => Ak E m c l0 a) (Holds.modS fun w hw => hw.1.same ⟨rfl, rfl, rfl, fun _ h => h, fun _ => by simp⟩) fun _ => Holds.throw fun _ h => h
    · refine Holds.seq (Q := fun r w => match r with
        | .ok (b, _) => AckDgram E m c l0 a b w
        | .error _ => Ak E m c l0 a w) ?_ fun r => ?_
      · intro w ⟨hw, _⟩
        unfold M.udpRecv
        dsimp only
        have hx := fun t => hw.waited t
        rcases e : E.net w.nNet with ⟨b, src⟩ | kk | _
        · exact ⟨hx _, b, src, e, rfl⟩
        · exact (hx _).missed (by simp only [arrival, Nat.add_sub_cancel, e])
        · exact (hx _).missed (by simp only [arrival, Nat.add_sub_cancel, e])
      · rcases r with e | ⟨b, src⟩
        · dsimp only
          split
          · exact Holds.seq acks_handleReceiveTimeout fun _ => acks_recvWait fuel (retries + 1)
          · exact Holds.throw fun _ h => h
        · exact Holds.pure fun w hw => hw

section
variable {rec : M (Bytes × Addr)} (hr : KeepsAcks E m c l0 a rec)
include hr

/-- The wait of `send_packet`. -/
theorem acks_room (fuel : Nat) (x : U32) (start : U32) : KeepsAcks E m c l0 a (whileM fuel
    (do
      let s ← getS
      if x ≤ s.currWindow then
        let t ← now E
        return decide (tsSub t start < PRE_SEND_TIMEOUT)
      else return false)
    (andThen rec fun _ => ret ())) := by
  refine Holds.whileM ?_ (Holds.andThen hr fun _ => Holds.ret fun _ h => h) (fun _ h => h) _
  refine Holds.get fun s1 => ?_
  split
  · exact Holds.seq (Q := fun _ => Ak E m c l0 a) (acks_now.pre fun w hw => hw.1) fun t => Holds.pure fun _ h => h
  · exact Holds.pure fun _ h => h.1

theorem acks_sendPacket (fuel : Nat) {p : Packet} (hp : p.getType = some .data) :
    Holds (Ak E m c l0 a) (Ak E m c l0 a) (sendPacket E fuel rec p) (fun p' w => Ak E m c l0 a w ∧ p'.getType = some .data) := by
  unfold sendPacket
  refine Holds.get fun s => Holds.seq (Q := fun _ => Ak E m c l0 a) (acks_now.pre fun w hw => hw.1) fun t =>
    Holds.seq (acks_room hr fuel _ t) fun _ => Holds.get fun s => ?_
  split
  · exact Holds.pure fun _ h => ⟨h.1, hp⟩
  · refine Holds.seq (Q := fun _ => Ak E m c l0 a) (acks_now.pre fun w hw => hw.1) fun t =>
      Holds.seq ((acks_udpSend (by omega) fun _ h => h).pre fun w hw => ⟨hw, says_data ?_ _⟩) fun _ => Holds.pure fun _ h => ⟨h, ?_⟩
    all_goals rw [setTimestampDifference_getType, setTimestamp_getType]; exact hp

theorem acks_resendLost (fuel : Nat) (x : U16) : KeepsAcks E m c l0 a (resendLost E fuel rec x) := by
  unfold resendLost
  refine Holds.get fun s => ?_
  split
  · exact Holds.pure fun _ h => h.1
  · rename_i p e
    intro w ⟨hw, hs⟩
    refine Holds.ignoreErr (Q := fun _ => Ak E m c l0 a) ((acks_sendPacket hr fuel ?_).post fun _ _ h => h.1) (fun _ h => h) w hw
    refine hw.data p (.inl ?_)
    rw [hs]
    exact List.mem_of_find?_eq_some e

theorem acks_resendMissing (fuel : Nat) (ack last : U16) : ∀ bits loss, KeepsAcks E m c l0 a (resendMissing E fuel rec ack last bits loss) := by
  intro bits
  induction bits with
  | nil => intro loss; exact Holds.pure fun _ h => h
  | cons x rest ih =>
    intro loss
    obtain ⟨idx, received⟩ := x
    unfold resendMissing
    split
    · exact ih _
    · refine Holds.seq Holds.overflowIf fun _ => ?_
      dsimp only
      split
      · exact Holds.seq (acks_resendLost hr _ _) fun _ => ih _
      · exact Holds.pure fun _ h => h

theorem acks_processExtensions (fuel : Nat) (ack : U16) : ∀ exts loss, KeepsAcks E m c l0 a (processExtensions E fuel rec ack exts loss) := by
  intro exts
  induction exts with
  | nil => intro loss; exact Holds.pure fun _ h => h
  | cons e rest ih =>
    intro loss
    unfold processExtensions
    split
    · refine Holds.seq (Q := fun _ => Ak E m c l0 a) ?_ fun loss1 => Holds.get fun s => ?_
      · unfold resendFirst
        split
        · exact Holds.seq Holds.overflowIf fun _ => Holds.seq (acks_resendLost hr _ _) fun _ => Holds.pure fun _ h => h
        · exact Holds.pure fun _ h => h
      · split
        · exact (ih _).pre fun _ h => h.1
        · exact Holds.seq (Q := fun _ => Ak E m c l0 a) (Holds.orPanic fun _ _ _ h => h.1) fun bits => Holds.seq (acks_resendMissing hr _ _ _ _ _) fun _ => ih _
    · exact ih _

theorem acks_handleState (fuel : Nat) {pkt : Packet} : KeepsAcks E m c l0 a (handleState E fuel rec pkt) := by
  unfold handleState
  refine Holds.seq (Q := fun _ => Ak E m c l0 a) ?_ fun _ => Holds.seq (Q := fun _ => Ak E m c l0 a) ?_ fun _ => Holds.get fun s =>
    Holds.seq (Q := fun _ => Ak E m c l0 a) (Holds.orPanic fun _ e _ h => h.1) fun exts => ?_
  · unfold countAck
    refine Holds.get fun s => ?_
    split
    · exact Holds.seq Holds.overflowIf fun _ => Holds.modS fun w hw => hw.1.same (.of rfl rfl rfl rfl rfl rfl)
    · exact Holds.seq (Q := fun _ => Ak E m c l0 a) (acks_now.pre fun _ h => h.1) fun t => acks_modS fun _ => .of rfl rfl rfl rfl rfl rfl
  · unfold measureAck
    refine Holds.get fun s => ?_
    split
    · exact Holds.pure fun _ h => h.1
    · refine Holds.seq (Q := fun _ w => Ak E m c l0 a w ∧ w.s = s) (show Holds _ _ (M.now E) _ from fun w hw => ⟨hw.1.tick, hw.2⟩) fun t =>
        Holds.seq (Q := fun _ w => Ak E m c l0 a w ∧ w.s = s) (Holds.orPanic fun _ _ _ h => h) fun p =>
        Holds.seq (Q := fun s' w => (Ak E m c l0 a w ∧ w.s = s) ∧ SameAckRun s s') (Holds.orPanic fun s' e w h => ⟨h, ?_⟩) fun s' =>
        Holds.modS fun w hw => hw.1.1.same (by rw [hw.1.2]; exact hw.2)
      exact .of (onNewAck_ackNr e) (onNewAck_incoming e) (onNewAck_pending e) (onNewAck_sendWindow e) (onNewAck_unsent e) (onNewAck_state e)
  · refine Holds.seq (acks_processExtensions hr fuel _ _ _) (fun loss =>
      Holds.seq (Q := fun _ => Ak E m c l0 a) ?_ fun _ => Holds.seq (acks_modS fun s => ?_) fun _ => Holds.get fun s => ?_)
    · unfold fastRetransmit
      refine Holds.get fun s => ?_
      split
      · exact Holds.seq Holds.overflowIf fun _ => (acks_resendLost hr _ _).pre fun _ h => h.1
      · exact Holds.pure fun _ h => h.1
    · split
      · exact .of rfl rfl rfl rfl rfl rfl
      · exact .of rfl rfl rfl rfl rfl rfl
    · refine Holds.seq (Q := fun s' w => (Ak E m c l0 a w ∧ w.s = s) ∧ SameAckRun s s') (Holds.orPanic fun s' e w h => ⟨h, ?_⟩) fun s' =>
        Holds.modS fun w hw => hw.1.1.same (by rw [hw.1.2]; exact hw.2)
      obtain ⟨n, cw, rfl⟩ := advanceSendWindow_shape e
      exact ⟨rfl, rfl, rfl, fun p hp => hp.imp_left List.mem_of_mem_drop, fun h => h⟩

/-- A reply carries the acknowledgement number of the socket. -/
def AckReply (r : Option Packet) (w : World) : Prop := ∀ reply, r = some reply → reply.ackNr = w.s.ackNr

omit hr in
theorem acks_replyWith {n : Nat} {pkt : Packet} {ty : PacketType} :
    Holds (Ak E m c l0 a) (fun w => AckRun E m c l0 a True k w ∧ w.nNet = n) (replyWith E pkt ty) (fun r w => AckRun E m c l0 a True k w ∧ AckReply r w ∧ w.nNet = n) := by
  unfold replyWith
  refine Holds.get fun s => Holds.seq (Q := fun _ w => (AckRun E m c l0 a True k w ∧ w.nNet = n) ∧ w.s = s) (show Holds _ _ (M.now E) _ from fun w hw => ⟨⟨hw.1.1.tick, hw.1.2⟩, hw.2⟩) fun t =>
    Holds.pure fun w hw => ⟨hw.1.1, fun reply hr => ?_, hw.1.2⟩
  cases hr
  rw [(prepareReply_facts s t pkt ty).2.1, hw.2]

omit hr in
theorem acks_withSack {n : Nat} {s : Socket} {t : U32} {pkt : Packet} {ty : PacketType} :
    Holds (Ak E m c l0 a) (fun w => (AckRun E m c l0 a True k w ∧ w.nNet = n) ∧ w.s = s) (withSack E s pkt (s.prepareReply t pkt ty))
      (fun r w => AckRun E m c l0 a True k w ∧ AckReply (some r) w ∧ w.nNet = n) := by
  have plain : ∀ w : World, w.s = s → AckReply (some (s.prepareReply t pkt ty)) w := fun w hw reply hr => by
    cases hr
    rw [(prepareReply_facts s t pkt ty).2.1, hw]
  unfold withSack
  split
  · refine Holds.seq (Q := fun sack w => ((AckRun E m c l0 a True k w ∧ w.nNet = n) ∧ w.s = s) ∧ s.buildSack E = some sack) (Holds.orPanic fun _ e _ h => ⟨h, e⟩) fun sack => ?_
    split
    · rename_i hne
      refine Holds.orPanic fun r e w hw => ⟨hw.1.1.1, fun reply hr => ?_, hw.1.1.2⟩
      cases hr
      rw [(setSack_reply (prepareReply_bytes s t pkt ty).1 (prepareReply_bytes s t pkt ty).2 (buildSack_len hw.2) hne e).2.2.1]
      exact plain w hw.1.2 _ rfl
    · exact Holds.pure fun w hw => ⟨hw.1.1.1, plain w hw.1.2, hw.1.1.2⟩
  · exact Holds.pure fun w hw => ⟨hw.1.1, plain w hw.2, hw.1.2⟩

omit hr in
theorem acks_handleData {n : Nat} {pkt : Packet} :
    Holds (Ak E m c l0 a) (fun w => AckRun E m c l0 a True k w ∧ w.nNet = n) (handleData E pkt) (fun r w => AckRun E m c l0 a True k w ∧ AckReply (some r) w ∧ w.nNet = n) := by
  unfold handleData
  exact Holds.get fun s => Holds.seq (Q := fun _ w => (AckRun E m c l0 a True k w ∧ w.nNet = n) ∧ w.s = s) (show Holds _ _ (M.now E) _ from fun w hw => ⟨⟨hw.1.1.tick, hw.1.2⟩, hw.2⟩) fun t => acks_withSack

omit hr in
theorem acks_onFin {n : Nat} {pkt : Packet} :
    Holds (Ak E m c l0 a) (fun w => AckRun E m c l0 a True k w ∧ w.nNet = n) (onFin E pkt) (fun r w => AckRun E m c l0 a True k w ∧ AckReply r w ∧ w.nNet = n) := by
  unfold onFin
  exact Holds.get fun s => Holds.seq (Q := fun _ w => (AckRun E m c l0 a True k w ∧ w.nNet = n) ∧ w.s = s) (show Holds _ _ (M.now E) _ from fun w hw => ⟨⟨hw.1.1.tick, hw.1.2⟩, hw.2⟩) fun t => Holds.seq acks_withSack fun r =>
    Holds.seq (Q := fun _ w => AckRun E m c l0 a True k w ∧ AckReply (some r) w ∧ w.nNet = n) (Holds.modS fun w hw => ⟨hw.1.same ⟨rfl, rfl, rfl, fun _ h => h, fun _ => by simp⟩, hw.2⟩) fun _ => Holds.pure fun _ h => h

/-- After the match of `handle_packet`: one packet can still be put into the buffer if it is a Data packet. -/
def Handled (E : Env) (m c : Nat) (l0 : List Act) (a n : Nat) (ty : PacketType) (r : Option Packet) (w : World) : Prop :=
  AckRun E m c l0 a True (if ty = .data then 1 else 0) w ∧ AckReply r w ∧ (ty = .data → w.nNet = n)

theorem acks_dispatch (fuel : Nat) {n : Nat} {pkt : Packet} (src : Addr) (st : SocketState) (ty : PacketType) :
    Holds (Ak E m c l0 a) (fun w => (AckRun E m c l0 a True 1 w ∧ w.nNet = n) ∧ w.s.state = st) (dispatch E fuel rec pkt src st ty)
      (fun r w => Handled E m c l0 a n ty r w) := by
  have H : ∀ w, ((AckRun E m c l0 a True 1 w ∧ w.nNet = n) ∧ w.s.state = st) → Ak E m c l0 a w := fun w h => h.1.1.less (Nat.zero_le _) (by omega)
  have H' : ∀ w, ((AckRun E m c l0 a True 1 w ∧ w.nNet = n) ∧ w.s.state = st) → Ak E m c l0 a w ∧ w.nNet = n := fun w h => ⟨H w h, h.1.2⟩
  have none : ∀ w, Ak E m c l0 a w → Handled E m c l0 a n .state none w := fun w h => ⟨h, fun _ h => (by cases h), fun h => (by cases h)⟩
  unfold dispatch
  split
  · exact fun w hw => absurd hw.2 hw.1.1.opened.1
  · exact (acks_replyWith.pre H').post fun _ _ h => ⟨h.1, h.2.1, fun _ => h.2.2⟩
  · exact fun w hw => absurd hw.2 hw.1.1.opened.2
  · exact fun w hw => absurd hw.2 hw.1.1.opened.2
  · exact Holds.seq (acks_handleData.pre fun _ h => h.1) fun r => Holds.pure fun _ h => ⟨h.1, h.2.1, fun _ => h.2.2⟩
  · exact Holds.seq (acks_handleData.pre fun _ h => h.1) fun r => Holds.pure fun _ h => ⟨h.1, h.2.1, fun _ => h.2.2⟩
  · exact Holds.seq ((acks_handleState hr fuel).pre H) fun r => Holds.pure none
  · exact (acks_onFin.pre H').post fun _ _ h => ⟨h.1, h.2.1, fun _ => h.2.2⟩
  · exact (acks_onFin.pre H').post fun _ _ h => ⟨h.1, h.2.1, fun _ => h.2.2⟩
  · exact (acks_replyWith.pre H').post fun _ _ h => ⟨h.1, h.2.1, fun _ => h.2.2⟩
  · unfold onFinAck
    refine Holds.seq (Q := fun _ => Ak E m c l0 a) (Holds.modS fun w hw => (H w hw).same ?_) fun _ => Holds.pure none
    split
    · exact ⟨rfl, rfl, rfl, fun _ h => h, fun _ => by simp⟩
    · exact .of rfl rfl rfl rfl rfl rfl
  · unfold onReset
    exact Holds.seq (Q := fun _ => Ak E m c l0 a) (Holds.modS fun w hw => (H w hw).same ⟨rfl, rfl, rfl, fun _ h => h, fun _ => by simp⟩) fun _ => Holds.throw fun _ h => h
  · exact Holds.throw H

omit hr in
/-- The number moves on to that of the packet that arrived, if it is the next one. -/
theorem AckRun.bumped {pkt : Packet} {w : World} (hw : AckRun E m c l0 a True 2 w) (ha : arrival E (w.nNet - 1) = some pkt) :
    AckRun E m c l0 a True 1 { w with s := w.s.bumpAck pkt } := by
  have hf1 := hw.full.1
  have e1 : w.nNet - m - 1 / 2 = (w.nNet - m - 2 / 2) + 1 := by omega
  have e2 : m + (w.nNet - m - 2 / 2) = w.nNet - 1 := by omega
  have top : NoJump E (BitVec.ofNat 16 a) m (w.nNet - m - 2 / 2 + 1) → w.nNet - m - 2 / 2 + 1 ≤ 32767 →
      highest E (BitVec.ofNat 16 a) m (w.nNet - m - 2 / 2 + 1) = (w.s.bumpAck pkt).ackNr ∧ FullRun E m l0 (BitVec.ofNat 16 a) (w.nNet - m - 2 / 2) w.s.ackNr w.s.incoming w.log := by
    intro hj hn
    have hf := hw.full.2 (hj.mono (by omega)) (by omega)
    refine ⟨?_, hf⟩
    simp only [highest, e2, ha, ← hf.ack, Socket.bumpAck]
    have : pkt.seqNr - w.s.ackNr = 1 ↔ pkt.seqNr = w.s.ackNr + 1 := by constructor <;> intro h <;> bv_omega
    simp only [this]
    split <;> rfl
  refine ⟨hw.lo, ?_, ?_, ?_, ?_, ?_, ?_, Nat.zero_le _, ?_⟩
  · unfold Socket.bumpAck; split <;> exact hw.opened
  · unfold Socket.bumpAck; split <;> exact hw.whole
  · have := hw.whole trivial
    unfold Socket.bumpAck; split <;> exact fun h => absurd this h
  · unfold Socket.bumpAck; split <;> exact hw.small
  · unfold Socket.bumpAck; split <;> exact hw.data
  · obtain ⟨u, h1, h2, l, h3, h4⟩ := hw.num
    unfold Socket.bumpAck
    split
    · rename_i hd
      refine ⟨u + 1, ?_, by dsimp only; omega, l, h3, h4.1, h4.2.more (Nat.le_succ _)⟩
      show pkt.seqNr.toNat = _
      have : pkt.seqNr = w.s.ackNr + 1 := by rw [← hd]; bv_omega
      rw [this, BitVec.toNat_add, h1]
      simp
      omega
    · exact ⟨u, h1, by dsimp only; omega, l, h3, h4⟩
  · intro hj hn
    dsimp only at hj hn ⊢
    rw [e1] at hj hn ⊢
    obtain ⟨h1, h2⟩ := top hj hn
    refine ⟨h1.symm, fun p hp => ?_, h2.log⟩
    have hp' : p ∈ w.s.incoming := by
      unfold Socket.bumpAck at hp
      split at hp <;> exact hp
    have h3 := h2.held p hp'
    unfold Socket.bumpAck
    split
    · rename_i hd
      dsimp only
      have : pkt.seqNr = w.s.ackNr + 1 := by rw [← hd]; bv_omega
      rw [this]
      bv_omega
    · omega

theorem acks_handlePacket (fuel : Nat) {n : Nat} {pkt : Packet} (src : Addr) {ty : PacketType} (hty : pkt.getType = some ty) (ha : arrival E (n - 1) = some pkt) :
    Holds (Ak E m c l0 a) (fun w => AckRun E m c l0 a True 2 w ∧ w.nNet = n) (handlePacket E fuel rec pkt src)
      (fun r w => Handled E m c l0 a n ty r w) := by
  have hle : (if ty = .data then 1 else 0) ≤ 1 := by split <;> omega
  unfold handlePacket
  refine Holds.seq (Q := fun _ w => AckRun E m c l0 a True 1 w ∧ w.nNet = n) (Holds.modS fun w hw => ⟨hw.1.bumped (by rw [hw.2]; exact ha), hw.2⟩) fun _ => Holds.get fun s =>
    Holds.seq (Q := fun ty' w => ((AckRun E m c l0 a True 1 w ∧ w.nNet = n) ∧ w.s = s) ∧ ty' = ty) (Holds.orPanic fun _ e _ h => ⟨h, by rw [hty] at e; cases e; rfl⟩) fun ty' => ?_
  split
  · exact ((acks_replyWith (k := 1)).pre fun w hw => hw.1.1).post fun _ w hw => ⟨hw.1.less hle (by omega), hw.2.1, fun _ => hw.2.2⟩
  · intro w0 hw0
    obtain ⟨hw0, rfl⟩ := hw0
    refine Holds.seq (P := fun w => (AckRun E m c l0 a True 1 w ∧ w.nNet = n) ∧ w.s = s) (Q := fun _ w => (AckRun E m c l0 a True 1 w ∧ w.nNet = n) ∧ w.s = s)
      (show Holds _ _ (M.now E) _ from fun w hw => ⟨⟨hw.1.1.tick, hw.1.2⟩, hw.2⟩) (fun t => Holds.seq (Q := fun _ w => (AckRun E m c l0 a True 1 w ∧ w.nNet = n) ∧ w.s.state = s.state) (Holds.modS fun w hw => ?_) fun _ =>
      acks_dispatch hr fuel src s.state ty') w0 hw0
    exact ⟨⟨hw.1.1.same (.of rfl rfl rfl rfl rfl rfl), hw.1.2⟩, by rw [← hw.2]⟩

omit hr in
theorem insertPkt_length_le (buf : List Packet) (p : Packet) : (Socket.insertPkt buf p).length ≤ buf.length + 1 := by
  unfold Socket.insertPkt
  split
  · simp
  · dsimp only
    split
    · split
      · rw [List.length_insertIdx]; split <;> omega
      · omega
    · rw [List.length_insertIdx]; split <;> omega

/-- What is known after a receive into a buffer of `len` bytes. -/
def AfterRecv (E : Env) (m c : Nat) (l0 : List Act) (a len : Nat) (out : Bytes) (w : World) : Prop :=
  AckRun E m c l0 a False 0 w ∧ (0 < len → out = [] → w.s.pending = []) ∧ (1500 ≤ len → w.s.pending = [])

omit hr in
/-- The packet that arrived is put into the buffer. -/
theorem AckRun.inserted {pkt : Packet} {w : World} (hw : AckRun E m c l0 a True 1 w) (ha : arrival E (w.nNet - 1) = some pkt) (h1 : m < w.nNet)
    (hsm : ∀ pl, pkt.payload = some pl → pl.length ≤ 1500) : AckRun E m c l0 a True 0 { w with s := w.s.insertIntoBuffer pkt } := by
  refine ⟨hw.lo, hw.opened, hw.whole, fun h => absurd (hw.whole trivial) h, fun x hx => ?_, hw.data, ?_, Nat.zero_le _, fun hj hn => ?_⟩
  · rcases mem_insertPkt hx with hx | rfl
    · exact hw.small x hx
    · exact hsm
  · obtain ⟨u, h1, h2, l, h3, h4⟩ := hw.num
    refine ⟨u, h1, ?_, l, h3, h4⟩
    have := insertPkt_length_le w.s.incoming pkt
    dsimp only [Socket.insertIntoBuffer]
    omega
  · have hf := hw.full.2 hj hn
    refine ⟨hf.ack, fun x hx => ?_, hf.log⟩
    rcases mem_insertPkt hx with hx | rfl
    · exact hf.held x hx
    · obtain ⟨i, hi⟩ : ∃ i, w.nNet - m - 0 / 2 = i + 1 := ⟨w.nNet - m - 1, by omega⟩
      have e3 : m + i = w.nNet - 1 := by omega
      have hk := hf.ack
      have e4 : w.nNet - m - 1 / 2 = i + 1 := by omega
      rw [e4] at hk
      simp only [highest, e3, ha] at hk
      rcases hj i (by dsimp only; omega) x (by rw [e3]; exact ha) with h2 | h2
      · rw [if_pos h2] at hk
        show (w.s.ackNr - x.seqNr).toNat < _
        rw [hk]
        bv_omega
      · split at hk
        · show (w.s.ackNr - x.seqNr).toNat < _
          rw [hk]
          bv_omega
        · show (w.s.ackNr - x.seqNr).toNat < _
          rw [hk]
          omega

theorem acks_recvPacket (fuel len : Nat) {n : Nat} {pkt : Packet} {d : Bytes} (src src' : Addr) (hd : E.net (n - 1) = .dgram d src') (hp : Packet.tryFrom (d.take 1520) = some (.ok pkt)) (hmn : m < n) :
    Holds (AckRun E m c l0 a q 0) (fun w => AckRun E m c l0 a True 2 w ∧ w.nNet = n) (recvPacket E fuel rec len pkt src) (fun r w => AfterRecv E m c l0 a len r.1 w) := by
  have ha : arrival E (n - 1) = some pkt := by simp only [arrival, hd, hp]
  unfold recvPacket
  rcases hty : pkt.getType with _ | ty
  · intro w hw
    unfold handlePacket
    simp only [M.orPanic, hty]
    trivial
  refine Holds.seq (Holds.fails (acks_handlePacket hr fuel src hty ha) fun _ h => h.any) fun r => Holds.seq (Q := fun _ w => Handled E m c l0 a n ty none w) ?_ fun _ =>
    Holds.seq (Q := fun ty' w => Handled E m c l0 a n ty none w ∧ ty' = ty) (Holds.orPanic fun _ e _ h => ⟨h, by cases e; rfl⟩) fun ty' =>
    Holds.seq (Q := fun _ => Ak E m c l0 a) (Holds.modS fun w hw => ?_) fun _ =>
    Holds.seq (acks_flushIncoming (k := 0) (q := True) len) fun _ => Holds.pure fun _ h => ⟨h.1, h.2.1, h.2.2 trivial⟩
  · have hlt : (if ty = .data then 1 else 0) < 2 := by split <;> omega
    unfold sendReply
    rcases r with _ | reply
    · exact Holds.pure fun _ h => h
    · intro w hw
      have h1 := acks_udpSend (E := E) (dst := src) (b := (reply.setWndSize WINDOW_SIZE).bytes) hlt (I := AckRun E m c l0 a q 0) (fun _ h => h.any' hlt) w ⟨hw.1, fun _ => by rw [ackNr_bytes, setWndSize_ackNr, hw.2.1 reply rfl]⟩
      have h2 : (M.udpSend E src (reply.setWndSize WINDOW_SIZE).bytes w).2.nNet = w.nNet := by unfold M.udpSend; dsimp only; cases E.snd w.nSnd <;> rfl
      rcases e : M.udpSend E src (reply.setWndSize WINDOW_SIZE).bytes w with ⟨r, v⟩
      rw [e] at h1 h2
      dsimp only
      rw [e]
      cases r with
      | ok u => exact ⟨h1, fun _ h => (by cases h), fun h => h2.trans (hw.2.2 h)⟩
      | panic => trivial
      | _ => exact h1
  · obtain ⟨hw, rfl⟩ := hw
    by_cases hd : ty' = .data
    · subst hd
      obtain ⟨hw, _, hn⟩ := hw
      simp only [if_true, true_and] at hw ⊢
      split
      · refine hw.inserted (by rw [hn rfl]; exact ha) (by rw [hn rfl]; exact hmn) fun pl hpl => ?_
        have := payload_small ⟨⟨_, hp⟩, hty⟩ hpl
        rw [C02_lossless hp, List.length_take] at this
        omega
      · exact hw.less (by omega) (by omega)
    · rw [if_neg (fun h => hd h.1)]
      have := hw.1
      rwa [if_neg hd] at this

theorem acks_recvBody (fuel len : Nat) : Holds (AckRun E m c l0 a q 0) (Ak E m c l0 a) (recvBody E fuel rec len) (fun r w => AfterRecv E m c l0 a len r.1 w) := by
  unfold recvBody
  refine Holds.seq (Holds.fails (acks_recvWait fuel 0) fun _ h => h.any) fun ⟨b, src⟩ => ?_
  dsimp only
  refine Holds.seq (Q := fun r w => AckDgram E m c l0 a b w ∧ Packet.tryFrom b = some r) (Holds.orPanic fun _ e _ h => ⟨h, e⟩) fun r => ?_
  rcases r with e | pkt
  · refine Holds.get fun s => Holds.pure fun w hw => ?_
    obtain ⟨⟨⟨hw, d, src', hd, rfl⟩, hp⟩, _⟩ := hw
    exact ⟨(hw.missed (by simp only [arrival, hd, hp])).any, fun _ _ => hw.whole trivial, fun _ => hw.whole trivial⟩
  · rintro w ⟨⟨hw, d, src', hd, rfl⟩, hp⟩
    exact acks_recvPacket hr fuel len src src' hd hp (by have := hw.full.1; omega) w ⟨hw, rfl⟩

end

theorem acks_recv_len : ∀ fuel len, (∀ f, f < fuel → KeepsAcks E m c l0 a (recv E f BUF_SIZE)) → Holds (AckRun E m c l0 a q 0) (Ak E m c l0 a) (recv E fuel len) (fun r w => AfterRecv E m c l0 a len r.1 w)
  | 0, _, _ => Holds.never fun _ h => h.any
  | fuel + 1, len, h => acks_recvBody (h fuel (Nat.lt_succ_self _)) fuel len

theorem acks_recv (fuel : Nat) : KeepsAcks E m c l0 a (recv E fuel BUF_SIZE) := by
  induction fuel using Nat.strongRecOn with
  | _ fuel ih => exact (acks_recv_len fuel BUF_SIZE ih).post fun _ w hw => hw.1.tight (hw.2.2 (Nat.le_refl _))

theorem acks_recvFromLoop (fuel len : Nat) (h0 : 0 < len) (hq : q → 1500 ≤ len) : ∀ n, Holds (AckRun E m c l0 a q 0) (Ak E m c l0 a) (recvFromLoop E fuel len n) (fun _ => AckRun E m c l0 a q 0)
  | 0 => Holds.never fun _ h => h.any
  | n + 1 => by
    unfold recvFromLoop
    refine Holds.get fun s => ?_
    split
    · exact Holds.pure fun _ h => h.1.any
    · refine Holds.seq ((acks_recv_len fuel len fun f _ => acks_recv f).pre fun _ h => h.1) fun ⟨out, src⟩ => ?_
      dsimp only
      split
      · rename_i ho
        exact (acks_recvFromLoop fuel len h0 hq n).pre fun w hw => hw.1.tight (hw.2.1 h0 ho)
      · exact Holds.pure fun w hw => ⟨hw.1.lo, hw.1.opened, fun h => hw.2.2 (hq h), hw.1.head, hw.1.small, hw.1.data, hw.1.num, hw.1.full⟩

theorem acks_recvFrom (fuel len : Nat) (h0 : 0 < len) (hq : q → 1500 ≤ len) : Holds (AckRun E m c l0 a q 0) (AckRun E m c l0 a q 0) (recvFrom E fuel len) (fun _ => AckRun E m c l0 a q 0) := by
  unfold recvFrom
  refine Holds.seq (acks_flushIncoming len) fun out => Holds.get fun s => ?_
  have H : ∀ w, AckRun E m c l0 a False 0 w ∧ (0 < len → out = [] → w.s.pending = []) ∧ (q → 1500 ≤ len → w.s.pending = []) → AckRun E m c l0 a q 0 w :=
    fun w hw => ⟨hw.1.lo, hw.1.opened, fun h => hw.2.2 h (hq h), hw.1.head, hw.1.small, hw.1.data, hw.1.num, hw.1.full⟩
  split
  · exact Holds.pure fun w h => H w h.1
  · rename_i ho
    split
    · exact Holds.throw fun w h => H w h.1
    · exact (acks_recvFromLoop fuel len h0 hq fuel).pre fun w h => h.1.1.tight (h.1.2.1 h0 (by simpa using ho))

theorem acks_scratchRecv (fuel : Nat) : KeepsAcks E m c l0 a (scratchRecv E fuel) :=
  Holds.seq (acks_recv fuel) fun _ => Holds.pure fun _ h => h

theorem acks_flush (fuel : Nat) : KeepsAcks E m c l0 a (flush E fuel) :=
  Holds.whileM (Holds.get fun _ => Holds.pure fun _ h => h.1) (acks_scratchRecv fuel) (fun _ h => h) fuel

theorem acks_close (fuel : Nat) : KeepsAcks E m c l0 a (close E fuel) := by
  unfold close
  refine Holds.get fun s => ?_
  split
  · exact Holds.pure fun _ h => h.1
  · refine Holds.seq ((acks_flush fuel).pre fun _ h => h.1) fun _ => Holds.get fun s => Holds.seq (Q := fun _ w => Ak E m c l0 a w ∧ w.s = s) (show Holds _ _ (M.now E) _ from fun w hw => ⟨hw.1.tick, hw.2⟩) fun t =>
      Holds.seq ((acks_udpSend (by omega) fun _ h => h).pre fun w hw => ⟨hw.1, fun _ => ?_⟩) fun _ => Holds.seq (acks_modS fun s => ⟨rfl, rfl, rfl, fun _ h => h, fun _ => by simp⟩) fun _ =>
      Holds.whileM (Holds.get fun s => Holds.pure fun _ h => h.1) (acks_scratchRecv fuel) (fun _ h => h) fuel
    rw [ackNr_bytes, (finPacket_facts s t).2.1, hw.2]

theorem acks_sendQueue (fuel : Nat) : ∀ n, KeepsAcks E m c l0 a (sendQueue E fuel n)
  | 0 => Holds.never fun _ h => h
  | n + 1 => by
    unfold sendQueue
    refine Holds.get fun s => ?_
    split
    · exact Holds.pure fun _ h => h.1
    · rename_i p rest e
      intro w ⟨hw, hs⟩
      have hp : p.getType = some .data := hw.data p (.inr (by rw [hs, e]; exact List.mem_cons_self))
      refine Holds.seq (P := fun w => Ak E m c l0 a w ∧ w.s = s) (Q := fun _ => Ak E m c l0 a) (Holds.modS fun w hw => ?_) (fun _ =>
        Holds.seq (acks_sendPacket (acks_recv fuel) fuel hp) fun p' => Holds.get fun s1 => Holds.seq Holds.overflowIf fun _ =>
        Holds.seq (Q := fun _ => Ak E m c l0 a) (Holds.modS fun w hw => ?_) fun _ => acks_sendQueue fuel n) w ⟨hw, hs⟩
      · exact hw.1.same ⟨rfl, rfl, rfl, fun x hx => hx.imp_right fun hx => by rw [hw.2, e]; exact List.mem_cons_of_mem _ hx, fun h => h⟩
      · obtain ⟨⟨hw, hp'⟩, _⟩ := hw
        refine ⟨hw.lo, hw.opened, hw.whole, hw.head, hw.small, fun x hx => ?_, hw.num, hw.full⟩
        rcases hx with hx | hx
        · rcases List.mem_append.mp hx with hx | hx
          · exact hw.data x (.inl hx)
          · rw [List.mem_singleton.mp hx]; exact hp'
        · exact hw.data x (.inr hx)

theorem withPayload_data (d : Bytes) : (Packet.withPayload d).getType = some .data := by
  simp [Packet.getType, Packet.withPayload, Packet.defaultHeader, byteAt]
  decide

theorem AckRun.enqueued : ∀ (cs : List Bytes) {w : World}, Ak E m c l0 a w → Ak E m c l0 a { w with s := cs.foldl enqueue w.s }
  | [], _, h => h
  | d :: cs, w, h => by
    refine AckRun.enqueued cs (w := { w with s := enqueue w.s d }) ⟨h.lo, h.opened, h.whole, h.head, h.small, fun x hx => ?_, h.num, h.full⟩
    rcases hx with hx | hx
    · exact h.data x (.inl hx)
    · rcases List.mem_append.mp hx with hx | hx
      · exact h.data x (.inr hx)
      · rw [List.mem_singleton.mp hx, setConnectionId_getType, setAckNr_getType, setSeqNr_getType]
        exact withPayload_data d

theorem acks_sendTo (fuel : Nat) (buf : Bytes) : KeepsAcks E m c l0 a (sendTo E fuel buf) := by
  unfold sendTo
  refine Holds.get fun s => ?_
  split
  · exact Holds.throw fun _ h => h.1
  · exact Holds.seq (Q := fun _ => Ak E m c l0 a) (Holds.modS fun w hw => hw.1.enqueued _) fun _ => Holds.seq (acks_sendQueue fuel fuel) fun _ => Holds.pure fun _ h => h

theorem acks_run {w0 w : World} (h : RunWith TidyReads E w0 w) (h0 : AckRun E m c l0 a False 0 w0) : AckRun E m c l0 a False 0 w := by
  induction h with
  | refl => exact h0
  | op fuel op h hop hp ih =>
    rename_i v
    have fin : ∀ {P : World → Prop}, Holds (AckRun E m c l0 a False 0) P (runOp E fuel op) (fun _ => AckRun E m c l0 a False 0) → P v → AckRun E m c l0 a False 0 (runOp E fuel op v).2 := by
      intro P h1 h2
      have := h1 v h2
      rcases e : runOp E fuel op v with ⟨r, x⟩
      rw [e] at this hp
      cases r with
      | panic => exact absurd rfl hp
      | _ => exact this
    cases op with
    | recvFrom len => exact fin (Holds.seq (acks_recvFrom fuel len hop fun h => h.elim) fun _ => Holds.pure fun _ h => h) ih
    | sendTo buf => exact fin (P := Ak E m c l0 a) (Holds.seq (Holds.fails (acks_sendTo fuel buf) fun _ h => h.any) fun _ => Holds.pure fun _ h => h.any) (ih.tight hop)
    | flush => exact fin (P := Ak E m c l0 a) (Holds.seq (Holds.fails (acks_flush fuel) fun _ h => h.any) fun _ => Holds.pure fun _ h => h.any) (ih.tight hop)
    | close => exact fin (P := Ak E m c l0 a) (Holds.seq (Holds.fails (acks_close fuel) fun _ h => h.any) fun _ => Holds.pure fun _ h => h.any) (ih.tight hop)
    | setMaxRetries n => exact fin (P := Ak E m c l0 a) (Holds.seq (Holds.fails (acks_modS fun _ => .of rfl rfl rfl rfl rfl rfl) fun _ h => h.any) fun _ => Holds.pure fun _ h => h.any) (ih.tight hop)

theorem acks_run_big {w0 w : World} (h : RunWith BigReads E w0 w) (h0 : Ak E m c l0 a w0) : Ak E m c l0 a w := by
  induction h with
  | refl => exact h0
  | op fuel op h hop hp ih =>
    rename_i v
    have fin : Holds (Ak E m c l0 a) (Ak E m c l0 a) (runOp E fuel op) (fun _ => Ak E m c l0 a) → Ak E m c l0 a (runOp E fuel op v).2 := by
      intro h1
      have := h1 v ih
      rcases e : runOp E fuel op v with ⟨r, x⟩
      rw [e] at this hp
      cases r with
      | panic => exact absurd rfl hp
      | _ => exact this
    cases op with
    | recvFrom len => exact fin (Holds.seq (acks_recvFrom fuel len (Nat.lt_of_lt_of_le (by decide) hop) fun _ => hop) fun _ => Holds.pure fun _ h => h)
    | sendTo buf => exact fin (Holds.seq (acks_sendTo fuel buf) fun _ => Holds.pure fun _ h => h)
    | flush => exact fin (Holds.seq (acks_flush fuel) fun _ => Holds.pure fun _ h => h)
    | close => exact fin (Holds.seq (acks_close fuel) fun _ => Holds.pure fun _ h => h)
    | setMaxRetries n => exact fin (Holds.seq (acks_modS fun _ => .of rfl rfl rfl rfl rfl rfl) fun _ => Holds.pure fun _ h => h)

theorem AckRun.out {w : World} (h : AckRun E m 0 l0 a False 0 w) (ha : a < 65536) (hn : w.nNet < m + 32768) : ∃ l, w.log = l0 ++ l ∧ NeverBack a (ackNumbers l) := by
  obtain ⟨u, _, h2, l, h3, _, us, h4, h5, h6⟩ := h.num
  have hl := h.lo
  refine ⟨l, h3, ?_⟩
  unfold NeverBack
  rw [h6, List.map_map]
  have : us.map ((fun n => (n + 65536 - a) % 65536) ∘ fun x => (a + x) % 65536) = us := by
    conv => rhs; rw [← List.map_id us]
    refine List.map_congr_left fun x hx => ?_
    have := h5 x hx
    simp only [Function.comp, id]
    omega
  rw [this]
  exact h4

end Utp
