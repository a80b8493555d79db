import Verif.Listener
import Verif.Lemmas.Reach
import Mathlib.Tactic.Tauto
/-!
# A listener over time: helper lemmas
-/

namespace Utp
open M

variable {L : LEnv} {fuel : Nat}

/-- The result of `accept` for the datagram number `k`. -/
abbrev LEnv.result (L : LEnv) (fuel k : Nat) : AcceptRes := accept (L.env k) fuel (L.net k) (L.bound k)

/-- The future has taken the datagram `k` and is not done with it. -/
def AFut.InHand (L : LEnv) (fuel k : Nat) : AFut → Prop
  | .receiving => False
  | .binding k' pkt src => k' = k ∧ ∃ b, L.net k = .dgram b src ∧ Packet.tryFrom (b.take BUF_SIZE) = some (.ok pkt) ∧ pkt.getType = some .syn
  | .replying k' reply w src => k' = k ∧ ∃ b pkt la, L.net k = .dgram b src ∧ Packet.tryFrom (b.take BUF_SIZE) = some (.ok pkt) ∧ pkt.getType = some .syn ∧
      L.bound k = .ok la ∧ handlePacket (L.env k) fuel (recv (L.env k) fuel BUF_SIZE) pkt src (freshWorld (L.env k) la src) = (.ok (some reply), w)

theorem AFut.InHand.index {k : Nat} {f : AFut} (h : f.InHand L fuel k) : f.index = some k := by
  cases f with
  | receiving => exact h.elim
  | binding => exact congrArg some h.1
  | replying => exact congrArg some h.1

theorem onBound_spec {k : Nat} {pkt : Packet} {src : Addr} (h : (AFut.binding k pkt src).InHand L fuel k) :
    (∀ f, AFut.onBound (L.env k) fuel k pkt src (L.bound k) = .inl f → (∃ reply w, f = .replying k reply w src) ∧ f.InHand L fuel k) ∧
    (∀ r, AFut.onBound (L.env k) fuel k pkt src (L.bound k) = .inr r → r = L.result fuel k) := by
  obtain ⟨-, b, h1, h2, h3⟩ := h
  have hres : L.result fuel k = match L.bound k with
      | .error e => .failed (.os e)
      | .ok la => .made (acceptM (L.env k) fuel pkt src (freshWorld (L.env k) la src)).1 (acceptM (L.env k) fuel pkt src (freshWorld (L.env k) la src)).2 src := by
    simp only [LEnv.result, accept, h1, h2, h3, ne_eq, not_true_eq_false, if_false]
    cases L.bound k <;> rfl
  rw [hres]
  rcases hb : L.bound k with e | la
  · simp [AFut.onBound]
  · simp only [AFut.onBound, acceptM]
    rcases hp : handlePacket (L.env k) fuel (recv (L.env k) fuel BUF_SIZE) pkt src (freshWorld (L.env k) la src) with ⟨r, w⟩
    rcases r with (_ | reply) | e | _ | _ <;> simp
    exact ⟨rfl, b, pkt, la, h1, h2, h3, hb, hp⟩

theorem poll_replying {k : Nat} {reply : Packet} {w : World} {src : Addr} (h : (AFut.replying k reply w src).InHand L fuel k) (steps n : Nat) :
    pollAccept L fuel steps (.replying k reply w src) n = (.inl (.replying k reply w src), n) ∨
    pollAccept L fuel steps (.replying k reply w src) n = (.inr (k, L.result fuel k), n) := by
  cases steps with
  | zero => exact .inl rfl
  | succ steps =>
    unfold pollAccept
    split
    · exact .inl rfl
    · right
      obtain ⟨-, b, pkt, la, h1, h2, h3, h4, h5⟩ := h
      simp only [LEnv.result, accept, h1, h2, h3, h4, ne_eq, not_true_eq_false, if_false, acceptM, h5]

theorem poll_binding {k : Nat} {pkt : Packet} {src : Addr} (h : (AFut.binding k pkt src).InHand L fuel k) (steps n : Nat) :
    (∃ f, pollAccept L fuel steps (.binding k pkt src) n = (.inl f, n) ∧ f.InHand L fuel k) ∨
    pollAccept L fuel steps (.binding k pkt src) n = (.inr (k, L.result fuel k), n) := by
  cases steps with
  | zero => exact .inl ⟨_, rfl, h⟩
  | succ steps =>
    unfold pollAccept
    obtain ⟨s1, s2⟩ := onBound_spec h
    rcases hb : AFut.onBound (L.env k) fuel k pkt src (L.bound k) with f | r
    · obtain ⟨⟨reply, w, rfl⟩, hf⟩ := s1 f hb
      rcases poll_replying hf steps n with hp | hp
      · exact .inl ⟨_, hp, hf⟩
      · exact .inr hp
    · exact .inr (by rw [← s2 r hb])

theorem poll_inHand {k : Nat} {f : AFut} (h : f.InHand L fuel k) (steps n : Nat) :
    (∃ f', pollAccept L fuel steps f n = (.inl f', n) ∧ f'.InHand L fuel k) ∨ pollAccept L fuel steps f n = (.inr (k, L.result fuel k), n) := by
  cases f with
  | receiving => exact h.elim
  | binding k' pkt src =>
    obtain rfl : k' = k := h.1
    exact poll_binding h steps n
  | replying k' reply w src =>
    obtain rfl : k' = k := h.1
    exact (poll_replying h steps n).imp (fun hp => ⟨_, hp, h⟩) id

theorem onDatagram_spec {n : Nat} (hne : L.net n ≠ .never) :
    (∀ f, AFut.onDatagram n (L.net n) = .inl f → ∃ pkt src, f = .binding n pkt src ∧ f.InHand L fuel n) ∧
    (∀ r, AFut.onDatagram n (L.net n) = .inr r → r = L.result fuel n) := by
  rcases hev : L.net n with ⟨b, src⟩ | e | _
  · simp only [AFut.onDatagram]
    rcases hp : Packet.tryFrom (b.take BUF_SIZE) with _ | e | pkt
    · simp [LEnv.result, accept, hev, hp]
    · simp [LEnv.result, accept, hev, hp]
    · rcases ht : pkt.getType with _ | ty
      · simp [LEnv.result, accept, hev, hp, ht]
      · by_cases hs : ty = .syn
        · subst hs
          simp only [ht, ne_eq, not_true_eq_false, if_false]
          refine ⟨?_, by simp⟩
          intro f hf
          cases hf
          exact ⟨pkt, src, rfl, rfl, b, hev, hp, ht⟩
        · simp [LEnv.result, accept, hev, hp, ht, hs]
  · simp [LEnv.result, accept, hev, AFut.onDatagram]
  · exact absurd hev hne

theorem poll_receiving (steps n : Nat) :
    pollAccept L fuel steps .receiving n = (.inl .receiving, n) ∨
    (∃ f, pollAccept L fuel steps .receiving n = (.inl f, n + 1) ∧ f.InHand L fuel n) ∨
    pollAccept L fuel steps .receiving n = (.inr (n, L.result fuel n), n + 1) := by
  cases steps with
  | zero => exact .inl rfl
  | succ steps =>
    unfold pollAccept
    split
    · exact .inl rfl
    · rename_i hne
      right
      obtain ⟨s1, s2⟩ := onDatagram_spec (fuel := fuel) hne
      rcases hd : AFut.onDatagram n (L.net n) with f | r
      · obtain ⟨pkt, src, rfl, hi⟩ := s1 f hd
        exact poll_binding hi steps (n + 1)
      · exact .inr (by rw [← s2 r hd])

/-- What holds of a listener at all times. -/
structure LInv (L : LEnv) (fuel : Nat) (s : Listener) (done : List (Nat × AcceptRes)) (lost : List Nat) : Prop where
  result : ∀ k r, (k, r) ∈ done → r = L.result fuel k
  nodup : (done.map Prod.fst ++ lost).Nodup
  hand : ∀ i f, s.fut i = some f → f = .receiving ∨ ∃ k, f.InHand L fuel k ∧ k < s.taken ∧ k ∉ done.map Prod.fst ++ lost
  one : ∀ i j f g k, s.fut i = some f → s.fut j = some g → f.index = some k → g.index = some k → i = j
  all : ∀ k, k < s.taken → k ∈ done.map Prod.fst ++ lost ∨ ∃ i f, s.fut i = some f ∧ f.index = some k
  below : ∀ k ∈ done.map Prod.fst ++ lost, k < s.taken
  fresh : ∀ i, s.next ≤ i → s.fut i = none

theorem change_same {β : Type} (f : Nat → β) (a : Nat) (b : β) : change f a b a = b := by simp [change]
theorem change_ne {β : Type} (f : Nat → β) {a x : Nat} (h : x ≠ a) (b : β) : change f a b x = f x := by simp [change, h]

theorem LInv.index_lt {s : Listener} {done : List (Nat × AcceptRes)} {lost : List Nat} (h : LInv L fuel s done lost) {i k : Nat} {f : AFut}
    (hf : s.fut i = some f) (hk : f.index = some k) : f.InHand L fuel k ∧ k < s.taken ∧ k ∉ done.map Prod.fst ++ lost := by
  rcases h.hand i f hf with rfl | ⟨k', h1, h2, h3⟩
  · cases hk
  · have := h1.index
    rw [hk] at this
    cases this
    exact ⟨h1, h2, h3⟩

/-- Replace the future `i` (which holds the datagrams `a`) by one which holds the datagrams `b`; `c` are put among those which are dealt with. -/
theorem LInv.step {s : Listener} {done more : List (Nat × AcceptRes)} {lost gone : List Nat} {i n : Nat} {f : AFut} {g : Option AFut} (h : LInv L fuel s done lost)
    (hf : s.fut i = some f) (hn : s.taken ≤ n)
    (hres : ∀ k r, (k, r) ∈ more → r = L.result fuel k)
    (hc : (more.map Prod.fst ++ gone).Nodup)
    (hfrom : ∀ k ∈ more.map Prod.fst ++ gone, f.index = some k ∨ s.taken ≤ k ∧ k < n)
    (hg : ∀ g', g = some g' → g' = .receiving ∨ ∃ k, g'.InHand L fuel k ∧ k ∉ more.map Prod.fst ++ gone ∧ (f.index = some k ∨ s.taken ≤ k ∧ k < n))
    (hto : ∀ k, f.index = some k ∨ s.taken ≤ k ∧ k < n → k ∈ more.map Prod.fst ++ gone ∨ ∃ g', g = some g' ∧ g'.index = some k) :
    LInv L fuel { s with taken := n, fut := change s.fut i g } (done ++ more) (lost ++ gone) := by
  have hperm : ∀ k, k ∈ (done ++ more).map Prod.fst ++ (lost ++ gone) ↔ k ∈ done.map Prod.fst ++ lost ∨ k ∈ more.map Prod.fst ++ gone := by
    intro k
    simp only [List.map_append, List.mem_append]
    tauto
  have hnew : ∀ k, f.index = some k ∨ s.taken ≤ k ∧ k < n → k ∉ done.map Prod.fst ++ lost := by
    rintro k (hk | hk) hm
    · exact (h.index_lt hf hk).2.2 hm
    · exact absurd (h.below k hm) (by omega)
  have hlt : ∀ k, f.index = some k ∨ s.taken ≤ k ∧ k < n → k < n := by
    rintro k (hk | hk)
    · exact Nat.lt_of_lt_of_le (h.index_lt hf hk).2.1 hn
    · exact hk.2
  have hother : ∀ j e k, j ≠ i → s.fut j = some e → e.index = some k → ¬(f.index = some k ∨ s.taken ≤ k ∧ k < n) := by
    rintro j e k hj he hk (h1 | h1)
    · exact hj (h.one j i e f k he hf hk h1)
    · exact absurd (h.index_lt he hk).2.1 (by omega)
  refine ⟨?_, ?_, ?_, ?_, ?_, ?_, ?_⟩
  · intro k r hm
    rcases List.mem_append.mp hm with hm | hm
    · exact h.result k r hm
    · exact hres k r hm
  · have hp : ((done ++ more).map Prod.fst ++ (lost ++ gone)).Perm ((done.map Prod.fst ++ lost) ++ (more.map Prod.fst ++ gone)) := by
      rw [List.map_append, List.append_assoc, List.append_assoc]
      refine List.Perm.append_left _ ?_
      rw [← List.append_assoc, ← List.append_assoc]
      exact List.Perm.append_right _ List.perm_append_comm
    refine hp.nodup_iff.mpr (List.nodup_append.mpr ⟨h.nodup, hc, ?_⟩)
    rintro a ha b hb rfl
    exact hnew a (hfrom a hb) ha
  · intro j e he
    by_cases hj : j = i
    · subst hj
      simp only [change_same] at he
      rcases hg e he with h1 | ⟨k, h1, h2, h3⟩
      · exact .inl h1
      · exact .inr ⟨k, h1, hlt k h3, fun hm => ((hperm k).mp hm).elim (hnew k h3) h2⟩
    · simp only [change_ne _ hj] at he
      rcases h.hand j e he with h1 | ⟨k, h1, h2, h3⟩
      · exact .inl h1
      · exact .inr ⟨k, h1, Nat.lt_of_lt_of_le h2 hn, fun hm => ((hperm k).mp hm).elim h3 fun h4 => hother j e k hj he h1.index (hfrom k h4)⟩
  · have key : ∀ e k, g = some e → e.index = some k → f.index = some k ∨ s.taken ≤ k ∧ k < n := by
      intro e k he hk
      rcases hg e he with rfl | ⟨k', h1, h2, h3⟩
      · cases hk
      · have := h1.index
        rw [hk] at this
        cases this
        exact h3
    intro a b e e' k ha hb hk hk'
    by_cases h1 : a = i <;> by_cases h2 : b = i
    · rw [h1, h2]
    · subst h1
      simp only [change_same] at ha
      simp only [change_ne _ h2] at hb
      exact absurd (key e k ha hk) (hother b e' k h2 hb hk')
    · subst h2
      simp only [change_same] at hb
      simp only [change_ne _ h1] at ha
      exact absurd (key e' k hb hk') (hother a e k h1 ha hk)
    · simp only [change_ne _ h1] at ha
      simp only [change_ne _ h2] at hb
      exact h.one a b e e' k ha hb hk hk'
  · intro k hk
    have put : (f.index = some k ∨ s.taken ≤ k ∧ k < n) → k ∈ (done ++ more).map Prod.fst ++ (lost ++ gone) ∨
        ∃ j e, (change s.fut i g) j = some e ∧ e.index = some k := by
      intro hh
      rcases hto k hh with h1 | ⟨g', h1, h2⟩
      · exact .inl ((hperm k).mpr (.inr h1))
      · exact .inr ⟨i, g', by simp only [change_same]; exact h1, h2⟩
    by_cases hlt' : k < s.taken
    · rcases h.all k hlt' with h1 | ⟨j, e, h1, h2⟩
      · exact .inl ((hperm k).mpr (.inl h1))
      · by_cases hj : j = i
        · subst hj
          rw [hf] at h1
          cases h1
          exact put (.inl h2)
        · exact .inr ⟨j, e, by simp only [change_ne _ hj]; exact h1, h2⟩
    · exact put (.inr ⟨by omega, hk⟩)
  · intro k hm
    rcases (hperm k).mp hm with h1 | h1
    · exact Nat.lt_of_lt_of_le (h.below k h1) hn
    · exact hlt k (hfrom k h1)
  · intro j hj
    have hi : j ≠ i := by
      rintro rfl
      rw [h.fresh j hj] at hf
      cases hf
    simp only [change_ne _ hi]
    exact h.fresh j hj

theorem LRun.inv {s : Listener} {done : List (Nat × AcceptRes)} {lost : List Nat} (h : LRun L fuel s done lost) : LInv L fuel s done lost := by
  induction h with
  | init => exact ⟨by simp, by simp, by simp, by simp, by simp, by simp, by simp⟩
  | @call s done lost _ ih =>
    have hf := ih.fresh s.next (Nat.le_refl _)
    refine ⟨ih.result, ih.nodup, ?_, ?_, ?_, ih.below, ?_⟩
    · intro i f h1
      by_cases hi : i = s.next
      · subst hi
        simp only [change_same] at h1
        cases h1
        exact .inl rfl
      · simp only [change_ne _ hi] at h1
        exact ih.hand i f h1
    · intro i j f g k h1 h2 h3 h4
      have a : i ≠ s.next := by
        rintro rfl
        simp only [change_same] at h1
        cases h1
        cases h3
      have b : j ≠ s.next := by
        rintro rfl
        simp only [change_same] at h2
        cases h2
        cases h4
      simp only [change_ne _ a] at h1
      simp only [change_ne _ b] at h2
      exact ih.one i j f g k h1 h2 h3 h4
    · intro k hk
      refine (ih.all k hk).imp id ?_
      rintro ⟨i, f, h1, h2⟩
      have a : i ≠ s.next := by
        rintro rfl
        rw [hf] at h1
        cases h1
      exact ⟨i, f, by simp only [change_ne _ a]; exact h1, h2⟩
    · intro i hi
      have a : i ≠ s.next := fun h => absurd hi (by rw [h]; simp)
      simp only [change_ne _ a]
      exact ih.fresh i (by simp at hi; omega)
  | @poll s done lost i n f f' steps _ hf hp ih =>
    rcases ih.hand i f hf with rfl | ⟨k, h1, h2, h3⟩
    · rcases poll_receiving (L := L) (fuel := fuel) steps s.taken with h4 | ⟨g, h4, h5⟩ | h4 <;> rw [hp] at h4 <;> cases h4
      · simpa using ih.step (more := []) (gone := []) (g := some .receiving) hf (Nat.le_refl _) (by simp) (by simp) (by simp) (by simp) (by
          rintro k (h | h)
          · cases h
          · omega)
      · simpa using ih.step (more := []) (gone := []) (g := some f') hf (Nat.le_succ _) (by simp) (by simp) (by simp)
          (by intro g' e; cases e; exact .inr ⟨_, h5, by simp, .inr (by omega)⟩) (by
          rintro k (h | h)
          · cases h
          · obtain rfl : k = s.taken := by omega
            exact .inr ⟨f', rfl, h5.index⟩)
    · rcases poll_inHand h1 steps s.taken with ⟨g, h4, h5⟩ | h4 <;> rw [hp] at h4 <;> cases h4
      simpa using ih.step (more := []) (gone := []) (g := some f') hf (Nat.le_refl _) (by simp) (by simp) (by simp)
          (by intro g' e; cases e; exact .inr ⟨_, h5, by simp, .inl h1.index⟩) (by
          rintro k' (h | h)
          · exact .inr ⟨f', rfl, by rw [h5.index, ← h1.index, h]⟩
          · omega)
  | @ready s done lost i n f r steps _ hf hp ih =>
    rcases ih.hand i f hf with rfl | ⟨k, h1, h2, h3⟩
    · rcases poll_receiving (L := L) (fuel := fuel) steps s.taken with h4 | ⟨g, h4, h5⟩ | h4 <;> rw [hp] at h4 <;> cases h4
      simpa using ih.step (more := [(s.taken, L.result fuel s.taken)]) (gone := []) (g := none) hf (Nat.le_succ _) (by simp) (by simp) (by simp) (by simp) (by
          rintro k (h | h)
          · cases h
          · obtain rfl : k = s.taken := by omega
            simp)
    · rcases poll_inHand h1 steps s.taken with ⟨g, h4, h5⟩ | h4 <;> rw [hp] at h4 <;> cases h4
      simpa using ih.step (more := [(k, L.result fuel k)]) (gone := []) (g := none) hf (Nat.le_refl _) (by simp) (by simp) (by simp [h1.index]) (by simp) (by
          rintro k' (h | h)
          · rw [h1.index] at h
            cases h
            simp
          · omega)
  | @drop s done lost i f _ hf ih =>
    have := ih.step (more := []) (gone := f.index.toList) (g := none) hf (Nat.le_refl _) (by simp) (by cases f.index <;> simp)
      (by intro k hk; left; simpa [eq_comm] using hk) (by simp) (by
          rintro k' (h | h)
          · simp [h]
          · omega)
    simpa using this

/-- `Incoming` answers the datagrams in order. -/
theorem IRun.inv {slot : Option AFut} {n : Nat} {items : List (Option AcceptRes)} (h : IRun L fuel slot n items) :
    items = (List.range items.length).map (fun k => some (L.result fuel k)) ∧
      ((slot = none ∨ slot = some .receiving) ∧ n = items.length ∨ ∃ f, slot = some f ∧ f.InHand L fuel items.length ∧ n = items.length + 1) := by
  have step : ∀ (steps : Nat) (slot : Option AFut) (n m : Nat),
      ((slot = none ∨ slot = some .receiving) ∧ n = m ∨ ∃ f, slot = some f ∧ f.InHand L fuel m ∧ n = m + 1) →
      ∃ y, pollAccept L fuel steps (slot.getD .receiving) n = y ∧
      pollNext AFut.receiving (fun f => (pollAccept L fuel steps f n).1) slot = (match y.1 with | .inl f => (none, some f) | .inr r => (some (some r), none)) ∧
      ((y = (.inl .receiving, n) ∧ n = m) ∨ (∃ f, y = (.inl f, m + 1) ∧ f.InHand L fuel m) ∨ y = (.inr (m, L.result fuel m), m + 1)) := by
    intro steps slot n m h
    refine ⟨_, rfl, ?_, ?_⟩
    · cases slot <;> simp only [pollNext, Option.getD] <;> split <;> rename_i hh <;> rw [hh]
    · rcases h with ⟨h1, rfl⟩ | ⟨f, rfl, h2, rfl⟩
      · have hs : slot.getD .receiving = .receiving := by rcases h1 with rfl | rfl <;> rfl
        rw [hs]
        rcases poll_receiving (L := L) (fuel := fuel) steps n with h4 | h4 | h4
        · exact .inl ⟨h4, rfl⟩
        · exact .inr (.inl h4)
        · exact .inr (.inr h4)
      · exact .inr (poll_inHand h2 steps (m + 1))
  induction h with
  | init => simp
  | @pending slot slot' n items steps _ hp ih =>
    refine ⟨ih.1, ?_⟩
    obtain ⟨y, e, h1, h2⟩ := step steps slot n items.length ih.2
    rw [e]
    rw [h1] at hp
    rcases h2 with ⟨rfl, h3⟩ | ⟨f, rfl, h3⟩ | rfl <;> cases hp
    · exact .inl ⟨.inr rfl, h3⟩
    · exact .inr ⟨f, rfl, h3, rfl⟩
  | @item slot slot' n items x steps _ hp ih =>
    obtain ⟨y, e, h1, h2⟩ := step steps slot n items.length ih.2
    rw [e]
    rw [h1] at hp
    rcases h2 with ⟨rfl, h3⟩ | ⟨f, rfl, h3⟩ | rfl <;> cases hp
    refine ⟨?_, .inl ⟨.inl rfl, by simp⟩⟩
    rw [List.length_append, List.length_singleton, List.range_succ, List.map_append, ← ih.1]
    rfl

/-- With everything there, a poll is ready. -/
theorem poll_ready (n : Nat) (h : L.net n ≠ .never) (hs : ∀ i, (L.env n).snd i ≠ .never) (steps : Nat) :
    pollAccept L fuel (steps + 3) .receiving n = (.inr (n, L.result fuel n), n + 1) := by
  have reply : ∀ reply w src f' m, pollAccept L fuel (steps + 1) (.replying n reply w src) m ≠ (.inl f', m) := by
    intro reply w src f' m
    simp [pollAccept, hs]
  have bind : ∀ pkt src f' m, (AFut.binding n pkt src).InHand L fuel n → pollAccept L fuel (steps + 2) (.binding n pkt src) m ≠ (.inl f', m) := by
    intro pkt src f' m hi
    unfold pollAccept
    obtain ⟨s1, -⟩ := onBound_spec hi
    rcases hb : AFut.onBound (L.env n) fuel n pkt src (L.bound n) with f | r
    · obtain ⟨⟨rep, w, rfl⟩, -⟩ := s1 f hb
      exact reply rep w src f' m
    · simp
  unfold pollAccept
  rw [if_neg h]
  obtain ⟨s1, s2⟩ := onDatagram_spec (fuel := fuel) h
  rcases hd : AFut.onDatagram n (L.net n) with f | r
  · obtain ⟨pkt, src, rfl, hi⟩ := s1 f hd
    rcases poll_binding hi (steps + 2) (n + 1) with ⟨f, h1, -⟩ | h1
    · exact absurd h1 (bind pkt src f (n + 1) hi)
    · exact h1
  · rw [← s2 r hd]

end Utp
