import Verif.Spec.Storm
import Verif.Props.Receive
import Verif.Props.Shutdown
/-!
# C96: nobody answers for ever
-/

namespace Utp
open M

variable {E : Env}

/-- **C96.**  A Reset of this connection is not answered: the receive that gets it fails, and nothing is sent.

Partial: a Reset that reaches the wrong socket is answered with a Reset, and then the answer is answered (`C96_forever`). -/
theorem C96_partial {w : World} {b : Bytes} {src : Addr} {p : Packet} (hn : E.net w.nNet = .dgram b src) (hp : Packet.tryFrom (b.take 1520) = some (.ok p))
    (ht : p.getType = some .reset) (hid : p.connectionId = w.s.senderId ∨ p.connectionId = w.s.receiverId) (hr : w.s.maxRetries ≠ 0) :
    ∃ w1 e t, w1.log = w.log ++ [.wait t] ∧ (w.s.state ≠ .synSent → e = .connectionReset ∧ w1.s.state = .resetReceived) ∧
      ∀ fuel len, recv E (fuel + 2) len w = (.err (.sock e), w1) := by
  have htk : (w.waited w.s.patience).s.takes p .reset := .inr (.inr hid)
  by_cases hs : w.s.state = .synSent
  · refine ⟨(w.waited w.s.patience).heard E p, .invalidReply, w.s.patience, rfl, fun h => absurd hs h, fun fuel len => ?_⟩
    rw [recv_dgram hn (tries_pos hr) hp]
    unfold recvPacket
    rw [bind_def]
    have : handlePacket E (fuel + 1) (recv E (fuel + 1) BUF_SIZE) p src (w.waited w.s.patience) = (.err (.sock .invalidReply), (w.waited w.s.patience).heard E p) := by
      rw [handlePacket_takes ht htk, show (w.waited w.s.patience).s.state = .synSent from hs]
      rfl
    unfold M.andThen
    rw [this]
  · refine ⟨((w.waited w.s.patience).heard E p).setS { ((w.waited w.s.patience).heard E p).s with state := .resetReceived }, .connectionReset, w.s.patience, rfl, fun _ => ⟨rfl, rfl⟩,
      fun fuel len => ?_⟩
    rw [recv_dgram hn (tries_pos hr) hp]
    unfold recvPacket
    rw [bind_def]
    have : handlePacket E (fuel + 1) (recv E (fuel + 1) BUF_SIZE) p src (w.waited w.s.patience) =
        (.err (.sock .connectionReset), ((w.waited w.s.patience).heard E p).setS { ((w.waited w.s.patience).heard E p).s with state := .resetReceived }) := by
      rw [handlePacket_takes ht htk]
      have hs' : (w.waited w.s.patience).s.state ≠ .synSent := hs
      cases h : (w.waited w.s.patience).s.state <;> first | exact absurd h hs' | rfl
    unfold M.andThen
    rw [this]

theorem Listens.quiet {w v : World} (h : Listens E w) (hv : v.s = w.s) (len : Nat) : flushIncoming E len v = (.ok [], v) := by
  unfold flushIncoming
  msimp
  rw [hv, if_neg (by simp [h.read.2]), h.read.1]
  rfl

/-- The Reset that answers a packet. -/
def AnswersStray (E : Env) (s : Socket) (d : Bytes) : Prop :=
  ∃ k j b src p, E.net k = .dgram b src ∧ Packet.tryFrom (b.take 1520) = some (.ok p) ∧ d = ((s.prepareReply (E.now j) p .reset).setWndSize WINDOW_SIZE).bytes

/-- One stray packet. -/
theorem stray_one {w : World} (h : Listens E w) (hn : StrayAt E w.s w.nNet) :
    ∃ w1 t d src, Listens E w1 ∧ w1.s = w.s ∧ w1.log = w.log ++ [.wait t, .send src d true] ∧ IsControl w.s .reset d ∧ AnswersStray E w.s d ∧ w1.nNet = w.nNet + 1 ∧
      ∀ fuel len n, recvFromLoop E (fuel + 2) len (n + 1) w = recvFromLoop E (fuel + 2) len n w1 := by
  obtain ⟨d, src, p, h1, h2, ⟨⟨ty, h3, h4, h5⟩, ⟨h6, h7⟩, h8⟩⟩ := hn
  obtain ⟨w1, t, reply, g0, g1, g2, g3, g4, _, g5⟩ := recv_stray (fun v hv => h.quiet hv) h1 h2 h3 h4 h5 h.state.2.2 h6 h7 h8 (tries_pos h.tries) (h.sends _)
  exact ⟨w1, t, reply.bytes, src, ⟨by rw [g1]; exact h.state, by rw [g1]; exact h.read, by rw [g1]; exact h.tries, h.sends⟩, g1, g2, g3,
    ⟨_, _, _, _, _, h1, h2, by rw [g0]⟩, g4, fun fuel len n => (g5 fuel len).2 h.state.1 n⟩

/-- Stray packets in a row. -/
theorem stray_many : ∀ (m : Nat) {w : World}, Listens E w → (∀ i, i < m → StrayAt E w.s (w.nNet + i)) →
    ∃ w1 l, Listens E w1 ∧ w1.s = w.s ∧ w1.log = w.log ++ l ∧ (datagramsOf l).length = m ∧
      (∀ d ∈ datagramsOf l, IsControl w.s .reset d ∧ AnswersStray E w.s d) ∧ ∀ fuel len n, recvFromLoop E (fuel + 2) len (n + m) w = recvFromLoop E (fuel + 2) len n w1
  | 0, w, h, _ => ⟨w, [], h, rfl, by simp, rfl, by simp [datagramsOf], fun _ _ _ => rfl⟩
  | m + 1, w, h, hn => by
    obtain ⟨w1, t, d, src, h1, h2, h3, h4, h4', h5, h6⟩ := stray_one h (hn 0 (by omega))
    obtain ⟨w2, l, g1, g2, g3, g4, g5, g6⟩ := stray_many m h1 (fun i hi => by
      have := hn (i + 1) (by omega)
      rw [h2, h5, show w.nNet + 1 + i = w.nNet + (i + 1) by omega]
      exact this)
    refine ⟨w2, .wait t :: .send src d true :: l, g1, g2.trans h2, by rw [g3, h3]; simp, ?_, ?_, fun fuel len n => ?_⟩
    · simp only [datagramsOf, List.filterMap_cons, List.length_cons] at g4 ⊢
      rw [g4]
    · intro x hx
      simp only [datagramsOf, List.filterMap_cons, List.mem_cons] at hx
      rcases hx with rfl | hx
      · exact ⟨h4, h4'⟩
      · have := g5 x hx
        rwa [h2] at this
    · rw [show n + (m + 1) = n + m + 1 by omega, h6, g6]

/-- What a waiting `recv_from` has sent when it has seen `m` stray packets. -/
theorem stray_sent {w : World} {m : Nat} (h : Listens E w) (hn : ∀ i, i < m → StrayAt E w.s (w.nNet + i)) (len : Nat) :
    ∃ l, (∃ rest, datagramsOf ((recvFrom E (m + 2) len w).2.log.drop w.log.length) = l ++ rest) ∧ l.length = m ∧ ∀ d ∈ l, IsControl w.s .reset d ∧ AnswersStray E w.s d := by
  obtain ⟨w1, l, _, h2, h3, h4, h5, h6⟩ := stray_many m h hn
  refine ⟨datagramsOf l, ?_, h4, h5⟩
  obtain ⟨t, ht⟩ := grows_recvFromLoop (E := E) (m + 2) len 2 w1
  have e : recvFrom E (m + 2) len w = recvFromLoop E (m + 2) len 2 w1 := by
    rw [recvFrom_quiet (h.quiet rfl len) h.state.2.1, ← h6 m len 2, Nat.add_comm 2 m]
  rw [e, ← ht, h3, List.append_assoc, List.drop_left]
  exact ⟨datagramsOf t, by simp [datagramsOf]⟩

/-- A waiting `recv_from` that gets nothing but stray packets. -/
theorem stray_forever {w : World} (h : Listens E w) (hn : ∀ i, StrayAt E w.s (w.nNet + i)) (n len : Nat) :
    (runOp E (n + 2) (.recvFrom len) w).1 = .pending ∧ OnlyResets w (runOp E (n + 2) (.recvFrom len) w).2 (n + 2) := by
  obtain ⟨w1, l, _, h2, h3, h4, h5, h6⟩ := stray_many (n + 2) h fun i _ => hn i
  have e : recvFrom E (n + 2) len w = (.pending, w1) := by
    rw [recvFrom_quiet (h.quiet rfl len) h.state.2.1]
    have := h6 n len 0
    rw [Nat.zero_add] at this
    rw [this]
    rfl
  have e' : runOp E (n + 2) (.recvFrom len) w = (.pending, w1) := by
    show M.andThen (recvFrom E (n + 2) len) _ w = _
    unfold M.andThen
    rw [e]
  rw [e']
  have hl : sentSince w w1 = datagramsOf l := by unfold sentSince; rw [h3, List.drop_left]
  exact ⟨rfl, h2, by rw [hl]; exact h4, by rw [hl]; exact fun d hd => (h5 d hd).1⟩

theorem reset_stray {x y : Socket} (h : Foreign x y) {d : Bytes} (hd : IsControl x .reset d) {n : Nat} {src : Addr} (hn : E.net n = .dgram d src) : StrayAt E y n := by
  obtain ⟨⟨q, h1, h2, h3, _, h5⟩, h6⟩ := hd
  exact ⟨d, src, q, hn, by rw [List.take_of_length_le (by omega)]; exact h1, ⟨.reset, h2, by simp, by simp⟩, by rw [h5]; exact h.id, by rw [h3]; exact h.seq⟩

/-- **C96 is false.**  Two sockets of different connections are both waiting in `recv_from`, and the network loses nothing between them.  One stray packet reaches one
of them.  Then they answer each other's Resets for ever: however long one lets them run, neither call returns, each socket has sent one Reset for each datagram it got, and nothing
else has changed. -/
theorem C96_forever {A B : Env} {a b : World} {la lb : Nat} (ha : Listens A a) (hb : Listens B b) (hab : Foreign a.s b.s) (hba : Foreign b.s a.s) (hn : StrayAt B b.s b.nNet)
    (toA : Arrives (fun fuel => recvFrom B fuel lb) b A a) (toB : Arrives (fun fuel => recvFrom A fuel la) a B { b with nNet := b.nNet + 1 }) (n : Nat) :
    ((runOp A (n + 2) (.recvFrom la) a).1 = .pending ∧ OnlyResets a (runOp A (n + 2) (.recvFrom la) a).2 (n + 2)) ∧
    ((runOp B (n + 2) (.recvFrom lb) b).1 = .pending ∧ OnlyResets b (runOp B (n + 2) (.recvFrom lb) b).2 (n + 2)) := by
  have key : ∀ n, (∀ i, i < n → StrayAt A a.s (a.nNet + i)) ∧ ∀ i, i < n + 1 → StrayAt B b.s (b.nNet + i) := by
    intro n
    induction n with
    | zero =>
      refine ⟨fun i hi => by omega, fun i hi => ?_⟩
      obtain rfl : i = 0 := by omega
      exact hn
    | succ n ih =>
      have hA : ∀ i, i < n + 1 → StrayAt A a.s (a.nNet + i) := by
        obtain ⟨l, ⟨rest, g1⟩, g2, g3⟩ := stray_sent hb ih.2 lb
        intro i hi
        obtain ⟨src, hs⟩ := toA (n + 1 + 2) i l[i] (by
          show (datagramsOf ((recvFrom B (n + 1 + 2) lb b).2.log.drop _))[i]? = _
          rw [g1, List.getElem?_append_left (by omega), List.getElem?_eq_getElem])
        exact reset_stray hba (g3 _ (List.getElem_mem _)).1 hs
      refine ⟨hA, fun i hi => ?_⟩
      cases i with
      | zero => exact hn
      | succ i =>
        obtain ⟨l, ⟨rest, g1⟩, g2, g3⟩ := stray_sent ha hA la
        obtain ⟨src, hs⟩ := toB (n + 1 + 2) i l[i] (by
          show (datagramsOf ((recvFrom A (n + 1 + 2) la a).2.log.drop _))[i]? = _
          rw [g1, List.getElem?_append_left (by omega), List.getElem?_eq_getElem])
        rw [show b.nNet + (i + 1) = b.nNet + 1 + i by omega]
        exact reset_stray hab (g3 _ (List.getElem_mem _)).1 hs
  exact ⟨stray_forever ha (fun i => (key (i + 1)).1 i (by omega)) n la, stray_forever hb (fun i => (key i).2 i (by omega)) n lb⟩

/-- All answers of a socket whose clock stands still are the same if all packets that arrive have the same timestamp. -/
theorem storm_arrives {w : World} (h : Listens E w) (hn : ∀ i, StrayAt E w.s (w.nNet + i)) {r : Bytes} (len : Nat)
    (hr : ∀ d, AnswersStray E w.s d → d = r) {Y : Env} {y : World} (hY : ∀ i, ∃ src, Y.net (y.nNet + i) = .dgram r src) :
    Arrives (fun fuel => recvFrom E fuel len) w Y y := by
  intro fuel i d hd
  have hm : d ∈ datagramsOf ((recvFrom E fuel len w).2.log.drop w.log.length) := List.mem_of_getElem? hd
  obtain ⟨w1, l, _, h2, h3, h4, h5, h6⟩ := stray_many fuel h fun i _ => hn i
  have hl : ∃ l', (∀ d ∈ datagramsOf l', AnswersStray E w.s d) ∧ (recvFrom E fuel len w).2.log = w.log ++ l' := by
    rw [recvFrom_quiet (h.quiet rfl len) h.state.2.1]
    match fuel, h6 with
    | 0, _ => exact ⟨[], by simp [datagramsOf], by simp [recvFromLoop, never]⟩
    | 1, _ =>
      refine ⟨[], by simp [datagramsOf], ?_⟩
      rw [recvFromLoop]
      msimp
      rw [if_neg h.state.1]
      rw [List.append_nil]
      rfl
    | n + 2, h6 =>
      refine ⟨l, fun d hd => (h5 d hd).2, ?_⟩
      have := h6 n len 0
      rw [Nat.zero_add] at this
      rw [this, ← h3]
      rfl
  obtain ⟨l', g1, g2⟩ := hl
  rw [g2, List.drop_left] at hm
  rw [hr d (g1 d hm)]
  exact hY i

section
open Sample

/-- Two servers, with the connection identifiers 5 and 50, each of which gets the Resets of the other; first, the second one gets an acknowledgement of the first one.
The clocks stand still, so that all Resets of a server are the same. -/
def stormA : Env := { env [] (now := fun _ => 0) with net := fun _ => .dgram (dg .reset 50 200 1) other }
def stormB : Env := { env [] (now := fun _ => 0) (rand := [7, 200]) with
  net := fun k => if k = 0 then .dgram (dg .state 5 100 3) peer else .dgram (dg .reset 5 100 1) peer }

/-- The socket made by accepting a SYN with some connection id. -/
def stormServer (E : Env) (cid : U16) : World :=
  match accept E 1 (arr (dg .syn cid 1 0)) (.ok here) with
  | .made _ w _ => w
  | _ => freshWorld E here peer

theorem storm_reset_a : Packet.tryFrom ((dg .reset 5 100 1).take 1520) = some (.ok ⟨dg .reset 5 100 1⟩) := rfl
theorem storm_reset_b : Packet.tryFrom ((dg .reset 50 200 1).take 1520) = some (.ok ⟨dg .reset 50 200 1⟩) := rfl
theorem storm_state : Packet.tryFrom ((dg .state 5 100 3).take 1520) = some (.ok ⟨dg .state 5 100 3⟩) := rfl

/-- The answers. -/
theorem storm_answer_a : (((stormServer stormA 5).s.prepareReply 0 ⟨dg .reset 50 200 1⟩ .reset).setWndSize WINDOW_SIZE).bytes = dg .reset 5 100 1 := by decide +kernel
theorem storm_answer_b : (((stormServer stormB 50).s.prepareReply 0 ⟨dg .reset 5 100 1⟩ .reset).setWndSize WINDOW_SIZE).bytes = dg .reset 50 200 1 := by decide +kernel
theorem storm_answer_first : (((stormServer stormB 50).s.prepareReply 0 ⟨dg .state 5 100 3⟩ .reset).setWndSize WINDOW_SIZE).bytes = dg .reset 50 200 1 := by decide +kernel

theorem stormA_strays (n : Nat) : StrayAt stormA (stormServer stormA 5).s n :=
  ⟨_, _, ⟨dg .reset 50 200 1⟩, rfl, storm_reset_b, ⟨.reset, by decide +kernel⟩, by decide +kernel, by decide +kernel⟩

theorem stormB_strays (n : Nat) : StrayAt stormB (stormServer stormB 50).s n := by
  by_cases h : n = 0
  · exact ⟨_, _, ⟨dg .state 5 100 3⟩, if_pos h, storm_state, ⟨.state, by decide +kernel⟩, by decide +kernel, by decide +kernel⟩
  · exact ⟨_, _, ⟨dg .reset 5 100 1⟩, if_neg h, storm_reset_a, ⟨.reset, by decide +kernel⟩, by decide +kernel, by decide +kernel⟩

theorem stormA_listens : Listens stormA (stormServer stormA 5) := ⟨by decide +kernel, by decide +kernel, by decide +kernel, fun _ => rfl⟩
theorem stormB_listens : Listens stormB (stormServer stormB 50) := ⟨by decide +kernel, by decide +kernel, by decide +kernel, fun _ => rfl⟩

/-- The hypotheses of `C96_forever` can be met. -/
example (n : Nat) :
    OnlyResets (stormServer stormA 5) (runOp stormA (n + 2) (.recvFrom 9) (stormServer stormA 5)).2 (n + 2) ∧
    OnlyResets (stormServer stormB 50) (runOp stormB (n + 2) (.recvFrom 9) (stormServer stormB 50)).2 (n + 2) := by
  have same : ∀ {x y : Bytes} {p q : Packet}, y = x → Packet.tryFrom (x.take 1520) = some (.ok q) → Packet.tryFrom (y.take 1520) = some (.ok p) → p = q := by
    intro x y p q hx h1 h2
    rw [hx, h1] at h2
    injection h2 with h2
    injection h2 with h2
    exact h2.symm
  have hA : ∀ d, AnswersStray stormA (stormServer stormA 5).s d → d = dg .reset 5 100 1 := by
    rintro d ⟨k, j, b, src, p, h1, h2, h3⟩
    rw [same (NetEvent.dgram.inj h1).1.symm storm_reset_b h2] at h3
    exact h3.trans storm_answer_a
  have hB : ∀ d, AnswersStray stormB (stormServer stormB 50).s d → d = dg .reset 50 200 1 := by
    rintro d ⟨k, j, b, src, p, h1, h2, h3⟩
    by_cases h : k = 0
    · rw [same (NetEvent.dgram.inj (h1.symm.trans (if_pos h))).1 storm_state h2] at h3
      exact h3.trans storm_answer_first
    · rw [same (NetEvent.dgram.inj (h1.symm.trans (if_neg h))).1 storm_reset_a h2] at h3
      exact h3.trans storm_answer_b
  have h := C96_forever (la := 9) (lb := 9) stormA_listens stormB_listens ⟨by decide +kernel, by decide +kernel⟩ ⟨by decide +kernel, by decide +kernel⟩ (stormB_strays _)
    (storm_arrives stormB_listens (fun i => stormB_strays _) 9 hB fun i => ⟨_, rfl⟩)
    (storm_arrives stormA_listens (fun i => stormA_strays _) 9 hA fun i => ⟨peer, if_neg (by show ¬ (_ + 1 + i = 0); omega)⟩) n
  exact ⟨h.1.2, h.2.2⟩

/-- Both are sockets that `accept` made. -/
theorem C96_counterexample : Reach stormA (stormServer stormA 5) ∧ Reach stormB (stormServer stormB 50) ∧
    (runOp stormA 6 (.recvFrom 9) (stormServer stormA 5)).1 = .pending ∧ (runOp stormB 6 (.recvFrom 9) (stormServer stormB 50)).1 = .pending ∧
    sentSince (stormServer stormA 5) (runOp stormA 6 (.recvFrom 9) (stormServer stormA 5)).2 = List.replicate 6 (dg .reset 5 100 1) ∧
    sentSince (stormServer stormB 50) (runOp stormB 6 (.recvFrom 9) (stormServer stormB 50)).2 = List.replicate 6 (dg .reset 50 200 1) ∧
    (List.range 6).map (fun i => stormA.net i) = List.replicate 6 (.dgram (dg .reset 50 200 1) other) ∧
    (List.range 6).map (fun i => stormB.net (i + 1)) = List.replicate 6 (.dgram (dg .reset 5 100 1) peer) :=
  ⟨⟨_, .accept 1 (arr (dg .syn 5 1 0)) (.ok here) (src := peer) (r := .ok ()) (by decide +kernel) (by simp), .refl⟩,
    ⟨_, .accept 1 (arr (dg .syn 50 1 0)) (.ok here) (src := peer) (r := .ok ()) (by decide +kernel) (by simp), .refl⟩, by decide +kernel⟩

/-- A Reset of the connection is not answered. -/
def resetNow : Env := env [arr (dg .reset 6 2 100)]

example : results resetNow 9 [.recvFrom 9] (server resetNow) = [.err (.sock .connectionReset)] ∧
    (sentSince (server resetNow) (runs resetNow 9 [.recvFrom 9] (server resetNow))) = [] := by decide +kernel

end

end Utp
