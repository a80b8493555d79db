import Verif.Lemmas.LossyBase
/-!
# A network that loses datagrams: the reader
-/

namespace Utp
open M

variable {E : Env}

/-- What the reader sends after `s` waits: State packets that acknowledge the piece before the piece number `I s`. -/
def AckAt (b0 : World) (k0 : U16) (I : Nat → Nat) (s : Nat) (d : Bytes) : Prop :=
  ∃ r, AckPkt b0.s.seqNr (k0 + BitVec.ofNat 16 (I s) - 1) b0.s.senderId r ∧ d = r.bytes

/-- The socket that was in the world `b0` has received `I n` packets in `n` waits, the first with the number `k0`; `u` is the unread rest of the last. -/
structure ReadsAt (b0 : World) (k0 : U16) (I : Nat → Nat) (n : Nat) (u : Bytes) (w : World) : Prop where
  exp : Expects w.s true (k0 + BitVec.ofNat 16 (I n)) u
  sid : w.s.senderId = b0.s.senderId
  rid : w.s.receiverId = b0.s.receiverId
  net : w.nNet = b0.nNet + n
  kept : Kept b0.s w.s
  tells : Tells b0 (AckAt b0 k0 I) n w

section
variable {b0 : World} {k0 : U16} {I : Nat → Nat} {n : Nat} {w : World}

theorem resendRequest_ack (s : Socket) (t : U32) : AckPkt s.seqNr s.ackNr s.senderId (resendRequest s t) :=
  ⟨resendRequest_plain s t, by simp [resendRequest, show Packet.new.bytes.length = 20 by decide], (resendRequest_facts s t).2.1, (resendRequest_facts s t).2.2, (resendRequest_facts s t).1⟩

theorem fastResendOne_ok (hok : ∀ n, E.snd n = .ok) (w : World) : fastResendOne E w =
    (.ok (), { w with nNow := w.nNow + 1, nSnd := w.nSnd + 1, log := w.log ++ [.send w.s.connectedTo (resendRequest w.s (E.now w.nNow)).bytes true] }) := by
  unfold fastResendOne
  msimp
  unfold ignoreErr
  rw [udpSend_ok (hok _)]

/-- Three requests to send again, after a timeout. -/
theorem reads_timeout (hc : E.checks = false) (hok : ∀ n, E.snd n = .ok) (hw0 : b0.s.sendWindow = []) (h : ReadsAt b0 k0 I n [] w) (hI : I (n + 1) = I n) (t : Option U64) :
    ∃ w', handleReceiveTimeout E (w.waited t) = (.ok (), w') ∧ ReadsAt b0 k0 I (n + 1) [] w' := by
  have hf := h.exp.fresh rfl
  rw [if_pos rfl] at hf
  obtain ⟨v, hv⟩ : ∃ v, v = (w.waited t).setS { w.s with congTimeout := w.s.congTimeout * 2, cwnd := MSS } := ⟨_, rfl⟩
  have hvs : v.s = { w.s with congTimeout := w.s.congTimeout * 2, cwnd := MSS } := by rw [hv]; rfl
  have hack : ∀ t', AckAt b0 k0 I (n + 1) (resendRequest v.s t').bytes := by
    intro t'
    refine ⟨_, ?_, rfl⟩
    have := resendRequest_ack v.s t'
    have e1 : v.s.seqNr = b0.s.seqNr := by rw [hvs]; exact h.kept.seqNr
    have e2 : v.s.ackNr = k0 + BitVec.ofNat 16 (I (n + 1)) - 1 := by rw [hvs, hI]; exact hf.1
    have e3 : v.s.senderId = b0.s.senderId := by rw [hvs]; exact h.sid
    rw [e1, e2, e3] at this
    exact this
  have step : ∀ v' : World, v'.s = v.s → Tells b0 (AckAt b0 k0 I) (n + 1) v' → ∃ v'', fastResendOne E v' = (.ok (), v'') ∧ v''.s = v.s ∧ v''.nNet = v'.nNet ∧
      Tells b0 (AckAt b0 k0 I) (n + 1) v'' := by
    intro v' h1 h2
    refine ⟨_, fastResendOne_ok hok v', h1, rfl, h2.send (dst := v'.s.connectedTo) (b := (resendRequest v'.s (E.now v'.nNow)).bytes) (ok := true) rfl ?_⟩
    rw [h1]
    exact hack _
  have ht : Tells b0 (AckAt b0 k0 I) (n + 1) v := h.tells.wait (t := t) (by rw [hv]; rfl)
  obtain ⟨v1, a1, a2, a3, a4⟩ := step v rfl ht
  obtain ⟨v2, b1, b2, b3, b4⟩ := step v1 a2 a4
  obtain ⟨v3, c1, c2, c3, c4⟩ := step v2 b2 b4
  have hsw : (w.waited t).s.sendWindow = [] := (h.kept.sendWindow).trans hw0
  have hst : (w.waited t).s.state = .connected := h.exp.state
  refine ⟨v3, ?_, ?_⟩
  · unfold handleReceiveTimeout
    simp only [overflowIf_release hc]
    msimp
    simp only [hsw]
    rw [if_neg (by rw [hst]; simp), if_pos (by rw [hst]; simp)]
    unfold fastResendRequest
    rw [bind_def, andThen_eq (w' := v1) (a := ()) (by rw [← a1, hv]; simp only [World.setS, World.waited, show w.s.sendWindow = [] from hsw]), bind_def, andThen_eq b1]
    exact c1
  · constructor
    case tells => exact c4
    case exp =>
      rw [c2, hvs, hI]
      exact ⟨h.exp.state, h.exp.tries, h.exp.pending, h.exp.empty, h.exp.fresh, h.exp.rest⟩
    case sid => rw [c2, hvs]; exact h.sid
    case rid => rw [c2, hvs]; exact h.rid
    case net => rw [c3, b3, a3, hv]; show w.nNet + 1 = _; rw [h.net]; omega
    case kept => rw [c2, hvs]; exact ⟨h.kept.seqNr, h.kept.sendWindow, h.kept.unsent, h.kept.currWindow, h.kept.lastAcked, h.kept.maxRetries⟩

theorem Tells.answered {x0 w w' : World} {P : Nat → Bytes → Prop} (h : Tells x0 P n w) {nr : U16} (ha : Answered w w' nr)
    (hb : ∀ r, AckPkt w.s.seqNr nr w.s.senderId r → P (n + 1) r.bytes) : Tells x0 P (n + 1) w' := by
  obtain ⟨t, dst, r, g1, g2, g3, g4, g5, g6⟩ := ha
  exact (h.wait (w' := w.waited t) (t := t) rfl).send (dst := dst) (b := r.bytes) (ok := true) (by rw [g1]; simp [World.waited]) (hb r ⟨g2, g3, g4, g5, g6⟩)

/-- The packet before is repeated. -/
theorem reads_again (hok : ∀ n, E.snd n = .ok) (h : ReadsAt b0 k0 I n [] w) (hI : I (n + 1) = I n) {p : Packet} {c : Bytes} {src : Addr} {κ : U16}
    (hn : E.net (b0.nNet + n) = .dgram p.bytes src) (hp : Piece κ b0.s.receiverId c p) (hk : κ + 1 = k0 + BitVec.ofNat 16 (I n)) :
    ∃ w', (∀ fuel len, recv E (fuel + 2) len w = (.ok ([], src), w')) ∧ ReadsAt b0 k0 I (n + 1) [] w' := by
  have hx := h.exp
  have hf := hx.fresh rfl
  simp only [if_true] at hf
  have hκ : κ = k0 + BitVec.ofNat 16 (I n) - 1 := by rw [← hk, BitVec.add_sub_cancel]
  have hb : Packet.tryFrom (p.bytes.take 1520) = some (.ok p) := by
    rw [List.take_of_length_le (by rw [hp.len]; have := hp.bound; omega)]
    exact hp.plain.accepted
  rw [← h.net] at hn
  have hseq : p.seqNr = w.s.ackNr := by rw [hp.seq, hf.1, hκ]
  obtain ⟨v, hv, hvn, hva', hrec⟩ := recv_next hx.state hn hb hp.plain.ty (.inr (by rw [hp.id, h.rid])) hx.tries (hok _) (.inl hseq)
  have hkeep : v.s.keep .data p = v.s := by
    unfold Socket.keep
    rw [if_neg]
    rintro ⟨_, h'⟩
    rw [hseq, hv] at h'
    simp [hf.2, hf.1] at h'
  have hvp : v.s.pending = [] := by rw [hv]; exact hx.pending
  have hvi : v.s.incoming = [] := by rw [hv]; exact hx.empty rfl
  have h1 : ∀ len, flushIncoming E len (v.setS v.s) = (.ok [], v) := by
    intro len
    unfold flushIncoming
    msimp
    simp only [World.setS, hvp, hvi, ne_eq, not_true_eq_false, if_false]
    rfl
  refine ⟨v, fun fuel len => by rw [hrec fuel len, hkeep, andThen_eq (h1 len)]; rfl, ?_⟩
  constructor
  case tells =>
    refine h.tells.answered hva' fun r hr => ⟨r, ?_, rfl⟩
    rw [h.kept.seqNr, h.sid, hp.seq, hκ, ← hI] at hr
    exact hr
  case exp =>
    rw [hv, hI]
    exact ⟨hx.state, hx.tries, hx.pending, hx.empty, fun _ => by simp [hp.seq, hf.2, hκ], fun h => absurd rfl h⟩
  case sid => rw [hv]; exact h.sid
  case rid => rw [hv]; exact h.rid
  case net => rw [hvn, h.net]; omega
  case kept => rw [hv]; exact ⟨h.kept.seqNr, h.kept.sendWindow, h.kept.unsent, h.kept.currWindow, h.kept.lastAcked, h.kept.maxRetries⟩

/-- The next packet arrives. -/
theorem reads_new (hok : ∀ n, E.snd n = .ok) (h : ReadsAt b0 k0 I n [] w) (hI : I (n + 1) = I n + 1) {p : Packet} {c : Bytes} {src : Addr}
    (hn : E.net (b0.nNet + n) = .dgram p.bytes src) (hp : Piece (k0 + BitVec.ofNat 16 (I n)) b0.s.receiverId c p) (len : Nat) :
    ∃ w', (∀ fuel, recv E (fuel + 2) len w = (.ok (c.take len, src), w')) ∧ ReadsAt b0 k0 I (n + 1) (c.drop len) w' := by
  have hb : Packet.tryFrom (p.bytes.take 1520) = some (.ok p) := by
    rw [List.take_of_length_le (by rw [hp.len]; have := hp.bound; omega)]
    exact hp.plain.accepted
  rw [← h.net] at hn
  obtain ⟨w', g1, g2, g3, g4, g5, g6⟩ := recv_one (p := p) (c := c) h.exp ⟨hp.plain.ty, hp.seq, hp.payload, .inr (by rw [hp.id, h.rid])⟩ hn hb (hok _) len
  have hk : k0 + BitVec.ofNat 16 (I n) + 1 = k0 + BitVec.ofNat 16 (I (n + 1)) := by rw [hI, BitVec.ofNat_add, ← BitVec.add_assoc]; rfl
  refine ⟨w', g1, ?_⟩
  constructor
  case tells =>
    refine h.tells.answered g5 fun r hr => ⟨r, ?_, rfl⟩
    rw [h.kept.seqNr, h.sid] at hr
    rw [← hk, BitVec.add_sub_cancel]
    exact hr
  case exp => rw [← hk]; exact g2
  case sid => exact g3.1.trans h.sid
  case rid => exact g3.2.trans h.rid
  case net => rw [g4, h.net]; omega
  case kept => exact h.kept.trans g6

/-- The point before the end of the wait `N` at which the reader waits for data. -/
def ReaderPast (b0 : World) (k0 : U16) (I : Nat → Nat) (N : Nat) (v : World) : Prop := ∃ w t, ReadsAt b0 k0 I N [] w ∧ w.log ++ [.wait t] <+: v.log

theorem ReaderPast.lasting (N : Nat) : Lasting (ReaderPast b0 k0 I N) := by
  rintro w w' h ⟨v, t, h1, h2⟩
  exact ⟨v, t, h1, h2.trans h⟩

/-- Until the wait `N`, what arrives are the expected packet or the one before, and something arrives often enough. -/
structure FedWell (E : Env) (b0 : World) (k0 : U16) (cs : List Bytes) (I : Nat → Nat) (N : Nat) : Prop where
  release : E.checks = false
  sends : ∀ n, E.snd n = .ok
  window : b0.s.sendWindow = []
  ends : ∀ n, Comes (E.net (b0.nNet + n)) ∨ Expires (E.net (b0.nNet + n))
  often : ∀ n, n + b0.s.maxRetries.toNat ≤ N → ∃ j, j < b0.s.maxRetries.toNat ∧ Comes (E.net (b0.nNet + n + j))
  still : ∀ n, Expires (E.net (b0.nNet + n)) → I (n + 1) = I n
  feeds : ∀ n, n < N → I n < cs.length → Comes (E.net (b0.nNet + n)) → ∃ p src c κ, E.net (b0.nNet + n) = .dgram p.bytes src ∧ Piece κ b0.s.receiverId c p ∧
    (κ + 1 = k0 + BitVec.ofNat 16 (I n) ∧ I (n + 1) = I n ∨ κ = k0 + BitVec.ofNat 16 (I n) ∧ cs[I n]? = some c ∧ I (n + 1) = I n + 1)

variable {cs : List Bytes} {N : Nat}

theorem reads_recv (hE : FedWell E b0 k0 cs I N) {i n0 : Nat} {w : World} {c : Bytes} (h : ReadsAt b0 k0 I n0 [] w) (hi : I n0 = i) (hc : cs[i]? = some c) (hn : n0 ≤ N) (len : Nat) :
    Prog (ReaderPast b0 k0 I N) (fun f => recv E f len) w fun x w' => ∃ n', n0 < n' ∧ n' ≤ N ∧
      (x.1 = [] ∧ ReadsAt b0 k0 I n' [] w' ∧ I n' = i ∨ x.1 = c.take len ∧ c ≠ [] ∧ ReadsAt b0 k0 I n' (c.drop len) w' ∧ I n' = i + 1) := by
  refine prog_recv_lossy (E := E) (X := fun n w => n0 ≤ n ∧ I n = i ∧ ReadsAt b0 k0 I n [] w) (x := b0.nNet) (N := N) (R := b0.s.maxRetries.toNat) ?_ ?_ ?_
    hE.ends hE.often ?_ ?_ n0 w hn ⟨Nat.le_refl _, hi, h⟩
  · rintro n w ⟨_, _, h⟩; exact h.net
  · rintro n w ⟨_, _, h⟩; rw [h.kept.maxRetries]
  · rintro w v t ⟨_, _, h⟩ hp; exact ⟨w, t, h, hp⟩
  · rintro n w hn ⟨h1, h2, h⟩ hx
    have hs := hE.still n hx
    obtain ⟨w', g1, g2⟩ := reads_timeout hE.release hE.sends hE.window h hs w.s.patience
    exact ⟨w', g1, by omega, by omega, g2⟩
  · rintro n w hn ⟨h1, h2, h⟩ hx
    obtain ⟨p, src, c', κ, g1, g2, ⟨g3, g4⟩ | ⟨g3, g4, g5⟩⟩ := hE.feeds n hn (by rw [h2]; exact (List.getElem?_eq_some_iff.mp hc).1) hx
    · obtain ⟨w', e1, e2⟩ := reads_again hE.sends h g4 g1 g2 g3
      refine .returns (F := 2) (a := ([], src)) (w' := w') (fun f hf => ?_) ⟨n + 1, by omega, by omega, .inl ⟨rfl, e2, by omega⟩⟩
      obtain ⟨f, rfl⟩ : ∃ g, f = g + 2 := ⟨f - 2, by omega⟩
      exact e1 f len
    · rw [h2, hc] at g4
      cases g4
      rw [g3] at g2
      obtain ⟨w', e1, e2⟩ := reads_new hE.sends h g5 g1 g2 len
      refine .returns (F := 2) (a := (c.take len, src)) (w' := w') (fun f hf => ?_) ⟨n + 1, by omega, by omega, .inr ⟨rfl, List.length_pos_iff.mp g2.pos, e2, by omega⟩⟩
      obtain ⟨f, rfl⟩ : ∃ g, f = g + 2 := ⟨f - 2, by omega⟩
      exact e1 f

theorem reads_loop (hE : FedWell E b0 k0 cs I N) {len : Nat} (hl : 0 < len) {i : Nat} {c : Bytes} (hc : cs[i]? = some c) :
    ∀ (d n0 x y : Nat) (w : World), n0 + d = N → ReadsAt b0 k0 I n0 [] w → I n0 = i →
    Prog (ReaderPast b0 k0 I N) (fun f => recvFromLoop E (f + x) len (f + y)) w fun z w' => ∃ n', n' ≤ N ∧ z.1 = c.take len ∧ z.1 ≠ [] ∧ ReadsAt b0 k0 I n' (c.drop len) w' ∧ I n' = i + 1 := by
  intro d
  induction d using Nat.strongRecOn with
  | _ d ih =>
    intro n0 x y w hd h hi
    have hst : w.s.state ≠ .closed := by rw [h.exp.state]; simp
    refine .succ (.congr (w1 := w) (m := fun f => M.andThen (recv E (f + (1 + x)) len) fun z => if z.1 = [] then recvFromLoop E (f + (1 + x)) len (f + y) else M.ret (z.1, z.2)) ?_ fun f => ?_)
    · refine .andThen (ReaderPast.lasting N) ((reads_recv hE h hi hc (by omega) len).shift (1 + x)) (fun f _ => .ite (grows_recvFromLoop _ _ _) .ret) ?_
      rintro ⟨out, src⟩ w' ⟨n', g1, g2, ⟨g3, g4, g5⟩ | ⟨g3, g6, g4, g5⟩⟩
      · refine .congr (w1 := w') (ih (N - n') (by omega) n' (1 + x) y w' (by omega) g4 g5) fun f => ?_
        rw [if_pos g3]
      · have hne : c.take len ≠ [] := by
          rw [ne_eq, List.take_eq_nil_iff]
          rintro (h | h)
          · omega
          · exact g6 h
        refine .congr (w1 := w') (m := fun _ => M.ret (out, src)) (.ret ⟨n', g2, g3, by rw [g3]; exact hne, g4, g5⟩) fun f => ?_
        rw [if_neg (by show ¬ out = []; rw [show out = c.take len from g3]; exact hne)]
    · rw [show f + 1 + y = f + y + 1 by omega, show f + 1 + x = f + (1 + x) by omega, recvFromLoop]
      msimp
      rw [if_neg hst]

theorem ReadsAt.quiet (h : ReadsAt b0 k0 I n [] w) (f len : Nat) : recvFrom E f len w = recvFromLoop E f len f w := by
  refine recvFrom_quiet ?_ (by rw [h.exp.state]; simp)
  unfold flushIncoming
  msimp
  rw [if_neg (by simp [h.exp.pending]), h.exp.empty rfl]
  rfl

theorem reads_recvFrom (hE : FedWell E b0 k0 cs I N) {len : Nat} (hl : 0 < len) {n0 : Nat} {u got : Bytes} {w : World} (hn : n0 ≤ N)
    (h : ReadsAt b0 k0 I n0 u w) (hg : got ++ u = (cs.take (I n0)).flatten) (hm : u = [] → I n0 < cs.length) (hle : I n0 ≤ cs.length) :
    Prog (ReaderPast b0 k0 I N) (fun f => recvFrom E f len) w fun x w' => x.1 ≠ [] ∧ ∃ n' u', n' ≤ N ∧ ReadsAt b0 k0 I n' u' w' ∧ I n' ≤ cs.length ∧ got ++ x.1 ++ u' = (cs.take (I n')).flatten := by
  by_cases hu : u = []
  · subst hu
    rw [List.append_nil] at hg
    have hi := hm rfl
    have hc : cs[I n0]? = some cs[I n0] := List.getElem?_eq_getElem hi
    refine .congr ((reads_loop hE hl hc (N - n0) n0 0 0 w (by omega) h rfl).mono ?_) fun f => h.quiet f len
    rintro ⟨out, src⟩ w' ⟨n', g1, g2, g3, g4, g5⟩
    refine ⟨g3, n', _, g1, g4, by omega, ?_⟩
    rw [g5, List.take_add_one, hc, List.flatten_append, ← hg, g2]
    simp
  · obtain ⟨w', g1, g2, g3, g4, g5, g6⟩ := read_rest (E := E) h.exp hu hl
    refine .returns (F := 0) (a := (u.take len, w.s.connectedTo)) (w' := w') (fun f _ => g1 f) ⟨?_, n0, u.drop len, hn, ⟨g2, g3.1.trans h.sid, g3.2.trans h.rid, g4.trans h.net, h.kept.trans g6, h.tells.same g5⟩, hle, ?_⟩
    · show u.take len ≠ []
      rw [ne_eq, List.take_eq_nil_iff]
      rintro (h | h)
      · omega
      · exact hu h
    · rw [← hg]; simp

theorem reads_readLoop (hE : FedWell E b0 k0 cs I N) {len : Nat} (hl : 0 < len) :
    ∀ (d : Nat) (j n0 : Nat) (u got : Bytes) (w : World), n0 ≤ N → cs.flatten.length ≤ got.length + d → ReadsAt b0 k0 I n0 u w → I n0 ≤ cs.length → got ++ u = (cs.take (I n0)).flatten →
    Prog (ReaderPast b0 k0 I N) (fun f => readLoop E (f + j) len cs.flatten.length f got) w fun x w' => x = cs.flatten ∧ ∃ n', n' ≤ N ∧ ReadsAt b0 k0 I n' [] w' ∧ I n' ≤ cs.length ∧ (cs.take (I n')).flatten = cs.flatten := by
  intro d
  have hpre : ∀ {got u : Bytes} {i : Nat}, got ++ u = (cs.take i).flatten → got.length + u.length ≤ cs.flatten.length ∧
      (cs.flatten.length ≤ got.length → got = cs.flatten ∧ u = []) ∧ (u = [] → ¬ cs.flatten.length ≤ got.length → i < cs.length) := by
    intro got u i hg
    have h1 : got ++ u ++ (cs.drop i).flatten = cs.flatten := by rw [hg, ← List.flatten_append, List.take_append_drop]
    have h2 := congrArg List.length h1
    simp only [List.length_append] at h2
    refine ⟨by omega, fun hle => ?_, fun hu hlt => ?_⟩
    · have hu : u = [] := List.eq_nil_of_length_eq_zero (by omega)
      have hd : (cs.drop i).flatten = [] := List.eq_nil_of_length_eq_zero (by omega)
      rw [hu, hd] at h1
      exact ⟨by simpa using h1, hu⟩
    · refine Nat.lt_of_not_le fun hle => hlt ?_
      rw [List.drop_eq_nil_of_le hle, hu] at h2
      simp only [List.flatten_nil, List.length_nil] at h2
      omega
  induction d with
  | zero =>
    intro j n0 u got w hn hd h hil hg
    obtain ⟨_, h2, _⟩ := hpre hg
    obtain ⟨h2, h3⟩ := h2 (by omega)
    refine .succ (.congr (m := fun _ => M.ret got) (w1 := w) (.ret ⟨h2, n0, hn, h3 ▸ h, hil, by rw [← hg, h2, h3, List.append_nil]⟩) fun f => ?_)
    rw [readLoop, if_pos (by omega)]
  | succ d ih =>
    intro j n0 u got w hn hd h hil hg
    obtain ⟨_, h2, h4⟩ := hpre hg
    by_cases hle : cs.flatten.length ≤ got.length
    · obtain ⟨h2, h3⟩ := h2 hle
      refine .succ (.congr (m := fun _ => M.ret got) (w1 := w) (.ret ⟨h2, n0, hn, h3 ▸ h, hil, by rw [← hg, h2, h3, List.append_nil]⟩) fun f => ?_)
      rw [readLoop, if_pos hle]
    · refine .succ (.congr (m := fun f => M.andThen (recvFrom E (f + (1 + j)) len) fun x => readLoop E (f + (1 + j)) len cs.flatten.length f (got ++ x.1)) (w1 := w) ?_ fun f => ?_)
      · refine .andThen (ReaderPast.lasting N) ((reads_recvFrom hE hl hn h hg (fun hu => h4 hu hle) hil).shift (1 + j)) (fun n _ => grows_readLoop _ _ _ _ _) ?_
        rintro x w' ⟨hx, n', u', h8, h5, h7, h6⟩
        refine ih (1 + j) n' u' (got ++ x.1) w' h8 ?_ h5 h7 h6
        have := List.length_pos_iff.mpr hx
        simp only [List.length_append]
        omega
      · rw [readLoop, if_neg hle, show f + 1 + j = f + (1 + j) by omega]

end

end Utp
