import Verif.Spec.Order
import Verif.Props.Receive
import Verif.Samples
import Verif.Lemmas.Reorder
/-!
# Data packets that arrive in order
-/

namespace Utp
open M

variable {E : Env}

/-- After `w`, the socket waited once and sent one State packet, which acknowledges the number `nr`. -/
def Answered (w w' : World) (nr : U16) : Prop :=
  ∃ t dst r, w'.log = w.log ++ [.wait t, .send dst r.bytes true] ∧ Plain r .state ∧ r.bytes.length = 20 ∧ r.ackNr = nr ∧ r.connectionId = w.s.senderId ∧
    r.seqNr = w.s.seqNr

/-- `recv` of a data packet that is acknowledged already or comes next, in any build. -/
theorem recv_next {w : World} (hs : w.s.state = .connected)
    {b : Bytes} {src : Addr} {pkt : Packet} (hn : E.net w.nNet = .dgram b src)
    (hp : Packet.tryFrom (b.take 1520) = some (.ok pkt)) (ht : pkt.getType = some .data)
    (hid : pkt.connectionId = w.s.senderId ∨ pkt.connectionId = w.s.receiverId) (hr : 0 < w.s.maxRetries.toNat)
    (hok : E.snd w.nSnd = .ok) (hq : pkt.seqNr = w.s.ackNr ∨ pkt.seqNr = w.s.ackNr + 1) :
    ∃ v : World, v.s = { w.s with ackNr := pkt.seqNr, remoteWnd := v.s.remoteWnd, theirDelay := v.s.theirDelay } ∧
      v.nNet = w.nNet + 1 ∧ Answered w v pkt.seqNr ∧
      ∀ fuel len, recv E (fuel + 2) len w = M.andThen (flushIncoming E len) (fun out => M.ret (out, src))
        (v.setS (v.s.keep .data pkt)) := by
  obtain ⟨v, hv⟩ : ∃ v, v = (w.waited w.s.patience).heard E pkt := ⟨_, rfl⟩
  have hvs : v.s = { w.s with ackNr := pkt.seqNr, remoteWnd := v.s.remoteWnd, theirDelay := v.s.theirDelay } := by
    rw [hv]
    rcases hq with h | h
    · have : pkt.seqNr ≠ w.s.ackNr + 1 := by
        rw [h]; intro h'; have : (1 : U16).toNat = 1 := rfl; bv_omega
      simp [World.heard, World.waited, bumpAck_of_ne this, h, World.setS]
    · simp [World.heard, World.waited, bumpAck_of_eq h, World.setS]
  have hvn : v.nSnd = w.nSnd := by rw [hv]; rfl
  have hvst : v.s.state = .connected := by rw [hvs]; exact hs
  have hva : v.s.ackNr = pkt.seqNr := by rw [hvs]
  obtain ⟨reply, hre⟩ : ∃ r, r = v.s.prepareReply (E.now v.nNow) pkt .state := ⟨_, rfl⟩
  refine ⟨({ v with nNow := v.nNow + 1 } : World).answered src reply, hvs, by rw [hv]; rfl, ?_, fun fuel len => ?_⟩
  · refine ⟨w.s.patience, src, reply.setWndSize WINDOW_SIZE, ?_, ?_, ?_, ?_, ?_, ?_⟩
    · have : v.log = w.log ++ [.wait w.s.patience] := by rw [hv]; rfl
      simp [World.answered, this]
    · rw [hre]; exact (prepareReply_plain _ _ _ _).setWndSize _
    · rw [hre, setWndSize_length]; simp [Socket.prepareReply, show Packet.new.bytes.length = 20 by decide]
    · rw [setWndSize_ackNr, hre, (prepareReply_facts _ _ _ _).2.1, hva]
    · rw [setWndSize_connectionId, hre, (prepareReply_facts _ _ _ _).2.2.1, hvs]
    · rw [setWndSize_seqNr, hre, (prepareReply_facts _ _ _ _).1, hvs]
  have hh : handlePacket E (fuel + 1) (recv E (fuel + 1) BUF_SIZE) pkt src (w.waited w.s.patience) =
      (.ok (some reply), { v with nNow := v.nNow + 1 }) := by
    rw [handlePacket_takes (w := w.waited w.s.patience) ht (.inr (.inr hid)), ← hv]
    have : (w.waited w.s.patience).s.state = .connected := hs
    rw [this]
    unfold dispatch handleData withSack
    msimp
    rw [if_neg (by rw [hva]; simp)]
    rw [hvst, hre]
    rfl
  rw [recv_dgram hn hr hp, recvPacket_eq hh (sendReply_some (w := { v with nNow := v.nNow + 1 }) (by rw [hvn]; exact hok) src reply) ht]

/-- The socket is connected, and `u` is the unread rest of the packet before number `k`. -/
structure Expects (s : Socket) (dup : Bool) (k : U16) (u : Bytes) : Prop where
  state : s.state = .connected
  tries : 0 < s.maxRetries.toNat
  pending : s.pending = u
  empty : u = [] → s.incoming = []
  fresh : u = [] → if dup then s.ackNr = k - 1 ∧ s.lastDropped = k - 1 else s.ackNr = k ∧ s.lastDropped ≠ k
  rest : u ≠ [] → dup = true ∧ ∃ p, s.incoming = [p] ∧ p.seqNr = k - 1

/-- Both worlds have the same connection. -/
def SameConn (w w' : World) : Prop := w'.s.senderId = w.s.senderId ∧ w'.s.receiverId = w.s.receiverId

/-- Nothing of what concerns sending changed. -/
structure Kept (s s' : Socket) : Prop where
  seqNr : s'.seqNr = s.seqNr
  sendWindow : s'.sendWindow = s.sendWindow
  unsent : s'.unsent = s.unsent
  currWindow : s'.currWindow = s.currWindow
  lastAcked : s'.lastAcked = s.lastAcked
  maxRetries : s'.maxRetries = s.maxRetries

theorem DataPkt.congr {s s' : Socket} {k : U16} {c : Bytes} {p : Packet} (h : DataPkt s k c p)
    (h1 : s'.senderId = s.senderId) (h2 : s'.receiverId = s.receiverId) : DataPkt s' k c p :=
  ⟨h.ty, h.seq, h.payload, by rw [h1, h2]; exact h.id⟩

theorem InOrder.congr {s s' : Socket} {d : Bool} {k : U16} {ps : List Packet} {cs : List Bytes} (h : InOrder s d k ps cs)
    (h1 : s'.senderId = s.senderId) (h2 : s'.receiverId = s.receiverId) : InOrder s' d k ps cs := by
  induction h with
  | done d k => exact .done d k
  | next h hc _ ih => exact .next (h.congr h1 h2) hc ih
  | again h _ ih => exact .again (h.congr h1 h2) ih

/-- Reading the rest of a packet. -/
theorem read_rest {w : World} {d : Bool} {k : U16} {u : Bytes} (hx : Expects w.s d k u) (hu : u ≠ []) {len : Nat}
    (hl : 0 < len) :
    ∃ w', (∀ fuel, recvFrom E fuel len w = (.ok (u.take len, w.s.connectedTo), w')) ∧ Expects w'.s true k (u.drop len) ∧
      SameConn w w' ∧ w'.nNet = w.nNet ∧ w'.log = w.log ∧ Kept w.s w'.s := by
  obtain ⟨_, p, hi, hpk⟩ := hx.rest hu
  have hpn : w.s.pending ≠ [] := by rw [hx.pending]; exact hu
  have hne : u.take len ≠ [] := by
    rw [ne_eq, List.take_eq_nil_iff]
    rintro (h | h)
    · omega
    · exact hu h
  have key : ∃ w', flushIncoming E len w = (.ok (u.take len), w') ∧ Expects w'.s true k (u.drop len) ∧
      SameConn w w' ∧ w'.nNet = w.nNet ∧ w'.s.connectedTo = w.s.connectedTo ∧ w'.log = w.log ∧ Kept w.s w'.s := by
    unfold flushIncoming
    msimp
    rw [if_pos hpn]
    unfold Socket.takePending
    rw [hx.pending]
    simp only
    split
    · rename_i hlen
      have h0 : u.drop len = [] := by
        rw [List.drop_eq_nil_iff]; simp at hlen; omega
      refine ⟨_, rfl, ?_, ⟨?_, ?_⟩, rfl, ?_, rfl, ⟨?_, ?_, ?_, ?_, ?_, ?_⟩⟩
      · unfold Socket.advanceIncoming
        rw [hi]
        simp only [World.setS]
        exact ⟨hx.state, hx.tries, h0.symm, fun _ => rfl, fun _ => by simp [hpk], fun h => absurd h0 h⟩
      all_goals simp [World.setS, Socket.advanceIncoming, hi]
    · rename_i hlen
      have h0 : u.drop len ≠ [] := by
        intro h; rw [List.drop_eq_nil_iff] at h; simp at hlen; omega
      exact ⟨_, rfl, ⟨hx.state, hx.tries, rfl, fun h => absurd h h0, fun h => absurd h h0, fun _ => ⟨rfl, p, hi, hpk⟩⟩,
        ⟨rfl, rfl⟩, rfl, rfl, rfl, ⟨rfl, rfl, rfl, rfl, rfl, rfl⟩⟩
  obtain ⟨w', h1, h2, h3, h4, h5, h6, h7⟩ := key
  refine ⟨w', fun fuel => ?_, h2, h3, h4, h6, h7⟩
  unfold recvFrom
  rw [bind_def, andThen_eq h1]
  msimp
  rw [if_pos hne, h5]

/-- The next packet arrives while nothing is left to read. -/
theorem recv_one {w : World} {d : Bool} {k : U16} {p : Packet} {c : Bytes} (hx : Expects w.s d k []) (hp : DataPkt w.s k c p)
    {b : Bytes} {src : Addr} (hn : E.net w.nNet = .dgram b src) (hb : Packet.tryFrom (b.take 1520) = some (.ok p))
    (hok : E.snd w.nSnd = .ok) (len : Nat) :
    ∃ w', (∀ fuel, recv E (fuel + 2) len w = (.ok (c.take len, src), w')) ∧ Expects w'.s true (k + 1) (c.drop len) ∧
      SameConn w w' ∧ w'.nNet = w.nNet + 1 ∧ Answered w w' k ∧ Kept w.s w'.s := by
  have one : (1 : U16).toNat = 1 := rfl
  have hf := hx.fresh rfl
  have hq : p.seqNr = w.s.ackNr ∨ p.seqNr = w.s.ackNr + 1 := by
    rw [hp.seq]
    cases d with
    | true => simp only [if_true] at hf; right; rw [hf.1]; bv_omega
    | false => left; exact hf.1.symm
  have hld : w.s.lastDropped ≠ k := by
    cases d with
    | true => simp only [if_true] at hf; rw [hf.2]; intro h; bv_omega
    | false => exact hf.2
  obtain ⟨v, hv, hvn, hva', hrec⟩ := recv_next hx.state hn hb hp.ty hp.id hx.tries hok hq
  have hkeep : v.s.keep .data p = { v.s with incoming := [p] } := by
    unfold Socket.keep
    rw [if_pos]
    · unfold Socket.insertIntoBuffer
      rw [hv, hx.empty rfl]
      rfl
    · refine ⟨rfl, ?_⟩
      rw [hp.seq, hv]
      show 0 < (k - w.s.lastDropped).toNat
      have : k.toNat ≠ w.s.lastDropped.toNat := fun h => hld (BitVec.eq_of_toNat_eq h.symm)
      rw [BitVec.toNat_sub]
      have := k.isLt
      have := w.s.lastDropped.isLt
      omega
  have hvp : v.s.pending = [] := by rw [hv]; exact hx.pending
  have hva : v.s.ackNr = p.seqNr := by rw [hv]
  have hvc : v.s.senderId = w.s.senderId ∧ v.s.receiverId = w.s.receiverId := by rw [hv]; exact ⟨rfl, rfl⟩
  have hvst : v.s.state = .connected := by rw [hv]; exact hx.state
  have hvt : 0 < v.s.maxRetries.toNat := by rw [hv]; exact hx.tries
  have hk1 : p.seqNr = k + 1 - 1 := by rw [hp.seq]; bv_omega
  have key : ∃ w', flushIncoming E len (v.setS { v.s with incoming := [p] }) = (.ok (c.take len), w') ∧
      Expects w'.s true (k + 1) (c.drop len) ∧ w'.s.senderId = v.s.senderId ∧ w'.s.receiverId = v.s.receiverId ∧ w'.nNet = v.nNet ∧
      w'.log = v.log ∧ Kept v.s w'.s := by
    unfold flushIncoming overflowIf
    msimp
    simp only [World.setS, hvp, ne_eq, not_true_eq_false, if_false]
    msimp
    rw [if_neg (by simp [hva]), if_pos (by left; exact hva), hp.payload]
    msimp
    unfold Socket.takeHead
    split
    · rename_i hlen
      have h0 : c.drop len = [] := by
        rw [List.drop_eq_nil_iff]; simp at hlen; omega
      refine ⟨_, rfl, ?_, ?_⟩
      · simp only [World.setS, Socket.advanceIncoming]
        exact ⟨hvst, hvt, by rw [h0], fun _ => rfl, fun _ => by simp [hk1], fun h => absurd h0 h⟩
      · exact ⟨rfl, rfl, rfl, rfl, ⟨rfl, rfl, rfl, rfl, rfl, rfl⟩⟩
    · rename_i hlen
      have h0 : c.drop len ≠ [] := by
        intro h; rw [List.drop_eq_nil_iff] at h; simp at hlen; omega
      exact ⟨_, rfl, ⟨hvst, hvt, rfl, fun h => absurd h h0, fun h => absurd h h0, fun _ => ⟨rfl, p, rfl, hk1⟩⟩, rfl, rfl, rfl, rfl, ⟨rfl, rfl, rfl, rfl, rfl, rfl⟩⟩
  obtain ⟨w', h1, h2, h3, h4, h5, h6, h7⟩ := key
  refine ⟨w', fun fuel => by rw [hrec fuel len, hkeep, andThen_eq h1]; rfl, h2, ⟨h3.trans hvc.1, h4.trans hvc.2⟩, h5.trans hvn, ?_, ?_⟩
  · unfold Answered
    rw [h6, ← hp.seq]
    exact hva'
  · rw [hv] at h7
    exact ⟨h7.seqNr, h7.sendWindow, h7.unsent, h7.currWindow, h7.lastAcked, h7.maxRetries⟩

/-- The packet before is repeated while nothing is left to read. -/
theorem recv_again {w : World} {k : U16} {p : Packet} {c : Bytes} (hx : Expects w.s true k []) (hp : DataPkt w.s (k - 1) c p)
    {b : Bytes} {src : Addr} (hn : E.net w.nNet = .dgram b src) (hb : Packet.tryFrom (b.take 1520) = some (.ok p))
    (hok : E.snd w.nSnd = .ok) (fuel len : Nat) :
    ∃ w', recv E (fuel + 2) len w = (.ok ([], src), w') ∧ Expects w'.s true k [] ∧ SameConn w w' ∧ w'.nNet = w.nNet + 1 := by
  have hf := hx.fresh rfl
  simp only [if_true] at hf
  obtain ⟨v, hv, hvn, hva', hrec⟩ := recv_next hx.state hn hb hp.ty hp.id hx.tries hok (.inl (by rw [hp.seq, hf.1]))
  rw [hrec fuel len]
  have hkeep : v.s.keep .data p = v.s := by
    unfold Socket.keep
    rw [if_neg]
    rintro ⟨_, h⟩
    rw [hp.seq, hv] at h
    simp [hf.2] at h
  rw [hkeep]
  have hvp : v.s.pending = [] := by rw [hv]; exact hx.pending
  have hvi : v.s.incoming = [] := by rw [hv]; exact hx.empty rfl
  have h1 : flushIncoming E len (v.setS v.s) = (.ok [], v) := by
    unfold flushIncoming
    msimp
    simp only [World.setS, hvp, hvi, ne_eq, not_true_eq_false, if_false]
    rfl
  rw [andThen_eq h1]
  refine ⟨v, rfl, ?_, ?_, hvn⟩
  · rw [hv]
    exact ⟨hx.state, hx.tries, hx.pending, hx.empty, fun _ => by simp [hp.seq, hf.2], fun h => absurd rfl h⟩
  · unfold SameConn
    rw [hv]; exact ⟨rfl, rfl⟩

theorem loop_some {w : World} {d : Bool} {k : U16} {ps : List Packet} {c : Bytes} {cs : List Bytes} (hok : ∀ n, E.snd n = .ok)
    {len : Nat} (hl : 0 < len) (fuel : Nat) (hio : InOrder w.s d k ps (c :: cs)) :
    ∀ n, ps.length ≤ n → Expects w.s d k [] → Brings E w.nNet ps →
    ∃ b src w' k' ps' u, recvFromLoop E (fuel + 2) len n w = (.ok (b, src), w') ∧ b ≠ [] ∧ b.length ≤ len ∧
      Expects w'.s true k' u ∧ SameConn w w' ∧ InOrder w.s true k' ps' cs ∧ ps'.length ≤ ps.length ∧
      Brings E w'.nNet ps' ∧ b ++ u = c := by
  generalize hc0 : c :: cs = cs0 at hio
  induction ps generalizing w d with
  | nil => cases hio; simp at hc0
  | cons p ps ih =>
    intro n hn hx hbr
    obtain ⟨⟨b, src, hnet, hdec⟩, hbr'⟩ := hbr
    obtain ⟨n, rfl⟩ : ∃ m, n = m + 1 := ⟨n - 1, by simp at hn; omega⟩
    have hst : w.s.state ≠ .closed := by rw [hx.state]; simp
    cases hio with
    | next h hc hs =>
      simp only [List.cons.injEq] at hc0
      obtain ⟨rfl, rfl⟩ := hc0
      obtain ⟨w', h1, h2, h3, h4, _⟩ := recv_one hx h hnet hdec (hok _) len
      have hne : c.take len ≠ [] := by
        rw [ne_eq, List.take_eq_nil_iff]
        rintro (h | h)
        · omega
        · exact hc h
      refine ⟨c.take len, src, w', _, ps, c.drop len, ?_, hne, by simp; omega, h2, h3, hs, by simp, by rw [h4]; exact hbr', by simp⟩
      rw [recvFromLoop]
      msimp
      rw [if_neg hst, andThen_eq (h1 fuel)]
      msimp
      rw [if_neg hne]
    | again h hs =>
      obtain ⟨w', h1, h2, h3, h4⟩ := recv_again hx h hnet hdec (hok _) fuel len
      rw [recvFromLoop_again hst h1]
      obtain ⟨b, src, w2, k', ps', u, g1, g2, g3, g4, g5, g6, g7, g8, g9⟩ := ih (w := w') (d := true) (hs.congr h3.1 h3.2) n (by simp at hn; omega) h2
        (by rw [h4]; exact hbr')
      exact ⟨b, src, w2, k', ps', u, g1, g2, g3, g4, ⟨g5.1.trans h3.1, g5.2.trans h3.2⟩, g6.congr h3.1.symm h3.2.symm, by simp; omega, g8, g9⟩

/-- One call of `recv_from` returns the next bytes of the stream. -/
theorem read_some {w : World} {d : Bool} {k : U16} {ps : List Packet} {u : Bytes} {cs : List Bytes} (hok : ∀ n, E.snd n = .ok)
    {len fuel : Nat} (hl : 0 < len) (hf : ps.length + 2 ≤ fuel) (hio : InOrder w.s d k ps cs) (hx : Expects w.s d k u)
    (hbr : Brings E w.nNet ps) (hne : u ++ cs.flatten ≠ []) :
    ∃ b src w' k' ps' u' cs', runOp E fuel (.recvFrom len) w = (.ok (.bytes b src), w') ∧ b ≠ [] ∧ b.length ≤ len ∧
      Expects w'.s true k' u' ∧ SameConn w w' ∧ InOrder w.s true k' ps' cs' ∧ ps'.length ≤ ps.length ∧ Brings E w'.nNet ps' ∧
      b ++ (u' ++ cs'.flatten) = u ++ cs.flatten := by
  by_cases hu : u = []
  · subst hu
    obtain ⟨fuel, rfl⟩ : ∃ f, fuel = f + 2 := ⟨fuel - 2, by omega⟩
    cases cs with
    | nil => simp at hne
    | cons c cs =>
      obtain ⟨b, src, w', k', ps', u, g1, g2, g3, g4, g5, g6, g7, g8, g9⟩ :=
        loop_some hok hl fuel hio (fuel + 2) (by omega) hx hbr
      refine ⟨b, src, w', k', ps', u, cs, ?_, g2, g3, g4, g5, g6, g7, g8, by simp [← g9]⟩
      have hq : recvFrom E (fuel + 2) len w = recvFromLoop E (fuel + 2) len (fuel + 2) w := by
        refine recvFrom_quiet ?_ (by rw [hx.state]; simp)
        unfold flushIncoming
        msimp
        rw [if_neg (by simp [hx.pending]), hx.empty rfl]
        rfl
      rw [runOp, bind_def, andThen_eq (hq.trans g1)]
      rfl
  · obtain ⟨w', h1, h2, h3, h4, _⟩ := read_rest hx hu hl
    have hne : u.take len ≠ [] := by
      rw [ne_eq, List.take_eq_nil_iff]
      rintro (h | h)
      · omega
      · exact hu h
    have hd : d = true := (hx.rest hu).1
    subst hd
    refine ⟨u.take len, w.s.connectedTo, w', k, ps, u.drop len, cs, ?_, hne, by simp; omega, h2, h3, hio, Nat.le_refl _,
      by rw [h4]; exact hbr, by simp [← List.append_assoc]⟩
    rw [runOp, bind_def, andThen_eq (h1 fuel)]
    rfl

/-- C25: as long as bytes are left, each call returns some of them, in order; the calls return everything. -/
theorem C25_all {w : World} {d : Bool} {k : U16} {ps : List Packet} {u : Bytes} {cs : List Bytes} (hok : ∀ n, E.snd n = .ok)
    {fuel : Nat} (hf : ps.length + 2 ≤ fuel) (hio : InOrder w.s d k ps cs) (hx : Expects w.s d k u) (hbr : Brings E w.nNet ps) :
    ∀ lens : List Nat, (∀ n ∈ lens, 0 < n) → (u ++ cs.flatten).length ≤ lens.length →
    ∃ outs : List (Bytes × Addr), outs.length ≤ lens.length ∧
      (results E fuel (lens.map .recvFrom) w).take outs.length = outs.map (fun o => .ok (.bytes o.1 o.2)) ∧
      (∀ o ∈ outs, o.1 ≠ []) ∧ (outs.map Prod.fst).flatten = u ++ cs.flatten := by
  intro lens
  induction lens generalizing w d k ps u cs with
  | nil =>
    intro _ h
    refine ⟨[], by simp, by simp, by simp, ?_⟩
    simp only [List.length_nil, Nat.le_zero, List.length_eq_zero_iff] at h
    simp [h]
  | cons len lens ih =>
    intro hl h
    by_cases hne : u ++ cs.flatten = []
    · exact ⟨[], by simp, by simp, by simp, by simp [hne]⟩
    · obtain ⟨b, src, w', k', ps', u', cs', g1, g2, g3, g4, g5, g6, g7, g8, g9⟩ :=
        read_some hok (hl len (by simp)) hf hio hx hbr hne
      have hb : 0 < b.length := List.length_pos_iff.mpr g2
      obtain ⟨outs, h1, h2, h3, h4⟩ := ih (w := w') (ps := ps') (by omega) (g6.congr g5.1 g5.2) g4 g8
        (fun n hn => hl n (List.mem_cons_of_mem _ hn)) (by
          rw [← g9, List.length_append, List.length_cons] at h
          omega)
      refine ⟨(b, src) :: outs, by simpa using h1, ?_, ?_, by simp [h4, g9]⟩
      · simp only [List.map_cons, results, List.length_cons, List.take_succ_cons, g1, h2]
      · intro o ho
        rcases List.mem_cons.mp ho with rfl | ho
        · exact g2
        · exact h3 o ho

/-- C25 for the accepting side and for any connection that delivered everything so far: packets numbered from
`last_dropped + 1` arrive in order, each possibly repeated.  Any build, any stream length, across wrap-around. -/
theorem C25_stream {w : World} {ps : List Packet} {cs : List Bytes} (hok : ∀ n, E.snd n = .ok) {fuel : Nat}
    (hf : ps.length + 2 ≤ fuel) (hst : w.s.state = .connected) (hr : 0 < w.s.maxRetries.toNat) (h0 : w.s.pending = [])
    (hi : w.s.incoming = []) (ha : w.s.ackNr = w.s.lastDropped) (hio : InOrder w.s true (w.s.ackNr + 1) ps cs)
    (hbr : Brings E w.nNet ps) (lens : List Nat) (hl : ∀ n ∈ lens, 0 < n) (hlen : cs.flatten.length ≤ lens.length) :
    ∃ outs : List (Bytes × Addr), outs.length ≤ lens.length ∧
      (results E fuel (lens.map .recvFrom) w).take outs.length = outs.map (fun o => .ok (.bytes o.1 o.2)) ∧
      (∀ o ∈ outs, o.1 ≠ []) ∧ (outs.map Prod.fst).flatten = cs.flatten := by
  have h1 : w.s.ackNr = w.s.ackNr + 1 - 1 := by have : (1 : U16).toNat = 1 := rfl; bv_omega
  have := C25_all (u := []) hok hf hio ⟨hst, hr, h0, fun _ => hi, fun _ => by rw [if_pos rfl, ← ha]; exact ⟨h1, h1⟩, fun h => absurd rfl h⟩
    hbr lens hl (by simpa using hlen)
  simpa using this

/-- C25 from `accept` on: the packets that follow the SYN, whatever its number, are delivered completely. -/
theorem C25_accepted {fuel0 : Nat} {ev : NetEvent} {bound : Except ErrorKind Addr} {w : World} {src : Addr}
    (ha : accept E fuel0 ev bound = .made (.ok ()) w src) {ps : List Packet} {cs : List Bytes} (hok : ∀ n, E.snd n = .ok) {fuel : Nat}
    (hf : ps.length + 2 ≤ fuel) :
    ∃ b syn, ev = .dgram b src ∧ Packet.tryFrom (b.take 1500) = some (.ok syn) ∧
      (InOrder w.s true (syn.seqNr + 1) ps cs → Brings E 0 ps →
        ∀ lens : List Nat, (∀ n ∈ lens, 0 < n) → cs.flatten.length ≤ lens.length →
          ∃ outs : List (Bytes × Addr), outs.length ≤ lens.length ∧
            (results E fuel (lens.map .recvFrom) w).take outs.length = outs.map (fun o => .ok (.bytes o.1 o.2)) ∧
            (∀ o ∈ outs, o.1 ≠ []) ∧ (outs.map Prod.fst).flatten = cs.flatten) := by
  obtain ⟨b, pkt, la, h1, -, h3, -, -, -, h7⟩ := accept_inv ha (by simp)
  refine ⟨b, pkt, h1, h3, fun hio hbr lens hl hlen => ?_⟩
  subst h7
  exact C25_stream hok hf rfl (show 0 < MAX_RETRANSMISSION_RETRIES.toNat by decide) rfl rfl rfl hio hbr lens hl hlen

/-- C25 for the connecting side right after `connect`: the peer's first packet carries the number of its reply to the SYN,
which is not the initial 0 of `last_dropped`. -/
theorem C25_connected_partial {w : World} {ps : List Packet} {cs : List Bytes} (hok : ∀ n, E.snd n = .ok) {fuel : Nat}
    (hf : ps.length + 2 ≤ fuel) (hst : w.s.state = .connected) (hr : 0 < w.s.maxRetries.toNat) (h0 : w.s.pending = [])
    (hi : w.s.incoming = []) (ha : w.s.lastDropped ≠ w.s.ackNr) (hio : InOrder w.s false w.s.ackNr ps cs)
    (hbr : Brings E w.nNet ps) (lens : List Nat) (hl : ∀ n ∈ lens, 0 < n) (hlen : cs.flatten.length ≤ lens.length) :
    ∃ outs : List (Bytes × Addr), outs.length ≤ lens.length ∧
      (results E fuel (lens.map .recvFrom) w).take outs.length = outs.map (fun o => .ok (.bytes o.1 o.2)) ∧
      (∀ o ∈ outs, o.1 ≠ []) ∧ (outs.map Prod.fst).flatten = cs.flatten := by
  have := C25_all (u := []) hok hf hio ⟨hst, hr, h0, fun _ => hi, fun _ => ⟨rfl, ha⟩, fun h => absurd rfl h⟩
    hbr lens hl (by simpa using hlen)
  simpa using this

section
open Sample

/-- Three packets across the wrap-around, the first and the last one twice. -/
def wrapAround : Env := env [arr (dg .data 6 65535 100 [1, 2, 3]), arr (dg .data 6 65535 100 [1, 2, 3]), arr (dg .data 6 0 100 [4]),
  arr (dg .data 6 1 100 [5, 6]), arr (dg .data 6 1 100 [5, 6])] true

/-- The hypotheses of `C25_stream` hold there, and this is what is read. -/
example : let w := serverAt 65534 wrapAround
    let ps := ([dg .data 6 65535 100 [1, 2, 3], dg .data 6 65535 100 [1, 2, 3], dg .data 6 0 100 [4], dg .data 6 1 100 [5, 6],
      dg .data 6 1 100 [5, 6]]).map Packet.mk
    Reach wrapAround w ∧ w.s.state = .connected ∧ w.s.ackNr = w.s.lastDropped ∧ w.s.pending = [] ∧ w.s.incoming = [] ∧
    InOrder w.s true (w.s.ackNr + 1) ps [[1, 2, 3], [4], [5, 6]] ∧ Brings wrapAround w.nNet ps ∧
    results wrapAround 10 [.recvFrom 2, .recvFrom 9, .recvFrom 9, .recvFrom 9] w =
      ([[1, 2], [3], [4], [5, 6]] : List Bytes).map (fun b => .ok (.bytes b peer)) := by
  refine ⟨reach_serverAt 65534 1 [] (by decide +kernel) (by decide +kernel), by decide +kernel, by decide +kernel, by decide +kernel,
    by decide +kernel, ?_, ?_, by decide +kernel⟩
  · refine .next ⟨?_, ?_, ?_, ?_⟩ ?_ (.again (c := [1, 2, 3]) ⟨?_, ?_, ?_, ?_⟩ (.next ⟨?_, ?_, ?_, ?_⟩ ?_
      (.next ⟨?_, ?_, ?_, ?_⟩ ?_ (.again (c := [5, 6]) ⟨?_, ?_, ?_, ?_⟩ (.done _ _))))) <;> decide +kernel
  · refine ⟨⟨_, peer, rfl, ?_⟩, ⟨_, peer, rfl, ?_⟩, ⟨_, peer, rfl, ?_⟩, ⟨_, peer, rfl, ?_⟩, ⟨_, peer, rfl, ?_⟩, trivial⟩ <;> rfl

/-- A peer that starts numbering at `s`. -/
def startsAt (s : U16) : Env := env [arr (dg .state 7 s 1), arr (dg .data 7 s 1 [1]), arr (dg .data 7 (s + 1) 1 [2])]

/-- `C25_connected_partial` applies to every other number. -/
example : let w := client (startsAt 50)
    Reach (startsAt 50) w ∧ w.s.state = .connected ∧ w.s.lastDropped ≠ w.s.ackNr ∧ w.s.pending = [] ∧ w.s.incoming = [] ∧
    InOrder w.s false w.s.ackNr [⟨dg .data 7 50 1 [1]⟩, ⟨dg .data 7 51 1 [2]⟩] [[1], [2]] ∧
    results (startsAt 50) 10 [.recvFrom 9, .recvFrom 9] w = [.ok (.bytes [1] peer), .ok (.bytes [2] peer)] := by
  refine ⟨reach_client 1 [] (by decide +kernel) (by decide +kernel), by decide +kernel, by decide +kernel, by decide +kernel,
    by decide +kernel, ?_, by decide +kernel⟩
  refine .next ⟨?_, ?_, ?_, ?_⟩ ?_ (.next ⟨?_, ?_, ?_, ?_⟩ ?_ (.done _ _)) <;> decide +kernel

/-- C25 is false of the connecting side when the peer starts at 0: `last_dropped` is still 0, so the first packet is taken for
a duplicate and its bytes are lost, although it is acknowledged. -/
theorem C25_counterexample : connect (startsAt 0) 20 (.ok [peer]) (.ok here) = .ok (.ok (), client (startsAt 0)) ∧
    results (startsAt 0) 10 [.recvFrom 9] (client (startsAt 0)) = [.ok (.bytes [2] peer)] :=
  ⟨connect_client _ (by decide +kernel), by decide +kernel⟩

end

/-! ### C24 -/

/-- The chunks `cs` of the peer are numbered from `b = last_dropped + 1` without wrap-around; packets arrive in any order, any
number of times or not at all, mixed with timeouts and undecodable datagrams; this side only reads and its own sends
succeed.  Then the bytes returned so far are a prefix of the bytes sent.  (Missing for C24: wrap-around, packets other than
data, FIN and the SYN, failing sends, see the counterexamples, and a client before its first packet, see `C24_client_partial`.) -/
theorem C24_partial {w0 w : World} {cs : List Bytes} {B : Bytes} (hld : w0.s.lastDropped.toNat + 1 + cs.length ≤ 65535)
    (hne : ∀ c ∈ cs, c ≠ []) (hst : w0.s.state = .connected) (hp : w0.s.pending = []) (hi : w0.s.incoming = [])
    (ha : w0.s.ackNr = w0.s.lastDropped) (hnet : PeerNet E w0.s (w0.s.lastDropped.toNat + 1) cs) (hok : ∀ n, E.snd n = .ok)
    (h : Reads E w0 w B) : B <+: cs.flatten := by
  have h0 : Advanced E ⟨False, False, 0⟩ (w0.s.lastDropped.toNat + 1) cs w0.s w0 [] := by
    refine ⟨False.elim, False.elim, ⟨rfl, rfl⟩, 0, 0, ⟨.inl hst, Nat.zero_le _, .inl (by omega), by rw [hi]; exact .nil, by simp [hi]⟩, ⟨Nat.le_refl _, ?_⟩, .inl rfl,
      .inl ⟨hp, .inl ⟨by rw [ha], False.elim⟩⟩⟩
    simp [hp]
  obtain ⟨_, _, _, D, k, _, hP, hS, _⟩ := reads_advanced (by omega) hld hne False.elim hok hnet.fromNet h0 h
  obtain rfl : k = 0 := hS.resolve_right fun h => h.1
  exact hP.prefix

/-- **C24**, for a client: the chunks `cs` of the server are numbered from `b`, the number of the answer to the client's SYN, without wrap-around; packets arrive
in any order, any number of times or not at all, mixed with timeouts and undecodable datagrams; the client only reads and its own sends succeed.  Then the bytes
returned so far are a prefix of the bytes sent; or the second packet has come before the first, the first chunk is lost, and they are a prefix of the rest.
(Missing for C24: wrap-around, `b = 0`, other packets, failing sends, and the first chunk in the second case, see the counterexamples.) -/
theorem C24_client_partial {w0 w : World} {b : Nat} {cs : List Bytes} {B : Bytes} (hb : 1 ≤ b) (hbN : b + cs.length ≤ 65535)
    (hne : ∀ c ∈ cs, c ≠ []) (hst : w0.s.state = .connected) (hp : w0.s.pending = []) (hi : w0.s.incoming = []) (hw : w0.s.sendWindow = [])
    (ha : w0.s.ackNr.toNat = b) (hd : w0.s.lastDropped.toNat < b) (hnet : ServerNet E w0.s b cs) (hok : ∀ n, E.snd n = .ok)
    (h : Reads E w0 w B) : B <+: cs.flatten ∨ Skipped E b w0.nNet w.nNet ∧ B <+: (cs.drop 1).flatten := by
  have h0 : Advanced E ⟨False, True, w0.nNet⟩ b cs w0.s w0 [] := by
    refine ⟨False.elim, fun _ => ⟨hw, Nat.le_refl _⟩, ⟨rfl, rfl⟩, 0, 0, ⟨.inl hst, Nat.zero_le _, .inr ⟨trivial, hd, .inl rfl⟩, by rw [hi]; exact .nil, by simp [hi]⟩,
      ⟨Nat.le_refl _, ?_⟩, .inl rfl, .inr (.inr ⟨trivial, ⟨rfl, hp, ha, by simp [hi]⟩, fun l h1 h2 => absurd h2 (Nat.not_lt.mpr h1)⟩)⟩
    simp [hp]
  obtain ⟨_, _, _, D, k, _, hP, hS, _⟩ := reads_advanced hb hbN hne False.elim hok (fun n d src p h1 h2 => (hnet n d src p h1 h2).imp id fun h => ⟨trivial, h⟩) h0 h
  rcases hS with rfl | ⟨_, rfl, hS⟩
  · exact .inl hP.prefix
  · exact .inr ⟨hS, hP.prefix⟩

section
open Sample

/-- Packets 4, 3, 2, 4 and the FIN, with a timeout and a broken datagram in between. -/
def mixedUp : Env := env [arr (dg .data 6 4 100 [5]), .fail .timedOut, arr [1, 2, 3], arr (dg .data 6 3 100 [4]), arr (dg .data 6 2 100 [1, 2, 3]),
  arr (dg .data 6 4 100 [5]), arr (dg .fin 6 5 100)] true

theorem mixedUp_net : PeerNet mixedUp (server mixedUp).s 2 [[1, 2, 3], [4], [5]] := by
  have h1 : Packet.tryFrom ((dg .data 6 4 100 [5]).take 1520) = some (.ok ⟨dg .data 6 4 100 [5]⟩) := rfl
  have h2 : Packet.tryFrom (([1, 2, 3] : Bytes).take 1520) = some (.error .invalidPacketLength) := rfl
  have h3 : Packet.tryFrom ((dg .data 6 3 100 [4]).take 1520) = some (.ok ⟨dg .data 6 3 100 [4]⟩) := rfl
  have h4 : Packet.tryFrom ((dg .data 6 2 100 [1, 2, 3]).take 1520) = some (.ok ⟨dg .data 6 2 100 [1, 2, 3]⟩) := rfl
  have h5 : Packet.tryFrom ((dg .fin 6 5 100).take 1520) = some (.ok ⟨dg .fin 6 5 100⟩) := rfl
  have c4 : FromPeer (server mixedUp).s 2 [[1, 2, 3], [4], [5]] ⟨dg .data 6 4 100 [5]⟩ :=
    .data (i := 2) (c := [5]) rfl ⟨by decide +kernel, by decide +kernel, by decide +kernel, by decide +kernel⟩
  have c3 : FromPeer (server mixedUp).s 2 [[1, 2, 3], [4], [5]] ⟨dg .data 6 3 100 [4]⟩ :=
    .data (i := 1) (c := [4]) rfl ⟨by decide +kernel, by decide +kernel, by decide +kernel, by decide +kernel⟩
  have c2 : FromPeer (server mixedUp).s 2 [[1, 2, 3], [4], [5]] ⟨dg .data 6 2 100 [1, 2, 3]⟩ :=
    .data (i := 0) (c := [1, 2, 3]) rfl ⟨by decide +kernel, by decide +kernel, by decide +kernel, by decide +kernel⟩
  have c5 : FromPeer (server mixedUp).s 2 [[1, 2, 3], [4], [5]] ⟨dg .fin 6 5 100⟩ :=
    .fin (by decide +kernel) (by decide +kernel) (by decide +kernel)
  intro n d src p hn hp
  match n with
  | 0 => obtain ⟨rfl, -⟩ : dg .data 6 4 100 [5] = d ∧ peer = src := by simpa [mixedUp, env, arr] using hn
         rw [h1] at hp; cases hp; exact c4
  | 1 => simp [mixedUp, env] at hn
  | 2 => obtain ⟨rfl, -⟩ : [1, 2, 3] = d ∧ peer = src := by simpa [mixedUp, env, arr] using hn
         rw [h2] at hp; cases hp
  | 3 => obtain ⟨rfl, -⟩ : dg .data 6 3 100 [4] = d ∧ peer = src := by simpa [mixedUp, env, arr] using hn
         rw [h3] at hp; cases hp; exact c3
  | 4 => obtain ⟨rfl, -⟩ : dg .data 6 2 100 [1, 2, 3] = d ∧ peer = src := by simpa [mixedUp, env, arr] using hn
         rw [h4] at hp; cases hp; exact c2
  | 5 => obtain ⟨rfl, -⟩ : dg .data 6 4 100 [5] = d ∧ peer = src := by simpa [mixedUp, env, arr] using hn
         rw [h1] at hp; cases hp; exact c4
  | 6 => obtain ⟨rfl, -⟩ : dg .fin 6 5 100 = d ∧ peer = src := by simpa [mixedUp, env, arr] using hn
         rw [h5] at hp; cases hp; exact c5
  | n + 7 => simp [mixedUp, env] at hn

/-- The hypotheses of `C24_partial` hold there, and this is what is read. -/
example : let w := server mixedUp
    Reach mixedUp w ∧ w.s.lastDropped = 1 ∧ w.s.state = .connected ∧ w.s.ackNr = w.s.lastDropped ∧ w.s.pending = [] ∧ w.s.incoming = [] ∧
    (∀ n, mixedUp.snd n = .ok) ∧
    (results mixedUp 20 [.recvFrom 2, .recvFrom 9, .recvFrom 9, .recvFrom 9, .recvFrom 9] w).map Res.read = [[1, 2], [3], [4], [5], []] :=
  ⟨reach_server 1 [] (by decide +kernel) (by decide +kernel), by decide +kernel, by decide +kernel, by decide +kernel, by decide +kernel,
    by decide +kernel, fun _ => rfl, by decide +kernel⟩

/-- A client that connects, waits in `recv_from` until a timeout, and then sends two packets. -/
def idlePeer : Env := env [arr (dg .state 7 50 1), .fail .timedOut]
/-- Everything it sends: the SYN, three State packets, and the data packets 2 and 3. -/
def idleSent : List Bytes := sent (runs idlePeer 20 [.recvFrom 9, .sendTo [2], .sendTo [3]] (client idlePeer))
/-- The network loses all but one State packet and the data packet 3. -/
def skipped : Env := env [arr (idleSent.getD 1 []), arr (idleSent.getD 5 [])]

/-- C24 is false: a State packet carries the number of the next data packet, and `handle_packet` takes it for that data
packet.  If the data packet is then lost, the next one is returned in its place.  Both sides run this code. -/
theorem C24_counterexample :
    let w := acceptWorld (accept skipped 1 (arr (idleSent.getD 0 [])) (.ok here))
    Reach skipped w ∧
    results idlePeer 20 [.recvFrom 9, .sendTo [2], .sendTo [3]] (client idlePeer) = [.pending, .ok (.count 1), .ok (.count 1)] ∧
    results skipped 20 [.recvFrom 9] w = [.ok (.bytes [3] peer)] :=
  ⟨⟨_, .accept 1 (arr (idleSent.getD 0 [])) (.ok here) (r := .ok ()) (src := peer) rfl (by simp), .refl⟩, by decide +kernel, by decide +kernel⟩

/-- The reply to the first data packet cannot be sent. -/
def replyFails : Env := env [arr (dg .data 6 2 100 [2]), arr (dg .data 6 3 100 [3])] false [.ok, .fail .other]

/-- C24 is also false when sending the reply fails: the packet is counted as received but not kept. -/
theorem C24_counterexample_send : results replyFails 20 [.recvFrom 9, .recvFrom 9] (server replyFails) =
    [.err (.os .other), .ok (.bytes [3] peer)] := by decide +kernel

/-- Packets 65535 and 0, swapped. -/
def wrapSwap : Env := env [arr (dg .data 6 0 100 [2]), arr (dg .data 6 65535 100 [1])]

/-- C24 is also false at the wrap-around: the buffer is sorted by the plain numbers. -/
theorem C24_counterexample_wrap :
    results wrapSwap 20 [.recvFrom 9, .recvFrom 9] (serverAt 65534 wrapSwap) = [.ok (.bytes [2] peer), .pending] := by decide +kernel

/-- The first two packets for a client, swapped. -/
def firstSwap : Env := env [arr (dg .state 7 50 1), arr (dg .data 7 51 1 [2]), arr (dg .data 7 50 1 [1])]

/-- C24 is also false for the first packets a client receives: the reply to the SYN carries the number of the first data packet,
which therefore counts as received before it was sent. -/
theorem C24_counterexample_first :
    results firstSwap 20 [.recvFrom 9, .recvFrom 9] (client firstSwap) = [.ok (.bytes [2] peer), .pending] := by decide +kernel

theorem firstSwap_net : ServerNet firstSwap (client firstSwap).s 50 [[1], [2]] := by
  have h1 : Packet.tryFrom ((dg .state 7 50 1).take 1520) = some (.ok ⟨dg .state 7 50 1⟩) := rfl
  have h2 : Packet.tryFrom ((dg .data 7 51 1 [2]).take 1520) = some (.ok ⟨dg .data 7 51 1 [2]⟩) := rfl
  have h3 : Packet.tryFrom ((dg .data 7 50 1 [1]).take 1520) = some (.ok ⟨dg .data 7 50 1 [1]⟩) := rfl
  have c1 : SynAnswer (client firstSwap).s 50 ⟨dg .state 7 50 1⟩ := ⟨by decide +kernel, by decide +kernel, by decide +kernel⟩
  have c2 : FromPeer (client firstSwap).s 50 [[1], [2]] ⟨dg .data 7 51 1 [2]⟩ :=
    .data (i := 1) (c := [2]) rfl ⟨by decide +kernel, by decide +kernel, by decide +kernel, by decide +kernel⟩
  have c3 : FromPeer (client firstSwap).s 50 [[1], [2]] ⟨dg .data 7 50 1 [1]⟩ :=
    .data (i := 0) (c := [1]) rfl ⟨by decide +kernel, by decide +kernel, by decide +kernel, by decide +kernel⟩
  intro n d src p hn hp
  match n with
  | 0 => obtain ⟨rfl, -⟩ : dg .state 7 50 1 = d ∧ peer = src := by simpa [firstSwap, env, arr] using hn
         rw [h1] at hp; cases hp; exact .inr c1
  | 1 => obtain ⟨rfl, -⟩ : dg .data 7 51 1 [2] = d ∧ peer = src := by simpa [firstSwap, env, arr] using hn
         rw [h2] at hp; cases hp; exact .inl c2
  | 2 => obtain ⟨rfl, -⟩ : dg .data 7 50 1 [1] = d ∧ peer = src := by simpa [firstSwap, env, arr] using hn
         rw [h3] at hp; cases hp; exact .inl c3
  | n + 3 => simp [firstSwap, env] at hn

/-- The hypotheses of `C24_client_partial` hold there (the second case of the conclusion). -/
example : let w := client firstSwap
    w.s.state = .connected ∧ w.s.pending = [] ∧ w.s.incoming = [] ∧ w.s.sendWindow = [] ∧ w.s.ackNr.toNat = 50 ∧ w.s.lastDropped.toNat < 50 ∧
    ServerNet firstSwap w.s 50 [[1], [2]] ∧ (∀ n, firstSwap.snd n = .ok) ∧ w.nNet = 1 :=
  ⟨by decide +kernel, by decide +kernel, by decide +kernel, by decide +kernel, by decide +kernel, by decide +kernel, firstSwap_net, fun _ => rfl, by decide +kernel⟩

end

end Utp
