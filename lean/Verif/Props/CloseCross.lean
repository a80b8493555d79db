import Verif.Props.Crossing
import Verif.Props.Shutdown
import Verif.Props.GivesUp
import Verif.Props.Size
import Verif.Props.Advert
/-!
# C107: a message that crosses a close
-/

namespace Utp
open M

variable {E : Env}

/-- What a FIN leaves behind. -/
structure Finished (w w' : World) (q : U16) (src : Addr) (r : Packet) : Prop where
  closed : w'.s.state = .closed
  window : w'.s.sendWindow = w.s.sendWindow
  quiet : w'.s.incoming = [] ∧ w'.s.pending = []
  tries : w'.s.maxRetries = w.s.maxRetries
  timeout : w'.s.congTimeout = w.s.congTimeout
  ids : w'.s.senderId = w.s.senderId ∧ w'.s.receiverId = w.s.receiverId
  seq : w'.s.seqNr = w.s.seqNr
  ack : w'.s.ackNr = q
  net : w'.nNet = w.nNet + 1
  reply : AckPkt w.s.seqNr q w.s.senderId r
  log : ∃ t, w'.log = w.log ++ [.wait t, .send src r.bytes true]

/-- A FIN arrives, in sequence or again, while nothing is left to read; packets may be outstanding. -/
theorem recv_finish {w : World} {p : Packet} {src : Addr} {q : U16} (hs : w.s.state = .connected ∨ w.s.state = .closed) (hq : w.s.incoming = [] ∧ w.s.pending = [])
    (ht : 0 < w.s.maxRetries.toNat) (hn : E.net w.nNet = .dgram p.bytes src) (hp : FinPkt q w.s.receiverId p) (htk : w.s.ackNr + 1 = q ∨ w.s.ackNr = q) (hok : E.snd w.nSnd = .ok) :
    ∃ w' r, (∀ fuel len, recv E (fuel + 2) len w = (.ok ([], src), w')) ∧ Finished w w' q src r := by
  have one : (1 : U16).toNat = 1 := rfl
  have hb : Packet.tryFrom (p.bytes.take 1520) = some (.ok p) := by
    rw [List.take_of_length_le (by rw [hp.len]; omega)]
    exact hp.plain.accepted
  obtain ⟨v, hv⟩ : ∃ v, v = (w.waited w.s.patience).heard E p := ⟨_, rfl⟩
  have hvs : v.s = { w.s with ackNr := q, remoteWnd := p.wndSize, theirDelay := absDiff (E.now w.nNow) p.timestamp } := by
    rw [hv]
    have : w.s.bumpAck p = { w.s with ackNr := q } := by
      unfold Socket.bumpAck
      rcases htk with h1 | h1
      · rw [if_pos (by rw [hp.seq, ← h1]; bv_omega), hp.seq]
      · rw [if_neg (by rw [hp.seq, h1]; intro h'; bv_omega)]
        rw [← h1]
    simp only [World.heard, World.waited, World.setS, this]
  obtain ⟨r, hr⟩ : ∃ r, r = v.s.prepareReply (E.now v.nNow) p .state := ⟨_, rfl⟩
  obtain ⟨v2, hv2⟩ : ∃ v2 : World, v2 = { (v.setS { v.s with state := .closed }) with nNow := v.nNow + 1 } := ⟨_, rfl⟩
  have hfin : onFin E p v = (.ok (some r), v2) := by
    unfold onFin withSack
    msimp
    have : v.s.ackNr = p.seqNr := by rw [hvs, hp.seq]
    rw [if_neg (by rw [this]; simp), hv2, hr]
    rfl
  have hh : ∀ fuel rec, handlePacket E fuel rec p src (w.waited w.s.patience) = (.ok (some r), v2) := by
    intro fuel rec
    rw [handlePacket_takes (w := w.waited w.s.patience) hp.plain.ty (.inr (.inr (.inr hp.id))), ← hv]
    have : (w.waited w.s.patience).s.state = w.s.state := rfl
    rw [this]
    rcases hs with h | h
    · rw [h]; exact hfin
    · rw [h]
      show replyWith E p .state v = _
      unfold replyWith
      msimp
      have hcl : v.s = { v.s with state := .closed } := by
        have : v.s.state = .closed := by rw [hvs]; exact h
        rw [← this]
      have hw2 : v2 = { v with nNow := v.nNow + 1 } := by
        rw [hv2]
        show { v with s := { v.s with state := .closed }, nNow := v.nNow + 1 } = _
        rw [← hcl]
      rw [hw2, hr]
  have hv2n : v2.nSnd = w.nSnd := by rw [hv2, hv]; rfl
  have hs2 : (v2.answered src r).s = { v.s with state := .closed } := by rw [hv2]; rfl
  have hfl : ∀ len, flushIncoming E len (v2.answered src r) = (.ok [], v2.answered src r) := by
    intro len
    unfold flushIncoming
    msimp
    have h1 : (v2.answered src r).s.incoming = [] := by rw [hs2, hvs]; exact hq.1
    have h2 : (v2.answered src r).s.pending = [] := by rw [hs2, hvs]; exact hq.2
    simp only [h1, h2, ne_eq, not_true_eq_false, if_false]
    rfl
  refine ⟨v2.answered src r, r.setWndSize WINDOW_SIZE, fun fuel len => ?_, ?_⟩
  · rw [recv_dgram hn ht hb, recvPacket_eq (hh _ _) (sendReply_some (by rw [hv2n]; exact hok) src r) hp.plain.ty]
    have hk : (v2.answered src r).setS ((v2.answered src r).s.keep .fin p) = v2.answered src r := by simp [Socket.keep, World.setS]
    rw [hk, andThen_eq (hfl len)]
    rfl
  · obtain ⟨f1, f2, f3, _⟩ := prepareReply_facts v.s (E.now v.nNow) p .state
    have hpl := (prepareReply_plain v.s (E.now v.nNow) p .state)
    rw [← hr] at f1 f2 f3 hpl
    constructor
    case reply =>
      refine ⟨hpl.setWndSize _, ?_, ?_, ?_, ?_⟩
      · rw [hr]; simp [Socket.prepareReply, show Packet.new.bytes.length = 20 by decide]
      · simp only [setWndSize_ackNr, f2]; rw [hvs]
      · simp only [setWndSize_connectionId, f3]; rw [hvs]
      · simp only [setWndSize_seqNr, f1]; rw [hvs]
    case log =>
      refine ⟨w.s.patience, ?_⟩
      rw [hv2, hv]
      simp [World.answered, World.heard, World.waited, World.setS]
    case net => rw [hv2, hv]; rfl
    all_goals rw [hs2, hvs]
    case quiet => exact hq
    case ids => exact ⟨rfl, rfl⟩

/-- The message of the peer arrives while `close` waits for the answer to its FIN: it is answered by another FIN, taken out of the buffer and thrown away. -/
theorem recv_late {w : World} {p : Packet} {c : Bytes} {k : U16} {src : Addr} (hs : w.s.state = .finSent) (hq : Settled w.s) (ht : 0 < w.s.maxRetries.toNat)
    (htk : Takes w.s k) (hp : Piece k w.s.receiverId c p) (hn : E.net w.nNet = .dgram p.bytes src) (hok : E.snd w.nSnd = .ok) :
    ∃ w' r, (∀ fuel, recv E (fuel + 2) 1500 w = (.ok (c, src), w')) ∧ w'.s.state = .finSent ∧ Settled w'.s ∧ w'.s.maxRetries = w.s.maxRetries ∧
      w'.s.receiverId = w.s.receiverId ∧ w'.s.seqNr = w.s.seqNr ∧ w'.nNet = w.nNet + 1 ∧
      FinPkt w.s.seqNr w.s.senderId r ∧ r.ackNr = k ∧ ∃ t, w'.log = w.log ++ [.wait t, .send src r.bytes true] := by
  have one : (1 : U16).toNat = 1 := rfl
  have hbd := hp.bound
  have hb : Packet.tryFrom (p.bytes.take 1520) = some (.ok p) := by
    rw [List.take_of_length_le (by rw [hp.len]; omega)]
    exact hp.plain.accepted
  obtain ⟨v, hv⟩ : ∃ v, v = (w.waited w.s.patience).heard E p := ⟨_, rfl⟩
  have hvs : v.s = { w.s with ackNr := k, remoteWnd := p.wndSize, theirDelay := absDiff (E.now w.nNow) p.timestamp } := by
    rw [hv]
    have : w.s.bumpAck p = { w.s with ackNr := k } := by
      unfold Socket.bumpAck
      rcases htk with ⟨h1, _⟩ | ⟨h1, _⟩
      · rw [if_pos (by rw [hp.seq, ← h1]; bv_omega), hp.seq]
      · rw [if_neg (by rw [hp.seq, h1]; intro h'; bv_omega)]
        rw [← h1]
    simp only [World.heard, World.waited, World.setS, this]
  obtain ⟨r, hr⟩ : ∃ r, r = v.s.prepareReply (E.now v.nNow) p .fin := ⟨_, rfl⟩
  obtain ⟨v2, hv2⟩ : ∃ v2 : World, v2 = { v with nNow := v.nNow + 1 } := ⟨_, rfl⟩
  have hva : v.s.ackNr = p.seqNr := by rw [hvs, hp.seq]
  have hvf : v.s.state = .finSent := by rw [hvs]; exact hs
  have hh : ∀ fuel rec, handlePacket E fuel rec p src (w.waited w.s.patience) = (.ok (some r), v2) := by
    intro fuel rec
    rw [handlePacket_takes (w := w.waited w.s.patience) hp.plain.ty (.inr (.inr (.inr hp.id))), ← hv]
    have : (w.waited w.s.patience).s.state = w.s.state := rfl
    rw [this, hs]
    show (do let reply ← handleData E p; return some reply : M (Option Packet)) v = _
    unfold handleData withSack
    msimp
    rw [if_neg (by rw [hva]; simp), if_pos hvf, hv2, hr]
  have hv2n : v2.nSnd = w.nSnd := by rw [hv2, hv]; rfl
  have hs2 : (v2.answered src r).s = v.s := by rw [hv2]; rfl
  have hkeep : (v2.answered src r).s.keep .data p = { v.s with incoming := [p] } := by
    rw [hs2]
    unfold Socket.keep
    rw [if_pos]
    · unfold Socket.insertIntoBuffer
      rw [hvs, hq.incoming]
      rfl
    · refine ⟨rfl, ?_⟩
      rw [hp.seq, hvs]
      show 0 < (k - w.s.lastDropped).toNat
      rcases htk with ⟨_, h1⟩ | ⟨_, h1⟩
      · rw [← h1]; bv_omega
      · have : k.toNat ≠ w.s.lastDropped.toNat := fun h => h1 (BitVec.eq_of_toNat_eq h.symm)
        rw [BitVec.toNat_sub]
        have := k.isLt
        have := w.s.lastDropped.isLt
        omega
  obtain ⟨w', hw'⟩ : ∃ w', w' = (v2.answered src r).setS { v.s with incoming := [], pending := [], ackNr := p.seqNr, lastDropped := p.seqNr } := ⟨_, rfl⟩
  have hfl : flushIncoming E 1500 ((v2.answered src r).setS { v.s with incoming := [p] }) = (.ok c, w') := by
    unfold flushIncoming overflowIf
    msimp
    have hvp : v.s.pending = [] := by rw [hvs]; exact hq.pending
    simp only [World.setS, hvp, ne_eq, not_true_eq_false, if_false]
    msimp
    rw [if_neg (by simp [hva]), if_pos (by left; exact hva), hp.payload]
    msimp
    unfold Socket.takeHead
    have ec : c.take 1500 = c := List.take_of_length_le (by omega)
    rw [ec, if_pos (by omega), hw']
    rfl
  have hws : w'.s = { v.s with incoming := [], pending := [], ackNr := p.seqNr, lastDropped := p.seqNr } := by rw [hw']; rfl
  refine ⟨w', r.setWndSize WINDOW_SIZE, fun fuel => ?_, by rw [hws]; exact hvf, ?_, by rw [hws, hvs], by rw [hws, hvs], by rw [hws, hvs], ?_, ?_, ?_, ?_⟩
  · rw [recv_dgram hn ht hb, recvPacket_eq (hh _ _) (sendReply_some (by rw [hv2n]; exact hok) src r) hp.plain.ty, hkeep, andThen_eq hfl]
    rfl
  · rw [hws, hvs]; exact ⟨rfl, rfl, hq.sendWindow⟩
  · rw [hw', hv2, hv]; rfl
  · obtain ⟨f1, f2, f3, _⟩ := prepareReply_facts v.s (E.now v.nNow) p .fin
    have hpl := (prepareReply_plain v.s (E.now v.nNow) p .fin)
    rw [← hr] at f1 f2 f3 hpl
    refine ⟨hpl.setWndSize _, ?_, ?_, ?_⟩
    · rw [hr]; simp [Socket.prepareReply, show Packet.new.bytes.length = 20 by decide]
    · simp only [setWndSize_seqNr, f1]; rw [hvs]
    · simp only [setWndSize_connectionId, f3]; rw [hvs]
  · obtain ⟨f1, f2, f3, _⟩ := prepareReply_facts v.s (E.now v.nNow) p .fin
    rw [← hr] at f2
    simp only [setWndSize_ackNr, f2]; rw [hvs]
  · refine ⟨w.s.patience, ?_⟩
    rw [hw', hv2, hv]
    simp [World.answered, World.heard, World.waited, World.setS]

/-- `close` takes what `recv` returns and goes on waiting. -/
theorem closeLoop_on {fuel n : Nat} {w w' : World} {x : Bytes × Addr} (hs : w.s.state = .finSent) (hrec : ∀ f, recv E (f + 2) 1500 w = (.ok x, w')) :
    whileM (n + 1) (do let s ← getS; return decide (s.state ≠ .closed)) (scratchRecv E (fuel + 2)) w =
      whileM n (do let s ← getS; return decide (s.state ≠ .closed)) (scratchRecv E (fuel + 2)) w' := by
  rw [whileM]
  have e : scratchRecv E (fuel + 2) w = (.ok (), w') := by
    unfold scratchRecv
    rw [bind_def, show BUF_SIZE = 1500 from rfl, andThen_eq (hrec fuel)]
    rfl
  rw [andThen_eq (a := true) (w' := w) (by msimp; simp [hs])]
  rw [if_pos rfl, andThen_eq e]

theorem closeLoop_off {fuel n : Nat} {w : World} (hs : w.s.state = .closed) :
    whileM (n + 1) (do let s ← getS; return decide (s.state ≠ .closed)) (scratchRecv E fuel) w = (.ok (), w) := by
  rw [whileM, andThen_eq (a := false) (w' := w) (by msimp; simp [hs])]
  rfl

section
variable {A B : Env} {a b : World} {m : Bytes}

/-- **C107.**  On a network that loses nothing one side calls `close` while the other sends a message: both calls are made before anything arrives.  `close` takes the
message out of the buffer and throws it away, but acknowledges it, with its second FIN, and returns Ok; afterwards the connection is over and nothing can be read.  The
sender answers both FINs, but does not look at what they acknowledge: it waits until its retries are used up, and its `flush` fails. -/
theorem C107_lost (h : Linked a b) (hr : Ready a.s b.s) (hr' : Ready b.s a.s) (hA : ∀ n, A.snd n = .ok) (hB : ∀ n, B.snd n = .ok)
    (hm : 0 < m.length ∧ m.length ≤ 1380) (hlb : b.s.lead ≤ 32768) (hno : b.s.congTimeout.toNat * 2 ^ b.s.maxRetries.toNat < 2 ^ 64)
    (ha : Arrives (fun fuel => close A fuel) a B b) (hb : Arrives (fun fuel => transfer B fuel [[m]]) b A a) (hend : ∀ j, b.nNet + 2 ≤ j → (B.net j).isTimeout) :
    ∃ a' b', (∀ fuel, close A (fuel + 3) a = (.ok (), a')) ∧ Over A a' ∧
      (∃ f1 f2, sentSince a a' = [f1, f2] ∧ kind f1 = 1 ∧ kind f2 = 1 ∧ ackField f2 = b.s.seqNr.toNat) ∧
      (∀ fuel, b.s.maxRetries.toNat + 3 ≤ fuel → transfer B fuel [[m]] b = (.err (.sock .connectionTimedOut), b')) ∧ b'.s.state = .closed := by
  obtain ⟨a1, p, hp, h1, h2, ⟨dst, h3⟩, hs1, h4⟩ := close_settled (E := A) h.aOpen ⟨h.aRead.1, h.aRead.2, hr.sent.1⟩ (hA _)
  obtain ⟨q, b1, s1, s2, s3, s4, s5, s6⟩ := sendTo_single (E := B) (Linked.symm h) hr' hB hm.1 hm.2 hlb
  have hpc : Piece b.s.seqNr b.s.senderId m q := by
    obtain ⟨c, k1, k2⟩ := s2.pieces 0 q rfl
    cases k1
    simpa using k2
  have hwin : b1.s.sendWindow = [q] := by rw [s2.window]; rfl
  -- the FIN and the message arrive
  obtain ⟨src, hn⟩ := fin_arrives h3 h4 ha
  obtain ⟨src', hn'⟩ : ∃ src, A.net a.nNet = .dgram q.bytes src := by
    obtain ⟨t, ht⟩ := (Grows.andThen (grows_flush 2) fun _ => .ret : Grows (andThen (flush B 2) (fun _ => ret ()))) b1
    refine hb 2 0 q.bytes ?_
    show (datagramsOf ((transfer B 2 [[m]] b).2.log.drop _))[0]? = _
    rw [transfer_one (s1 0), ← ht, s3, List.append_assoc, List.drop_left]
    rfl
  obtain ⟨a2, f, x1, x2, x3, x4, x5, x6, x7, x8, x9, t1, x10⟩ := recv_late (E := A) (w := a1) (p := q) (c := m) (k := b.s.seqNr) (src := src') (by rw [h1])
    (by rw [h1]; exact ⟨h.aRead.1, h.aRead.2, hr.sent.1⟩) (by rw [h1]; exact tries_pos h.aTries) (by rw [h1]; exact hr'.next) (by rw [h1]; rw [← h.toA]; exact hpc)
    (by rw [h2]; exact hn') (hA _)
  have htk : b1.s.ackNr + 1 = a.s.seqNr ∨ b1.s.ackNr = a.s.seqNr := by
    rcases s2.takes hr.next with ⟨k, _⟩ | ⟨k, _⟩
    · exact .inl k
    · exact .inr k
  obtain ⟨b2, r, y1, y2⟩ := recv_finish (E := B) (w := b1) (p := p) (src := src) (q := a.s.seqNr) (.inl s2.state) s2.quiet (by rw [s2.tries]; exact tries_pos h.bTries)
    (by rw [s2.net]; exact hn) (by rw [s2.rid, ← h.toB]; exact hp) htk (hB _)
  -- the acknowledgement of the FIN and the second FIN arrive
  obtain ⟨src2, hn2⟩ : ∃ src, B.net (b.nNet + 1) = .dgram f.bytes src := by
    obtain ⟨t, ht⟩ := (Grows.whileM (c := do let s ← getS; return decide (s.state ≠ .closed)) (.bind .getS fun _ => .ret) (.bind (grows_recv 2 BUF_SIZE) fun _ => .ret) 1 :
      Grows (whileM 1 _ (scratchRecv A 2))) a2
    refine ha 2 1 f.bytes ?_
    show (datagramsOf ((close A (1 + 1) a).2.log.drop _))[1]? = _
    have hc : closeLoop A 2 a1 = whileM 1 (do let s ← getS; return decide (s.state ≠ .closed)) (scratchRecv A 2) a2 := closeLoop_on (fuel := 0) (by rw [h1]) x1
    have hl : (closeLoop A 2 a1).2.log = a2.log ++ t := by rw [hc]; exact ht.symm
    rw [h4, hl, x10, h3, List.append_assoc, List.append_assoc, List.drop_left]
    rfl
  obtain ⟨src3, hn3⟩ : ∃ src, A.net (a.nNet + 1) = .dgram r.bytes src := by
    obtain ⟨l, hl⟩ := y2.log
    obtain ⟨t, ht⟩ := (Grows.whileM (c := do let s ← getS; return decide (s.sendWindow ≠ [])) (.bind .getS fun _ => .ret) (.bind (grows_recv 2 BUF_SIZE) fun _ => .ret) 1 : Grows (whileM 1 _ (scratchRecv B 2))) b2
    refine hb 2 1 r.bytes ?_
    show (datagramsOf ((transfer B 2 [[m]] b).2.log.drop _))[1]? = _
    have hfl : (andThen (flush B 2) (fun _ => ret ()) b1).2.log = b2.log ++ t := by
      have : flush B 2 b1 = whileM 1 (do let s ← getS; return decide (s.sendWindow ≠ [])) (scratchRecv B 2) b2 := flush_on (fuel := 0) (by rw [hwin]; simp) (fun f => y1 f 1500) 1
      rw [log_andThen_ret, this]; exact ht.symm
    rw [transfer_one (s1 0), hfl, hl, s3, List.append_assoc, List.append_assoc, List.drop_left]
    rfl
  obtain ⟨a3, z1, z2, z3, t2, z4⟩ := recv_finAck (E := A) (w := a2) (r := r) (src := src3) (q := b1.s.seqNr) x2 x3 (by rw [x4, h1]; exact tries_pos h.aTries)
    (by rw [x7, h2]; exact hn3) (by
      have := y2.reply
      rw [x6, x5, h1, ← h.toA, ← s2.sid]
      exact this)
  obtain ⟨b3, r2, v1, v2⟩ := recv_finish (E := B) (w := b2) (p := f) (src := src2) (q := a.s.seqNr) (.inr y2.closed) y2.quiet
    (by rw [y2.tries, s2.tries]; exact tries_pos h.bTries) (by rw [y2.net, s2.net]; exact hn2) (by
      rw [y2.ids.2, s2.rid, ← h.toB]
      have := x8
      rw [h1] at this
      exact this) (.inr y2.ack) (hB _)
  -- then silence
  have htr : b3.s.maxRetries = b.s.maxRetries := by rw [v2.tries, y2.tries, s2.tries]
  have hct : b3.s.congTimeout = b.s.congTimeout := by rw [v2.timeout, y2.timeout, s6]
  have hw3 : b3.s.sendWindow ≠ [] := by rw [v2.window, y2.window, hwin]; simp
  have hg : PeerGone B b3 := ⟨fun j hj => hend j (by rw [v2.net, y2.net, s2.net] at hj; omega), fun j _ => hB j⟩
  have key : ∀ fuel, b.s.maxRetries.toNat + 3 ≤ fuel → ∃ b', transfer B fuel [[m]] b = (.err (.sock .connectionTimedOut), b') ∧ b'.s.state = .closed := by
    intro fuel hf
    obtain ⟨n, rfl⟩ : ∃ n, fuel = n + 3 := ⟨fuel - 3, by omega⟩
    obtain ⟨b', k1, k2, _⟩ := wait_gone (E := B) (w := b3) (by rw [v2.closed]; simp) hg (by rw [htr, hct]; exact hno) (fuel := n + 2) (by rw [htr]; omega)
    refine ⟨b', ?_, k2⟩
    have hsc : scratchRecv B (n + 1 + 2) b3 = (.err (.sock .connectionTimedOut), b') := by
      unfold scratchRecv
      rw [bind_def, andThen_err (k1 _)]
    have : flush B (n + 3) b1 = (.err (.sock .connectionTimedOut), b') := by
      unfold flush
      rw [show n + 3 = (n + 1) + 2 from rfl, flush_on (fuel := n + 1) (by rw [hwin]; simp) (fun f => y1 f 1500),
        flush_on (fuel := n + 1) (by rw [y2.window, hwin]; simp) (fun f => v1 f 1500), whileM]
      rw [andThen_eq (a := true) (w' := b3) (by msimp; simp [hw3]), if_pos rfl, andThen_err hsc]
    rw [transfer_one (s1 (n + 1)), andThen_err this]
  obtain ⟨b', k1, k2⟩ := key (b.s.maxRetries.toNat + 3) le_rfl
  refine ⟨a3, b', fun fuel => ?_, over_of z2 z3, ⟨p.bytes, f.bytes, ?_, ?_, ?_, ?_⟩, fun fuel hf => ?_, k2⟩
  · rw [show fuel + 3 = (fuel + 2) + 1 from rfl, h4]
    unfold closeLoop
    rw [show fuel + 2 + 1 = (fuel + 1) + 2 from rfl, closeLoop_on (fuel := fuel + 1) (by rw [h1]) x1, closeLoop_on (fuel := fuel + 1) x2 (fun f => z1 f 1500), closeLoop_off z2]
  · unfold sentSince
    rw [z4, x10, h3, List.append_assoc, List.append_assoc, List.drop_left]
    rfl
  · exact getType_kind hp.plain.ty
  · exact getType_kind x8.plain.ty
  · rw [← ackNr_field, x9]
  · exact le_transfer hf _ b (by rw [k1]; simp) |>.trans k1

end

namespace Sample

/-- The answer to the SYN, the message, the answers to the two FINs, and the message five times again. -/
def lateA : List NetEvent :=
  [arr (dg .state 7 100 1 [] 0), arr (dg .data 7 100 1 [9] 0), arr (dg .state 7 101 2), arr (dg .state 7 101 2)] ++ List.replicate 5 (arr (dg .data 7 100 1 [9] 0))
/-- The two FINs. -/
def lateB : List NetEvent := [arr (dg .fin 8 2 100 [] 0), arr (dg .fin 8 2 100)]
/-- After the two FINs every receive times out. -/
def lateE : Env := { senv lateB [] with net := fun k => lateB.getD k (.fail .timedOut) }
def lateStart : World := acceptWorld (accept lateE 1 (arr theSyn) (.ok here))

/-- The connecting side closes while the accepting side sends the byte 9. -/
example : ∃ a' b', (∀ fuel, close (senv lateA []) (fuel + 3) (client (senv lateA [])) = (.ok (), a')) ∧ Over (senv lateA []) a' ∧
    (∃ f1 f2, sentSince (client (senv lateA [])) a' = [f1, f2] ∧ kind f1 = 1 ∧ kind f2 = 1 ∧ ackField f2 = 100) ∧
    (∀ fuel, 8 ≤ fuel → transfer lateE fuel [[[9]]] lateStart = (.err (.sock .connectionTimedOut), b')) ∧ b'.s.state = .closed := by
  have hl : Linked (client (senv lateA [])) lateStart :=
    ⟨by decide +kernel, by decide +kernel, by decide +kernel, by decide +kernel, by decide +kernel, by decide +kernel, by decide +kernel, by decide +kernel⟩
  have hr : Ready (client (senv lateA [])).s lateStart.s := ⟨by decide +kernel, by decide +kernel, by decide +kernel⟩
  have hr' : Ready lateStart.s (client (senv lateA [])).s := ⟨by decide +kernel, by decide +kernel, by decide +kernel⟩
  have h1 : ((fun fuel => close (senv lateA []) fuel) 5 (client (senv lateA []))).1 ≠ .pending := by decide +kernel
  have h2 : ((fun fuel => transfer lateE fuel [[[9]]]) 10 lateStart).1 ≠ .pending := by decide +kernel
  have ha : Arrives (fun fuel => close (senv lateA []) fuel) (client (senv lateA [])) lateE lateStart := arrives_of 5 (fun f h => le_close h) h1 (by decide +kernel)
  have hb : Arrives (fun fuel => transfer lateE fuel [[[9]]]) lateStart (senv lateA []) (client (senv lateA [])) :=
    arrives_of 10 (fun f h => le_transfer h _) h2 (by decide +kernel)
  have hlb : lateStart.s.lead ≤ 32768 := by decide +kernel
  have hno : lateStart.s.congTimeout.toNat * 2 ^ lateStart.s.maxRetries.toNat < 2 ^ 64 := by decide +kernel
  have hn : lateStart.nNet = 0 := by decide +kernel
  have hq : lateStart.s.seqNr.toNat = 100 := by decide +kernel
  have ht : lateStart.s.maxRetries.toNat = 5 := by decide +kernel
  have key := C107_lost (m := [9]) hl hr hr' (fun n => by simp [senv, env]) (fun n => by simp [lateE, senv, env]) (by decide) hlb hno ha hb (fun j hj => by
    obtain ⟨i, rfl⟩ : ∃ i, j = i + 2 := ⟨j - 2, by omega⟩
    exact .inl rfl)
  rw [hq, ht] at key
  exact key

end Sample

end Utp
