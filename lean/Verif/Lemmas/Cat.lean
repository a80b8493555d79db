import Verif.Spec.Cat
import Verif.Lemmas.Shutdown
/-!
# Writing everything and closing, reading everything
-/

namespace Utp
open M

variable {E : Env}

theorem grows_close (fuel : Nat) : Grows (close E fuel) := by
  unfold close
  exact .bind .getS fun _ => .ite .ret (.bind (grows_flush fuel) fun _ => .bind .getS fun _ => .bind .now fun _ => .bind .udpSend fun _ => .bind .modS fun _ => grows_closeLoop fuel)

theorem grows_writeClose (fuel : Nat) (batches : List (List Bytes)) (last : List Bytes) : Grows (writeClose E fuel batches last) :=
  .andThen (grows_transfer fuel batches) fun _ => .andThen (grows_sendAll fuel last) fun _ => grows_close fuel

theorem grows_readEnd (fuel : Nat) (len : Bytes → Nat) : ∀ n got, Grows (readEnd E fuel len n got)
  | 0, _ => .never
  | n + 1, _ => .andThen (grows_recvFrom fuel _) fun _ => .ite .ret (grows_readEnd fuel len n _)

/-! ### The client -/

/-- The part of `close` after the flush. -/
def closeTail (E : Env) (fuel : Nat) : M Unit := do
  let s ← getS
  let t ← now E
  udpSend E s.connectedTo (finPacket s t).bytes
  modS fun s => { s with state := .finSent }
  closeLoop E fuel

theorem close_open {w : World} (hs : w.s.state = .connected) (fuel : Nat) : close E fuel w = M.andThen (flush E fuel) (fun _ => closeTail E fuel) w := by
  unfold close
  msimp
  rw [if_neg (by simp [hs])]
  rfl

theorem flush_none {w : World} (h : w.s.sendWindow = []) (fuel : Nat) : flush E (fuel + 1) w = (.ok (), w) := by
  unfold flush whileM
  msimp
  simp only [h, ne_eq, not_true_eq_false, decide_false]
  rfl

/-- The datagrams of the client: the pieces, then the FIN. -/
def OutPkt (a0 : World) (cs : List Bytes) (i : Nat) (p : Packet) : Prop :=
  (∃ c, cs[i]? = some c ∧ Piece (a0.s.seqNr + BitVec.ofNat 16 i) a0.s.senderId c p) ∨
    i = cs.length ∧ FinPkt (a0.s.seqNr + BitVec.ofNat 16 cs.length) a0.s.senderId p

/-- The client has sent everything. -/
def OutAll (a0 : World) (cs : List Bytes) (w : World) : Prop :=
  ∃ (l : List Act) (ps : List Packet), w.log = a0.log ++ l ∧ datagramsOf l = ps.map Packet.bytes ∧ ps.length = cs.length + 1 ∧ ∀ i p, ps[i]? = some p → OutPkt a0 cs i p

section
variable {B : World → Prop} {a0 : World} {q0 : U16} {cs : List Bytes}

theorem prog_closeTail (hok : ∀ n, E.snd n = .ok) (hB : Lasting B) (ht0 : a0.s.maxRetries ≠ 0) {w : World} (h : IdleAt a0 q0 cs cs.length cs.length w)
    (hfin : ∀ w1, OutAll a0 cs w1 → Acks a0.s.receiverId q0 (a0.s.seqNr + BitVec.ofNat 16 cs.length) (E.net (a0.nNet + cs.length)) ∨ B w1) :
    Prog B (fun n => closeTail E n) w fun _ w' => w'.s.state = .closed ∧ Settled w'.s ∧ OutAll a0 cs w' := by
  obtain ⟨ps, hn, j, hj, hw, hun, hsq⟩ := h
  have hj' : j = cs.length := by have := hw.le; omega
  subst hj'
  have hwin : w.s.sendWindow = [] := by rw [hw.window]; exact List.drop_eq_nil_of_le (by omega)
  obtain ⟨w1, p, h1, h2, h3, ⟨dst, h4⟩, -, h5⟩ := close_settled (E := E) hw.state ⟨hw.quiet.1, hw.quiet.2, hwin⟩ (hok _)
  rw [hsq, hw.sid] at h1
  have hout : OutAll a0 cs w1 := by
    obtain ⟨l, l1, l2⟩ := hw.log
    refine ⟨l ++ [.send dst p.bytes true], ps ++ [p], by rw [h4, l1, List.append_assoc], ?_, by simp [hn], ?_⟩
    · rw [datagramsOf_append, l2]; simp [datagramsOf]
    · intro i r hr
      by_cases hi : i < ps.length
      · rw [List.getElem?_append_left hi] at hr
        exact .inl (hw.pieces i r hr)
      · rw [List.getElem?_append_right (by omega)] at hr
        have h0 : i - ps.length = 0 := by
          have := (List.getElem?_eq_some_iff.mp hr).1
          simp at this
          omega
        rw [h0] at hr
        simp only [List.getElem?_cons_zero, Option.some.injEq] at hr
        subst hr
        exact .inr ⟨by omega, h1⟩
  have hrun : ∀ n, closeTail E (n + 1) w = closeLoop E (n + 1) w1 := by
    intro n
    rw [← h5, close_open hw.state, andThen_eq (flush_none hwin n)]
  refine .succ (.congr (m := fun n => closeLoop E (n + 1)) (w1 := w1) ?_ hrun)
  rcases hfin w1 hout with ⟨r, src, hnet, hr⟩ | hb
  · have hs1 : w1.s.state = .finSent := by rw [h2]
    have hset : Settled w1.s := by rw [h2]; exact ⟨hw.quiet.1, hw.quiet.2, hwin⟩
    have htr : 0 < w1.s.maxRetries.toNat := by
      rw [h2]
      show 0 < w.s.maxRetries.toNat
      rw [hw.tries]
      have : a0.s.maxRetries.toNat ≠ 0 := fun e => ht0 (BitVec.eq_of_toNat_eq e)
      omega
    obtain ⟨w', g1, g2, g3, t, g4⟩ := recv_finAck (E := E) (w := w1) (r := r) (src := src) (q := q0) hs1 hset htr (by rw [h3, hw.net]; exact hnet)
      (by rw [h2]; show AckPkt q0 w.s.seqNr w.s.receiverId r; rw [hsq, hw.rid]; exact hr)
    refine .returns (F := 1) (a := ()) (w' := w') (fun n hn => ?_) ⟨g2, g3, ?_⟩
    · obtain ⟨m, rfl⟩ : ∃ m, n = m + 1 := ⟨n - 1, by omega⟩
      exact closeLoop_one hs1 g1 g2 m
    · obtain ⟨l, qs, l1, l2, l3, l4⟩ := hout
      refine ⟨l ++ [.wait t], qs, by rw [g4, l1, List.append_assoc], ?_, l3, l4⟩
      rw [datagramsOf_append, l2]
      simp [datagramsOf]
  · exact .beyond hB (fun n => grows_closeLoop _) hb _

theorem prog_writeClose (hB : Lasting B) (hs : Served E a0 q0 cs B) (hok : ∀ n, E.snd n = .ok) (ht0 : a0.s.maxRetries ≠ 0) (hla : a0.s.lastAcked ≠ a0.s.seqNr)
    {batches : List (List Bytes)} {last : List Bytes} (hcs : cs = piecesOf batches.flatten ++ piecesOf last) (hfit : ∀ b ∈ batches, a0.s.lead + (piecesOf b).length ≤ 32769)
    (hfit' : a0.s.lead + (piecesOf last).length ≤ 32769)
    (hfin : ∀ w1, OutAll a0 cs w1 → Acks a0.s.receiverId q0 (a0.s.seqNr + BitVec.ofNat 16 cs.length) (E.net (a0.nNet + cs.length)) ∨ B w1)
    {w : World} (h : IdleAt a0 q0 cs 0 0 w) :
    Prog B (fun n => writeClose E n batches last) w fun _ w' => w'.s.state = .closed ∧ Settled w'.s ∧ OutAll a0 cs w' := by
  have h0 : cs.drop 0 = piecesOf batches.flatten ++ piecesOf last := hcs
  have hd : cs.drop (0 + (piecesOf batches.flatten).length) = piecesOf last ++ [] := by rw [Nat.zero_add, hcs, List.drop_left, List.append_nil]
  have hlen : 0 + (piecesOf batches.flatten).length + (piecesOf last).length = cs.length := by rw [hcs, List.length_append]; omega
  refine .andThen hB (prog_transfer hB hs hok ht0 hla batches 0 _ w h0 hfit h) (fun n _ => .andThen (grows_sendAll n last) fun _ => grows_close n) fun _ w1 h1 => ?_
  refine .andThen hB (prog_sendAll hB hs hok ht0 hla last _ [] w1 hd (by omega) h1) (fun n _ => grows_close n) fun _ w2 h2 => ?_
  rw [hlen] at h2
  have hst : w2.s.state = .connected := by
    obtain ⟨_, _, _, _, h2, _⟩ := h2
    exact h2.state
  refine .congr (m := fun n => M.andThen (flush E n) fun _ => closeTail E n) (w1 := w2) ?_ fun n => close_open hst n
  refine .andThen hB (prog_flush hB hs ht0 hla h2) (fun n _ => ?_) fun _ w3 h3 => prog_closeTail hok hB ht0 h3 hfin
  exact .bind .getS fun _ => .bind .now fun _ => .bind .udpSend fun _ => .bind .modS fun _ => grows_closeLoop n

end

/-! ### The server -/

/-- The server has read everything and acknowledged the FIN. -/
def InAll (b0 : World) (k : U16) (cs : List Bytes) (w : World) : Prop :=
  w.s.state = .closed ∧ Settled w.s ∧ ∃ (l : List Act) (rs : List Packet), w.log = b0.log ++ l ∧ datagramsOf l = rs.map Packet.bytes ∧ rs.length = cs.length + 1 ∧
    ∀ t r, rs[t]? = some r → AckPkt b0.s.seqNr (k + BitVec.ofNat 16 t) b0.s.senderId r

/-- After the last piece the FIN arrives, unless the reader is beyond the point `B`. -/
def Finned (E : Env) (b0 : World) (k : U16) (cs : List Bytes) (B : World → Prop) : Prop :=
  ∀ w, ReaderAt b0 k cs.length [] w → (∃ p src, E.net (b0.nNet + cs.length) = .dgram p.bytes src ∧ FinPkt (k + BitVec.ofNat 16 cs.length) b0.s.receiverId p) ∨ B w

section
variable {B : World → Prop} {b0 : World} {k : U16} {cs : List Bytes}

/-- The loop of `recv_from` gets more bytes, or the FIN. -/
theorem prog_nextLoop (hB : Lasting B) (hs : Supplied E b0 k cs B) (he : Finned E b0 k cs B) (hok : ∀ n, E.snd n = .ok) (hwin : b0.s.sendWindow = []) {len : Nat} (hl : 0 < len)
    {i : Nat} {got : Bytes} {w : World} (h : ReaderAt b0 k i [] w) (hg : got = (cs.take i).flatten) (hi : i ≤ cs.length) (x y : Nat) :
    Prog B (fun n => recvFromLoop E (n + x) len (n + y)) w fun x w' =>
      (x.1 ≠ [] ∧ ∃ i' u', ReaderAt b0 k i' u' w' ∧ i' ≤ cs.length ∧ got ++ x.1 ++ u' = (cs.take i').flatten) ∨ (x.1 = [] ∧ got = cs.flatten ∧ InAll b0 k cs w') := by
  by_cases hi' : i < cs.length
  · exact (prog_recvFromLoop hB hs hok hl h hg hi' x y).mono fun _ _ h => .inl h
  · have : i = cs.length := by omega
    subst this
    rcases he w h with ⟨p, src, hn, hp⟩ | hb
    · obtain ⟨d, hx⟩ := h.exp
      have one : (1 : U16).toNat = 1 := rfl
      have hset : Settled w.s := ⟨hx.empty rfl, hx.pending, by rw [h.kept.sendWindow]; exact hwin⟩
      have htk : Takes w.s (k + BitVec.ofNat 16 cs.length) := by
        have hf := hx.fresh rfl
        cases d with
        | true =>
          simp only [if_true] at hf
          rw [Takes, hf.1, hf.2]
          exact .inl ⟨by bv_omega, by bv_omega⟩
        | false => exact .inr hf
      obtain ⟨w', g1, g2, g3, r, t, g4, g5⟩ := recv_closing (.inl hx.state) hset hx.tries (by rw [h.net]; exact hn) (by rw [h.rid]; exact hp) htk (hok _)
      refine .returns (F := 2) (a := ([], w'.s.connectedTo)) (w' := w') (fun n hn => ?_) (.inr ⟨rfl, ?_, g2, g3, ?_⟩)
      · obtain ⟨m, rfl⟩ : ∃ m, n = m + 2 := ⟨n - 2, by omega⟩
        rw [show m + 2 + y = m + y + 1 + 1 by omega, show m + 2 + x = m + x + 2 by omega, recvFromLoop]
        msimp
        rw [if_neg (by rw [hx.state]; simp), andThen_eq (g1 _ _)]
        msimp
        rw [recvFromLoop]
        msimp
        rw [if_pos g2]
        rfl
      · rw [hg, List.take_length]
      · obtain ⟨l, rs, l1, l2, l3, l4⟩ := h.log
        refine ⟨l ++ [.wait t, .send src r.bytes true], rs ++ [r], by rw [g5, l1, List.append_assoc], ?_, by simp [l3], ?_⟩
        · rw [datagramsOf_append, l2]; simp [datagramsOf]
        · intro t' r' hr'
          by_cases ht : t' < rs.length
          · rw [List.getElem?_append_left ht] at hr'
            exact l4 t' r' hr'
          · rw [List.getElem?_append_right (by omega)] at hr'
            have h0 : t' - rs.length = 0 := by
              have := (List.getElem?_eq_some_iff.mp hr').1
              simp at this
              omega
            have ht' : t' = cs.length := by omega
            rw [h0] at hr'
            simp only [List.getElem?_cons_zero, Option.some.injEq] at hr'
            subst hr' ht'
            rw [← h.kept.seqNr, ← h.sid]
            exact g4
    · exact .beyond hB (fun n => grows_recvFromLoop _ len _) hb _

/-- The same for `recv_from`. -/
theorem prog_nextRead (hB : Lasting B) (hs : Supplied E b0 k cs B) (he : Finned E b0 k cs B) (hok : ∀ n, E.snd n = .ok) (hwin : b0.s.sendWindow = []) {len : Nat} (hl : 0 < len)
    {i : Nat} {u got : Bytes} {w : World} (h : ReaderAt b0 k i u w) (hg : got ++ u = (cs.take i).flatten) (hi : i ≤ cs.length) :
    Prog B (fun n => recvFrom E n len) w fun x w' =>
      (x.1 ≠ [] ∧ ∃ i' u', ReaderAt b0 k i' u' w' ∧ i' ≤ cs.length ∧ got ++ x.1 ++ u' = (cs.take i').flatten) ∨ (x.1 = [] ∧ got = cs.flatten ∧ InAll b0 k cs w') := by
  by_cases hu : u = []
  · subst hu
    rw [List.append_nil] at hg
    exact .congr (prog_nextLoop hB hs he hok hwin hl h hg hi 0 0) fun n => h.quiet n len
  · exact (prog_recvFrom hB hs hok hl h hg (fun h => absurd h hu) hi).mono fun _ _ h => .inl h

theorem prog_readEnd (hB : Lasting B) (hs : Supplied E b0 k cs B) (he : Finned E b0 k cs B) (hok : ∀ n, E.snd n = .ok) (hwin : b0.s.sendWindow = []) {len : Bytes → Nat}
    (hl : ∀ got, 0 < len got) : ∀ (d j i : Nat) (u got : Bytes) (w : World), cs.flatten.length < got.length + d → ReaderAt b0 k i u w → i ≤ cs.length →
    got ++ u = (cs.take i).flatten → Prog B (fun n => readEnd E (n + j) len n got) w fun x w' => x = cs.flatten ∧ InAll b0 k cs w' := by
  intro d
  induction d with
  | zero =>
    intro j i u got w hd h hi hg
    have h1 : got ++ u ++ (cs.drop i).flatten = cs.flatten := by rw [hg, ← List.flatten_append, List.take_append_drop]
    have h2 := congrArg List.length h1
    simp only [List.length_append] at h2
    omega
  | succ d ih =>
    intro j i u got w hd h hi hg
    refine .succ (.congr (m := fun n => M.andThen (recvFrom E (n + (1 + j)) (len got)) fun x => if x.1 = [] then M.ret got else readEnd E (n + (1 + j)) len n (got ++ x.1)) (w1 := w) ?_ fun n => ?_)
    · refine .andThen hB ((prog_nextRead hB hs he hok hwin (hl got) h hg hi).shift (1 + j)) (fun n _ => .ite .ret (grows_readEnd _ _ _ _)) ?_
      rintro x w' (⟨hx, i', u', h5, h6, h7⟩ | ⟨hx, h5, h6⟩)
      · simp only [hx, if_false]
        refine ih (1 + j) i' u' (got ++ x.1) w' ?_ h5 h6 h7
        have := List.length_pos_iff.mpr hx
        simp only [List.length_append]
        omega
      · simp only [hx, if_true]
        exact .ret ⟨h5, h6⟩
    · rw [readEnd, show n + 1 + j = n + (1 + j) by omega]

end

theorem Arrives.later {α : Type} {m m0 : Nat → M α} {x x0 y y0 : World} {Y : Env} {l : List Act} (h : Arrives m0 x0 Y y0) (hm : ∀ f, ∃ f', m0 f' x0 = m f x)
    (hl : x.log = x0.log ++ l) (hg : ∀ f, Grows (m f)) (hy : y.nNet = y0.nNet + (datagramsOf l).length) : Arrives m x Y y := by
  intro f i d hd
  obtain ⟨f', hf⟩ := hm f
  obtain ⟨t, ht⟩ := hg f x
  rw [← ht, List.drop_left] at hd
  obtain ⟨src, hs⟩ := h f' ((datagramsOf l).length + i) d (by
    rw [hf, ← ht, hl, List.append_assoc, List.drop_left, datagramsOf_append, List.getElem?_append_right (by omega), Nat.add_sub_cancel_left]
    exact hd)
  exact ⟨src, by rw [hy, Nat.add_assoc]; exact hs⟩

/-! ### Both together -/

section
variable {A B : Env} {a b : World} {cs : List Bytes} {C : Nat → M Unit} {S : Nat → M Bytes}

/-- The program `C` sends the pieces `cs` and the FIN and returns, if it gets the acknowledgements it needs. -/
def Puts (A : Env) (a : World) (q : U16) (cs : List Bytes) (C : Nat → M Unit) : Prop :=
  ∀ P, Lasting P → Served A a q cs P →
    (∀ w, OutAll a cs w → Acks a.s.receiverId q (a.s.seqNr + BitVec.ofNat 16 cs.length) (A.net (a.nNet + cs.length)) ∨ P w) →
    Prog P C a fun _ w => w.s.state = .closed ∧ Settled w.s ∧ OutAll a cs w

/-- The program `S` reads the pieces `cs` and returns, if it gets them and the FIN. -/
def Gets (B : Env) (b : World) (k : U16) (cs : List Bytes) (S : Nat → M Bytes) : Prop :=
  ∀ P, Lasting P → Supplied B b k cs P → Finned B b k cs P → Prog P S b fun x w => x = cs.flatten ∧ InAll b k cs w

theorem OutPkt.piece {i : Nat} {c : Bytes} {p : Packet} (h : OutPkt a cs i p) (hc : cs[i]? = some c) : Piece (a.s.seqNr + BitVec.ofNat 16 i) a.s.senderId c p := by
  rcases h with ⟨c', h1, h2⟩ | ⟨h1, _⟩
  · rw [hc] at h1
    cases h1
    exact h2
  · rw [h1] at hc
    simp at hc

theorem OutPkt.fin {p : Packet} (h : OutPkt a cs cs.length p) : FinPkt (a.s.seqNr + BitVec.ofNat 16 cs.length) a.s.senderId p := by
  rcases h with ⟨c', h1, h2⟩ | ⟨_, h⟩
  · simp at h1
  · exact h

/-- The first `k` datagrams for the server. -/
def FedTo (B : Env) (a b : World) (cs : List Bytes) (k : Nat) : Prop := ∀ i, i < k → ∃ p src, B.net (b.nNet + i) = .dgram p.bytes src ∧ OutPkt a cs i p

theorem fedTo_of_told (hC : Puts A a b.s.seqNr cs C) (ha : Arrives C a B b) {k : Nat} (hk : k ≤ cs.length) (ht : Told A a b k) : FedTo B a b cs (k + 1) := by
  have hserved : Served A a b.s.seqNr cs (Beyond a (OutPkt a cs) k) := by
    intro j ps w hw hj
    by_cases hk : j < k
    · exact .inl (ht j hk)
    · obtain ⟨l, h1, h2⟩ := hw.log
      exact .inr ⟨l, ps, h1 ▸ List.prefix_refl _, h2, by omega, fun i p hp => .inl (hw.pieces i p hp)⟩
  have hall : ∀ w, OutAll a cs w → Beyond a (OutPkt a cs) k w := by
    rintro w ⟨l, ps, h1, h2, h3, h4⟩
    exact ⟨l, ps, h1 ▸ List.prefix_refl _, h2, by omega, h4⟩
  obtain ⟨F, hF⟩ : ∃ F, Beyond a (OutPkt a cs) k (C F a).2 := by
    rcases hC _ (Beyond.lasting a _ k) hserved (fun w hw => .inr (hall w hw)) with ⟨_, w', ⟨_, _, hw⟩, F, hF⟩ | ⟨F, hF⟩
    · exact ⟨F, by rw [hF F (Nat.le_refl _)]; exact hall w' hw⟩
    · exact ⟨F, hF F (Nat.le_refl _)⟩
  intro i hi
  exact hF.arrives ha (by omega)

theorem told_of_fedTo (h : Linked a b) (hS : Gets B b a.s.seqNr cs S) (hb : Arrives S b A a) {k : Nat} (hk : k ≤ cs.length) (hf : FedTo B a b cs (k + 1)) : Told A a b (k + 1) := by
  obtain ⟨P, hP⟩ : ∃ P : Nat → Packet → Prop, P = fun i p => AckPkt b.s.seqNr (a.s.seqNr + BitVec.ofNat 16 i) b.s.senderId p := ⟨_, rfl⟩
  have hread : ∀ i u w, ReaderAt b a.s.seqNr i u w → k < i → Beyond b P k w := by
    intro i u w hw hi
    obtain ⟨l, rs, h1, h2, h3, h4⟩ := hw.log
    exact ⟨l, rs, h1 ▸ List.prefix_refl _, h2, by omega, by rw [hP]; exact h4⟩
  have hsup : Supplied B b a.s.seqNr cs (Beyond b P k) := by
    intro i u w c hw hc
    by_cases hi : i < k + 1
    · obtain ⟨p, src, h1, h2⟩ := hf i hi
      exact .inl ⟨p, src, h1, h.toB ▸ h2.piece hc⟩
    · exact .inr (hread i u w hw (by omega))
  have hend : Finned B b a.s.seqNr cs (Beyond b P k) := by
    intro w hw
    by_cases hi : cs.length < k + 1
    · obtain ⟨p, src, h1, h2⟩ := hf _ hi
      exact .inl ⟨p, src, h1, h.toB ▸ h2.fin⟩
    · exact .inr (hread _ _ w hw (by omega))
  obtain ⟨F, hF⟩ : ∃ F, Beyond b P k (S F b).2 := by
    rcases hS _ (Beyond.lasting b _ k) hsup hend with ⟨_, w', ⟨_, _, _, l, rs, h1, h2, h3, h4⟩, F, hF⟩ | ⟨F, hF⟩
    · exact ⟨F, l, rs, by rw [hF F (Nat.le_refl _), h1]; exact List.prefix_refl _, h2, by omega, by rw [hP]; exact h4⟩
    · exact ⟨F, hF F (Nat.le_refl _)⟩
  intro i hi
  obtain ⟨p, src, h1, h2⟩ := hF.arrives hb (i := i) (by omega)
  rw [hP] at h2
  exact ⟨p, src, h1, h.toA ▸ h2⟩

theorem told_to (h : Linked a b) (hC : Puts A a b.s.seqNr cs C) (hS : Gets B b a.s.seqNr cs S) (ha : Arrives C a B b) (hb : Arrives S b A a) :
    ∀ k, k ≤ cs.length + 1 → Told A a b k
  | 0, _ => fun i hi => absurd hi (by omega)
  | k + 1, hk => told_of_fedTo h hS hb (by omega) (fedTo_of_told hC ha (by omega) (told_to h hC hS ha hb k (by omega)))

/-- The two programs complete. -/
theorem meet (h : Linked a b) (hC : Puts A a b.s.seqNr cs C) (hS : Gets B b a.s.seqNr cs S) (ha : Arrives C a B b) (hb : Arrives S b A a) :
    ∃ a' b' F, (∀ fuel, F ≤ fuel → C fuel a = (.ok (), a') ∧ S fuel b = (.ok cs.flatten, b')) ∧ a'.s.state = .closed ∧ Settled a'.s ∧ OutAll a cs a' ∧ InAll b a.s.seqNr cs b' := by
  have ht := told_to h hC hS ha hb (cs.length + 1) (Nat.le_refl _)
  have hf := fedTo_of_told hC ha (Nat.le_refl _) (fun i hi => ht i (by omega) : Told A a b cs.length)
  have hlast : Lasting fun _ => False := fun _ _ _ h => h
  have h1 := hC _ hlast (fun j ps w hw hj => .inl (ht j (by
    obtain ⟨c, hc, _⟩ := hw.pieces j ps[j] (List.getElem?_eq_getElem hj)
    have := (List.getElem?_eq_some_iff.mp hc).1
    omega))) (fun w _ => .inl (ht _ (by omega)))
  have h2 := hS _ hlast (fun i u w c hw hc => by
    obtain ⟨p, src, h1, h2⟩ := hf i (by have := (List.getElem?_eq_some_iff.mp hc).1; omega)
    exact .inl ⟨p, src, h1, h.toB ▸ h2.piece hc⟩) (fun w hw => by
    obtain ⟨p, src, h1, h2⟩ := hf cs.length (by omega)
    exact .inl ⟨p, src, h1, h.toB ▸ h2.fin⟩)
  rcases h1 with ⟨⟨⟩, a', ⟨g1, g2, g3⟩, F, hF⟩ | ⟨F, hF⟩
  rotate_left
  · exact absurd (hF F (Nat.le_refl _)) id
  rcases h2 with ⟨x, b', ⟨hx, k1⟩, G, hG⟩ | ⟨G, hG⟩
  rotate_left
  · exact absurd (hG G (Nat.le_refl _)) id
  exact ⟨a', b', F + G, fun fuel hfuel => ⟨hF fuel (by omega), by rw [hG fuel (by omega), hx]⟩, g1, g2, g3, k1⟩

theorem puts_writeClose (h : Linked a b) (hr : Ready a.s b.s) (hA : ∀ n, A.snd n = .ok) {batches : List (List Bytes)} {last : List Bytes}
    (hcs : cs = piecesOf batches.flatten ++ piecesOf last) (hfit : Fits a.s (last :: batches)) : Puts A a b.s.seqNr cs fun n => writeClose A n batches last := by
  intro P hP hs hfin
  exact prog_writeClose hP hs hA h.aTries hr.acked hcs (fun bs hbs => by rw [piecesOf_length]; exact hfit bs (by simp [hbs])) (by rw [piecesOf_length]; exact hfit last (by simp)) hfin
    (h.idle hr cs)

theorem gets_readToEnd (h : Linked a b) (hr : Ready a.s b.s) (hB : ∀ n, B.snd n = .ok) (hwin : b.s.sendWindow = []) {len : Bytes → Nat} (hl : ∀ got, 0 < len got) :
    Gets B b a.s.seqNr cs fun n => readToEnd B len n := by
  intro P hP hs he
  exact prog_readEnd hP hs he hB hwin hl (cs.flatten.length + 1) 0 0 [] [] b (by simp) (h.reader hr) (Nat.zero_le _) (by simp)

/-- The server, after the first packet of its first `recv_from`. -/
def readOn (E : Env) (len : Bytes → Nat) (n : Nat) : M Bytes :=
  M.andThen (recvFromLoop E (n + 1) (len []) n) fun x => if x.1 = [] then M.ret [] else readEnd E (n + 1) len n x.1

theorem gets_readOn (h : Linked a b) (hr : Ready a.s b.s) (hB : ∀ n, B.snd n = .ok) (hwin : b.s.sendWindow = []) {len : Bytes → Nat} (hl : ∀ got, 0 < len got) :
    Gets B b a.s.seqNr cs (readOn B len) := by
  intro P hP hs he
  refine .andThen hP (prog_nextLoop hP hs he hB hwin (hl []) (h.reader hr) (got := []) (by simp) (Nat.zero_le _) 1 0) (fun n _ => .ite .ret (grows_readEnd _ _ _ _)) ?_
  rintro x w' (⟨hx, i', u', h5, h6, h7⟩ | ⟨hx, h5, h6⟩)
  · simp only [hx, if_false]
    exact prog_readEnd hP hs he hB hwin hl (cs.flatten.length + 1) 1 i' u' x.1 w' (by omega) h5 h6 h7
  · simp only [hx, if_true]
    exact .ret ⟨h5, h6⟩

end

end Utp
