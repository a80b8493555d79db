import Verif.Lemmas.Strangers
import Verif.Spec.Run
import Verif.Samples
/-!
# C65: what strangers can make a socket send
-/

namespace Utp
open M

variable {E : Env} {a : Addr}

theorem reset_isReset (s : Socket) (t : U32) (pkt : Packet) : IsReset ((s.prepareReply t pkt .reset).setWndSize WINDOW_SIZE).bytes := by
  have h := (prepareReply_plain s t pkt .reset).setWndSize WINDOW_SIZE
  exact ⟨by simp [Socket.prepareReply]; decide, _, h.accepted, h.ty⟩

theorem replyWith_reset {pkt reply : Packet} {w w' : World} (h : replyWith E pkt .reset w = (.ok (some reply), w')) :
    IsReset (reply.setWndSize WINDOW_SIZE).bytes := by
  unfold replyWith at h
  msimp at h
  simp only [Prod.mk.injEq, Res.ok.injEq, Option.some.injEq] at h
  rw [← h.1]
  exact reset_isReset _ _ _

/-- Which replies there are. -/
theorem handlePacket_reply {fuel : Nat} {rec : M (Bytes × Addr)} (hr : FrAll E a rec) {pkt reply : Packet} {src : Addr} {w w' : World}
    (h : handlePacket E fuel rec pkt src w = (.ok (some reply), w')) :
    IsReset (reply.setWndSize WINDOW_SIZE).bytes ∨
      w'.s.Established ∧ (pkt.getType = some .data ∨ pkt.getType = some .fin) ∧ (pkt.connectionId = w'.s.senderId ∨ pkt.connectionId = w'.s.receiverId) ∨
      w'.s.connectedTo = src := by
  unfold handlePacket at h
  simp only [bind_def] at h
  obtain ⟨_, w1, h1, h⟩ := andThen_ok h
  rw [andThen_getS] at h
  obtain ⟨ty, w2, h2, h⟩ := andThen_ok h
  obtain ⟨hty, rfl⟩ := orPanic_eq h2
  split at h
  · exact .inl (replyWith_reset h)
  · rename_i hc
    obtain ⟨t, w3, h3, h⟩ := andThen_ok h
    obtain ⟨_, w4, h4, h⟩ := andThen_ok h
    have hw4 : w4.s.state = w1.s.state ∧ SameEnds w1.s w4.s := by
      simp only [M.modS, Prod.mk.injEq] at h4
      rw [← h4.2, ← (now_eq h3).1]; exact ⟨rfl, rfl, rfl, rfl⟩
    rw [← hw4.1] at h
    have hf := fr_dispatch (E := E) hr fuel pkt src ty w4
    unfold Fr at hf
    rw [h] at hf
    have key (hs : w4.s.state = .connected ∨ w4.s.state = .finSent ∨ w4.s.state = .closed) (ht : ty = .data ∨ ty = .fin) :
        w'.s.Established ∧ (pkt.getType = some .data ∨ pkt.getType = some .fin) ∧ (pkt.connectionId = w'.s.senderId ∨ pkt.connectionId = w'.s.receiverId) := by
      obtain ⟨e1, -, e2, e3⟩ := hf.est (by rcases hs with h | h | h <;> exact ⟨by rw [h]; simp, by rw [h]; simp⟩)
      refine ⟨e1, by rw [hty]; simpa using ht, ?_⟩
      have hne : ty ≠ .syn := by rcases ht with rfl | rfl <;> simp
      have hns : w1.s.state ≠ .synSent := by rw [← hw4.1]; rcases hs with h | h | h <;> simp [h]
      simp only [ne_eq, hne, not_false_eq_true, hns, true_and, Classical.not_not] at hc
      simp only at e2 e3
      rw [e2, e3, hw4.2.2.1, hw4.2.2.2]
      exact hc
    cases ty with
    | syn =>
      cases hs : w4.s.state with
      | new =>
        rw [hs] at h
        right; right
        simp only [dispatch, onSyn] at h
        simp only [bind_def] at h
        obtain ⟨_, w5, h5, h⟩ := andThen_ok h
        obtain ⟨_, w6, h6, h⟩ := andThen_ok h
        msimp at h
        simp only [Prod.mk.injEq] at h
        rw [← h.2]
        rfl
      | _ => rw [hs] at h; exact .inl (replyWith_reset h)
    | state =>
      exfalso
      cases hs : w4.s.state with
      | connected =>
        rw [hs] at h
        simp only [dispatch, bind_def] at h
        obtain ⟨_, _, _, h⟩ := andThen_ok h
        simp [pure_def, M.ret] at h
      | synSent =>
        rw [hs] at h
        simp only [dispatch, onSynAck, bind_def] at h
        rw [andThen_getS] at h
        obtain ⟨_, w5, h5, h⟩ := andThen_ok h
        msimp at h
        simp at h
      | finSent =>
        rw [hs] at h
        simp only [dispatch, onFinAck] at h
        msimp at h
        simp at h
      | _ => rw [hs] at h; simp [dispatch, M.throw] at h
    | data =>
      cases hs : w4.s.state with
      | connected => exact .inr (.inl (key (by simp [hs]) (by simp)))
      | finSent => exact .inr (.inl (key (by simp [hs]) (by simp)))
      | _ => rw [hs] at h; simp [dispatch, M.throw] at h
    | fin =>
      cases hs : w4.s.state with
      | connected => exact .inr (.inl (key (by simp [hs]) (by simp)))
      | finSent => exact .inr (.inl (key (by simp [hs]) (by simp)))
      | closed => exact .inr (.inl (key (by simp [hs]) (by simp)))
      | _ => rw [hs] at h; simp [dispatch, M.throw] at h
    | reset =>
      exfalso
      cases hs : w4.s.state <;> (rw [hs] at h; simp [dispatch, onReset, M.throw, bind_def, M.andThen, M.modS] at h)

/-- The environment in which nothing arrives. -/
def Env.deaf (E : Env) : Env := { E with net := fun _ => .never }

/-- While waiting nothing is sent to strangers. -/
theorem recvWait_silent (fuel retries : Nat) {w : World} (h : w.s.connectedTo ≠ a) :
    ∃ l, (recvWait E fuel retries w).2.log = w.log ++ l ∧ sendsTo a l = [] := by
  have hf : Frugal E.deaf a w (recvWait E fuel retries w).2 := fr_recvWait fuel retries w
  obtain ⟨sw, ct, cw, st, hs, -⟩ := (recvWait_frame (E := E) fuel retries w).socket
  obtain ⟨l, ks, h1, -, -, h4⟩ := hf.log h (by rw [hs]; exact h)
  refine ⟨l, h1, ?_⟩
  cases hl : sendsTo a l with
  | nil => rfl
  | cons r l' =>
    rw [hl] at h4
    cases h4 with
    | cons h _ => obtain ⟨b, pkt, hn, -⟩ := h; simp [Env.deaf] at hn

theorem fr_recv : ∀ fuel len, FrAll E a (recv E fuel len)
  | 0, _, _ => .never
  | fuel + 1, len, w => by
    have ih : FrAll E a (recv E fuel BUF_SIZE) := fr_recv fuel BUF_SIZE
    unfold recv recvBody Fr
    rw [bind_def]
    have hf : Frugal E a w (recvWait E fuel 0 w).2 := fr_recvWait fuel 0 w
    have hsil := fun h => recvWait_silent (E := E) (a := a) fuel 0 (w := w) h
    have hgot := (recvWait_frame (E := E) fuel 0 w).got
    rcases hw : recvWait E fuel 0 w with ⟨r, w1⟩
    rw [hw] at hf hsil hgot
    cases r with
    | err e => rw [andThen_err hw]; exact hf
    | panic => rw [andThen_eq_panic hw]; exact hf
    | pending => rw [andThen_pending hw]; exact hf
    | ok x =>
      obtain ⟨b, src⟩ := x
      obtain ⟨k, b0, g1, g2, g3, g4⟩ := hgot _ rfl
      rw [andThen_eq hw]
      simp only at g1 g2 g3 g4
      subst g4
      cases hp : Packet.tryFrom (b0.take 1520) with
      | none => simp only [hp, bind_def]; rw [andThen_none]; exact hf
      | some y =>
        simp only [hp, bind_def]
        rw [andThen_some]
        cases y with
        | error e => exact hf
        | ok pkt =>
          simp only
          -- the packet is handled
          unfold recvPacket
          rw [bind_def]
          have hh : Frugal E a w1 (handlePacket E fuel (recv E fuel BUF_SIZE) pkt src w1).2 := fr_handlePacket ih fuel pkt src w1
          have hrep := fun reply w' h => handlePacket_reply (E := E) (fuel := fuel) ih (pkt := pkt) (reply := reply) (src := src) (w := w1) (w' := w') h
          rcases hm : handlePacket E fuel (recv E fuel BUF_SIZE) pkt src w1 with ⟨r2, w2⟩
          rw [hm] at hh hrep
          cases r2 with
          | err e => rw [andThen_err hm]; exact hf.trans hh
          | panic => rw [andThen_eq_panic hm]; exact hf.trans hh
          | pending => rw [andThen_pending hm]; exact hf.trans hh
          | ok reply =>
            rw [andThen_eq hm]
            -- everything up to and including the reply
            have hsend : Frugal E a w (sendReply E src reply w2).2 := by
              cases reply with
              | none => exact hf.trans hh
              | some reply =>
                simp only [sendReply]
                rw [udpSend_snd]
                have hq := hf.trans hh
                refine ⟨hq.est, hq.chg, hq.net, fun h1 h2 => ?_⟩
                have h2 : w2.s.connectedTo ≠ a := h2
                by_cases hsa : src = a
                · subst hsa
                  obtain ⟨l1, e1, s1⟩ := hsil h1
                  have hc1 : w1.s.connectedTo ≠ src := by
                    intro hm
                    rcases hf.chg with hd | hd
                    · exact h1 (hd.1 ▸ hm)
                    · exact h2 ((hh.est hd).2.1.trans hm)
                  obtain ⟨l2, ks, e2, e3, e4, e5⟩ := hh.log hc1 h2
                  have n2 := hh.net
                  simp only at e1 e2 e4 e5 n2
                  refine ⟨l1 ++ l2 ++ [.send src (reply.setWndSize WINDOW_SIZE).bytes (decide (E.snd w2.nSnd = .ok))], ks ++ [k], ?_, ?_, ?_, ?_⟩
                  · rw [e2, e1]; simp
                  · refine List.nodup_append.mpr ⟨e3, by simp, fun x hx y hy e => ?_⟩
                    have := e4 x hx
                    simp only [List.mem_singleton] at hy
                    omega
                  · intro j hj
                    simp only [List.mem_append, List.mem_singleton] at hj
                    rcases hj with hj | rfl
                    · have := e4 j hj; simp only; omega
                    · simp only; omega
                  · rw [sendsTo_append, sendsTo_append, s1]
                    refine Forall₂.append' e5 ?_
                    simp only [sendsTo, List.filterMap_cons, ↓reduceIte, List.filterMap_nil]
                    refine .cons ⟨b0, pkt, g3, hp, ?_⟩ .nil
                    rcases hrep reply w2 rfl with h | h | h
                    · exact .inl h
                    · exact .inr h
                    · exact absurd h h2
                · obtain ⟨l, ks, e1, e2, e3, e4⟩ := hq.log h1 h2
                  refine ⟨l ++ [.send src (reply.setWndSize WINDOW_SIZE).bytes (decide (E.snd w2.nSnd = .ok))], ks, ?_, e2, e3, ?_⟩
                  · simp only at e1; rw [e1]; simp
                  · rw [sendsTo_append]
                    simpa [sendsTo, hsa] using e4
            have hrest : ∀ w3, Fr E a (M.andThen (orPanic pkt.getType) fun ty => M.andThen (modS fun s => if ty = .data ∧ 0 < (pkt.seqNr - s.lastDropped).toNat then s.insertIntoBuffer pkt else s)
                fun _ => M.andThen (flushIncoming E len) fun out => M.ret (out, src)) w3 := by
              intro w3
              refine .andThen .orPanic fun ty w4 _ => .andThen (.modS ?_ ?_) fun _ w5 _ => .andThen (fr_flushIncoming len w5) fun _ _ _ => .ret
              · split <;> exact fun h => h
              · split <;> exact ⟨rfl, rfl, rfl⟩
            rw [bind_def]
            rcases hr3 : sendReply E src reply w2 with ⟨r3, w3⟩
            rw [hr3] at hsend
            cases r3 with
            | err e => rw [andThen_err hr3]; exact hsend
            | panic => rw [andThen_eq_panic hr3]; exact hsend
            | pending => rw [andThen_pending hr3]; exact hsend
            | ok _ => rw [andThen_eq hr3]; exact hsend.trans (hrest w3)

theorem fr_recvFromLoop (fuel len : Nat) : ∀ n, FrAll E a (recvFromLoop E fuel len n)
  | 0, _ => .never
  | n + 1, _ => .seq .getS fun _ _ => .ite (fun _ => .pure) fun _ => .seq (fr_recv fuel len _) fun _ w =>
      .ite (fun _ => fr_recvFromLoop fuel len n w) fun _ => .pure

theorem fr_sendQueue (fuel : Nat) : ∀ n, FrAll E a (sendQueue E fuel n)
  | 0, _ => .never
  | n + 1, w => by
    unfold sendQueue
    refine .seq .getS fun s _ => ?_
    split
    · exact .pure
    · exact .seq (.modS (fun h => h) ⟨rfl, rfl, rfl⟩) fun _ _ => .seq (fr_sendPacket (fr_recv fuel BUF_SIZE) fuel _ _) fun _ _ => .seq .getS fun _ _ =>
        .seq .overflowIf fun _ _ => .seq (.modS (fun h => h) ⟨rfl, rfl, rfl⟩) fun _ w => fr_sendQueue fuel n w

theorem fr_scratchRecv (fuel : Nat) : FrAll E a (scratchRecv E fuel) := fun w => .seq (fr_recv fuel BUF_SIZE w) fun _ _ => .pure

theorem fr_flush (fuel : Nat) : FrAll E a (flush E fuel) :=
  Fr.whileM (fun _ => .seq .getS fun _ _ => .pure) (fr_scratchRecv fuel) fuel

theorem fr_close (fuel : Nat) : FrAll E a (close E fuel) := fun _ =>
  .seq .getS fun _ _ => .ite (fun _ => .pure) fun _ => .seq (fr_flush fuel _) fun _ _ => .bind .getS fun s w h => by
    obtain ⟨rfl, rfl⟩ := getS_eq h
    exact .bind .now fun _ _ h => .seq (.udpSend (by rw [(now_eq h).1])) fun _ _ => .seq (.modS (fun _ => ⟨by simp, by simp⟩) ⟨rfl, rfl, rfl⟩) fun _ _ =>
      Fr.whileM (fun _ => .seq .getS fun _ _ => .pure) (fr_scratchRecv fuel) fuel _

theorem enqueue_conn (l : List Bytes) : ∀ s : Socket, (l.foldl enqueue s).state = s.state ∧ SameEnds s (l.foldl enqueue s) := by
  induction l with
  | nil => exact fun s => ⟨rfl, rfl, rfl, rfl⟩
  | cons c l ih => exact fun s => ⟨(ih (enqueue s c)).1, (ih (enqueue s c)).2⟩

theorem fr_runOp (fuel : Nat) (op : Op) : FrAll E a (runOp E fuel op) := by
  intro w
  cases op with
  | recvFrom len =>
    exact .seq (.seq (fr_flushIncoming len w) fun _ _ => .seq .getS fun _ _ => .ite (fun _ => .pure) fun _ => .ite (fun _ => .throw) fun _ =>
      fr_recvFromLoop fuel len fuel _) fun _ _ => .pure
  | sendTo buf =>
    exact .seq (.seq .getS fun _ w => .ite (fun _ => .throw) fun _ => .seq (.modS (established_state (enqueue_conn _ _).1) (enqueue_conn _ _).2) fun _ w =>
      .seq (fr_sendQueue fuel fuel w) fun _ _ => .pure) fun _ _ => .pure
  | flush => exact .seq (fr_flush fuel w) fun _ _ => .pure
  | close => exact .seq (fr_close fuel w) fun _ _ => .pure
  | setMaxRetries n => exact .seq (.modS (fun h => h) ⟨rfl, rfl, rfl⟩) fun _ _ => .pure

theorem fr_run {w w' : World} (h : Run E w w') : Frugal E a w w' := by
  induction h with
  | refl => exact .refl _
  | op fuel op _ _ ih => exact ih.trans (fr_runOp fuel op _)

/-! ### C65 -/

/-- Whatever is sent to an address that is not the peer's answers a valid packet that arrived from there, each at most once.
The answer is a Reset, unless the packet is a Data or Fin packet with an identifier of the connection.
(Missing for C65: the answer to such a packet can be longer than the packet, see the counterexample.) -/
theorem C65_partial {w w' : World} (h : Run E w w') (h1 : w.s.connectedTo ≠ a) (h2 : w'.s.connectedTo ≠ a) : OnlyAnswers E a w w' :=
  (fr_run h).log h1 h2

/-- The same for a single operation, even if it panics. -/
theorem C65_op_partial (fuel : Nat) (op : Op) {w w' : World} {r : Res Out} (h : runOp E fuel op w = (r, w')) (h1 : w.s.connectedTo ≠ a)
    (h2 : w'.s.connectedTo ≠ a) : OnlyAnswers E a w w' := by
  have := fr_runOp (E := E) (a := a) fuel op w
  unfold Fr at this
  rw [h] at this
  exact this.log h1 h2

/-- The sum over a part is at most the sum over the whole. -/
theorem sum_subset {f : Nat → Nat} : ∀ {L ks : List Nat}, ks.Nodup → (∀ k ∈ ks, k ∈ L) → (ks.map f).sum ≤ (L.map f).sum
  | _, [], _, _ => by simp
  | L, k :: ks, hn, hs => by
    have hk : k ∈ L := hs k (by simp)
    have hp : (L.map f).sum = f k + ((L.erase k).map f).sum := by
      rw [((List.perm_cons_erase hk).map f).sum_nat]; simp
    have hn' := List.nodup_cons.mp hn
    have := sum_subset (f := f) (L := L.erase k) hn'.2 fun j hj =>
      (List.mem_erase_of_ne (fun e : j = k => hn'.1 (e ▸ hj))).mpr (hs j (by simp [hj]))
    simp only [List.map_cons, List.sum_cons]
    omega

/-- An address from which no Data or Fin packet with an identifier of the connection comes gets Resets only, and no more bytes than
came from there. -/
theorem C65_ignorant {w w' : World} (h : Run E w w') (h1 : w.s.connectedTo ≠ a) (h2 : w'.s.connectedTo ≠ a)
    (hi : Ignorant E a w'.s w.nNet w'.nNet) :
    ∃ l, w'.log = w.log ++ l ∧ (∀ r ∈ sendsTo a l, IsReset r) ∧
      ((sendsTo a l).map List.length).sum ≤ ((List.range' w.nNet (w'.nNet - w.nNet)).map (bytesFrom E a)).sum := by
  obtain ⟨l, ks, e1, e2, e3, e4⟩ := C65_partial h h1 h2
  have e5 : List.Forall₂ (fun k r => IsReset r ∧ 20 ≤ bytesFrom E a k) ks (sendsTo a l) := by
    clear e1 e2
    generalize sendsTo a l = rs at e4
    induction e4 with
    | nil => exact .nil
    | @cons k r ks' rs hkr _ ih =>
      refine .cons ?_ (ih fun j hj => e3 j (by simp [hj]))
      obtain ⟨b, pkt, g1, g2, g3⟩ := hkr
      have hk := e3 k (by simp)
      refine ⟨?_, ?_⟩
      · rcases g3 with g3 | ⟨-, g4, g5⟩
        · exact g3
        · have := hi k b pkt hk.1 hk.2 g1 g2 g4
          rcases g5 with g5 | g5
          · exact absurd g5 this.1
          · exact absurd g5 this.2
      · have := accepted_len g2
        rw [C02_lossless g2, List.length_take] at this
        simp only [bytesFrom, g1, if_true]
        omega
  have e6 : (∀ r ∈ sendsTo a l, IsReset r) ∧ ((sendsTo a l).map List.length).sum ≤ (ks.map (bytesFrom E a)).sum := by
    clear e1 e2 e3 e4
    generalize sendsTo a l = rs at e5
    induction e5 with
    | nil => simp
    | cons hkr _ ih =>
      obtain ⟨g1, g2⟩ := hkr
      refine ⟨fun r hr => ?_, ?_⟩
      · rcases List.mem_cons.mp hr with rfl | hr
        · exact g1
        · exact ih.1 r hr
      · have := g1.1
        simp only [List.map_cons, List.sum_cons]
        omega
  refine ⟨l, e1, e6.1, Nat.le_trans e6.2 (sum_subset e2 fun k hk => ?_)⟩
  have := e3 k hk
  rw [List.mem_range'_1]
  omega

/-- Nothing is sent to an address from which nothing comes. -/
theorem C65_unprovoked {w w' : World} (h : Run E w w') (h1 : w.s.connectedTo ≠ a) (h2 : w'.s.connectedTo ≠ a)
    (hn : ∀ k b, w.nNet ≤ k → k < w'.nNet → E.net k ≠ .dgram b a) : ∃ l, w'.log = w.log ++ l ∧ sendsTo a l = [] := by
  obtain ⟨l, ks, e1, -, e3, e4⟩ := C65_partial h h1 h2
  refine ⟨l, e1, ?_⟩
  cases hl : sendsTo a l with
  | nil => rfl
  | cons r rs =>
    rw [hl] at e4
    cases e4 with
    | cons hkr _ =>
      obtain ⟨b, pkt, g1, -⟩ := hkr
      exact absurd g1 (hn _ b (e3 _ (by simp)).1 (e3 _ (by simp)).2)

section
open Sample

/-- A third party sends a Data packet of another connection and a SYN; then the peer sends data. -/
def strangers : Env := env [.dgram (dg .data 77 50 100 [1, 2]) other, .dgram (dg .syn 9 1 0) other, arr (dg .data 6 2 100 [4])]

/-- Each gets a Reset. -/
example : let w := runs strangers 10 [.recvFrom 9] (server strangers)
    Run strangers (server strangers) w ∧ (server strangers).s.connectedTo ≠ other ∧ w.s.connectedTo ≠ other ∧
    (sendsTo other w.log).map List.length = [20, 20] ∧ (sendsTo other w.log).map (fun b => (Packet.mk b).getType) = [some .reset, some .reset] ∧
    (sendsTo peer w.log).length = 2 ∧ ((List.range' 0 3).map (bytesFrom strangers other)).sum = 42 :=
  ⟨run_runs 10 _ .refl (by decide +kernel), by decide +kernel, by decide +kernel, by decide +kernel, by decide +kernel, by decide +kernel, by decide +kernel⟩

/-- The peer's packet 65535 is half read; then, while `flush` waits, packet 1 arrives with another sender's address. -/
def reflector : Env := env [arr (dg .data 6 65535 100 [4, 5]), .dgram (dg .data 6 1 100 [7]) other, arr (dg .state 6 9 100)]

/-- What is missing for C65: the 21 bytes from that address are answered with 8214. -/
theorem C65_counterexample :
    let w := runs reflector 10 [.recvFrom 1, .sendTo [1], .flush] (serverAt 65534 reflector)
    Reach reflector w ∧ Run reflector (serverAt 65534 reflector) w ∧ (serverAt 65534 reflector).s.connectedTo = peer ∧ w.s.connectedTo = peer ∧
    (sendsTo other w.log).map List.length = [8214] ∧ ((List.range w.nNet).map (bytesFrom reflector other)).sum = 21 :=
  ⟨reach_serverAt _ _ _ (by decide +kernel) (by decide +kernel), run_runs 10 _ .refl (by decide +kernel), by decide +kernel, by decide +kernel,
    by decide +kernel, by decide +kernel⟩

end

end Utp
