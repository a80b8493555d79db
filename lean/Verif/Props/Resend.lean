import Verif.Lemmas.Resend
/-!
# C92: a data packet is transmitted again only on a sign of loss
-/

namespace Utp
open Spec

variable {E : Env}

/-- C92.  From a connected socket on, whatever operations are run: as long as no receive timed out, no State packet carried a selective ack and no three State packets acknowledged the
same number, every Data datagram handed to the operating system carries the number of a packet that was still in the queue, or the next number, each one once and in order. -/
theorem C92_in_order {w0 w : World} (hs : w0.s.state ≠ .new ∧ w0.s.state ≠ .synSent) (hd : w0.s.dupAcks = 0) (h : Run E w0 w)
    (hn : NoLossSign E w0.s.senderId w0.s.receiverId w0.nNet w.nNet) :
    ∃ l N, w.log = w0.log ++ l ∧ (dataNumbers l).Sublist ((w0.s.unsent.map fun p => p.seqNr.toNat) ++ consecutive w0.s.seqNr.toNat N) := by
  have key : ∃ N, Order E w0.s.senderId w0.s.receiverId w0.nNet w0.log (w0.s.unsent.map fun p => p.seqNr.toNat) w0.s.seqNr.toNat N w := by
    clear hn
    induction h with
    | refl => exact ⟨0, Order.init hs hd⟩
    | @op v fuel op _ hp ih =>
      obtain ⟨N, ih⟩ := ih
      have h1 := order_runOp (N := N) fuel op v ih
      rcases e : runOp E fuel op v with ⟨r, u⟩
      rw [e] at h1 hp
      cases r with
      | panic => exact absurd rfl hp
      | _ => exact ⟨_, h1⟩
  obtain ⟨N, h1⟩ := key
  obtain ⟨l, h2, h3⟩ := h1.out hn
  exact ⟨l, N, h2, h3⟩

/-- C92.  A connection from its beginning on: without a sign of loss, no number is sent twice while no more than 65536 packets (of up to 1380 bytes) are written. -/
theorem C92_once {w0 : World} (hm : Made E w0) (hs : w0.s.state ≠ .new ∧ w0.s.state ≠ .synSent) (fuel : Nat) (ops : List Op) (hp : .panic ∉ results E fuel ops w0)
    (hN : (ops.map opPackets).sum ≤ 65536) (hn : NoLossSign E w0.s.senderId w0.s.receiverId w0.nNet (runs E fuel ops w0).nNet) :
    ∃ l, (runs E fuel ops w0).log = w0.log ++ l ∧ (dataNumbers l).Nodup := by
  obtain ⟨hd, hu, _⟩ := made_blank hm
  have key : ∀ (ops : List Op) (w : World) (N : Nat), .panic ∉ results E fuel ops w →
      Order E w0.s.senderId w0.s.receiverId w0.nNet w0.log (w0.s.unsent.map fun p => p.seqNr.toNat) w0.s.seqNr.toNat N w →
      Order E w0.s.senderId w0.s.receiverId w0.nNet w0.log (w0.s.unsent.map fun p => p.seqNr.toNat) w0.s.seqNr.toNat (N + (ops.map opPackets).sum) (runs E fuel ops w) := by
    intro ops
    induction ops with
    | nil => intro w N _ h; exact h
    | cons op ops ih =>
      intro w N hp h
      simp only [results, List.mem_cons, not_or] at hp
      have h1 := order_runOp (N := N) fuel op w h
      rcases e : runOp E fuel op w with ⟨r, u⟩
      rw [e] at h1 hp
      simp only [runs, e, List.map_cons, List.sum_cons, ← Nat.add_assoc]
      cases r with
      | panic => exact absurd rfl hp.1
      | _ => exact ih u _ hp.2 h1
  obtain ⟨l, h2, h3⟩ := (key ops w0 0 hp (Order.init hs hd)).out hn
  refine ⟨l, h2, h3.nodup ?_⟩
  rw [hu]
  exact consecutive_nodup (by simpa using hN)

/-- C92.  Receiving, flushing and closing send no Data datagram at all without a sign of loss. -/
theorem C92_silent {w : World} (hs : w.s.state ≠ .new ∧ w.s.state ≠ .synSent) (hd : w.s.dupAcks = 0) (fuel : Nat) (op : Op) (ho : ∀ buf, op ≠ .sendTo buf)
    (hp : (runOp E fuel op w).1 ≠ .panic) (hn : NoLossSign E w.s.senderId w.s.receiverId w.nNet (runOp E fuel op w).2.nNet) :
    ∃ l, (runOp E fuel op w).2.log = w.log ++ l ∧ ∀ dst b ok, .send dst b ok ∈ l → kind b ≠ 0 := by
  have key : KeepsCalm E w.s.senderId w.s.receiverId w.nNet 0 w.log [] (w.s.unsent.map Packet.seqNr) w.s.seqNr (runOp E fuel op) := by
    cases op with
    | recvFrom len => exact Holds.seq (calm_recvFrom fuel len) fun _ => Holds.pure fun _ h => h
    | sendTo buf => exact absurd rfl (ho buf)
    | flush => exact Holds.seq (calm_flush fuel) fun _ => Holds.pure fun _ h => h
    | close => exact Holds.seq (calm_close fuel) fun _ => Holds.pure fun _ h => h
    | setMaxRetries n => exact Holds.seq (calm_modS fun _ => .of rfl rfl rfl rfl rfl rfl rfl) fun _ => Holds.pure fun _ h => h
  have h1 := key w (Calm.init hs hd)
  have none : ∀ l, dataNumbers l = [] → ∀ dst b ok, .send dst b ok ∈ l → kind b ≠ 0 := by
    intro l hl dst b ok hb
    obtain ⟨l1, l2, rfl⟩ := List.append_of_mem hb
    rw [dataNumbers_append, dataNumbers] at hl
    intro hk
    rw [if_pos hk] at hl
    simp at hl
  rcases e : runOp E fuel op w with ⟨r, u⟩
  rw [e] at h1 hp hn
  cases r with
  | panic => exact absurd rfl hp
  | _ =>
    obtain ⟨l, e1, e2⟩ := h1.log
    exact ⟨l, e1, none l (by simpa using e2 hn)⟩

/-! ### The hypotheses are met, and each of the three signs matters -/

open Sample

/-- A datagram whose second byte is 0 has no extension. -/
theorem noExts_of_byte {d : Datagram} (hd : d.Ok) (h : d.bytes.getD 1 0 = 0) : d.exts = [] := by
  have h1 : d.header.getD 1 0 = 0 := by
    rw [Datagram.bytes] at h
    simp only [List.getD_eq_getElem?_getD] at h ⊢
    rwa [List.getElem?_append_left (by rw [hd.headerLen]; omega)] at h
  rw [hd.announced] at h1
  rcases e : d.exts with _ | ⟨x, xs⟩
  · rfl
  · rw [e] at h1
    exact absurd h1 (hd.extsOk x (by rw [e]; simp)).1

/-- Two packets are written and acknowledged one after the other; between the two the system reports an error. -/
def resendEnv : Env := env [arr (dg .state 6 2 100), .fail .other, arr (dg .state 6 2 101)]

theorem resendEnv_calm : NoLossSign resendEnv 5 6 0 3 := by
  refine ⟨fun k _ hk => ?_, fun k pkt d _ hk hs hd hb e he => ?_, fun i j k p q r _ h1 h2 h3 _ hq _ => ?_⟩
  · have : k = 0 ∨ k = 1 ∨ k = 2 := by omega
    rcases this with rfl | rfl | rfl <;> simp [NetEvent.isTimeout, resendEnv, env, arr]
  · obtain ⟨b, src, h1, h2, _, _⟩ := hs
    have hne : d.exts = [] := by
      refine noExts_of_byte hd ?_
      rw [← hb, C02_lossless h2]
      have : k = 0 ∨ k = 1 ∨ k = 2 := by omega
      rcases this with rfl | rfl | rfl
      · simp only [resendEnv, env, arr, List.getD_cons_zero, NetEvent.dgram.injEq] at h1
        rw [← h1.1]; decide +kernel
      · simp [resendEnv, env] at h1
      · simp only [resendEnv, env, arr, List.getD_cons_zero, List.getD_cons_succ, NetEvent.dgram.injEq] at h1
        rw [← h1.1]; decide +kernel
    rw [hne] at he
    cases he
  · obtain rfl : j = 1 := by omega
    obtain ⟨b, src, h1, _⟩ := hq
    simp [resendEnv, env] at h1

/-- `C92_once` at work: two packets, no sign of loss, each number sent once. -/
example : ∃ l, (runs resendEnv 10 [.sendTo [1, 2], .recvFrom 10, .sendTo [3], .flush] (server resendEnv)).log = (server resendEnv).log ++ l ∧ (dataNumbers l).Nodup :=
  C92_once (.accept 1 (arr (dg .syn 5 1 0)) (.ok here) (r := .ok ()) (src := peer) (by decide +kernel) (by simp)) (by decide +kernel) 10 _ (by decide +kernel) (by decide)
    (by
      have h1 : (server resendEnv).s.senderId = 5 := by decide +kernel
      have h2 : (server resendEnv).s.receiverId = 6 := by decide +kernel
      have h3 : (server resendEnv).nNet = 0 := by decide +kernel
      have h4 : (runs resendEnv 10 [.sendTo [1, 2], .recvFrom 10, .sendTo [3], .flush] (server resendEnv)).nNet = 3 := by decide +kernel
      rw [h1, h2, h3, h4]
      exact resendEnv_calm)

/-- The datagrams of this example. -/
example : dataNumbers (runs resendEnv 10 [.sendTo [1, 2], .recvFrom 10, .sendTo [3], .flush] (server resendEnv)).log = [100, 101] ∧
    results resendEnv 10 [.sendTo [1, 2], .recvFrom 10, .sendTo [3], .flush] (server resendEnv) =
      [.ok (.count 2), .err (.os .other), .ok (.count 1), .ok .unit] := by decide +kernel

/-- A timeout is a sign: the packet 100 is sent twice. -/
example : dataNumbers (runs (env [.fail .timedOut]) 10 [.sendTo [1, 2], .recvFrom 10] (server (env [.fail .timedOut]))).log = [100, 100] := by decide +kernel

/-- Three acknowledgements of the same number are a sign: the packet after it is sent twice. -/
example : dataNumbers (runs karnEnv2 10 [.sendTo [1, 2], .sendTo [3], .recvFrom 10] (server karnEnv2)).log = [100, 101, 101] := by decide +kernel

/-- A selective ack is a sign: the packet 100 is sent twice, although no number was acknowledged more than once. -/
example : dataNumbers (runs (env [arr (sackDg 6 2 99 [7, 0, 0, 0])]) 10 [.sendTo [1, 2], .sendTo [3], .sendTo [4], .sendTo [5], .recvFrom 10]
    (server (env [arr (sackDg 6 2 99 [7, 0, 0, 0])]))).log = [100, 101, 102, 103, 100] := by decide +kernel

end Utp
