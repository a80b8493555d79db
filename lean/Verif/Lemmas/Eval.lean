import Verif.Lemmas.Logic
/-!
# Equations to evaluate computations
-/

namespace Utp
open M

variable {E : Env} {α β γ : Type}

theorem andThen_getS (f : Socket → M β) (w : World) : M.andThen getS f w = f w.s w := rfl
theorem andThen_modS (g : Socket → Socket) (f : Unit → M β) (w : World) :
    M.andThen (modS g) f w = f () (w.setS (g w.s)) := rfl
theorem andThen_now (f : U32 → M β) (w : World) :
    M.andThen (now E) f w = f (E.now w.nNow) { w with nNow := w.nNow + 1 } := rfl
theorem andThen_rand (f : U16 → M β) (w : World) :
    M.andThen (rand E) f w = f (E.rand w.nRand) { w with nRand := w.nRand + 1 } := rfl
theorem andThen_ret (a : α) (f : α → M β) (w : World) : M.andThen (M.ret a) f w = f a w := rfl
theorem andThen_throw (e : IoErr) (f : α → M β) (w : World) : M.andThen (M.throw e) f w = (.err e, w) := rfl
theorem andThen_panic (f : α → M β) (w : World) : M.andThen M.panic f w = (.panic, w) := rfl
theorem andThen_never (f : α → M β) (w : World) : M.andThen M.never f w = (.pending, w) := rfl
theorem andThen_some (a : α) (f : α → M β) (w : World) : M.andThen (orPanic (some a)) f w = f a w := rfl
theorem andThen_none (f : α → M β) (w : World) : M.andThen (orPanic none) f w = (.panic, w) := rfl
theorem ret_run (a : α) (w : World) : M.ret a w = (.ok a, w) := rfl
theorem throw_run (e : IoErr) (w : World) : (M.throw e : M α) w = (.err e, w) := rfl
theorem modS_run (g : Socket → Socket) (w : World) : modS g w = (.ok (), w.setS (g w.s)) := rfl
theorem panic_run (w : World) : (M.panic : M α) w = (.panic, w) := rfl
theorem never_run (w : World) : (M.never : M α) w = (.pending, w) := rfl
theorem some_run (a : α) (w : World) : orPanic (some a) w = (.ok a, w) := rfl

theorem andThen_assoc (m : M α) (f : α → M β) (g : β → M γ) :
    M.andThen (M.andThen m f) g = M.andThen m fun a => M.andThen (f a) g := by
  funext w
  unfold M.andThen
  rcases m w with ⟨r, w'⟩
  cases r <;> rfl

theorem andThen_ite (c : Prop) [Decidable c] (m m' : M α) (f : α → M β) :
    M.andThen (if c then m else m') f = if c then M.andThen m f else M.andThen m' f := by
  split <;> rfl

theorem ite_run (c : Prop) [Decidable c] (m m' : M α) (w : World) : (if c then m else m') w = if c then m w else m' w := by
  split <;> rfl

theorem andThen_eq {m : M α} {f : α → M β} {w w' : World} {a : α} (h : m w = (.ok a, w')) : M.andThen m f w = f a w' := by
  unfold M.andThen; rw [h]
theorem andThen_err {m : M α} {f : α → M β} {w w' : World} {e : IoErr} (h : m w = (.err e, w')) :
    M.andThen m f w = (.err e, w') := by
  unfold M.andThen; rw [h]
theorem andThen_eq_panic {m : M α} {f : α → M β} {w w' : World} (h : m w = (.panic, w')) :
    M.andThen m f w = (.panic, w') := by
  unfold M.andThen; rw [h]
theorem andThen_pending {m : M α} {f : α → M β} {w w' : World} (h : m w = (.pending, w')) :
    M.andThen m f w = (.pending, w') := by
  unfold M.andThen; rw [h]

theorem overflowIf_false (E : Env) : overflowIf E false = M.ret () := by simp [overflowIf]
theorem overflowIf_release (hc : E.checks = false) (b : Bool) : overflowIf E b = M.ret () := by simp [overflowIf, hc]
theorem overflowIf_run (b : Bool) (w : World) : overflowIf E b w = (if E.checks && b then .panic else .ok (), w) := by
  unfold overflowIf; split <;> rfl

/-- Evaluate the primitives at the head of a computation. -/
macro "msimp" loc:(Lean.Parser.Tactic.location)? : tactic =>
  `(tactic| simp only [bind_def, pure_def, andThen_assoc, andThen_getS, andThen_modS, andThen_now, andThen_rand, andThen_ret,
      andThen_throw, andThen_panic, andThen_never, andThen_some, andThen_none, ret_run, throw_run, modS_run, panic_run,
      never_run, some_run, andThen_ite, ite_run] $[$loc]?)

theorem udpSend_ok {dst : Addr} {b : Bytes} {w : World} (h : E.snd w.nSnd = .ok) :
    udpSend E dst b w = (.ok (), { w with nSnd := w.nSnd + 1, log := w.log ++ [.send dst b true] }) := by
  simp [udpSend, h]

theorem udpSend_fail {dst : Addr} {b : Bytes} {w : World} {k : ErrorKind} (h : E.snd w.nSnd = .fail k) :
    udpSend E dst b w = (.err (.os k), { w with nSnd := w.nSnd + 1, log := w.log ++ [.send dst b false] }) := by
  simp [udpSend, h]

theorem udpSend_never {dst : Addr} {b : Bytes} {w : World} (h : E.snd w.nSnd = .never) :
    udpSend E dst b w = (.pending, { w with nSnd := w.nSnd + 1, log := w.log ++ [.send dst b false] }) := by
  simp [udpSend, h]

theorem udpSend_cases (dst : Addr) (b : Bytes) (w : World) :
    ∃ r ok, udpSend E dst b w = (r, { w with nSnd := w.nSnd + 1, log := w.log ++ [.send dst b ok] }) ∧
      (r = .ok () ∧ ok = true ∧ E.snd w.nSnd = .ok ∨
        (∃ k, r = .err (.os k) ∧ E.snd w.nSnd = .fail k) ∨ (r = .pending ∧ E.snd w.nSnd = .never)) := by
  simp only [udpSend]
  cases E.snd w.nSnd with
  | ok => exact ⟨_, true, rfl, by simp⟩
  | fail k => exact ⟨_, false, rfl, by simp⟩
  | never => exact ⟨_, false, rfl, by simp⟩

theorem udpSend_snd (dst : Addr) (b : Bytes) (w : World) : (udpSend E dst b w).2 =
    { w with nSnd := w.nSnd + 1, log := w.log ++ [.send dst b (decide (E.snd w.nSnd = .ok))] } := by
  simp only [udpSend]
  cases E.snd w.nSnd <;> simp

theorem udpSend_err (dst : Addr) (b : Bytes) (w : World) (e : IoErr) (h : (udpSend E dst b w).1 = .err e) : ∃ k, e = .os k := by
  simp only [udpSend] at h
  cases hs : E.snd w.nSnd <;> simp [hs] at h
  exact ⟨_, h.symm⟩

/-- The world after a receive. -/
def World.waited (w : World) (t : Option U64) : World := { w with nNet := w.nNet + 1, log := w.log ++ [.wait t] }

theorem udpRecv_dgram {w : World} {b : Bytes} {src : Addr} (h : E.net w.nNet = .dgram b src) (t : Option U64) (n : Nat) :
    udpRecv E t n w = (.ok (.ok (b.take n, src)), w.waited t) := by simp only [udpRecv, h, World.waited]
theorem udpRecv_fail {w : World} {k : ErrorKind} (h : E.net w.nNet = .fail k) (t : Option U64) (n : Nat) :
    udpRecv E t n w = (.ok (.error k), w.waited t) := by simp only [udpRecv, h, World.waited]
theorem udpRecv_never {w : World} (h : E.net w.nNet = .never) (t : Option U64) (n : Nat) :
    udpRecv E t n w = (.pending, w.waited t) := by simp only [udpRecv, h, World.waited]

theorem andThen_ret_snd (m : M α) (f : α → β) (w : World) : (M.andThen m (fun a => M.ret (f a)) w).2 = (m w).2 := by
  unfold M.andThen
  rcases m w with ⟨r, w'⟩
  cases r <;> rfl

end Utp
