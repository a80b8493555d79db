import Verif.Lemmas.OtherLimit
import Verif.Samples
import Mathlib.Data.List.Forall2
/-!
# C119: the limit of retries matters only if the peer is silent
-/

namespace Utp
open M

variable {E : Env}

/-- C119: if never more than `g` waits in a row are in vain, then all limits of retries above `g` are the same: whatever they are, and
whatever they are set to between the operations, all results are the same, and the worlds differ in nothing but the limit. -/
theorem C119_runs {g : Nat} (hg : HeardWithin g E.net) (fuel : Nat) : ∀ {ops ops' : List Op}, List.Forall₂ (SameButLimit g) ops ops' →
    ∀ {w : World} {n : U32}, g < w.s.maxRetries.toNat → g < n.toNat → results E fuel ops' (w.withLimit n) = results E fuel ops w ∧
      ∃ n', g < n'.toNat ∧ runs E fuel ops' (w.withLimit n) = (runs E fuel ops w).withLimit n'
  | _, _, .nil, _, n, _, hn => ⟨rfl, n, hn, rfl⟩
  | _, _, .cons (.same h) ho, w, n, hw, hn => by
    rename_i ops ops' op
    obtain ⟨h1, h2⟩ := lim_runOp hg hn fuel h w hw
    obtain ⟨h3, h4⟩ := C119_runs hg fuel ho h2 hn
    simp only [results, runs, h1]
    exact ⟨by rw [h3], h4⟩
  | _, _, .cons (.set m m' hm hm') ho, w, n, _, _ => by
    rename_i ops ops'
    obtain ⟨h3, h4⟩ := C119_runs hg fuel ho (w := w.withLimit m) hm hm'
    exact ⟨congrArg (Res.ok Out.unit :: ·) h3, h4⟩

/-- C119 in other words: setting the limit to anything above `g` has no effect, and the same is sent and waited for. -/
theorem C119_set {g : Nat} (hg : HeardWithin g E.net) (fuel : Nat) (ops : List Op) (ho : ∀ op ∈ ops, ∀ k, op ≠ .setMaxRetries k) {w : World} {n : U32}
    (hw : g < w.s.maxRetries.toNat) (hn : g < n.toNat) :
    results E fuel (.setMaxRetries n :: ops) w = .ok .unit :: results E fuel ops w ∧
      (runs E fuel (.setMaxRetries n :: ops) w).log = (runs E fuel ops w).log := by
  have hs : ∀ l : List Op, (∀ op ∈ l, ∀ k, op ≠ .setMaxRetries k) → List.Forall₂ (SameButLimit g) l l := fun l hl =>
    List.forall₂_same.2 fun op h => .same (hl op h)
  obtain ⟨h1, n', _, h2⟩ := C119_runs hg fuel (hs ops ho) hw hn
  exact ⟨congrArg (Res.ok Out.unit :: ·) h1, (congrArg World.log h2).trans rfl⟩

namespace Sample

/-- Two waits in vain, data, three waits in vain, and an acknowledgement again and again. -/
def patchyEnv : Env := { env [] with net := fun k => match k with
  | 2 => arr (dg .data 6 2 99 [1, 2])
  | k => if k < 6 then .fail .timedOut else arr (dg .state 6 3 100 []) }

end Sample

section
open Sample

/-- The hypothesis of the theorems above holds here. -/
example : HeardWithin 3 patchyEnv.net := by
  intro k
  match k with
  | 0 => exact ⟨2, by omega, fun h => h⟩
  | 1 => exact ⟨1, by omega, fun h => h⟩
  | 2 => exact ⟨0, by omega, fun h => h⟩
  | 3 => exact ⟨3, by omega, fun h => h⟩
  | 4 => exact ⟨2, by omega, fun h => h⟩
  | 5 => exact ⟨1, by omega, fun h => h⟩
  | k + 6 =>
    refine ⟨0, by omega, ?_⟩
    show ¬ (if k + 6 < 6 then NetEvent.fail .timedOut else arr (dg .state 6 3 100 [])).silent
    rw [if_neg (by omega)]
    exact fun h => h

/-- With the limit 4 all goes as with the limit of a new socket, which is 5; with the limit 3 `flush` fails: the bound in the theorems
cannot be lower. -/
example : (server patchyEnv).s.maxRetries = 5 ∧
    (results patchyEnv 20 [.recvFrom 10, .sendTo [7], .flush] (server patchyEnv)).map bytesOf = [some [1, 2], none, none] ∧
    (results patchyEnv 20 [.setMaxRetries 4, .recvFrom 10, .sendTo [7], .flush] (server patchyEnv)).map bytesOf = [none, some [1, 2], none, none] ∧
    (results patchyEnv 20 [.setMaxRetries 4, .recvFrom 10, .sendTo [7], .flush] (server patchyEnv)).getLast? = some (.ok .unit) ∧
    (results patchyEnv 20 [.setMaxRetries 3, .recvFrom 10, .sendTo [7], .flush] (server patchyEnv)).getLast? = some (.err (.sock .connectionTimedOut)) := by decide +kernel

end

end Utp
