import Verif.Lemmas.Header
/-! Helper lemmas for `set_sack`. -/

namespace Utp
open Spec Packet

/-- A chain whose last extension announces a further one of code `f` instead of the end. -/
def chainTo : List WireExt → U8 → Bytes
  | [], _ => []
  | e :: rest, f =>
    (if rest = [] then f else announce rest) :: BitVec.ofNat 8 e.data.length :: (e.data ++ chainTo rest f)

theorem chainTo_append (exts : List WireExt) (x : WireExt) :
    chainBytes (exts ++ [x]) = chainTo exts x.code ++ (0 :: BitVec.ofNat 8 x.data.length :: x.data) := by
  induction exts with
  | nil => simp [chainBytes, chainTo, announce]
  | cons e rest ih =>
    rw [List.cons_append, chainBytes, chainTo, ih]
    have : announce (rest ++ [x]) = if rest = [] then x.code else announce rest := by
      cases rest <;> simp [announce]
    rw [this]; simp

theorem chainTo_length (exts : List WireExt) (f : U8) : (chainTo exts f).length = (chainBytes exts).length := by
  induction exts with
  | nil => simp [chainBytes, chainTo]
  | cons e rest ih => simp [chainBytes, chainTo, ih]

theorem sackLoop_fwd (exts : List WireExt) : ∀ (pre payload : Bytes) (fuel : Nat),
    (∀ e ∈ exts, e.Ok) → exts.length < fuel →
    sackLoop fuel (pre ++ (chainBytes exts ++ payload)) pre.length (.ofU8 (announce exts))
      = some (pre ++ (chainTo exts 1 ++ payload), pre.length + (chainBytes exts).length) := by
  induction exts with
  | nil =>
    intro pre payload fuel _ hf
    obtain ⟨f, rfl⟩ : ∃ f, fuel = f + 1 := ⟨fuel - 1, by simp at hf; omega⟩
    simp [sackLoop, announce, ExtensionType.ofU8, chainBytes, chainTo]
  | cons e rest ih =>
    intro pre payload fuel hok hf
    obtain ⟨f, rfl⟩ : ∃ f, fuel = f + 1 := ⟨fuel - 1, by simp at hf; omega⟩
    obtain ⟨hc, hpos, hm, hle⟩ := hok e (by simp)
    rw [chain_cons_append, sackLoop]
    have hd := tail_decomp pre (announce rest) (BitVec.ofNat 8 e.data.length)
      (e.data ++ (chainBytes rest ++ payload))
    have hne : ExtensionType.ofU8 (announce (e :: rest)) ≠ .none := by
      rw [Ne, ofU8_eq_none]; simpa [announce] using hc
    rw [hd.1, hd.2]
    simp only [lenByte hle, ofU8_eq_none]
    rw [if_pos ⟨by simp, hne⟩]
    have hann : announce rest = 0 ↔ rest = [] := by
      cases rest with
      | nil => simp [announce]
      | cons r rs => simpa [announce] using (hok r (by simp)).1
    have hset : (if announce rest = 0 then
        (pre ++ announce rest :: BitVec.ofNat 8 e.data.length :: (e.data ++ (chainBytes rest ++ payload))).set
          pre.length ExtensionType.selectiveAck.toU8
        else pre ++ announce rest :: BitVec.ofNat 8 e.data.length :: (e.data ++ (chainBytes rest ++ payload)))
        = pre ++ (if rest = [] then 1 else announce rest) :: BitVec.ofNat 8 e.data.length ::
            (e.data ++ (chainBytes rest ++ payload)) := by
      by_cases hr : rest = []
      · rw [if_pos (hann.mpr hr), if_pos hr, List.set_append_right _ _ (by omega)]
        simp [ExtensionType.toU8]
      · rw [if_neg (mt hann.mp hr), if_neg hr]
    rw [hset]
    have := ih (pre ++ (if rest = [] then 1 else announce rest) :: BitVec.ofNat 8 e.data.length :: e.data) payload f
      (fun x hx => hok x (by simp [hx])) (by simp at hf; omega)
    simp only [List.append_assoc, List.cons_append, List.length_append, List.length_cons] at this
    rw [show pre.length + (e.data.length + 2) = pre.length + (e.data.length + 1 + 1) by omega, this]
    simp [chainBytes, chainTo]; omega

end Utp
