import Verif.Packet
import Verif.Spec.Wire
/-! Helper lemmas for the packet codec. -/

namespace Utp
open Spec Packet

theorem ofU8_eq_none {n : U8} : ExtensionType.ofU8 n = .none ↔ n = 0 := by
  unfold ExtensionType.ofU8
  split
  · simp_all
  · split <;> simp_all

theorem tail_decomp (pre : Bytes) (a b : U8) (rest : Bytes) :
    (pre ++ a :: b :: rest)[pre.length + 1]? = some b ∧ (pre ++ a :: b :: rest)[pre.length]? = some a := by
  constructor
  · rw [List.getElem?_append_right (by omega)]; simp
  · rw [List.getElem?_append_right (by omega)]; simp

theorem lenByte {n : Nat} (h : n ≤ 255) : (BitVec.ofNat 8 n).toNat = n := by
  simp only [BitVec.toNat_ofNat]; omega

theorem checkLoop_fwd (exts : List WireExt) : ∀ (pre payload : Bytes) (fuel : Nat),
    (∀ e ∈ exts, e.Ok) → exts.length < fuel →
    checkLoop (pre ++ (chainBytes exts ++ payload)) fuel pre.length (.ofU8 (announce exts))
      = some (.ok .none) := by
  induction exts with
  | nil =>
    intro pre payload fuel _ hf
    obtain ⟨f, rfl⟩ : ∃ f, fuel = f + 1 := ⟨fuel - 1, by simp at hf; omega⟩
    simp [checkLoop, announce, ExtensionType.ofU8]
  | cons e rest ih =>
    intro pre payload fuel hok hf
    obtain ⟨f, rfl⟩ : ∃ f, fuel = f + 1 := ⟨fuel - 1, by simp at hf; omega⟩
    obtain ⟨hc, hpos, hm, hle⟩ := hok e (by simp)
    have h1 : chainBytes (e :: rest) ++ payload
        = announce rest :: BitVec.ofNat 8 e.data.length :: (e.data ++ (chainBytes rest ++ payload)) := by
      simp [chainBytes]
    rw [h1, checkLoop]
    have hd := tail_decomp pre (announce rest) (BitVec.ofNat 8 e.data.length)
      (e.data ++ (chainBytes rest ++ payload))
    have hne : ExtensionType.ofU8 (announce (e :: rest)) ≠ .none := by
      rw [Ne, ofU8_eq_none]; simpa [announce] using hc
    rw [hd.1, hd.2]
    simp only [lenByte hle]
    rw [if_pos ⟨by simp, hne⟩, if_neg (by simp), if_neg (by simp only [List.length_append, List.length_cons]; omega)]
    have := ih (pre ++ announce rest :: BitVec.ofNat 8 e.data.length :: e.data) payload f
      (fun x hx => hok x (by simp [hx])) (by simp at hf; omega)
    simp only [List.append_assoc, List.cons_append, List.length_append, List.length_cons] at this
    exact this

theorem chain_cons_append (e : WireExt) (rest : List WireExt) (payload : Bytes) :
    chainBytes (e :: rest) ++ payload
      = announce rest :: BitVec.ofNat 8 e.data.length :: (e.data ++ (chainBytes rest ++ payload)) := by
  simp [chainBytes]

theorem payloadLoop_fwd (exts : List WireExt) : ∀ (pre payload : Bytes) (fuel : Nat),
    (∀ e ∈ exts, e.Ok) → exts.length < fuel →
    payloadLoop (pre ++ (chainBytes exts ++ payload)) fuel pre.length (.ofU8 (announce exts))
      = some (pre.length + (chainBytes exts).length) := by
  induction exts with
  | nil =>
    intro pre payload fuel _ hf
    obtain ⟨f, rfl⟩ : ∃ f, fuel = f + 1 := ⟨fuel - 1, by simp at hf; omega⟩
    simp [payloadLoop, announce, ExtensionType.ofU8, chainBytes]
  | cons e rest ih =>
    intro pre payload fuel hok hf
    obtain ⟨f, rfl⟩ : ∃ f, fuel = f + 1 := ⟨fuel - 1, by simp at hf; omega⟩
    obtain ⟨hc, hpos, hm, hle⟩ := hok e (by simp)
    rw [chain_cons_append, payloadLoop]
    have hd := tail_decomp pre (announce rest) (BitVec.ofNat 8 e.data.length)
      (e.data ++ (chainBytes rest ++ payload))
    have hne : ExtensionType.ofU8 (announce (e :: rest)) ≠ .none := by
      rw [Ne, ofU8_eq_none]; simpa [announce] using hc
    rw [hd.1, hd.2]
    simp only [lenByte hle]
    rw [if_pos ⟨by simp, hne⟩]
    have := ih (pre ++ announce rest :: BitVec.ofNat 8 e.data.length :: e.data) payload f
      (fun x hx => hok x (by simp [hx])) (by simp at hf; omega)
    simp only [List.append_assoc, List.cons_append, List.length_append, List.length_cons] at this
    rw [show pre.length + (e.data.length + 2) = pre.length + (e.data.length + 1 + 1) by omega, this]
    simp [chainBytes]; omega

/-- The model's view of a wire extension. -/
def toExt (e : WireExt) : Extension := ⟨.ofU8 e.code, e.data⟩

theorem extensionsLoop_fwd (exts : List WireExt) : ∀ (pre payload : Bytes) (fuel : Nat),
    (∀ e ∈ exts, e.Ok) → exts.length < fuel →
    extensionsLoop (pre ++ (chainBytes exts ++ payload)) fuel pre.length (.ofU8 (announce exts))
      = some (exts.map toExt) := by
  induction exts with
  | nil =>
    intro pre payload fuel _ hf
    obtain ⟨f, rfl⟩ : ∃ f, fuel = f + 1 := ⟨fuel - 1, by simp at hf; omega⟩
    simp [extensionsLoop, announce, ExtensionType.ofU8]
  | cons e rest ih =>
    intro pre payload fuel hok hf
    obtain ⟨f, rfl⟩ : ∃ f, fuel = f + 1 := ⟨fuel - 1, by simp at hf; omega⟩
    obtain ⟨hc, hpos, hm, hle⟩ := hok e (by simp)
    rw [chain_cons_append, extensionsLoop]
    have hd := tail_decomp pre (announce rest) (BitVec.ofNat 8 e.data.length)
      (e.data ++ (chainBytes rest ++ payload))
    have hne : ExtensionType.ofU8 (announce (e :: rest)) ≠ .none := by
      rw [Ne, ofU8_eq_none]; simpa [announce] using hc
    rw [hd.1, hd.2]
    simp only [lenByte hle]
    rw [if_neg hne, if_pos (by simp), if_pos (by simp; omega)]
    have := ih (pre ++ announce rest :: BitVec.ofNat 8 e.data.length :: e.data) payload f
      (fun x hx => hok x (by simp [hx])) (by simp at hf; omega)
    simp only [List.append_assoc, List.cons_append, List.length_append, List.length_cons] at this
    rw [show pre.length + (e.data.length + 2) = pre.length + (e.data.length + 1 + 1) by omega, this]
    have hdrop : (pre ++ announce rest :: BitVec.ofNat 8 e.data.length ::
        (e.data ++ (chainBytes rest ++ payload))).drop (pre.length + 2)
          = e.data ++ (chainBytes rest ++ payload) := by
      rw [List.drop_append, List.drop_eq_nil_of_le (by omega)]
      simp
    rw [hdrop]
    simp [toExt, announce]

theorem checkLoop_bwd : ∀ (fuel : Nat) (pre rest : Bytes) (e : U8),
    checkLoop (pre ++ rest) fuel pre.length (.ofU8 e) = some (.ok .none) →
    ∃ exts payload, (∀ x ∈ exts, WireExt.Ok x) ∧ rest = chainBytes exts ++ payload ∧ announce exts = e := by
  intro fuel
  induction fuel with
  | zero => intro pre rest e h; simp [checkLoop] at h
  | succ f ih =>
    intro pre rest e h
    rw [checkLoop] at h
    split at h
    · rename_i hc
      split at h
      · simp at h
      · rename_i hlen
        match rest, hlen, hc, h with
        | [], hlen, hc, h => simp at hc
        | [x], hlen, hc, h => simp at hlen
        | a :: b :: tl, hlen, hc, h =>
          have hd := tail_decomp pre a b tl
          rw [hd.1, hd.2] at h
          simp only at h
          split at h
          · simp at h
          · rename_i hb
            simp only [List.length_append, List.length_cons, not_or] at hb
            have hsplit : tl = tl.take b.toNat ++ tl.drop b.toNat := (List.take_append_drop ..).symm
            have htl : (tl.take b.toNat).length = b.toNat := by simp; omega
            have hh : checkLoop ((pre ++ a :: b :: tl.take b.toNat) ++ tl.drop b.toNat) f
                (pre ++ a :: b :: tl.take b.toNat).length (.ofU8 a) = some (.ok .none) := by
              rw [← h]
              congr 1
              · simp
              · simp only [List.length_append, List.length_cons, htl]
            obtain ⟨exts, payload, hok, hrest, hann⟩ := ih _ _ _ hh
            refine ⟨⟨e, tl.take b.toNat⟩ :: exts, payload, ?_, ?_, rfl⟩
            · intro x hx
              simp only [List.mem_cons] at hx
              rcases hx with rfl | hx
              · have := b.isLt
                refine ⟨?_, ?_, ?_, ?_⟩
                · have := hc.2; rw [Ne, ofU8_eq_none] at this; exact this
                all_goals (simp only [htl]; omega)
              · exact hok x hx
            · rw [chain_cons_append, hann]
              simp only [htl]
              rw [← hrest, ← hsplit]
              simp
    · rename_i hc
      simp only [Option.some.injEq, Except.ok.injEq] at h
      rw [ofU8_eq_none] at h
      exact ⟨[], rest, by simp, by simp [chainBytes], by simp [announce, h]⟩

theorem checkLoop_some (data : Bytes) : ∀ (fuel index : Nat) (e : ExtensionType),
    data.length - index < fuel → (checkLoop data fuel index e).isSome := by
  intro fuel
  induction fuel with
  | zero => intro index e h; omega
  | succ f ih =>
    intro index e h
    rw [checkLoop]
    split
    · rename_i hc
      split
      · simp
      · rename_i hlen
        rw [List.getElem?_eq_getElem (by omega), List.getElem?_eq_getElem (by omega)]
        simp only
        split
        · simp
        · exact ih _ _ (by omega)
    · simp

theorem chain_len_le (exts : List WireExt) : exts.length ≤ (chainBytes exts).length := by
  induction exts with
  | nil => simp
  | cons e r ih => simp [chainBytes]; omega

theorem tryFrom_type {n : U8} : (∃ t, PacketType.tryFrom n = .ok t) ↔ n.toNat ≤ 4 := by
  have h : ∀ n : U8, (PacketType.tryFrom n).toOption.isSome = decide (n.toNat ≤ 4) := by decide
  have hn := h n
  cases ht : PacketType.tryFrom n with
  | error e => simp [ht, Except.toOption] at hn; simp; omega
  | ok t => simp [ht, Except.toOption] at hn; simp [hn]

theorem typeNibble (b : U8) : (b >>> 4).toNat = b.toNat / 16 := by revert b; decide
theorem verNibble (b : U8) : b &&& 0x0F#8 = 1#8 ↔ b.toNat % 16 = 1 := by revert b; decide

end Utp
