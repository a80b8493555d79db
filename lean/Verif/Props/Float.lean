import Verif.Lemmas.Growth
/-!
# C13 in floating point
-/

namespace Utp

/-- The filtered delay, computed with the rounding of `f64` and cut off to an integer, lies between any lower and any upper bound of the
samples. -/
theorem C13_f64 {xs : List ℤ} {lo hi : ℤ} (hne : xs ≠ []) (hx : ∀ x ∈ xs, lo ≤ x ∧ x ≤ hi) (hlo : -(2 ^ 33) ≤ lo) (hhi : hi ≤ 2 ^ 33) :
    lo ≤ filteredDelay xs ∧ filteredDelay xs ≤ hi := by
  obtain ⟨first, rest, rfl⟩ := List.exists_cons_of_ne_nil hne
  have hb : ∀ x ∈ first :: rest, |x| ≤ 2 ^ 33 := by
    intro x h
    have := hx x h
    rw [abs_le]; constructor <;> omega
  have hfirst := hx first (by simp)
  have hlh : lo ≤ hi := hfirst.1.trans hfirst.2
  obtain ⟨v, hv⟩ : ∃ v, v = ((rest.map (fun x : ℤ => (x : ℚ))).foldl (stepR rne) (first : ℚ)) := ⟨_, rfl⟩
  have he : ewmaF64 (first :: rest) (rne (333 / 1000)) = v := by
    rw [rne_alpha, hv]
    unfold ewmaF64
    simp only
    rw [rne_int (by have := hb first (by simp); omega), ewmaF64_eq rest _ fun x h => by have := hb x (List.mem_cons_of_mem _ h); omega]
  have hmem : ∀ q ∈ rest.map (fun x : ℤ => (x : ℚ)), (lo : ℚ) ≤ q ∧ q ≤ (hi : ℚ) := by
    intro q hq
    obtain ⟨x, h, rfl⟩ := List.mem_map.mp hq
    have := hx x (List.mem_cons_of_mem _ h)
    exact ⟨by exact_mod_cast this.1, by exact_mod_cast this.2⟩
  obtain ⟨l1, l2⟩ := fold_lower rne_nearest (lo := lo) (by rw [abs_le]; constructor <;> omega)
    (rest.map (fun x : ℤ => (x : ℚ))) first (by exact_mod_cast hfirst.1) (fun q hq => (hmem q hq).1)
  obtain ⟨u1, u2⟩ := fold_lower rne_nearest.flip (lo := -hi) (by rw [abs_neg, abs_le]; constructor <;> omega)
    ((rest.map (fun x : ℤ => (x : ℚ))).map (-·)) (-first)
    (by have : (first : ℚ) ≤ hi := by exact_mod_cast hfirst.2
        push_cast; linarith)
    (by
      intro q hq
      obtain ⟨y, hy, rfl⟩ := List.mem_map.mp hq
      have := (hmem y hy).2
      push_cast; linarith)
  rw [foldl_flip] at u1 u2
  rw [← hv] at l1 l2 u1 u2
  push_cast at u1 u2
  have t1 : lo ≤ truncate v := truncate_ge l1 l2
  have t2 : truncate v ≤ hi := truncate_le (fun h => by have := u1 (by omega); linarith) (by linarith)
  unfold filteredDelay asI64
  rw [he]
  simp only
  rw [if_neg (by omega), if_neg (by omega)]
  exact ⟨t1, t2⟩

/-- One sample. -/
theorem C13_f64_one {x : ℤ} (h : |x| ≤ 2 ^ 33) : filteredDelay [x] = x := by
  have := abs_le.mp h
  obtain ⟨h1, h2⟩ := C13_f64 (xs := [x]) (lo := x) (hi := x) (by simp) (by simp) (by omega) (by omega)
  omega

/-- No sample. -/
theorem C13_f64_none : filteredDelay [] = 0 := by decide +kernel

/-- Three samples; and the average of equal samples, which is larger than the sample before it is cut off. -/
example : filteredDelay [200000, 10000, 30000] = 101188 ∧ 3 < ewmaF64 [3, 3] (rne (333 / 1000)) ∧ filteredDelay [3, 3] = 3 := by decide +kernel

end Utp
