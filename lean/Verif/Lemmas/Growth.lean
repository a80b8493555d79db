import Verif.Lemmas.Average
/-!
# Lemmas about cutting off to integers and about the floating point part of `update_congestion_window`
-/

namespace Utp

theorem truncate_ge {x : ℚ} {lo : ℤ} (h1 : 0 ≤ lo → (lo : ℚ) ≤ x) (h2 : (lo : ℚ) - 1 < x) : lo ≤ truncate x := by
  unfold truncate
  rw [rat_floor_eq, rat_floor_eq]
  split
  · rename_i hx
    have : ⌊-x⌋ < -lo + 1 := by
      rw [Int.floor_lt]; push_cast; linarith
    omega
  · rename_i hx
    rw [Int.le_floor]
    by_cases h : 0 ≤ lo
    · exact h1 h
    · have : (lo : ℚ) ≤ 0 := by exact_mod_cast (show lo ≤ 0 by omega)
      linarith [not_lt.mp hx]

theorem truncate_le {x : ℚ} {hi : ℤ} (h1 : hi ≤ 0 → x ≤ (hi : ℚ)) (h2 : x < (hi : ℚ) + 1) : truncate x ≤ hi := by
  unfold truncate
  rw [rat_floor_eq, rat_floor_eq]
  split
  · rename_i hx
    have : -hi ≤ ⌊-x⌋ := by
      rw [Int.le_floor]
      push_cast
      by_cases h : hi ≤ 0
      · linarith [h1 h]
      · have : (0 : ℚ) ≤ hi := by exact_mod_cast (show 0 ≤ hi by omega)
        linarith
    omega
  · rename_i hx
    have : ⌊x⌋ < hi + 1 := by rw [Int.floor_lt]; push_cast; linarith
    omega

theorem ewmaF64_eq : ∀ (xs : List ℤ) (a : ℚ), (∀ x ∈ xs, |x| ≤ 2 ^ 53) →
    xs.foldl (fun (avg : ℚ) (s : ℤ) => rne (rne (alpha64 * rne s) + rne (rne (1 - alpha64) * avg))) a =
      (xs.map (fun x : ℤ => (x : ℚ))).foldl (stepR rne) a
  | [], _, _ => rfl
  | x :: xs, a, h => by
    rw [List.foldl_cons, List.map_cons, List.foldl_cons, ewmaF64_eq xs _ fun y hy => h y (List.mem_cons_of_mem _ hy)]
    rw [rne_int (h x (by simp)), rne_beta]
    rfl

theorem rne_nat {n : ℕ} (h : n ≤ 2 ^ 53) : rne (n : ℚ) = n := by
  have := rne_int (i := (n : ℤ)) (by rw [abs_of_nonneg (by omega)]; exact_mod_cast h)
  push_cast at this
  exact this

theorem rne_u32 (x : U32) : rne (x.toNat : ℚ) = x.toNat := rne_nat (by have := x.isLt; omega)

theorem offTarget_eq (q : U32) : offTarget q = rne ((100000 - (q.toNat : ℚ)) / 100000) := by
  unfold offTarget
  rw [rne_u32]
  have := rne_int (i := 100000 - (q.toNat : ℤ)) (by have := q.isLt; rw [abs_le]; constructor <;> omega)
  push_cast at this
  rw [this]

/-- The floating point part with the deviation from the target as an argument. -/
def grow (c b off : ℚ) : ℚ := rne (c + rne (rne (rne (off * b) * 1400) / c))

theorem grow_mono {c b o o' : ℚ} (hc : 0 < c) (hb : 0 ≤ b) (h : o ≤ o') : grow c b o ≤ grow c b o' := by
  refine rne_mono (add_le_add_right (rne_mono (div_le_div_of_nonneg_right (rne_mono ?_) hc.le)) c)
  exact mul_le_mul_of_nonneg_right (rne_mono (mul_le_mul_of_nonneg_right h hb)) (by norm_num)

theorem cwndF64_eq (c q b : U32) : cwndF64 c q b = asU32 (grow c.toNat b.toNat (offTarget q)) := by
  unfold cwndF64 grow
  simp only [rne_u32, one_mul]
  rw [rne_nearest.exact (y := offTarget q) (by unfold offTarget; exact (rne_nearest _).1)]

theorem grow_zero (c : U32) (b : ℚ) : grow c.toNat b 0 = c.toNat := by
  simp [grow, rne_zero, rne_u32]

theorem asU32_nat {n : ℕ} (h : n < 2 ^ 32) : (asU32 (n : ℚ)).toNat = n := by
  have ht : truncate (n : ℚ) = n := by
    unfold truncate
    rw [if_neg (by have : (0 : ℚ) ≤ n := by positivity
                   linarith), rat_floor_eq, Int.floor_natCast]
  unfold asU32
  simp only [ht]
  rw [if_neg (by omega), if_neg (by omega)]
  simp; omega

theorem truncate_mono {x y : ℚ} (h : x ≤ y) : truncate x ≤ truncate y := by
  unfold truncate
  simp only [rat_floor_eq]
  split <;> split
  · exact neg_le_neg (Int.floor_le_floor (by linarith))
  · rename_i h1 h2
    have h3 : 0 ≤ ⌊-x⌋ := Int.floor_nonneg.mpr (by linarith)
    have h4 : 0 ≤ ⌊y⌋ := Int.floor_nonneg.mpr (not_lt.mp h2)
    omega
  · rename_i h1 h2
    linarith [not_lt.mp h1]
  · exact Int.floor_le_floor h

theorem asU32_toNat (x : ℚ) : ((asU32 x).toNat : ℤ) = max 0 (min (truncate x) (2 ^ 32 - 1)) := by
  unfold asU32
  simp only
  split
  · simp; omega
  · split
    · simp; omega
    · simp; omega

theorem asU32_mono {x y : ℚ} (h : x ≤ y) : (asU32 x).toNat ≤ (asU32 y).toNat := by
  have ht := truncate_mono h
  have h1 := asU32_toNat x
  have h2 := asU32_toNat y
  omega

theorem offTarget_anti {q q' : U32} (h : q.toNat ≤ q'.toNat) : offTarget q' ≤ offTarget q := by
  rw [offTarget_eq, offTarget_eq]
  have : (q.toNat : ℚ) ≤ q'.toNat := by exact_mod_cast h
  exact rne_mono (div_le_div_of_nonneg_right (by linarith) (by norm_num))

theorem offTarget_bound (q : U32) : (q.toNat ≤ 100000 → 0 ≤ offTarget q) ∧ (100000 ≤ q.toNat → offTarget q ≤ 0) ∧ offTarget q ≤ 1 ∧
    (q.toNat ≤ 200000 → -1 ≤ offTarget q) := by
  rw [offTarget_eq]
  have r1 : rne 1 = 1 := by have := rne_int (i := 1) (by norm_num); push_cast at this; exact this
  have r2 : rne (-1) = -1 := by have := rne_int (i := -1) (by norm_num); push_cast at this; exact this
  have h0 : (0 : ℚ) ≤ q.toNat := by positivity
  refine ⟨fun h => rne_nonneg ?_, fun h => rne_nonpos ?_, ?_, fun h => ?_⟩
  · have : (q.toNat : ℚ) ≤ 100000 := by exact_mod_cast h
    exact div_nonneg (by linarith) (by norm_num)
  · have : (100000 : ℚ) ≤ q.toNat := by exact_mod_cast h
    exact div_nonpos_of_nonpos_of_nonneg (by linarith) (by norm_num)
  · rw [← r1]
    refine rne_mono ?_
    rw [div_le_iff₀ (by norm_num)]; linarith
  · have : (q.toNat : ℚ) ≤ 200000 := by exact_mod_cast h
    rw [← r2]
    refine rne_mono ?_
    rw [le_div_iff₀ (by norm_num)]; linarith

/-- At most `MSS` per window of acknowledged bytes, up and down. -/
theorem grow_one {c b : U32} {k : ℕ} (hc : 0 < c.toNat) (hb : b.toNat ≤ k * c.toNat) (hk : 1400 * k ≤ 2 ^ 52) :
    grow c.toNat b.toNat 1 ≤ ((c.toNat + 1400 * k : ℕ) : ℚ) ∧ (((c.toNat : ℤ) - 1400 * k : ℤ) : ℚ) ≤ grow c.toNat b.toNat (-1) := by
  have hcl := c.isLt
  have hbl := b.isLt
  have hcq : (0 : ℚ) < c.toNat := by exact_mod_cast hc
  have hbq : (b.toNat : ℚ) ≤ k * c.toNat := by exact_mod_cast hb
  have e1 : rne (rne (1 * (b.toNat : ℚ)) * 1400) = ((b.toNat * 1400 : ℕ) : ℚ) := by
    rw [one_mul, rne_u32]
    have := rne_nat (n := b.toNat * 1400) (by omega)
    rw [← this]; congr 1; push_cast; ring
  have e2 : rne (rne (-1 * (b.toNat : ℚ)) * 1400) = ((-(b.toNat * 1400 : ℕ) : ℤ) : ℚ) := by
    have h1 := rne_int (i := -(b.toNat : ℤ)) (by rw [abs_neg, abs_of_nonneg (by omega)]; omega)
    have h2 := rne_int (i := -((b.toNat * 1400 : ℕ) : ℤ)) (by rw [abs_neg, abs_of_nonneg (by omega)]; omega)
    rw [← h2]
    congr 1
    have : (-1 : ℚ) * b.toNat = ((-(b.toNat : ℤ) : ℤ) : ℚ) := by push_cast; ring
    rw [this, h1]; push_cast; ring
  unfold grow
  rw [e1, e2]
  constructor
  · rw [← rne_nat (n := c.toNat + 1400 * k) (by omega)]
    refine rne_mono ?_
    have : rne (((b.toNat * 1400 : ℕ) : ℚ) / c.toNat) ≤ ((1400 * k : ℕ) : ℚ) := by
      rw [← rne_nat (n := 1400 * k) (by omega)]
      refine rne_mono ?_
      rw [div_le_iff₀ hcq]
      push_cast
      linarith
    push_cast at this ⊢
    linarith
  · rw [← rne_int (i := (c.toNat : ℤ) - 1400 * k) (by rw [abs_le]; constructor <;> omega)]
    refine rne_mono ?_
    have : ((-(1400 * k : ℕ) : ℤ) : ℚ) ≤ rne (((-(b.toNat * 1400 : ℕ) : ℤ) : ℚ) / c.toNat) := by
      rw [← rne_int (i := -((1400 * k : ℕ) : ℤ)) (by rw [abs_neg, abs_of_nonneg (by omega)]; omega)]
      refine rne_mono ?_
      rw [le_div_iff₀ hcq]
      push_cast
      linarith
    push_cast at this ⊢
    linarith

end Utp
