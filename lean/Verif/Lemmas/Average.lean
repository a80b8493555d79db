import Verif.Lemmas.Float
/-!
# The moving average in floating point stays between its samples
-/

namespace Utp

/-- The double nearest to 0.333. -/
def alpha64 : ℚ := 5998794703657501 / 2 ^ 54
/-- `1.0 - 0.333` in doubles. -/
def beta64 : ℚ := 3003900951456121 / 2 ^ 52

theorem rne_alpha : rne (333 / 1000) = alpha64 := by decide +kernel
theorem rne_beta : rne (1 - alpha64) = beta64 := by decide +kernel

theorem alpha_beta : alpha64 + beta64 = 1 + 1 / 2 ^ 54 := by norm_num [alpha64, beta64]

/-- One step of the average with rounding `r`. -/
def stepR (r : ℚ → ℚ) (avg sample : ℚ) : ℚ := r (r (alpha64 * sample) + r (beta64 * avg))

variable {r : ℚ → ℚ}

theorem Nearest.zero (h : Nearest r) : r 0 = 0 := h.exact ⟨0, 0, by norm_num, by simp⟩

theorem stepR_mono (h : Nearest r) {a a' s s' : ℚ} (ha : a ≤ a') (hs : s ≤ s') : stepR r a s ≤ stepR r a' s' := by
  refine h.mono (add_le_add (h.mono ?_) (h.mono ?_))
  · exact mul_le_mul_of_nonneg_left hs (by norm_num [alpha64])
  · exact mul_le_mul_of_nonneg_left ha (by norm_num [beta64])

/-- The distance from an integer down to the next floating point number. -/
theorem gap {n : ℤ} {e : ℕ} (he : e ≤ 52) (hn : 2 ^ e < n) {y : ℚ} (hy : Representable y) (hlt : y < n) :
    (2 : ℚ) ^ ((e : ℤ) - 52) ≤ n - y := by
  obtain ⟨m, f, hm, rfl⟩ := hy
  have hp : (0 : ℚ) < (2 : ℚ) ^ ((e : ℤ) - 52) := by positivity
  by_cases hf : (e : ℤ) - 52 ≤ f
  · obtain ⟨k, hk⟩ := Int.eq_ofNat_of_zero_le (show 0 ≤ f - ((e : ℤ) - 52) by omega)
    obtain ⟨k', hk'⟩ := Nat.exists_eq_add_of_le he
    have e1 : (m : ℚ) * (2 : ℚ) ^ f = ((m * 2 ^ k : ℤ) : ℚ) * (2 : ℚ) ^ ((e : ℤ) - 52) := by
      push_cast
      rw [mul_assoc, ← zpow_natCast, ← zpow_add₀ (by norm_num)]
      congr 2
      omega
    have e2 : (n : ℚ) = ((n * 2 ^ k' : ℤ) : ℚ) * (2 : ℚ) ^ ((e : ℤ) - 52) := by
      push_cast
      rw [mul_assoc, ← zpow_natCast, ← zpow_add₀ (by norm_num)]
      rw [show (k' : ℤ) + ((e : ℤ) - 52) = 0 by omega]
      simp
    rw [e1, e2, ← sub_mul]
    rw [e1, e2] at hlt
    have h1 : ((m * 2 ^ k : ℤ) : ℚ) < ((n * 2 ^ k' : ℤ) : ℚ) := lt_of_mul_lt_mul_right hlt hp.le
    have h2 : m * 2 ^ k + 1 ≤ n * 2 ^ k' := by have : m * 2 ^ k < n * 2 ^ k' := by exact_mod_cast h1
                                               omega
    have h3 : (1 : ℚ) ≤ ((n * 2 ^ k' : ℤ) : ℚ) - ((m * 2 ^ k : ℤ) : ℚ) := by
      have : ((m * 2 ^ k + 1 : ℤ) : ℚ) ≤ ((n * 2 ^ k' : ℤ) : ℚ) := by exact_mod_cast h2
      rw [Int.cast_add, Int.cast_one] at this
      linarith
    calc (2 : ℚ) ^ ((e : ℤ) - 52) = 1 * (2 : ℚ) ^ ((e : ℤ) - 52) := (one_mul _).symm
      _ ≤ _ := mul_le_mul_of_nonneg_right h3 hp.le
  · have hmq : |(m : ℚ)| ≤ 2 ^ 53 := by exact_mod_cast hm
    have hy : |(m : ℚ) * (2 : ℚ) ^ f| ≤ (2 : ℚ) ^ e := by
      rw [abs_mul, abs_of_pos (show (0 : ℚ) < (2 : ℚ) ^ f by positivity)]
      have h3 : (2 : ℚ) ^ f ≤ (2 : ℚ) ^ ((e : ℤ) - 53) := zpow_le_zpow_right₀ (by norm_num) (by omega)
      have h4 : (2 : ℚ) ^ e = 2 ^ 53 * (2 : ℚ) ^ ((e : ℤ) - 53) := by
        rw [← zpow_natCast, ← zpow_natCast, ← zpow_add₀ (by norm_num)]
        congr 1; push_cast; ring
      rw [h4]
      exact mul_le_mul hmq h3 (by positivity) (by positivity)
    have h5 := (abs_le.mp hy).2
    have h6 : (2 : ℚ) ^ e + 1 ≤ n := by exact_mod_cast (show 2 ^ e + 1 ≤ n by omega)
    have h7 : (2 : ℚ) ^ ((e : ℤ) - 52) ≤ (2 : ℚ) ^ (0 : ℤ) := zpow_le_zpow_right₀ (by norm_num) (by omega)
    rw [zpow_zero] at h7
    linarith

/-- The average of an integer with itself is not smaller than the integer. -/
theorem stepR_ge (h : Nearest r) {n : ℤ} (h0 : 0 ≤ n) (hn : n ≤ 2 ^ 33) : (n : ℚ) ≤ stepR r n n := by
  rcases h0.eq_or_lt with rfl | hpos
  · simp [stepR, h.zero]
  have hnq : (0 : ℚ) < n := by exact_mod_cast hpos
  have hn33 : (n : ℚ) ≤ 2 ^ 33 := by exact_mod_cast hn
  have hrn : r (n : ℚ) = n := h.exact (representable_int (by rw [abs_of_pos hpos]; omega))
  obtain ⟨S, hS⟩ : ∃ S, S = r (alpha64 * n) + r (beta64 * n) := ⟨_, rfl⟩
  show (n : ℚ) ≤ r (r (alpha64 * n) + r (beta64 * n))
  rw [← hS]
  have ha0 : (0 : ℚ) < alpha64 := by norm_num [alpha64]
  have hb0 : (0 : ℚ) < beta64 := by norm_num [beta64]
  by_cases hge : (n : ℚ) ≤ S
  · rw [← hrn]; exact h.mono hge
  have hSn : S < n := not_le.mp hge
  by_contra hc
  have hc := not_le.mp hc
  -- the exponent of n
  obtain ⟨e, he1, he2⟩ : ∃ e : ℕ, 2 ^ e ≤ n ∧ n < 2 ^ (e + 1) := by
    refine ⟨n.toNat.log2, ?_, ?_⟩
    · have := Nat.log2_self_le (n := n.toNat) (by omega)
      have : ((2 ^ n.toNat.log2 : ℕ) : ℤ) ≤ (n.toNat : ℤ) := by exact_mod_cast this
      push_cast at this
      rwa [Int.toNat_of_nonneg h0] at this
    · have := Nat.lt_log2_self (n := n.toNat)
      have : (n.toNat : ℤ) < ((2 ^ (n.toNat.log2 + 1) : ℕ) : ℤ) := by exact_mod_cast this
      push_cast at this
      rwa [Int.toNat_of_nonneg h0] at this
  rcases he1.eq_or_lt with heq | hlt
  · -- a power of two: the products are exact
    have e1 : r (alpha64 * n) = alpha64 * n := by
      refine h.exact ⟨5998794703657501, (e : ℤ) - 54, by norm_num, ?_⟩
      rw [← heq, zpow_sub₀ (by norm_num)]
      push_cast
      rw [alpha64, zpow_natCast]
      norm_num
      ring
    have e2 : r (beta64 * n) = beta64 * n := by
      refine h.exact ⟨3003900951456121, (e : ℤ) - 52, by norm_num, ?_⟩
      rw [← heq, zpow_sub₀ (by norm_num)]
      push_cast
      rw [beta64, zpow_natCast]
      norm_num
      ring
    rw [e1, e2, ← add_mul, alpha_beta] at hS
    have : (n : ℚ) ≤ S := by rw [hS]; nlinarith
    exact hge this
  · have he : e ≤ 52 := by
      by_contra hce
      have : (2 : ℤ) ^ 53 ≤ 2 ^ e := pow_le_pow_right₀ (by norm_num) (by omega)
      omega
    have hg := gap he hlt (h S).1 hc
    have hnear := (h S).2 n (representable_int (by rw [abs_of_pos hpos]; omega))
    rw [abs_of_pos (show (0 : ℚ) < n - S by linarith)] at hnear
    have hnear := (abs_le.mp hnear).1
    have ea := abs_le.mp (h.error (alpha64 * n))
    have eb := abs_le.mp (h.error (beta64 * n))
    rw [abs_of_pos (mul_pos ha0 hnq)] at ea
    rw [abs_of_pos (mul_pos hb0 hnq)] at eb
    have hSlow : (1 + 1 / 2 ^ 54) * (1 - 1 / 2 ^ 53) * n ≤ S := by
      rw [hS, ← alpha_beta]
      have := ea.1; have := eb.1
      have : (alpha64 + beta64) * (1 - 1 / 2 ^ 53) * n = alpha64 * n - alpha64 * n / 2 ^ 53 + (beta64 * n - beta64 * n / 2 ^ 53) := by ring
      rw [this]
      linarith
    have hup : (n : ℚ) ≤ (2 : ℚ) ^ (e + 1) - 1 := by
      have : ((n + 1 : ℤ) : ℚ) ≤ ((2 ^ (e + 1) : ℤ) : ℚ) := by exact_mod_cast he2
      push_cast at this
      linarith
    have hz : (2 : ℚ) ^ ((e : ℤ) - 52) * 2 ^ 53 = (2 : ℚ) ^ (e + 1) := by
      rw [← zpow_natCast, ← zpow_natCast, ← zpow_add₀ (by norm_num)]
      congr 1; push_cast; ring
    -- n - r S ≤ 2 (n - S) ≤ n (2^-53 + 2^-106)
    have h9 : (n : ℚ) - r S ≤ n * (1 / 2 ^ 53 + 1 / 2 ^ 106) := by
      have : (1 + 1 / 2 ^ 54) * (1 - 1 / 2 ^ 53) * (n : ℚ) = n - n * (1 / 2 ^ 53 + 1 / 2 ^ 106) / 2 := by ring
      rw [this] at hSlow
      linarith
    have h10 : (2 : ℚ) ^ (e + 1) ≤ n * (1 + 1 / 2 ^ 53) := by
      have := hg.trans h9
      have := mul_le_mul_of_nonneg_right this (show (0 : ℚ) ≤ 2 ^ 53 by norm_num)
      rw [hz] at this
      refine this.trans (le_of_eq ?_)
      ring
    have h11 : (n : ℚ) * (1 / 2 ^ 53) < 1 := by
      calc (n : ℚ) * (1 / 2 ^ 53) ≤ 2 ^ 33 * (1 / 2 ^ 53) := mul_le_mul_of_nonneg_right hn33 (by norm_num)
        _ < 1 := by norm_num
    linarith

/-- An upper bound of the average that is kept. -/
theorem stepR_le (h : Nearest r) {hi avg s : ℚ} (h0 : 0 ≤ hi) (hs : s ≤ hi) (ha : avg ≤ hi * (1 + 1 / 2 ^ 49)) :
    stepR r avg s ≤ hi * (1 + 1 / 2 ^ 49) := by
  have ha0 : (0 : ℚ) ≤ alpha64 := by norm_num [alpha64]
  have hb0 : (0 : ℚ) ≤ beta64 := by norm_num [beta64]
  have up : ∀ x : ℚ, 0 ≤ x → r x ≤ x * (1 + 1 / 2 ^ 53) := by
    intro x hx
    have := (abs_le.mp (h.error x)).2
    rw [abs_of_nonneg hx] at this
    have e : x * (1 + 1 / 2 ^ 53) = x + x / 2 ^ 53 := by ring
    rw [e]; linarith
  have hA : (0 : ℚ) ≤ hi * (1 + 1 / 2 ^ 49) := mul_nonneg h0 (by norm_num)
  refine (stepR_mono h ha hs).trans ?_
  have h1 := up (alpha64 * hi) (mul_nonneg ha0 h0)
  have h2 := up (beta64 * (hi * (1 + 1 / 2 ^ 49))) (mul_nonneg hb0 hA)
  unfold stepR
  refine (h.mono (add_le_add h1 h2)).trans ((up _ ?_).trans ?_)
  · have := mul_nonneg (mul_nonneg ha0 h0) (show (0 : ℚ) ≤ 1 + 1 / 2 ^ 53 by norm_num)
    have := mul_nonneg (mul_nonneg hb0 hA) (show (0 : ℚ) ≤ 1 + 1 / 2 ^ 53 by norm_num)
    linarith
  · have e : (alpha64 * hi * (1 + 1 / 2 ^ 53) + beta64 * (hi * (1 + 1 / 2 ^ 49)) * (1 + 1 / 2 ^ 53)) * (1 + 1 / 2 ^ 53) =
        hi * ((alpha64 * (1 + 1 / 2 ^ 53) + beta64 * (1 + 1 / 2 ^ 49) * (1 + 1 / 2 ^ 53)) * (1 + 1 / 2 ^ 53)) := by ring
    rw [e]
    exact mul_le_mul_of_nonneg_left (by norm_num [alpha64, beta64]) h0

/-- Rounding of the opposite number. -/
def flipR (r : ℚ → ℚ) : ℚ → ℚ := fun x => -r (-x)

theorem Representable.neg {y : ℚ} (h : Representable y) : Representable (-y) := by
  obtain ⟨m, e, hm, rfl⟩ := h
  exact ⟨-m, e, by rwa [abs_neg], by push_cast; ring⟩

theorem Nearest.flip (h : Nearest r) : Nearest (flipR r) := by
  intro x
  refine ⟨(h (-x)).1.neg, fun y hy => ?_⟩
  have := (h (-x)).2 (-y) hy.neg
  have e1 : |flipR r x - x| = |r (-x) - -x| := by
    rw [← abs_neg]; unfold flipR; congr 1; ring
  have e2 : |-y - -x| = |y - x| := by rw [← abs_neg]; congr 1; ring
  rw [e1]; rwa [e2] at this

theorem stepR_flip (avg s : ℚ) : stepR (flipR r) (-avg) (-s) = -stepR r avg s := by
  simp only [stepR, flipR, mul_neg, neg_neg]
  congr 2
  ring

theorem foldl_flip (xs : List ℚ) (a : ℚ) : (xs.map (-·)).foldl (stepR (flipR r)) (-a) = -xs.foldl (stepR r) a := by
  induction xs generalizing a with
  | nil => rfl
  | cons x xs ih => simp only [List.map_cons, List.foldl_cons, stepR_flip, ih]

/-- The average is at least every non-negative lower bound. -/
theorem fold_ge (h : Nearest r) {lo : ℤ} (h0 : 0 ≤ lo) (h1 : lo ≤ 2 ^ 33) : ∀ (xs : List ℚ) (a : ℚ), (lo : ℚ) ≤ a → (∀ x ∈ xs, (lo : ℚ) ≤ x) →
    (lo : ℚ) ≤ xs.foldl (stepR r) a
  | [], _, ha, _ => ha
  | x :: xs, a, ha, hx => by
    rw [List.foldl_cons]
    exact fold_ge h h0 h1 xs _ ((stepR_ge h h0 h1).trans (stepR_mono h ha (hx x (by simp)))) fun y hy => hx y (List.mem_cons_of_mem _ hy)

theorem fold_le (h : Nearest r) {hi : ℚ} (h0 : 0 ≤ hi) : ∀ (xs : List ℚ) (a : ℚ), a ≤ hi * (1 + 1 / 2 ^ 49) → (∀ x ∈ xs, x ≤ hi) →
    xs.foldl (stepR r) a ≤ hi * (1 + 1 / 2 ^ 49)
  | [], _, ha, _ => ha
  | x :: xs, a, ha, hx => by
    rw [List.foldl_cons]
    exact fold_le h h0 xs _ (stepR_le h h0 (hx x (by simp)) ha) fun y hy => hx y (List.mem_cons_of_mem _ hy)

/-- What the truncated average of integers is bounded by. -/
theorem fold_lower (h : Nearest r) {lo : ℤ} (h1 : |lo| ≤ 2 ^ 33) (xs : List ℚ) (a : ℚ) (ha : (lo : ℚ) ≤ a) (hx : ∀ x ∈ xs, (lo : ℚ) ≤ x) :
    (0 ≤ lo → (lo : ℚ) ≤ xs.foldl (stepR r) a) ∧ ((lo : ℚ) - 1 < xs.foldl (stepR r) a) := by
  have hl := abs_le.mp h1
  rcases le_total 0 lo with h0 | h0
  · have := fold_ge h h0 hl.2 xs a ha hx
    exact ⟨fun _ => this, by linarith⟩
  · have hq : (0 : ℚ) ≤ -(lo : ℚ) := by have : (lo : ℚ) ≤ 0 := by exact_mod_cast h0
                                        linarith
    have hb : -(lo : ℚ) ≤ 2 ^ 33 := by have : ((-lo : ℤ) : ℚ) ≤ ((2 ^ 33 : ℤ) : ℚ) := by exact_mod_cast (by omega)
                                       push_cast at this; exact this
    have := fold_le h.flip hq (xs.map (-·)) (-a) (by nlinarith) (by
      intro x hx'
      obtain ⟨y, hy, rfl⟩ := List.mem_map.mp hx'
      have := hx y hy
      linarith)
    rw [foldl_flip] at this
    have h5 : -(lo : ℚ) * (1 / 2 ^ 49) ≤ 2 ^ 33 * (1 / 2 ^ 49) := mul_le_mul_of_nonneg_right hb (by norm_num)
    have h6 : (2 : ℚ) ^ 33 * (1 / 2 ^ 49) < 1 := by norm_num
    have h7 : -(lo : ℚ) * (1 + 1 / 2 ^ 49) = -(lo : ℚ) + -(lo : ℚ) * (1 / 2 ^ 49) := by ring
    rw [h7] at this
    have hlt : (lo : ℚ) - 1 < xs.foldl (stepR r) a := by linarith
    refine ⟨fun h0' => ?_, hlt⟩
    have : lo = 0 := by omega
    subst this
    exact fold_ge h (le_refl _) (by norm_num) xs a ha hx

end Utp
