import Mathlib.Tactic.Linarith
import Mathlib.Tactic.Ring
import Mathlib.Tactic.Positivity
import Mathlib.Tactic.FieldSimp
import Mathlib.Tactic.NormNum
import Mathlib.Data.Rat.Floor
import Verif.Spec.Float
import Verif.Float
/-!
# Rounding to nearest
-/

namespace Utp

theorem pow2_eq (e : ℤ) : pow2 e = (2 : ℚ) ^ e := by
  unfold pow2
  split
  · rename_i h
    obtain ⟨n, rfl⟩ := Int.eq_ofNat_of_zero_le h
    simp
  · rename_i h
    obtain ⟨n, hn⟩ := Int.eq_ofNat_of_zero_le (show 0 ≤ -e by omega)
    have : e = -(n : ℤ) := by omega
    subst this
    simp

theorem expo_spec {x : ℚ} (hx : x ≠ 0) : (2 : ℚ) ^ expo x ≤ |x| ∧ |x| < (2 : ℚ) ^ (expo x + 1) := by
  have habs : (if x < 0 then -x else x) = |x| := by
    split
    · rename_i h; rw [abs_of_neg h]
    · rename_i h; rw [abs_of_nonneg (not_lt.mp h)]
  have hn : x.num.natAbs ≠ 0 := by simpa using hx
  have hd : x.den ≠ 0 := x.den_nz
  have hxe : |x| = (x.num.natAbs : ℚ) / (x.den : ℚ) := by
    conv_lhs => rw [← Rat.num_div_den x]
    rw [abs_div]
    simp
  have n1 : (2 : ℚ) ^ x.num.natAbs.log2 ≤ x.num.natAbs := by exact_mod_cast Nat.log2_self_le hn
  have n2 : (x.num.natAbs : ℚ) < 2 ^ (x.num.natAbs.log2 + 1) := by exact_mod_cast Nat.lt_log2_self
  have d1 : (2 : ℚ) ^ x.den.log2 ≤ x.den := by exact_mod_cast Nat.log2_self_le hd
  have d2 : (x.den : ℚ) < 2 ^ (x.den.log2 + 1) := by exact_mod_cast Nat.lt_log2_self
  have hdp : (0 : ℚ) < x.den := by positivity
  obtain ⟨a, ha⟩ : ∃ a, a = x.num.natAbs.log2 := ⟨_, rfl⟩
  obtain ⟨b, hb⟩ : ∃ b, b = x.den.log2 := ⟨_, rfl⟩
  rw [← ha] at n1 n2
  rw [← hb] at d1 d2
  have up : |x| < (2 : ℚ) ^ ((a : ℤ) - b + 1) := by
    rw [hxe, div_lt_iff₀ hdp]
    have : (2 : ℚ) ^ (a + 1) = (2 : ℚ) ^ ((a : ℤ) - b + 1) * 2 ^ b := by
      rw [← zpow_natCast, ← zpow_natCast, ← zpow_add₀ (by norm_num)]
      congr 1; push_cast; ring
    rw [this] at n2
    exact lt_of_lt_of_le n2 (mul_le_mul_of_nonneg_left d1 (by positivity))
  have lo : (2 : ℚ) ^ ((a : ℤ) - b - 1) ≤ |x| := by
    rw [hxe, le_div_iff₀ hdp]
    have : (2 : ℚ) ^ a = (2 : ℚ) ^ ((a : ℤ) - b - 1) * 2 ^ (b + 1) := by
      rw [← zpow_natCast, ← zpow_natCast, ← zpow_add₀ (by norm_num)]
      congr 1; push_cast; ring
    rw [this] at n1
    exact le_trans (mul_le_mul_of_nonneg_left d2.le (by positivity)) n1
  have he : expo x = if |x| < (2 : ℚ) ^ ((a : ℤ) - b) then (a : ℤ) - b - 1 else (a : ℤ) - b := by
    unfold expo
    simp only [habs, pow2_eq, ha, hb]
  rw [he]
  split
  · rename_i h
    exact ⟨lo, by simpa using h⟩
  · rename_i h
    exact ⟨not_lt.mp h, up⟩

theorem rat_floor_eq (q : ℚ) : q.floor = ⌊q⌋ := rfl

theorem roundEven_nearest (q : ℚ) (k : ℤ) : |(roundEven q : ℚ) - q| ≤ |(k : ℚ) - q| := by
  have h1 := Int.floor_le q
  have h2 := Int.lt_floor_add_one q
  have key : ∀ m : ℤ, |(m : ℚ) - q| ≤ 1 / 2 → |(m : ℚ) - q| ≤ |(k : ℚ) - q| := by
    intro m hm
    by_cases h : k = m
    · rw [h]
    · have hge : (1 : ℚ) ≤ |(k : ℚ) - m| := by
        have : (1 : ℤ) ≤ |k - m| := Int.one_le_abs (sub_ne_zero.mpr h)
        exact_mod_cast this
      have : |(k : ℚ) - m| ≤ |(k : ℚ) - q| + |(m : ℚ) - q| := by
        rw [abs_sub_comm (m : ℚ) q]
        exact abs_sub_le _ _ _
      linarith
  apply key
  unfold roundEven
  rw [rat_floor_eq]
  obtain ⟨f, hf⟩ : ∃ f, f = ⌊q⌋ := ⟨_, rfl⟩
  rw [← hf] at h1 h2 ⊢
  simp only
  split
  · rw [abs_le]; constructor <;> linarith
  · split
    · push_cast; rw [abs_le]; constructor <;> linarith
    · split
      · rw [abs_le]; constructor <;> linarith
      · push_cast; rw [abs_le]; constructor <;> linarith

theorem roundEven_half (q : ℚ) : |(roundEven q : ℚ) - q| ≤ 1 / 2 := by
  have h1 := Int.floor_le q
  have h2 := Int.lt_floor_add_one q
  by_cases h : q - ⌊q⌋ ≤ 1 / 2
  · refine (roundEven_nearest q ⌊q⌋).trans ?_
    rw [abs_le]; constructor <;> linarith
  · refine (roundEven_nearest q (⌊q⌋ + 1)).trans ?_
    push_cast
    rw [abs_le]; constructor <;> linarith

/-- `rne` rounds to a nearest floating point number. -/
theorem rne_nearest : Nearest rne := by
  intro x
  by_cases hx : x = 0
  · subst hx
    simp only [rne, if_true]
    exact ⟨⟨0, 0, by norm_num, by simp⟩, fun y _ => by simp⟩
  obtain ⟨h1, h2⟩ := expo_spec hx
  obtain ⟨e, he⟩ : ∃ e, e = expo x := ⟨_, rfl⟩
  have hr : rne x = (roundEven (x / (2 : ℚ) ^ (e - 52)) : ℚ) * (2 : ℚ) ^ (e - 52) := by
    rw [rne, if_neg hx, pow2_eq, he]
  rw [← he] at h1 h2
  have hp : (0 : ℚ) < (2 : ℚ) ^ (e - 52) := by positivity
  have hgrid : ∀ k : ℤ, |rne x - x| ≤ |(k : ℚ) * (2 : ℚ) ^ (e - 52) - x| := by
    intro k
    have h := roundEven_nearest (x / (2 : ℚ) ^ (e - 52)) k
    have hm : ∀ m : ℤ, |(m : ℚ) * (2 : ℚ) ^ (e - 52) - x| = |(m : ℚ) - x / (2 : ℚ) ^ (e - 52)| * (2 : ℚ) ^ (e - 52) := by
      intro m
      rw [← abs_of_pos hp, ← abs_mul, abs_of_pos hp]
      congr 1
      field_simp
    rw [hr, hm, hm]
    exact mul_le_mul_of_nonneg_right h hp.le
  constructor
  · refine ⟨roundEven (x / (2 : ℚ) ^ (e - 52)), e - 52, ?_, hr⟩
    have hq : |x / (2 : ℚ) ^ (e - 52)| < 2 ^ 53 := by
      rw [abs_div, abs_of_pos hp, div_lt_iff₀ hp]
      have : (2 : ℚ) ^ (e + 1) = 2 ^ 53 * (2 : ℚ) ^ (e - 52) := by
        rw [← zpow_natCast, ← zpow_add₀ (by norm_num)]
        congr 1; push_cast; ring
      rw [← this]; exact h2
    have hh := roundEven_half (x / (2 : ℚ) ^ (e - 52))
    have : |(roundEven (x / (2 : ℚ) ^ (e - 52)) : ℚ)| < 2 ^ 53 + 1 := by
      have h3 := abs_sub_abs_le_abs_sub (roundEven (x / (2 : ℚ) ^ (e - 52)) : ℚ) (x / (2 : ℚ) ^ (e - 52))
      linarith
    have h4 : |roundEven (x / (2 : ℚ) ^ (e - 52))| < 2 ^ 53 + 1 := by exact_mod_cast this
    omega
  · rintro y ⟨m, f, hm, rfl⟩
    by_cases hf : e - 52 ≤ f
    · obtain ⟨n, hn⟩ := Int.eq_ofNat_of_zero_le (show 0 ≤ f - (e - 52) by omega)
      have := hgrid (m * 2 ^ n)
      have e2 : ((m * 2 ^ n : ℤ) : ℚ) * (2 : ℚ) ^ (e - 52) = m * (2 : ℚ) ^ f := by
        push_cast
        rw [mul_assoc, ← zpow_natCast, ← zpow_add₀ (by norm_num)]
        congr 2
        omega
      rwa [e2] at this
    · have hmq : |(m : ℚ)| ≤ 2 ^ 53 := by exact_mod_cast hm
      have hy : |(m : ℚ) * (2 : ℚ) ^ f| ≤ (2 : ℚ) ^ e := by
        rw [abs_mul, abs_of_pos (show (0 : ℚ) < (2 : ℚ) ^ f by positivity)]
        have h3 : (2 : ℚ) ^ f ≤ (2 : ℚ) ^ (e - 53) := zpow_le_zpow_right₀ (by norm_num) (by omega)
        have h4 : (2 : ℚ) ^ e = 2 ^ 53 * (2 : ℚ) ^ (e - 53) := by
          rw [← zpow_natCast, ← zpow_add₀ (by norm_num)]
          congr 1; push_cast; ring
        rw [h4]
        exact mul_le_mul hmq h3 (by positivity) (by positivity)
      have h5 : (2 : ℚ) ^ e = ((2 ^ 52 : ℤ) : ℚ) * (2 : ℚ) ^ (e - 52) := by
        rw [Int.cast_pow, ← zpow_natCast, Int.cast_ofNat, ← zpow_add₀ (by norm_num)]
        congr 1; push_cast; ring
      obtain ⟨y, hyd⟩ : ∃ y, y = (m : ℚ) * (2 : ℚ) ^ f := ⟨_, rfl⟩
      rw [← hyd] at hy ⊢
      have hy2 := abs_le.mp hy
      rcases lt_or_ge x 0 with hneg | hpos
      · have := hgrid (-2 ^ 52)
        rw [show ((-2 ^ 52 : ℤ) : ℚ) * (2 : ℚ) ^ (e - 52) = -(2 : ℚ) ^ e by rw [h5]; push_cast; ring] at this
        refine this.trans ?_
        rw [abs_of_neg hneg] at h1
        rw [abs_of_nonneg (by linarith), abs_of_nonneg (by linarith)]
        linarith
      · have := hgrid (2 ^ 52)
        rw [← h5] at this
        refine this.trans ?_
        rw [abs_of_nonneg hpos] at h1
        rw [abs_of_nonpos (by linarith), abs_of_nonpos (by linarith)]
        linarith

theorem Nearest.mono {r : ℚ → ℚ} (h : Nearest r) {x y : ℚ} (hxy : x ≤ y) : r x ≤ r y := by
  rcases hxy.eq_or_lt with rfl | hlt
  · exact le_refl _
  by_contra hc
  have hc := not_le.mp hc
  have h1 := (h x).2 (r y) (h y).1
  have h2 := (h y).2 (r x) (h x).1
  have ha := abs_le.mp h1
  rcases le_total (r y) x with h3 | h3
  · rw [abs_of_nonpos (show r y - x ≤ 0 by linarith)] at h1 ha
    rw [abs_of_nonpos (show r y - y ≤ 0 by linarith)] at h2
    rcases le_total (r x) y with h4 | h4
    · rw [abs_of_nonpos (show r x - y ≤ 0 by linarith)] at h2; linarith
    · rw [abs_of_nonneg (show 0 ≤ r x - y by linarith)] at h2
      rw [abs_of_nonneg (show 0 ≤ r x - x by linarith)] at h1
      linarith
  · rw [abs_of_nonneg (show 0 ≤ r y - x by linarith), abs_of_nonneg (show 0 ≤ r x - x by linarith)] at h1
    linarith

theorem Nearest.exact {r : ℚ → ℚ} (h : Nearest r) {y : ℚ} (hy : Representable y) : r y = y := by
  have := (h y).2 y hy
  simp only [sub_self, abs_zero, abs_nonpos_iff] at this
  linarith

theorem Nearest.error {r : ℚ → ℚ} (h : Nearest r) (x : ℚ) : |r x - x| ≤ |x| / 2 ^ 53 := by
  by_cases hx : x = 0
  · subst hx
    have := h.exact (y := 0) ⟨0, 0, by norm_num, by simp⟩
    simp [this]
  obtain ⟨h1, h2⟩ := expo_spec hx
  refine ((h x).2 (rne x) (rne_nearest x).1).trans ?_
  rw [rne, if_neg hx, pow2_eq]
  obtain ⟨e, he⟩ : ∃ e, e = expo x := ⟨_, rfl⟩
  rw [← he] at h1 ⊢
  have hp : (0 : ℚ) < (2 : ℚ) ^ (e - 52) := by positivity
  have hh := roundEven_half (x / (2 : ℚ) ^ (e - 52))
  have e1 : |(roundEven (x / (2 : ℚ) ^ (e - 52)) : ℚ) * (2 : ℚ) ^ (e - 52) - x| =
      |(roundEven (x / (2 : ℚ) ^ (e - 52)) : ℚ) - x / (2 : ℚ) ^ (e - 52)| * (2 : ℚ) ^ (e - 52) := by
    rw [← abs_of_pos hp, ← abs_mul, abs_of_pos hp]
    congr 1
    field_simp
  rw [e1, le_div_iff₀ (by positivity)]
  have e2 : (2 : ℚ) ^ e = 1 / 2 * (2 : ℚ) ^ (e - 52) * 2 ^ 53 := by
    rw [show e = (e - 52) + 52 by ring, zpow_add₀ (by norm_num)]
    norm_num
    ring
  calc _ ≤ 1 / 2 * (2 : ℚ) ^ (e - 52) * 2 ^ 53 := by
        refine mul_le_mul_of_nonneg_right (mul_le_mul_of_nonneg_right hh hp.le) (by positivity)
    _ = (2 : ℚ) ^ e := e2.symm
    _ ≤ |x| := h1

theorem representable_int {i : ℤ} (h : |i| ≤ 2 ^ 53) : Representable (i : ℚ) := ⟨i, 0, h, by simp⟩

theorem rne_mono {x y : ℚ} (h : x ≤ y) : rne x ≤ rne y := rne_nearest.mono h

theorem rne_int {i : ℤ} (h : |i| ≤ 2 ^ 53) : rne (i : ℚ) = i := rne_nearest.exact (representable_int h)

theorem rne_error (x : ℚ) : |rne x - x| ≤ |x| / 2 ^ 53 := rne_nearest.error x

/-- Between a representable number and the next. -/
theorem rne_zero : rne 0 = 0 := by simp [rne]

theorem rne_nonneg {x : ℚ} (h : 0 ≤ x) : 0 ≤ rne x := by rw [← rne_zero]; exact rne_mono h

theorem rne_nonpos {x : ℚ} (h : x ≤ 0) : rne x ≤ 0 := by rw [← rne_zero]; exact rne_mono h

end Utp
