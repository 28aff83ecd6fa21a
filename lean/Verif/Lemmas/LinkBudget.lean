import Mathlib.Analysis.Convex.SpecificFunctions.Basic
import Mathlib.Analysis.SpecialFunctions.Exp
import Mathlib.Tactic.NormNum
import Mathlib.Tactic.Linarith
import Mathlib.Tactic.FieldSimp
import Mathlib.Tactic.Positivity
import Verif.Model.LinkBudget

/-!
# Estimates for the losses of a link
-/

namespace Verif
namespace Budget
open Real

/-- The first term of the denominator in `r`. -/
noncomputable def rainS (d R f : ℝ) : ℝ :=
  0.477 * d ^ (0.633 : ℝ) * R ^ (0.073 * 0.7486 : ℝ) * f ^ (0.123 : ℝ)

theorem freq_pow {f : ℝ} (hf : 20 ≤ f) : 1.4 ≤ f ^ (0.123 : ℝ) := by
  have h1 : (20 : ℝ) ^ (0.123 : ℝ) ≤ f ^ (0.123 : ℝ) := rpow_le_rpow (by norm_num) hf (by norm_num)
  have h2 : (20 : ℝ) ^ (3 / 25 : ℝ) ≤ (20 : ℝ) ^ (0.123 : ℝ) :=
    rpow_le_rpow_of_exponent_le (by norm_num) (by norm_num)
  have h3 : (1.4 : ℝ) ≤ (20 : ℝ) ^ (3 / 25 : ℝ) := by
    have : (1.4 : ℝ) = ((1.4 : ℝ) ^ (25 : ℕ)) ^ (1 / 25 : ℝ) := by
      rw [← rpow_natCast, ← rpow_mul (by norm_num)]; norm_num
    rw [this, show (20 : ℝ) ^ (3 / 25 : ℝ) = ((20 : ℝ) ^ (3 : ℕ)) ^ (1 / 25 : ℝ) by
      rw [← rpow_natCast, ← rpow_mul (by norm_num)]; norm_num]
    exact rpow_le_rpow (by norm_num) (by norm_num) (by norm_num)
  linarith

theorem dist_pow {d : ℝ} (h0 : 0 < d) (h : d ≤ 10) : d / 2.4 ≤ d ^ (0.633 : ℝ) := by
  have h1 : d ^ (0.367 : ℝ) ≤ 2.4 := by
    have a : d ^ (0.367 : ℝ) ≤ (10 : ℝ) ^ (0.367 : ℝ) := rpow_le_rpow h0.le h (by norm_num)
    have b : (10 : ℝ) ^ (0.367 : ℝ) ≤ (10 : ℝ) ^ (3 / 8 : ℝ) :=
      rpow_le_rpow_of_exponent_le (by norm_num) (by norm_num)
    have c : (10 : ℝ) ^ (3 / 8 : ℝ) ≤ 2.4 := by
      have : (2.4 : ℝ) = ((2.4 : ℝ) ^ (8 : ℕ)) ^ (1 / 8 : ℝ) := by
        rw [← rpow_natCast, ← rpow_mul (by norm_num)]; norm_num
      rw [this, show (10 : ℝ) ^ (3 / 8 : ℝ) = ((10 : ℝ) ^ (3 : ℕ)) ^ (1 / 8 : ℝ) by
        rw [← rpow_natCast, ← rpow_mul (by norm_num)]; norm_num]
      exact rpow_le_rpow (by norm_num) (by norm_num) (by norm_num)
    linarith
  have h2 : d = d ^ (0.633 : ℝ) * d ^ (0.367 : ℝ) := by
    rw [← rpow_add h0]; norm_num
  have h3 : 0 < d ^ (0.633 : ℝ) := rpow_pos_of_pos h0 _
  rw [div_le_iff₀ (by norm_num)]
  nlinarith

theorem rainS_ge {d R f : ℝ} (h0 : 0 < d) (h : d ≤ 10) (hR : 1 ≤ R) (hf : 20 ≤ f) :
    0.278 * d ≤ rainS d R f := by
  have a := dist_pow h0 h
  have b := freq_pow hf
  have c : 1 ≤ R ^ (0.073 * 0.7486 : ℝ) := one_le_rpow hR (by norm_num)
  unfold rainS
  have p1 : 0 < d ^ (0.633 : ℝ) := rpow_pos_of_pos h0 _
  have e1 : d ^ (0.633 : ℝ) * 1 ≤ d ^ (0.633 : ℝ) * R ^ (0.073 * 0.7486 : ℝ) :=
    mul_le_mul_of_nonneg_left c p1.le
  have e2 : d ^ (0.633 : ℝ) * R ^ (0.073 * 0.7486 : ℝ) * 1.4 ≤
      d ^ (0.633 : ℝ) * R ^ (0.073 * 0.7486 : ℝ) * f ^ (0.123 : ℝ) :=
    mul_le_mul_of_nonneg_left b (by positivity)
  have e3 : d ≤ 2.4 * d ^ (0.633 : ℝ) := by
    rw [div_le_iff₀ (by norm_num)] at a; linarith
  nlinarith

theorem expPart_le {d : ℝ} : 1 - exp (-0.024 * d) ≤ 0.024 * d := by
  have := add_one_le_exp (-0.024 * d)
  linarith

theorem rainDen_ge {d R f : ℝ} (h0 : 0 < d) (h : d ≤ 10) (hR : 1 ≤ R) (hf : 20 ≤ f) :
    0.02 * d ≤ rainDen d R f := by
  have a := rainS_ge h0 h hR hf
  have b := expPart_le (d := d)
  unfold rainDen
  unfold rainS at a
  nlinarith

/-- Distance over denominator grows with the distance. -/
theorem rainDen_ratio {x y R f : ℝ} (h0 : 0 < x) (hxy : x ≤ y) (hy : y ≤ 10) (hR : 1 ≤ R) (hf : 20 ≤ f) :
    x * rainDen y R f ≤ y * rainDen x R f := by
  have hx : x ≤ 10 := hxy.trans hy
  have hS := rainS_ge h0 hx hR hf
  -- the power of the distance
  have hpow : x * rainS y R f ≤ rainS x R f * (x + 0.633 * (y - x)) := by
    have hb : (y / x) ^ (0.633 : ℝ) ≤ 1 + 0.633 * (y / x - 1) := by
      have h1 : (-1 : ℝ) ≤ y / x - 1 := by
        have : 0 ≤ y / x := div_nonneg (h0.le.trans hxy) h0.le
        linarith
      have := rpow_one_add_le_one_add_mul_self h1 (p := 0.633) (by norm_num) (by norm_num)
      simpa using this
    have he : y ^ (0.633 : ℝ) = x ^ (0.633 : ℝ) * (y / x) ^ (0.633 : ℝ) := by
      rw [← mul_rpow h0.le (div_nonneg (h0.le.trans hxy) h0.le), mul_div_cancel₀ _ h0.ne']
    have hSy : rainS y R f = rainS x R f * (y / x) ^ (0.633 : ℝ) := by
      unfold rainS; rw [he]; ring
    have hS0 : 0 ≤ rainS x R f := le_trans (by positivity) hS
    rw [hSy]
    have : x * (rainS x R f * (y / x) ^ (0.633 : ℝ)) ≤ x * (rainS x R f * (1 + 0.633 * (y / x - 1))) :=
      mul_le_mul_of_nonneg_left (mul_le_mul_of_nonneg_left hb hS0) h0.le
    refine this.trans_eq ?_
    field_simp
  -- the exponential part
  have hexp : y * (1 - exp (-0.024 * x)) - x * (1 - exp (-0.024 * y)) ≤ 0.24 * 0.024 * (y - x) * x := by
    have hz := add_one_le_exp (-0.024 * x)
    have hw1 : 1 + 0.024 * (y - x) ≤ exp (0.024 * (y - x)) := by
      have := add_one_le_exp (0.024 * (y - x)); linarith
    have hsplit : exp (-0.024 * y) * exp (0.024 * (y - x)) = exp (-0.024 * x) := by
      rw [← exp_add]; congr 1; ring
    have hpos : 0 < exp (-0.024 * y) := exp_pos _
    -- `exp (-k y) (1 + w) ≤ exp (-k x)`
    have h1 : exp (-0.024 * y) * (1 + 0.024 * (y - x)) ≤ exp (-0.024 * x) := by
      rw [← hsplit]; exact mul_le_mul_of_nonneg_left hw1 hpos.le
    generalize exp (-0.024 * x) = u at *
    generalize exp (-0.024 * y) = v at *
    -- `v ≤ u / (1 + w)`
    have hw : 0 ≤ 0.024 * (y - x) := by nlinarith
    have hv : v ≤ u / (1 + 0.024 * (y - x)) := by rw [le_div_iff₀ (by linarith)]; exact h1
    have huv : 0.76 * (0.024 * (y - x)) ≤ u - v := by
      have h2 : u - u / (1 + 0.024 * (y - x)) = u * (0.024 * (y - x)) / (1 + 0.024 * (y - x)) := by
        field_simp; ring
      have h3 : 0.76 * (0.024 * (y - x)) ≤ u * (0.024 * (y - x)) / (1 + 0.024 * (y - x)) := by
        rw [le_div_iff₀ (by linarith)]
        have : 0.76 * (1 + 0.024 * (y - x)) ≤ u := by nlinarith
        nlinarith
      linarith
    have hyx : 0 ≤ y - x := by linarith
    have e : y * (1 - u) - x * (1 - v) = (y - x) * (1 - u) - x * (u - v) := by ring
    rw [e]
    have a1 : (y - x) * (1 - u) ≤ (y - x) * (0.024 * x) := mul_le_mul_of_nonneg_left (by linarith) hyx
    have a2 : x * (0.76 * (0.024 * (y - x))) ≤ x * (u - v) := mul_le_mul_of_nonneg_left huv h0.le
    nlinarith
  have d1 : rainDen y R f = rainS y R f - 10.579 * (1 - exp (-0.024 * y)) := rfl
  have d2 : rainDen x R f = rainS x R f - 10.579 * (1 - exp (-0.024 * x)) := rfl
  rw [d1, d2]
  have hyx : 0 ≤ y - x := by linarith
  have k1 : (y - x) * (0.278 * x) ≤ (y - x) * rainS x R f := mul_le_mul_of_nonneg_left hS hyx
  nlinarith

/-- The loss exceeded for 0.01 percent of the year grows with the distance. -/
theorem rain001_dist {x y R f : ℝ} (h0 : 0 < x) (hxy : x ≤ y) (hy : y ≤ 10) (hR : 1 ≤ R) (hf : 20 ≤ f) :
    rain001 x R f ≤ rain001 y R f := by
  have dx : 0 < rainDen x R f := lt_of_lt_of_le (by positivity) (rainDen_ge h0 (hxy.trans hy) hR hf)
  have dy : 0 < rainDen y R f :=
    lt_of_lt_of_le (mul_pos (by norm_num) (h0.trans_le hxy)) (rainDen_ge (h0.trans_le hxy) hy hR hf)
  have hr := rainDen_ratio h0 hxy hy hR hf
  have hk : 0 ≤ 0.8515 * R ^ (0.7486 : ℝ) := by positivity
  have : x * min (1 / rainDen x R f) 2.5 ≤ y * min (1 / rainDen y R f) 2.5 := by
    rw [mul_min_of_nonneg _ _ h0.le, mul_min_of_nonneg _ _ (h0.le.trans hxy)]
    refine min_le_min ?_ (by nlinarith)
    rw [mul_one_div, mul_one_div, div_le_div_iff₀ dx dy]
    exact hr
  unfold rain001
  rw [mul_assoc _ x, mul_assoc _ y]
  exact mul_le_mul_of_nonneg_left this hk

/-- The loss exceeded for 0.01 percent of the year grows with the rain rate. -/
theorem rain001_rate {d R R' f : ℝ} (h0 : 0 < d) (hd : d ≤ 10) (hR : 1 ≤ R) (hRR : R ≤ R') (hf : 20 ≤ f) :
    rain001 d R f ≤ rain001 d R' f := by
  have dx : 0 < rainDen d R f := lt_of_lt_of_le (by positivity) (rainDen_ge h0 hd hR hf)
  have dy : 0 < rainDen d R' f := lt_of_lt_of_le (by positivity) (rainDen_ge h0 hd (hR.trans hRR) hf)
  have hR0 : 0 < R := by linarith
  have hS := rainS_ge h0 hd hR hf
  have hE := expPart_le (d := d)
  -- ratio of the powers
  set t : ℝ := (R' / R) ^ (0.073 * 0.7486 : ℝ) with ht
  have hq : 1 ≤ R' / R := by rw [le_div_iff₀ hR0]; linarith
  have ht1 : 1 ≤ t := one_le_rpow hq (by norm_num)
  have e1 : R' ^ (0.073 * 0.7486 : ℝ) = R ^ (0.073 * 0.7486 : ℝ) * t := by
    rw [ht, ← mul_rpow hR0.le (by positivity), mul_div_cancel₀ _ hR0.ne']
  have e2 : R' ^ (0.7486 : ℝ) = R ^ (0.7486 : ℝ) * t ^ (1 / 0.073 : ℝ) := by
    have : t ^ (1 / 0.073 : ℝ) = (R' / R) ^ (0.7486 : ℝ) := by
      rw [ht, ← rpow_mul (by positivity)]; norm_num
    rw [this, ← mul_rpow hR0.le (by positivity), mul_div_cancel₀ _ hR0.ne']
  have hb : 1 + 1 / 0.073 * (t - 1) ≤ t ^ (1 / 0.073 : ℝ) := by
    have := one_add_mul_self_le_rpow_one_add (s := t - 1) (by linarith) (p := 1 / 0.073) (by norm_num)
    simpa using this
  have d1 : rainDen d R f = rainS d R f - 10.579 * (1 - exp (-0.024 * d)) := rfl
  have d2 : rainDen d R' f = rainS d R f * t - 10.579 * (1 - exp (-0.024 * d)) := by
    unfold rainDen rainS; rw [e1]; ring
  have hT1 : 1 ≤ t ^ (1 / 0.073 : ℝ) := one_le_rpow ht1 (by norm_num)
  have key : rainDen d R' f ≤ t ^ (1 / 0.073 : ℝ) * rainDen d R f := by
    have a : (1 + 1 / 0.073 * (t - 1)) * rainDen d R f ≤ t ^ (1 / 0.073 : ℝ) * rainDen d R f :=
      mul_le_mul_of_nonneg_right hb dx.le
    refine le_trans ?_ a
    rw [d2, d1]
    generalize rainS d R f = S at *
    generalize exp (-0.024 * d) = u at *
    have h1 : 0 ≤ (t - 1) * (1 / 0.073 * (S - 10.579 * (1 - u)) - S) := by
      refine mul_nonneg (by linarith) ?_
      norm_num at *
      nlinarith
    nlinarith
  have hpos : 0 < R ^ (0.7486 : ℝ) := rpow_pos_of_pos hR0 _
  have hTpos : 0 < t ^ (1 / 0.073 : ℝ) := by linarith
  have hmin : min (1 / rainDen d R f) 2.5 ≤ t ^ (1 / 0.073 : ℝ) * min (1 / rainDen d R' f) 2.5 := by
    rw [mul_min_of_nonneg _ _ hTpos.le]
    refine min_le_min ?_ (by nlinarith)
    rw [mul_one_div, div_le_div_iff₀ dx dy]
    linarith
  unfold rain001
  rw [e2]
  have hk : 0 ≤ 0.8515 * R ^ (0.7486 : ℝ) * d := by positivity
  calc 0.8515 * R ^ (0.7486 : ℝ) * d * min (1 / rainDen d R f) 2.5
      ≤ 0.8515 * R ^ (0.7486 : ℝ) * d * (t ^ (1 / 0.073 : ℝ) * min (1 / rainDen d R' f) 2.5) :=
        mul_le_mul_of_nonneg_left hmin hk
    _ = _ := by ring

end Budget
end Verif
