import Verif.Lemmas.GeosBearing
import Mathlib.Analysis.Convex.Deriv
import Mathlib.Analysis.Convex.SpecificFunctions.Deriv
import Mathlib.Analysis.SpecialFunctions.Trigonometric.InverseDeriv

/-! # Triangles on the sphere have larger angles than flat ones -/

namespace Verif
namespace Geos
open Real Set

theorem ratio_sin {x y : ℝ} (hx : 0 < x) (hxy : x ≤ y) (hy : y < π) : x * sin y ≤ y * sin x := by
  have hy0 : 0 < y := lt_of_lt_of_le hx hxy
  have w0 : 0 ≤ 1 - x / y := by rw [sub_nonneg, div_le_one hy0]; exact hxy
  have w1 : 0 ≤ x / y := by positivity
  have m0 : (0 : ℝ) ∈ Icc 0 π := ⟨le_refl _, pi_pos.le⟩
  have m1 : y ∈ Icc 0 π := ⟨hy0.le, hy.le⟩
  have c := strictConcaveOn_sin_Icc.concaveOn.2 m0 m1 w0 w1 (by ring)
  simp only [smul_eq_mul, sin_zero, mul_zero, zero_add] at c
  rw [div_mul_cancel₀ _ hy0.ne'] at c
  have : x / y * sin y * y ≤ sin x * y := mul_le_mul_of_nonneg_right c hy0.le
  have e : x / y * sin y * y = x * sin y := by field_simp
  linarith

theorem convex_arccos_sq : ConvexOn ℝ (Icc (-1) 1) (arccos ^ 2) := by
  have dv : ∀ y ∈ Ioo (-1 : ℝ) 1, HasDerivAt (arccos ^ 2) (2 * arccos y * (-(1 / √(1 - y ^ 2)))) y := by
    intro y hy
    have h1 : y ≠ -1 := by have := hy.1; intro h; linarith
    have h2 : y ≠ 1 := by have := hy.2; intro h; linarith
    have := (hasDerivAt_arccos h1 h2).pow 2
    simpa using this
  apply MonotoneOn.convexOn_of_deriv (convex_Icc _ _) (continuous_arccos.pow 2).continuousOn
  · rw [interior_Icc]
    intro y hy
    exact (dv y hy).differentiableAt.differentiableWithinAt
  · rw [interior_Icc]
    intro u hu v hv huv
    rw [(dv u hu).deriv, (dv v hv).deriv]
    have su : 0 < √(1 - u ^ 2) := sqrt_pos.2 (by nlinarith [hu.1, hu.2])
    have sv : 0 < √(1 - v ^ 2) := sqrt_pos.2 (by nlinarith [hv.1, hv.2])
    have pv : 0 < arccos v := arccos_pos.2 hv.2
    have pu : arccos u < π := by
      rcases (arccos_le_pi u).lt_or_eq with h | h
      · exact h
      · rw [arccos_eq_pi] at h; linarith [hu.1]
    have r := ratio_sin pv (arccos_le_arccos huv) pu
    rw [sin_arccos, sin_arccos] at r
    have : arccos v / √(1 - v ^ 2) ≤ arccos u / √(1 - u ^ 2) := by
      rw [div_le_div_iff₀ sv su]; exact r
    have e1 : 2 * arccos u * (-(1 / √(1 - u ^ 2))) = -2 * (arccos u / √(1 - u ^ 2)) := by ring
    have e2 : 2 * arccos v * (-(1 / √(1 - v ^ 2))) = -2 * (arccos v / √(1 - v ^ 2)) := by ring
    rw [e1, e2]; linarith

/-- The third side of a triangle on the sphere is at most that of the flat triangle with the same two sides and the same
angle between them. -/
theorem hinge {a b x : ℝ} (ha : 0 ≤ a) (ha' : a ≤ π) (hb : 0 ≤ b) (hb' : b ≤ π) (hx : -1 ≤ x) (hx' : x ≤ 1) :
    arccos (cos a * cos b + sin a * sin b * x) ^ 2 ≤ a ^ 2 + b ^ 2 - 2 * a * b * x := by
  have m1 : cos a * cos b + sin a * sin b = cos (a - b) := by rw [cos_sub]
  have m2 : cos a * cos b - sin a * sin b = cos (a + b) := by rw [cos_add]
  have w0 : 0 ≤ (1 + x) / 2 := by linarith
  have w1 : 0 ≤ (1 - x) / 2 := by linarith
  have k0 : cos (a - b) ∈ Icc (-1 : ℝ) 1 := ⟨neg_one_le_cos _, cos_le_one _⟩
  have k1 : cos (a + b) ∈ Icc (-1 : ℝ) 1 := ⟨neg_one_le_cos _, cos_le_one _⟩
  have c := convex_arccos_sq.2 k0 k1 w0 w1 (by ring)
  simp only [smul_eq_mul, Pi.pow_apply] at c
  have e : (1 + x) / 2 * cos (a - b) + (1 - x) / 2 * cos (a + b) = cos a * cos b + sin a * sin b * x := by
    rw [← m1, ← m2]; ring
  rw [e] at c
  have q1 : arccos (cos (a - b)) ^ 2 = (a - b) ^ 2 := by
    rw [← cos_abs, arccos_cos (abs_nonneg _) (by rw [abs_le]; constructor <;> linarith), sq_abs]
  have q2 : arccos (cos (a + b)) ^ 2 ≤ (a + b) ^ 2 := by
    have n := arccos_nonneg (cos (a + b))
    by_cases h : a + b ≤ π
    · rw [arccos_cos (by linarith) h]
    · rw [not_le] at h
      have := arccos_le_pi (cos (a + b))
      apply pow_le_pow_left₀ n
      linarith
  rw [q1] at c
  have : (1 - x) / 2 * arccos (cos (a + b)) ^ 2 ≤ (1 - x) / 2 * (a + b) ^ 2 :=
    mul_le_mul_of_nonneg_left q2 (by linarith)
  linarith [c, this, show (1 + x) / 2 * (a - b) ^ 2 + (1 - x) / 2 * (a + b) ^ 2 = a ^ 2 + b ^ 2 - 2 * a * b * x by ring]

end Geos
end Verif
