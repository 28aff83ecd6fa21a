import Verif.Model.Geos
import Verif.Spec.Geos
import Mathlib.Geometry.Euclidean.Angle.Unoriented.TriangleInequality
import Mathlib.Tactic.LinearCombination

/-! # Lemmas about distances and directions on the sphere -/

namespace Verif
namespace Geos
open Real Spec InnerProductGeometry

theorem radians_eq (x : ℝ) : radians x = deg x := by unfold radians deg; ring

theorem deg_degrees (x : ℝ) : deg (degrees x) = x := by
  unfold deg degrees; field_simp

theorem degrees_deg (x : ℝ) : degrees (deg x) = x := by
  unfold deg degrees; field_simp

theorem deg_sub (x y : ℝ) : deg (x - y) = deg x - deg y := by unfold deg; ring
theorem deg_add (x y : ℝ) : deg (x + y) = deg x + deg y := by unfold deg; ring
theorem deg_neg (x : ℝ) : deg (-x) = -deg x := by unfold deg; ring
theorem deg_zero : deg 0 = 0 := by unfold deg; ring
theorem deg_90 : deg 90 = π / 2 := by unfold deg; ring
theorem deg_180 : deg 180 = π := by unfold deg; ring

theorem deg_mono {x y : ℝ} (h : x ≤ y) : deg x ≤ deg y := by
  unfold deg; have := pi_pos; nlinarith

theorem deg_strict {x y : ℝ} (h : x < y) : deg x < deg y := by
  unfold deg; have := pi_pos; nlinarith

theorem cos_lat_pos {lat : ℝ} (h : -90 < lat ∧ lat < 90) : 0 < cos (deg lat) := by
  apply cos_pos_of_mem_Ioo
  constructor
  · have := deg_strict h.1; rw [deg_neg, deg_90] at this; exact this
  · have := deg_strict h.2; rw [deg_90] at this; exact this

theorem cos_lat_nonneg {lat : ℝ} (h : -90 ≤ lat ∧ lat ≤ 90) : 0 ≤ cos (deg lat) := by
  apply cos_nonneg_of_mem_Icc
  constructor
  · have := deg_mono h.1; rw [deg_neg, deg_90] at this; exact this
  · have := deg_mono h.2; rw [deg_90] at this; exact this

theorem place_inner (lonA latA lonB latB : ℝ) :
    inner ℝ (place lonA latA) (place lonB latB) =
      sin (deg latA) * sin (deg latB) + cos (deg latA) * cos (deg latB) * cos (deg (lonB - lonA)) := by
  rw [deg_sub, cos_sub]
  simp [place, PiLp.inner_apply, Fin.sum_univ_three]
  ring

theorem place_norm (lon lat : ℝ) : ‖place lon lat‖ = 1 := by
  have h : ‖place lon lat‖ ^ 2 = 1 := by
    rw [← real_inner_self_eq_norm_sq, place_inner, sub_self, deg_zero, cos_zero]
    have := sin_sq_add_cos_sq (deg lat)
    linear_combination this
  have := norm_nonneg (place lon lat)
  nlinarith [sq_nonneg (‖place lon lat‖ - 1)]

theorem halfChord_eq (lonA latA lonB latB : ℝ) :
    halfChord lonA latA lonB latB = (1 - inner ℝ (place lonA latA) (place lonB latB)) / 2 := by
  rw [place_inner]
  unfold halfChord
  simp only [radians_eq]
  have h1 : cos (deg (latB - latA)) = 1 - 2 * sin (deg (latB - latA) / 2) ^ 2 := by
    rw [← cos_sq_add_sin_sq (deg (latB - latA) / 2)]
    have := cos_two_mul' (deg (latB - latA) / 2)
    rw [mul_div_cancel₀ _ (two_ne_zero)] at this
    rw [this]; ring
  have h2 : cos (deg (lonB - lonA)) = 1 - 2 * sin (deg (lonB - lonA) / 2) ^ 2 := by
    rw [← cos_sq_add_sin_sq (deg (lonB - lonA) / 2)]
    have := cos_two_mul' (deg (lonB - lonA) / 2)
    rw [mul_div_cancel₀ _ (two_ne_zero)] at this
    rw [this]; ring
  have h3 : cos (deg (latB - latA)) = cos (deg latB) * cos (deg latA) + sin (deg latB) * sin (deg latA) := by
    rw [deg_sub, cos_sub]
  rw [h3] at h1
  rw [h2]
  linear_combination (1 / 2) * h1

theorem arctan2_polar {r θ : ℝ} (hr : 0 < r) (h1 : -π < θ) (h2 : θ ≤ π) : arctan2 (r * sin θ) (r * cos θ) = θ := by
  unfold arctan2
  have : (⟨r * cos θ, r * sin θ⟩ : ℂ) = (r : ℂ) * (Complex.cos (θ : ℂ) + Complex.sin (θ : ℂ) * Complex.I) := by
    rw [← Complex.ofReal_cos, ← Complex.ofReal_sin]
    apply Complex.ext <;> simp [-Complex.ofReal_cos, -Complex.ofReal_sin]
  rw [this]
  exact Complex.arg_mul_cos_add_sin_mul_I hr ⟨h1, h2⟩

theorem half_arctan {c : ℝ} (h1 : -1 ≤ c) (h2 : c ≤ 1) :
    2 * arctan2 (√((1 - c) / 2)) (√(1 - (1 - c) / 2)) = arccos c := by
  have p0 := arccos_nonneg c
  have p1 := arccos_le_pi c
  have hpi := pi_pos
  have e : c = cos (2 * (arccos c / 2)) := by rw [mul_div_cancel₀ _ two_ne_zero, cos_arccos h1 h2]
  have s : √((1 - c) / 2) = sin (arccos c / 2) := by
    rw [show (1 - c) / 2 = sin (arccos c / 2) ^ 2 by
      have h := cos_two_mul' (arccos c / 2)
      have h' := sin_sq_add_cos_sq (arccos c / 2)
      rw [← e] at h
      linear_combination (-1 / 2) * h + (-1 / 2) * h']
    exact sqrt_sq (sin_nonneg_of_nonneg_of_le_pi (by linarith) (by linarith))
  have k : √(1 - (1 - c) / 2) = cos (arccos c / 2) := by
    rw [show 1 - (1 - c) / 2 = cos (arccos c / 2) ^ 2 by
      have h := cos_two_mul (arccos c / 2)
      rw [← e] at h
      linear_combination (1 / 2) * h]
    exact sqrt_sq (cos_nonneg_of_mem_Icc ⟨by linarith, by linarith⟩)
  rw [s, k]
  have : arctan2 (sin (arccos c / 2)) (cos (arccos c / 2)) = arccos c / 2 := by
    have := arctan2_polar (r := 1) (θ := arccos c / 2) one_pos (by linarith) (by linarith)
    simpa using this
  rw [this]; ring

theorem inner_bounds (lonA latA lonB latB : ℝ) :
    -1 ≤ inner ℝ (place lonA latA) (place lonB latB) ∧ inner ℝ (place lonA latA) (place lonB latB) ≤ 1 := by
  have := abs_real_inner_le_norm (place lonA latA) (place lonB latB)
  rw [place_norm, place_norm, mul_one] at this
  exact abs_le.1 this

theorem haversine_arccos (lonA latA lonB latB : ℝ) :
    haversine lonA latA lonB latB = earthRadius * arccos (inner ℝ (place lonA latA) (place lonB latB)) := by
  unfold haversine
  rw [halfChord_eq, half_arctan (inner_bounds ..).1 (inner_bounds ..).2]

theorem haversine_angle (lonA latA lonB latB : ℝ) :
    haversine lonA latA lonB latB = earthRadius * angle (place lonA latA) (place lonB latB) := by
  rw [haversine_arccos, angle, place_norm, place_norm, mul_one, div_one]

theorem arctan2_spec (x y : ℝ) :
    √(x ^ 2 + y ^ 2) * cos (arctan2 y x) = x ∧ √(x ^ 2 + y ^ 2) * sin (arctan2 y x) = y := by
  have e : ‖(⟨x, y⟩ : ℂ)‖ = √(x ^ 2 + y ^ 2) := by
    rw [Complex.norm_def, Complex.normSq_mk]; congr 1; ring
  constructor
  · have := Complex.norm_mul_cos_arg (⟨x, y⟩ : ℂ)
    rwa [e] at this
  · have := Complex.norm_mul_sin_arg (⟨x, y⟩ : ℂ)
    rwa [e] at this

theorem arctan2_range (x y : ℝ) : -π < arctan2 y x ∧ arctan2 y x ≤ π :=
  ⟨Complex.neg_pi_lt_arg _, Complex.arg_le_pi _⟩

/-- Moving along a heading. -/
theorem translate_place {lat : ℝ} (h : -90 < lat ∧ lat < 90) (lon b dist : ℝ) :
    place (translatePoint lon lat b dist).1 (translatePoint lon lat b dist).2 =
      cos (dist / earthRadius) • place lon lat + sin (dist / earthRadius) • heading lon lat b := by
  have hc := cos_lat_pos h
  generalize hd : dist / earthRadius = d
  have sc := sin_sq_add_cos_sq (deg lat)
  have sd := sin_sq_add_cos_sq d
  have sb := sin_sq_add_cos_sq (deg b)
  set S := sin (deg lat) * cos d + cos (deg lat) * sin d * cos (deg b) with hS
  set X := cos (deg lat) * cos d - sin (deg lat) * sin d * cos (deg b) with hX
  set Y := sin d * sin (deg b) with hY
  have unit : S ^ 2 + (X ^ 2 + Y ^ 2) = 1 := by
    rw [hS, hX, hY]
    linear_combination (cos d ^ 2 + sin d ^ 2 * cos (deg b) ^ 2) * sc + sin d ^ 2 * sb + sd
  have hS1 : -1 ≤ S ∧ S ≤ 1 := by
    constructor <;> nlinarith [sq_nonneg X, sq_nonneg Y, sq_nonneg (S + 1), sq_nonneg (S - 1)]
  have e1 : newLat lat b d = arcsin S := by unfold newLat; simp only [radians_eq, hS]
  have e2 : sin (newLat lat b d) = S := by rw [e1, sin_arcsin hS1.1 hS1.2]
  have e3 : cos (newLat lat b d) = √(X ^ 2 + Y ^ 2) := by
    rw [e1, cos_arcsin]; congr 1; linarith
  have e4 : lonDelta lat b d = arctan2 (cos (deg lat) * Y) (cos (deg lat) * X) := by
    unfold lonDelta
    rw [e2]
    simp only [radians_eq]
    congr 1
    · rw [hY]; ring
    · rw [hX, hS]; linear_combination (-cos d) * sc
  obtain ⟨q1, q2⟩ := arctan2_spec (cos (deg lat) * X) (cos (deg lat) * Y)
  rw [← e4] at q1 q2
  have e5 : √((cos (deg lat) * X) ^ 2 + (cos (deg lat) * Y) ^ 2) = cos (deg lat) * √(X ^ 2 + Y ^ 2) := by
    rw [show (cos (deg lat) * X) ^ 2 + (cos (deg lat) * Y) ^ 2 = cos (deg lat) ^ 2 * (X ^ 2 + Y ^ 2) by ring,
      sqrt_mul (sq_nonneg _), sqrt_sq hc.le]
  rw [e5, mul_assoc] at q1 q2
  have q1 := mul_left_cancel₀ hc.ne' q1
  have q2 := mul_left_cancel₀ hc.ne' q2
  have f1 : deg (translatePoint lon lat b dist).1 = deg lon + lonDelta lat b d := by
    unfold translatePoint; rw [hd, deg_add, deg_degrees]
  have f2 : deg (translatePoint lon lat b dist).2 = newLat lat b d := by
    unfold translatePoint; rw [hd, deg_degrees]
  unfold place
  rw [f1, f2, e2, e3]
  unfold heading north east
  apply PiLp.ext
  intro i
  fin_cases i
  · simp
    rw [cos_add]
    linear_combination cos (deg lon) * q1 - sin (deg lon) * q2 + 0 * hX
  · simp
    rw [sin_add]
    linear_combination sin (deg lon) * q1 + cos (deg lon) * q2
  · simp
    rw [hS]; ring

end Geos
end Verif
