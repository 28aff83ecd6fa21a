import Verif.Lemmas.GeosBearing

/-! # Distances and bearings on the Earth (C127, C128) -/

namespace Verif
namespace Geos
open Real Spec InnerProductGeometry

/-- C127: the computed distance of two sites is the length of the arc between them on a sphere with the Earth's
radius. -/
theorem C127_great_circle (lonA latA lonB latB : ℝ) :
    haversine lonA latA lonB latB = 6371000 * angle (place lonA latA) (place lonB latB) :=
  haversine_angle lonA latA lonB latB

/-- C127: distances do not depend on the direction, obey the triangle inequality, are at most half the circumference
and zero only for the same place. -/
theorem C127_metric (lonA latA lonB latB lonC latC : ℝ) :
    haversine lonA latA lonB latB = haversine lonB latB lonA latA ∧
    haversine lonA latA lonC latC ≤ haversine lonA latA lonB latB + haversine lonB latB lonC latC ∧
    0 ≤ haversine lonA latA lonB latB ∧ haversine lonA latA lonB latB ≤ 6371000 * π ∧
    (haversine lonA latA lonB latB = 0 ↔ place lonA latA = place lonB latB) := by
  simp only [C127_great_circle]
  refine ⟨by rw [angle_comm], ?_, ?_, ?_, ?_⟩
  · have := angle_le_angle_add_angle (place lonA latA) (place lonB latB) (place lonC latC)
    linarith
  · have := angle_nonneg (place lonA latA) (place lonB latB)
    linarith
  · have := angle_le_pi (place lonA latA) (place lonB latB)
    linarith
  · rw [mul_eq_zero, or_iff_right (by norm_num), angle_eq_zero_iff]
    constructor
    · rintro ⟨_, r, hr, e⟩
      have := congrArg norm e
      rw [norm_smul, place_norm, place_norm, mul_one, norm_of_nonneg hr.le] at this
      rw [e, ← this, one_smul]
    · intro e
      refine ⟨fun h => ?_, 1, one_pos, by rw [e, one_smul]⟩
      have := place_norm lonA latA
      rw [h, norm_zero] at this
      norm_num at this

/-- C127: away from the poles and the antimeridian, only equal coordinates have distance zero. -/
theorem C127_distinct (lonA latA lonB latB : ℝ) (hA : -90 < latA ∧ latA < 90) (hB : -90 < latB ∧ latB < 90)
    (hlA : -180 < lonA ∧ lonA ≤ 180) (hlB : -180 < lonB ∧ lonB ≤ 180) :
    haversine lonA latA lonB latB = 0 ↔ lonA = lonB ∧ latA = latB := by
  rw [(C127_metric lonA latA lonB latB 0 0).2.2.2.2]
  refine ⟨fun e => ?_, fun e => by rw [e.1, e.2]⟩
  have e0 : cos (deg latA) * cos (deg lonA) = cos (deg latB) * cos (deg lonB) := congrArg (fun v : Space => v 0) e
  have e1 : cos (deg latA) * sin (deg lonA) = cos (deg latB) * sin (deg lonB) := congrArg (fun v : Space => v 1) e
  have e2 : sin (deg latA) = sin (deg latB) := congrArg (fun v : Space => v 2) e
  have cA := cos_lat_pos hA
  have cB := cos_lat_pos hB
  have hc : cos (deg latA) = cos (deg latB) := by
    have h1 := sin_sq_add_cos_sq (deg latA)
    have h2 := sin_sq_add_cos_sq (deg latB)
    rw [e2] at h1
    have : cos (deg latA) ^ 2 = cos (deg latB) ^ 2 := by linarith
    exact (pow_left_inj₀ cA.le cB.le two_ne_zero).1 this
  have hlat : latA = latB := by
    obtain ⟨k, hk⟩ := same_direction hc e2
    have h1 : (k : ℝ) < 1 := by linarith
    have h2 : (-1 : ℝ) < k := by linarith
    have h1' : k < 1 := by exact_mod_cast h1
    have h2' : -1 < k := by exact_mod_cast h2
    have : k = 0 := by omega
    rw [this] at hk
    push_cast at hk
    linarith
  refine ⟨?_, hlat⟩
  rw [hc] at e0 e1
  obtain ⟨k, hk⟩ := same_direction (mul_left_cancel₀ cB.ne' e0) (mul_left_cancel₀ cB.ne' e1)
  have h1 : (k : ℝ) < 1 := by linarith
  have h2 : (-1 : ℝ) < k := by linarith
  have h1' : k < 1 := by exact_mod_cast h1
  have h2' : -1 < k := by exact_mod_cast h2
  have : k = 0 := by omega
  rw [this] at hk
  push_cast at hk
  linarith

/-- C127: along a meridian, a difference in latitude of 180 degrees is half the circumference. -/
theorem C127_meridian (lon latA latB : ℝ) (h : |latB - latA| ≤ 180) :
    haversine lon latA lon latB = 6371000 * (|latB - latA| * π / 180) := by
  have hpi := pi_pos
  have e : inner ℝ (place lon latA) (place lon latB) = cos (|deg (latB - latA)|) := by
    rw [place_inner, sub_self, deg_zero, cos_zero, cos_abs, deg_sub, cos_sub]
    ring
  have e2 : |deg (latB - latA)| = |latB - latA| * π / 180 := by
    unfold deg
    rw [abs_mul, abs_of_pos (by positivity : 0 < π / 180)]
    ring
  rw [haversine_arccos, e, arccos_cos (abs_nonneg _), e2, earthRadius]
  rw [e2]
  nlinarith

/-- The hypotheses of `C127_distinct` and `C127_meridian` hold for sites in a city. -/
example : (-90 < (37.48 : ℝ) ∧ (37.48 : ℝ) < 90) ∧ (-180 < (-122.15 : ℝ) ∧ (-122.15 : ℝ) ≤ 180) ∧
    |(37.49 : ℝ) - 37.48| ≤ 180 := by
  refine ⟨by norm_num, by norm_num, ?_⟩
  rw [abs_le]; norm_num

/-- A quarter of a meridian. -/
example : haversine 10 0 10 90 = 6371000 * (π / 2) := by
  rw [C127_meridian 10 0 90 (by norm_num)]
  norm_num
  ring

/-- C128: `translate_point` moves along the arc that starts with the given bearing. -/
theorem C128_moves (lon lat b dist : ℝ) (h : -90 < lat ∧ lat < 90) :
    place (translatePoint lon lat b dist).1 (translatePoint lon lat b dist).2 =
      cos (dist / 6371000) • place lon lat + sin (dist / 6371000) • heading lon lat b :=
  translate_place h lon b dist

/-- C128: the point reached by `translate_point` has the given distance and bearing, as computed by
`haversine_distance` and `bearing_in_degrees`. -/
theorem C128_there (lon lat b dist : ℝ) (h : -90 < lat ∧ lat < 90) (hd : 0 < dist) (hd' : dist < 6371000 * π)
    (hb : 0 ≤ b ∧ b < 360) :
    haversine lon lat (translatePoint lon lat b dist).1 (translatePoint lon lat b dist).2 = dist ∧
    bearing lon lat (translatePoint lon lat b dist).1 (translatePoint lon lat b dist).2 = b := by
  have e := translate_place h lon b dist
  have r := earthRadius_pos
  have d0 : 0 < dist / earthRadius := div_pos hd r
  have d1 : dist / earthRadius < π := by rw [div_lt_iff₀ r, mul_comm]; exact hd'
  refine ⟨?_, bearing_of_place e d0 d1 hb⟩
  rw [haversine_of_place e d0.le d1.le, mul_div_cancel₀ _ r.ne']

/-- C128: going from one site with the computed bearing for the computed distance leads to the other site. -/
theorem C128_back (lonA latA lonB latB : ℝ) (h : -90 < latA ∧ latA < 90) :
    place (translatePoint lonA latA (bearing lonA latA lonB latB) (haversine lonA latA lonB latB)).1
      (translatePoint lonA latA (bearing lonA latA lonB latB) (haversine lonA latA lonB latB)).2 = place lonB latB := by
  rw [translate_place h, ← bearing_place]

/-- C128: bearings are in `[0, 360)`, and that of two sites which are neither the same place nor opposite is the only
one in this range whose arc leads from the one to the other. -/
theorem C128_bearing (lonA latA lonB latB : ℝ) :
    0 ≤ bearing lonA latA lonB latB ∧ bearing lonA latA lonB latB < 360 ∧
    (∃ d, 0 ≤ d ∧ d ≤ π ∧
      place lonB latB = cos d • place lonA latA + sin d • heading lonA latA (bearing lonA latA lonB latB)) ∧
    ∀ b d, 0 ≤ b → b < 360 → 0 < d → d < π →
      place lonB latB = cos d • place lonA latA + sin d • heading lonA latA b → bearing lonA latA lonB latB = b := by
  refine ⟨(fmod360_range _).1, (fmod360_range _).2, ⟨_, ?_, ?_, bearing_place lonA latA lonB latB⟩, ?_⟩
  · exact div_nonneg (C127_metric lonA latA lonB latB 0 0).2.2.1 earthRadius_pos.le
  · rw [div_le_iff₀ earthRadius_pos, mul_comm]
    exact (C127_metric lonA latA lonB latB 0 0).2.2.2.1
  · intro b d hb hb' hd hd' e
    exact bearing_of_place e hd hd' ⟨hb, hb'⟩

/-- Hypotheses of `C128_there`: one kilometre to the south-west. -/
example : (-90 < (37.48 : ℝ) ∧ (37.48 : ℝ) < 90) ∧ (0 : ℝ) < 1000 ∧ (1000 : ℝ) < 6371000 * π ∧
    (0 : ℝ) ≤ 225 ∧ (225 : ℝ) < 360 := by
  have := two_le_pi
  refine ⟨by norm_num, by norm_num, by linarith, by norm_num, by norm_num⟩

/-- Hypotheses of the last part of `C128_bearing`: a quarter turn eastwards. -/
example : place 90 0 = cos (π / 2) • place 0 0 + sin (π / 2) • heading 0 0 90 := by
  rw [cos_pi_div_two, sin_pi_div_two, zero_smul, zero_add, one_smul]
  simp [place, heading, north, east, deg_zero, deg_90]

/-- North, east, south and west. -/
example : bearing 0 0 90 0 = 90 :=
  (C128_bearing 0 0 90 0).2.2.2 90 (π / 2) (by norm_num) (by norm_num) (by have := pi_pos; linarith)
    (by have := pi_pos; linarith) (by
      rw [cos_pi_div_two, sin_pi_div_two, zero_smul, zero_add, one_smul]
      simp [place, heading, north, east, deg_zero, deg_90])

end Geos
end Verif
