import Verif.Props.Geos

/-! # Spacing of the demand grid in metres (C132) -/

namespace Verif
namespace Geos
open Real Spec

theorem cos_sq_lt {lat : ℝ} (h : -90 < lat ∧ lat < 90) (h0 : lat ≠ 0) : cos (deg lat) < 1 := by
  rcases lt_or_eq_of_le (cos_le_one (deg lat)) with e | e
  · exact e
  · exfalso
    have hs : sin (deg lat) = sin (deg 0) := by
      rw [deg_zero, sin_zero]
      have := sin_sq_add_cos_sq (deg lat)
      rw [e] at this
      exact pow_eq_zero_iff two_ne_zero |>.1 (by linarith)
    obtain ⟨k, hk⟩ := same_direction (x := lat) (y := 0) (by rw [e, deg_zero, cos_zero]) hs
    have h1 : (k : ℝ) < 1 := by linarith
    have h2 : (-1 : ℝ) < k := by linarith
    have h1' : k < 1 := by exact_mod_cast h1
    have h2' : -1 < k := by exact_mod_cast h2
    have : k = 0 := by omega
    rw [this] at hk
    push_cast at hk
    exact h0 (by linarith)

theorem gridDeltas_fst (lon lat s : ℝ) : (gridDeltas lon lat s).1 = degrees (lonDelta lat 90 (s / earthRadius)) := by
  unfold gridDeltas translatePoint
  ring

/-- The step in longitude: its cosine and sine, up to the length of the vector. -/
theorem east_step {lat : ℝ} (h : -90 < lat ∧ lat < 90) (d : ℝ) :
    √((cos (deg lat) * cos d) ^ 2 + sin d ^ 2) * cos (lonDelta lat 90 d) = cos (deg lat) * cos d ∧
    √((cos (deg lat) * cos d) ^ 2 + sin d ^ 2) * sin (lonDelta lat 90 d) = sin d := by
  have hc := cos_lat_pos h
  have sc := sin_sq_add_cos_sq (deg lat)
  have e1 : newLat lat 90 d = arcsin (sin (deg lat) * cos d) := by
    unfold newLat; simp only [radians_eq, deg_90, cos_pi_div_two, mul_zero, add_zero]
  have b1 := abs_sin_le_one (deg lat)
  have b2 := abs_cos_le_one d
  have bb : |sin (deg lat) * cos d| ≤ 1 := by
    rw [abs_mul]
    exact mul_le_one₀ b1 (abs_nonneg _) b2
  have e2 : sin (newLat lat 90 d) = sin (deg lat) * cos d := by
    rw [e1, sin_arcsin (abs_le.1 bb).1 (abs_le.1 bb).2]
  have e4 : lonDelta lat 90 d = arctan2 (cos (deg lat) * sin d) (cos (deg lat) * (cos (deg lat) * cos d)) := by
    unfold lonDelta
    rw [e2]
    simp only [radians_eq, deg_90, sin_pi_div_two]
    congr 1
    · ring
    · linear_combination (-cos d) * sc
  obtain ⟨q1, q2⟩ := arctan2_spec (cos (deg lat) * (cos (deg lat) * cos d)) (cos (deg lat) * sin d)
  rw [← e4] at q1 q2
  have e5 : √((cos (deg lat) * (cos (deg lat) * cos d)) ^ 2 + (cos (deg lat) * sin d) ^ 2) =
      cos (deg lat) * √((cos (deg lat) * cos d) ^ 2 + sin d ^ 2) := by
    rw [show (cos (deg lat) * (cos (deg lat) * cos d)) ^ 2 + (cos (deg lat) * sin d) ^ 2 =
      cos (deg lat) ^ 2 * ((cos (deg lat) * cos d) ^ 2 + sin d ^ 2) by ring, sqrt_mul (sq_nonneg _), sqrt_sq hc.le]
  rw [e5, mul_assoc] at q1 q2
  exact ⟨mul_left_cancel₀ hc.ne' q1, mul_left_cancel₀ hc.ne' q2⟩

theorem hav_le_iff {lonA latA lonB latB d : ℝ} (h0 : 0 ≤ d) (h1 : d ≤ π) :
    haversine lonA latA lonB latB ≤ earthRadius * d ↔ cos d ≤ inner ℝ (place lonA latA) (place lonB latB) := by
  rw [haversine_arccos, mul_le_mul_iff_right₀ earthRadius_pos]
  constructor
  · intro h
    have := cos_le_cos_of_nonneg_of_le_pi (arccos_nonneg _) h1 h
    rwa [cos_arccos (inner_bounds ..).1 (inner_bounds ..).2] at this
  · intro h
    have := arccos_le_arccos h
    rwa [arccos_cos h0 h1] at this

theorem edge_alg {c C k w : ℝ} (hc : 0 < c) (c1 : c ≤ 1) (C0 : 0 < C) (C1 : C ≤ 1) (w0 : 0 ≤ w)
    (w2 : w ^ 2 = 1 - C ^ 2 + C ^ 2 * c ^ 2) (q1 : w * k = c * C) : c ^ 2 * (1 - k) ≤ 1 - C := by
  have wc : c ≤ w := by
    by_contra hn
    have hlt : w < c := not_le.1 hn
    have : w ^ 2 < c ^ 2 := by nlinarith
    have : 0 ≤ (1 - C ^ 2) * (1 - c ^ 2) := mul_nonneg (by nlinarith) (by nlinarith)
    nlinarith
  have wpos : 0 < w := lt_of_lt_of_le hc wc
  have s1 : (w - c * C) * (w + c * C) = 1 - C ^ 2 := by linear_combination w2
  have s2 : c ^ 2 * (1 + C) ≤ w * (w + c * C) := by
      have : c * C * c ≤ c * C * w := mul_le_mul_of_nonneg_left wc (by positivity)
      have : 0 ≤ (1 - C ^ 2) * (1 - c ^ 2) := mul_nonneg (by nlinarith) (by nlinarith)
      nlinarith
  have s3 : c ^ 2 * (w - c * C) ≤ (1 - C) * w := by
      have p : 0 < w + c * C := by positivity
      refine le_of_mul_le_mul_right ?_ p
      calc c ^ 2 * (w - c * C) * (w + c * C) = (1 - C) * (c ^ 2 * (1 + C)) := by linear_combination c ^ 2 * s1
        _ ≤ (1 - C) * (w * (w + c * C)) := mul_le_mul_of_nonneg_left s2 (by linarith)
        _ = (1 - C) * w * (w + c * C) := by ring
  refine le_of_mul_le_mul_right ?_ wpos
  calc c ^ 2 * (1 - k) * w = c ^ 2 * (w - c * C) := by linear_combination (-c ^ 2) * q1
    _ ≤ (1 - C) * w := s3

/-- C132: the step in latitude is the spacing, everywhere on the grid; the step in longitude is positive and less than
90 degrees. -/
theorem C132_rows (lon lat s : ℝ) (h : -90 < lat ∧ lat < 90) (hs : 0 < s) (hs' : s < 6371000 * (π / 2))
    (top : lat + s / 6371000 * 180 / π ≤ 90) (x y : ℝ) :
    haversine x y x (y + (gridDeltas lon lat s).2) = s ∧ 0 < (gridDeltas lon lat s).1 ∧
      (gridDeltas lon lat s).1 < 90 := by
  have hpi := pi_pos
  have R := earthRadius_pos
  have d0 : 0 < s / earthRadius := div_pos hs R
  have d1 : s / earthRadius < π / 2 := by rw [div_lt_iff₀ R, mul_comm]; exact hs'
  refine ⟨?_, ?_⟩
  · have e : (gridDeltas lon lat s).2 = degrees (s / earthRadius) := by
      unfold gridDeltas translatePoint newLat
      dsimp only
      simp only [radians_eq, deg_zero, cos_zero, mul_one]
      have t := deg_mono top
      rw [show lat + s / 6371000 * 180 / π = lat + degrees (s / earthRadius) by unfold degrees earthRadius; rfl,
        deg_add, deg_degrees, deg_90] at t
      have l := deg_strict h.1
      rw [deg_neg, deg_90] at l
      rw [← sin_add, arcsin_sin (by linarith) t]
      rw [show degrees (deg lat + s / earthRadius) = degrees (deg lat) + degrees (s / earthRadius) by
        unfold degrees; ring, degrees_deg]
      ring
    have p : 0 < degrees (s / earthRadius) := by unfold degrees; positivity
    have le : degrees (s / earthRadius) ≤ 180 := by
      unfold degrees; rw [div_le_iff₀ hpi]; linarith
    rw [e, C127_meridian x y _ (by rw [add_sub_cancel_left, abs_of_pos p]; exact le), add_sub_cancel_left,
      abs_of_pos p]
    unfold degrees earthRadius
    field_simp
  · rw [gridDeltas_fst]
    obtain ⟨q1, q2⟩ := east_step h (s / earthRadius)
    have sp : 0 < sin (s / earthRadius) := sin_pos_of_pos_of_lt_pi d0 (by linarith)
    have cp : 0 < cos (deg lat) * cos (s / earthRadius) :=
      mul_pos (cos_lat_pos h) (cos_pos_of_mem_Ioo ⟨by linarith, d1⟩)
    have r0 : 0 ≤ √((cos (deg lat) * cos (s / earthRadius)) ^ 2 + sin (s / earthRadius) ^ 2) := sqrt_nonneg _
    have s1 : 0 < sin (lonDelta lat 90 (s / earthRadius)) := by
      by_contra hn; nlinarith
    have c1 : 0 < cos (lonDelta lat 90 (s / earthRadius)) := by
      by_contra hn; nlinarith
    obtain ⟨r1, r2⟩ := arctan2_range (cos (s / earthRadius) - sin (radians lat) * sin (newLat lat 90 (s / earthRadius)))
      (sin (radians 90) * sin (s / earthRadius) * cos (radians lat))
    have r1 : -π < lonDelta lat 90 (s / earthRadius) := r1
    have r2 : lonDelta lat 90 (s / earthRadius) ≤ π := r2
    have l0 : 0 < lonDelta lat 90 (s / earthRadius) := by
      by_contra hn
      have := sin_nonpos_of_nonpos_of_neg_pi_le (not_lt.1 hn) r1.le
      linarith
    have l1 : lonDelta lat 90 (s / earthRadius) < π / 2 := by
      by_contra hn
      have := cos_nonpos_of_pi_div_two_le_of_le (not_lt.1 hn) (by linarith)
      linarith
    constructor
    · unfold degrees; positivity
    · unfold degrees; rw [div_lt_iff₀ hpi]; linarith

/-- C132, partial: neighbours in a row of the grid are at most the spacing apart if the row is not closer to the
equator than the southern edge of the sites, where the step is computed. Missing: rows closer to the equator, which
exist south of it, see `C132_south_violation`. -/
theorem C132_columns_partial (lon lat s : ℝ) (h : -90 < lat ∧ lat < 90) (hs : 0 < s) (hs' : s < 6371000 * (π / 2))
    (x y : ℝ) (hy : |lat| ≤ |y|) (hy' : |y| ≤ 90) :
    haversine x y (x + (gridDeltas lon lat s).1) y ≤ s := by
  have hpi := pi_pos
  have R := earthRadius_pos
  have d0 : 0 < s / earthRadius := div_pos hs R
  have d1 : s / earthRadius < π / 2 := by rw [div_lt_iff₀ R, mul_comm]; exact hs'
  rw [gridDeltas_fst]
  generalize hd : s / earthRadius = d at *
  have es : s = earthRadius * d := by rw [← hd]; field_simp
  rw [es, hav_le_iff d0.le (by linarith), place_inner, add_sub_cancel_left, deg_degrees]
  obtain ⟨q1, q2⟩ := east_step h d
  have hc := cos_lat_pos h
  have C0 : 0 < cos d := cos_pos_of_mem_Ioo ⟨by linarith, d1⟩
  have cy : cos (deg y) ≤ cos (deg lat) := by
    have e : ∀ z, cos (deg z) = cos (deg (|z|)) := by
      intro z
      rcases abs_cases z with ⟨e, _⟩ | ⟨e, _⟩
      · rw [e]
      · rw [e, deg_neg, cos_neg]
    rw [e y, e lat]
    have a := deg_mono hy
    have b := deg_mono (hy'.trans (by norm_num : (90 : ℝ) ≤ 180))
    have c := deg_mono (abs_nonneg lat)
    rw [deg_zero] at c
    rw [deg_180] at b
    exact cos_le_cos_of_nonneg_of_le_pi c b a
  have cy0 : 0 ≤ cos (deg y) := cos_lat_nonneg (abs_le.1 hy')
  have sy := sin_sq_add_cos_sq (deg y)
  have sd := sin_sq_add_cos_sq d
  have l1 := cos_le_one (lonDelta lat 90 d)
  have c1 := cos_le_one (deg lat)
  have C1 := cos_le_one d
  set w := √((cos (deg lat) * cos d) ^ 2 + sin d ^ 2) with hw
  have w2 : w ^ 2 = 1 - cos d ^ 2 + cos d ^ 2 * cos (deg lat) ^ 2 := by
    rw [hw, sq_sqrt (by positivity)]; linear_combination sd
  have edge := edge_alg hc c1 C0 C1 (sqrt_nonneg _) w2 q1
  have row : cos (deg y) ^ 2 * (1 - cos (lonDelta lat 90 d)) ≤ cos (deg lat) ^ 2 * (1 - cos (lonDelta lat 90 d)) :=
    mul_le_mul_of_nonneg_right (pow_le_pow_left₀ cy0 cy 2) (by linarith)
  linarith [show sin (deg y) * sin (deg y) + cos (deg y) * cos (deg y) * cos (lonDelta lat 90 d) =
    1 - cos (deg y) ^ 2 * (1 - cos (lonDelta lat 90 d)) by linear_combination sy]

/-- C132 fails: if the southern edge is south of the equator, neighbours on the equator are farther apart than the
spacing. -/
theorem C132_south_violation (lon lat s : ℝ) (h : -90 < lat ∧ lat < 0) (hs : 0 < s) (hs' : s < 6371000 * (π / 2))
    (x : ℝ) : s < haversine x 0 (x + (gridDeltas lon lat s).1) 0 := by
  have hpi := pi_pos
  have R := earthRadius_pos
  have d0 : 0 < s / earthRadius := div_pos hs R
  have d1 : s / earthRadius < π / 2 := by rw [div_lt_iff₀ R, mul_comm]; exact hs'
  rw [gridDeltas_fst]
  generalize hd : s / earthRadius = d at *
  have es : s = earthRadius * d := by rw [← hd]; field_simp
  rw [es, ← not_le, hav_le_iff d0.le (by linarith), place_inner, add_sub_cancel_left, deg_degrees, deg_zero,
    sin_zero, cos_zero, not_le]
  have h' : -90 < lat ∧ lat < 90 := ⟨h.1, by linarith [h.2]⟩
  obtain ⟨q1, -⟩ := east_step h' d
  have hc := cos_lat_pos h'
  have C0 : 0 < cos d := cos_pos_of_mem_Ioo ⟨by linarith, d1⟩
  have c1 := cos_sq_lt h' h.2.ne
  have sd := sin_sq_add_cos_sq d
  have sp : 0 < sin d := sin_pos_of_pos_of_lt_pi d0 (by linarith)
  set w := √((cos (deg lat) * cos d) ^ 2 + sin d ^ 2) with hw
  have w2 : w ^ 2 = sin d ^ 2 + cos d ^ 2 * cos (deg lat) ^ 2 := by
    rw [hw, sq_sqrt (by positivity)]; ring
  have w0 : 0 ≤ w := sqrt_nonneg _
  have wc : cos (deg lat) < w := by
    by_contra hn
    have : w ^ 2 ≤ cos (deg lat) ^ 2 := pow_le_pow_left₀ w0 (not_lt.1 hn) 2
    have : 0 < sin d ^ 2 * (1 - cos (deg lat) ^ 2) := mul_pos (by positivity) (by nlinarith)
    nlinarith
  have : w * cos (lonDelta lat 90 d) < w * cos d := by
    rw [q1]
    exact mul_lt_mul_of_pos_right wc C0
  have := lt_of_mul_lt_mul_left this w0
  linarith

/-- Hypotheses of `C132_rows` and `C132_columns_partial` with a spacing of 25 m. -/
example : (0 : ℝ) < 25 ∧ (25 : ℝ) < 6371000 * (π / 2) ∧ (37 : ℝ) + 25 / 6371000 * 180 / π ≤ 90 ∧
    |(37 : ℝ)| ≤ |(38 : ℝ)| ∧ |(38 : ℝ)| ≤ 90 := by
  have h := two_le_pi
  refine ⟨by norm_num, by linarith, ?_, by norm_num, by norm_num⟩
  have : 25 / 6371000 * 180 / π ≤ 53 := by
    rw [div_le_iff₀ pi_pos]; linarith
  linarith

/-- Hypotheses of `C132_south_violation`. -/
example : (-90 : ℝ) < -33 ∧ (-33 : ℝ) < 0 := by norm_num

end Geos
end Verif
