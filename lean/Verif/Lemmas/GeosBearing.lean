import Verif.Lemmas.Geos

/-! # Lemmas about bearings -/

namespace Verif
namespace Geos
open Real Spec InnerProductGeometry

theorem earthRadius_pos : 0 < earthRadius := by unfold earthRadius; norm_num

theorem fmod360_range (x : ℝ) : 0 ≤ fmod360 x ∧ fmod360 x < 360 := by
  unfold fmod360
  have h1 := Int.floor_le (x / 360)
  have h2 := Int.lt_floor_add_one (x / 360)
  constructor
  · have : (⌊x / 360⌋ : ℝ) * 360 ≤ x := by rwa [← le_div_iff₀ (by norm_num)]
    linarith
  · have : x < (⌊x / 360⌋ + 1 : ℝ) * 360 := by rwa [← div_lt_iff₀ (by norm_num)]
    linarith

theorem fmod360_eq (x : ℝ) : ∃ k : ℤ, fmod360 x = x - 360 * k := ⟨⌊x / 360⌋, rfl⟩

theorem deg_turns (x : ℝ) (k : ℤ) : deg (x - 360 * k) = deg x - k * (2 * π) := by unfold deg; ring

theorem cos_fmod (x : ℝ) : cos (deg (fmod360 x)) = cos (deg x) := by
  obtain ⟨k, hk⟩ := fmod360_eq x
  rw [hk, deg_turns, cos_sub_int_mul_two_pi]

theorem sin_fmod (x : ℝ) : sin (deg (fmod360 x)) = sin (deg x) := by
  obtain ⟨k, hk⟩ := fmod360_eq x
  rw [hk, deg_turns, sin_sub_int_mul_two_pi]

/-- Two directions in degrees with equal sine and cosine differ by full turns. -/
theorem same_direction {x y : ℝ} (hc : cos (deg x) = cos (deg y)) (hs : sin (deg x) = sin (deg y)) :
    ∃ k : ℤ, x - y = 360 * k := by
  have h1 : cos (deg (x - y)) = 1 := by
    rw [deg_sub, cos_sub, hc, hs]
    have := sin_sq_add_cos_sq (deg y)
    linear_combination this
  obtain ⟨k, hk⟩ := (cos_eq_one_iff _).1 h1
  refine ⟨k, ?_⟩
  have := congrArg degrees hk
  rw [degrees_deg] at this
  rw [← this]
  unfold degrees
  field_simp
  ring

theorem same_bearing {x y : ℝ} (hx : 0 ≤ x ∧ x < 360) (hy : 0 ≤ y ∧ y < 360)
    (hc : cos (deg x) = cos (deg y)) (hs : sin (deg x) = sin (deg y)) : x = y := by
  obtain ⟨k, hk⟩ := same_direction hc hs
  have h1 : (k : ℝ) < 1 := by linarith
  have h2 : (-1 : ℝ) < k := by linarith
  have h1' : k < 1 := by exact_mod_cast h1
  have h2' : -1 < k := by exact_mod_cast h2
  have : k = 0 := by omega
  rw [this] at hk
  push_cast at hk
  linarith

/-- Component towards the north of the direction to `b`. -/
noncomputable def toNorth (lonA latA lonB latB : ℝ) : ℝ :=
  cos (deg latA) * sin (deg latB) - sin (deg latA) * cos (deg latB) * cos (deg (lonB - lonA))

/-- Component towards the east of the direction to `b`. -/
noncomputable def toEast (lonA latB lonB : ℝ) : ℝ := cos (deg latB) * sin (deg (lonB - lonA))

theorem bearing_trig (lonA latA lonB latB : ℝ) :
    √(toNorth lonA latA lonB latB ^ 2 + toEast lonA latB lonB ^ 2) * cos (deg (bearing lonA latA lonB latB)) =
      toNorth lonA latA lonB latB ∧
    √(toNorth lonA latA lonB latB ^ 2 + toEast lonA latB lonB ^ 2) * sin (deg (bearing lonA latA lonB latB)) =
      toEast lonA latB lonB := by
  unfold bearing
  rw [cos_fmod, sin_fmod, deg_degrees]
  simp only [radians_eq]
  exact arctan2_spec (toNorth lonA latA lonB latB) (toEast lonA latB lonB)

theorem norm_parts (lonA latA lonB latB : ℝ) :
    toNorth lonA latA lonB latB ^ 2 + toEast lonA latB lonB ^ 2 =
      1 - inner ℝ (place lonA latA) (place lonB latB) ^ 2 := by
  rw [place_inner]
  unfold toNorth toEast
  have h1 := sin_sq_add_cos_sq (deg latA)
  have h2 := sin_sq_add_cos_sq (deg latB)
  have h3 := sin_sq_add_cos_sq (deg (lonB - lonA))
  linear_combination (cos (deg latB) ^ 2 * cos (deg (lonB - lonA)) ^ 2 + sin (deg latB) ^ 2) * h1 + h2 +
    cos (deg latB) ^ 2 * h3

/-- The frame at `a`. -/
theorem place_frame (lonA latA lonB latB : ℝ) :
    place lonB latB = inner ℝ (place lonA latA) (place lonB latB) • place lonA latA +
      (toNorth lonA latA lonB latB • north lonA latA + toEast lonA latB lonB • east lonA) := by
  rw [place_inner]
  have h1 := sin_sq_add_cos_sq (deg latA)
  have h3 := sin_sq_add_cos_sq (deg lonA)
  unfold place toNorth toEast north east
  rw [deg_sub, cos_sub, sin_sub]
  apply PiLp.ext
  intro i
  fin_cases i
  · simp
    linear_combination (-cos (deg latB) * cos (deg lonB)) * h3 +
      (-cos (deg latB) * cos (deg lonA) * (cos (deg lonB) * cos (deg lonA) + sin (deg lonB) * sin (deg lonA))) * h1
  · simp
    linear_combination (-cos (deg latB) * sin (deg lonB)) * h3 +
      (-cos (deg latB) * sin (deg lonA) * (cos (deg lonB) * cos (deg lonA) + sin (deg lonB) * sin (deg lonA))) * h1
  · simp
    linear_combination (-sin (deg latB)) * h1

theorem hav_cos (lonA latA lonB latB : ℝ) :
    cos (haversine lonA latA lonB latB / earthRadius) = inner ℝ (place lonA latA) (place lonB latB) := by
  rw [haversine_arccos, mul_div_cancel_left₀ _ earthRadius_pos.ne', cos_arccos (inner_bounds ..).1 (inner_bounds ..).2]

theorem hav_sin (lonA latA lonB latB : ℝ) :
    sin (haversine lonA latA lonB latB / earthRadius) =
      √(toNorth lonA latA lonB latB ^ 2 + toEast lonA latB lonB ^ 2) := by
  rw [haversine_arccos, mul_div_cancel_left₀ _ earthRadius_pos.ne', sin_arccos, norm_parts]

/-- The way from `a` with the computed bearing and distance leads to `b`. -/
theorem bearing_place (lonA latA lonB latB : ℝ) :
    place lonB latB = cos (haversine lonA latA lonB latB / earthRadius) • place lonA latA +
      sin (haversine lonA latA lonB latB / earthRadius) • heading lonA latA (bearing lonA latA lonB latB) := by
  obtain ⟨h1, h2⟩ := bearing_trig lonA latA lonB latB
  rw [hav_cos, hav_sin]
  unfold heading
  rw [smul_add, smul_smul, smul_smul, h1, h2]
  exact place_frame lonA latA lonB latB

theorem heading_place (lon lat b : ℝ) : inner ℝ (place lon lat) (heading lon lat b) = 0 := by
  simp [heading, north, east, place, PiLp.inner_apply, Fin.sum_univ_three]
  have h3 := sin_sq_add_cos_sq (deg lon)
  linear_combination (-sin (deg lat) * cos (deg lat) * cos (deg b)) * h3

theorem heading_north (lon lat b : ℝ) : inner ℝ (north lon lat) (heading lon lat b) = cos (deg b) := by
  simp [heading, north, east, PiLp.inner_apply, Fin.sum_univ_three]
  have h1 := sin_sq_add_cos_sq (deg lat)
  have h3 := sin_sq_add_cos_sq (deg lon)
  linear_combination (cos (deg b)) * h1 + (sin (deg lat) ^ 2 * cos (deg b)) * h3

theorem heading_east (lon lat b : ℝ) : inner ℝ (east lon) (heading lon lat b) = sin (deg b) := by
  simp [heading, north, east, PiLp.inner_apply, Fin.sum_univ_three]
  have h3 := sin_sq_add_cos_sq (deg lon)
  linear_combination (sin (deg b)) * h3

/-- The distance covered by moving along a heading. -/
theorem haversine_of_place {lonA latA lonB latB b d : ℝ}
    (h : place lonB latB = cos d • place lonA latA + sin d • heading lonA latA b) (h0 : 0 ≤ d) (h1 : d ≤ π) :
    haversine lonA latA lonB latB = earthRadius * d := by
  rw [haversine_arccos, h, inner_add_right, inner_smul_right, inner_smul_right, heading_place,
    real_inner_self_eq_norm_sq, place_norm]
  simp [arccos_cos h0 h1]

/-- The bearing of a point reached by moving along a heading. -/
theorem bearing_of_place {lonA latA lonB latB b d : ℝ}
    (h : place lonB latB = cos d • place lonA latA + sin d • heading lonA latA b) (h0 : 0 < d) (h1 : d < π)
    (hb : 0 ≤ b ∧ b < 360) : bearing lonA latA lonB latB = b := by
  have e := haversine_of_place h h0.le h1.le
  have p := bearing_place lonA latA lonB latB
  rw [e, mul_div_cancel_left₀ _ earthRadius_pos.ne', h] at p
  have p := smul_right_injective _ (sin_pos_of_pos_of_lt_pi h0 h1).ne' (add_left_cancel p)
  have c := congrArg (inner ℝ (north lonA latA)) p
  have s := congrArg (inner ℝ (east lonA)) p
  rw [heading_north, heading_north] at c
  rw [heading_east, heading_east] at s
  exact same_bearing (fmod360_range _) hb c.symm s.symm

end Geos
end Verif
