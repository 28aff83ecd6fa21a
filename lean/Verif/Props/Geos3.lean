import Verif.Props.Geos
import Verif.Lemmas.GeosHinge
import Mathlib.Geometry.Euclidean.Triangle

/-! # Angles between links (C130) -/

namespace Verif
namespace Spec

/-- The plane. -/
abbrev Plane := EuclideanSpace ℝ (Fin 2)

end Spec

namespace Geos
open Real Spec InnerProductGeometry EuclideanGeometry

theorem law_flat {P0 P1 P2 : Plane} (h1 : 0 < dist P0 P1) (h2 : 0 < dist P0 P2) :
    lawOfCosines (dist P0 P1) (dist P0 P2) (dist P1 P2) = some (degrees (∠ P1 P0 P2)) := by
  unfold lawOfCosines
  rw [if_pos ⟨h1, h2⟩]
  split
  · next h =>
    rw [dist_eq_zero] at h
    rw [h, angle_self_of_ne (fun e => by rw [h, e, dist_self] at h1; exact lt_irrefl _ h1)]
    simp [degrees]
  · have lc := law_cos P1 P0 P2
    rw [dist_comm P1 P0, dist_comm P2 P0] at lc
    have e : (dist P0 P1 ^ 2 + dist P0 P2 ^ 2 - dist P1 P2 ^ 2) / (2 * dist P0 P1 * dist P0 P2) = cos (∠ P1 P0 P2) := by
      rw [div_eq_iff (by positivity)]
      linear_combination -lc
    rw [e, max_eq_right (neg_one_le_cos _), min_eq_right (cos_le_one _),
      arccos_cos (angle_nonneg _ _ _) (angle_le_pi _ _ _)]

theorem dist_plane (x y x' y' : ℝ) : dist (!₂[x, y] : Plane) !₂[x', y'] = √((x' - x) ^ 2 + (y' - y) ^ 2) := by
  rw [EuclideanSpace.dist_eq, Fin.sum_univ_two]
  simp only [PiLp.toLp_apply, Matrix.cons_val_zero, Matrix.cons_val_one, Real.dist_eq, sq_abs]
  congr 1; ring

/-- C130: for points in the plane, the computed angle is that between the lines from the first point to the two
others; it is computed exactly if these are different from the first. -/
theorem C130_planar (x0 y0 x1 y1 x2 y2 : ℝ) :
    lawUtm x0 y0 x1 y1 x2 y2 =
      open Classical in
      if (!₂[x1, y1] : Plane) = !₂[x0, y0] ∨ (!₂[x2, y2] : Plane) = !₂[x0, y0] then none
      else some (∠ (!₂[x1, y1] : Plane) !₂[x0, y0] !₂[x2, y2] * 180 / π) := by
  unfold lawUtm
  rw [← dist_plane, ← dist_plane, ← dist_plane]
  split
  · next h =>
    unfold lawOfCosines
    rw [if_neg]
    rintro ⟨h1, h2⟩
    rcases h with h | h
    · rw [h, dist_self] at h1; exact lt_irrefl _ h1
    · rw [h, dist_self] at h2; exact lt_irrefl _ h2
  · next h =>
    rw [not_or] at h
    exact law_flat (dist_pos.2 (Ne.symm h.1)) (dist_pos.2 (Ne.symm h.2))

theorem hav_pos_iff (lonA latA lonB latB : ℝ) :
    0 < haversine lonA latA lonB latB ↔ place lonB latB ≠ place lonA latA := by
  have m := C127_metric lonA latA lonB latB 0 0
  rw [lt_iff_le_and_ne, and_iff_right m.2.2.1, ne_comm, Ne, m.2.2.2.2, ne_comm]

/-- Sides that satisfy the triangle inequalities are those of a flat triangle. -/
theorem exists_flat {a b c : ℝ} (ha : 0 < a) (hb : 0 < b) (hc : 0 ≤ c) (h1 : c ≤ a + b) (h2 : a ≤ b + c)
    (h3 : b ≤ a + c) : ∃ P0 P1 P2 : Plane, dist P0 P1 = a ∧ dist P0 P2 = b ∧ dist P1 P2 = c := by
  set x := (a ^ 2 + b ^ 2 - c ^ 2) / (2 * a * b) with hx
  have e : x * (2 * a * b) = a ^ 2 + b ^ 2 - c ^ 2 := by rw [hx]; field_simp
  have x1 : x ≤ 1 := by
    rw [hx, div_le_one (by positivity)]; nlinarith
  have x2 : -1 ≤ x := by
    rw [hx, le_div_iff₀ (by positivity)]; nlinarith
  have hs : √(1 - x ^ 2) ^ 2 = 1 - x ^ 2 := sq_sqrt (by nlinarith)
  refine ⟨!₂[0, 0], !₂[a, 0], !₂[b * x, b * √(1 - x ^ 2)], ?_, ?_, ?_⟩
  · rw [dist_plane, sub_zero, sub_self, zero_pow two_ne_zero, add_zero, sqrt_sq ha.le]
  · rw [dist_plane, show (b * x - 0) ^ 2 + (b * √(1 - x ^ 2) - 0) ^ 2 = b ^ 2 by
      linear_combination b ^ 2 * hs, sqrt_sq hb.le]
  · rw [dist_plane, show (b * x - a) ^ 2 + (b * √(1 - x ^ 2) - 0) ^ 2 = c ^ 2 by
      linear_combination b ^ 2 * hs - e, sqrt_sq hc]

/-- C130: the angle between the links from one site to two others is that of the flat triangle with the same side
lengths (there is one), and the ratio is that of the longer to the shorter link. -/
theorem C130_flat (lat0 lon0 lat1 lon1 lat2 lon2 : ℝ) (h1 : place lon1 lat1 ≠ place lon0 lat0)
    (h2 : place lon2 lat2 ≠ place lon0 lat0) :
    ∃ a r, lawSpherical lat0 lon0 lat1 lon1 lat2 lon2 = some (a, r) ∧
      (∃ P0 P1 P2 : Plane, dist P0 P1 = haversine lon0 lat0 lon1 lat1 ∧ dist P0 P2 = haversine lon0 lat0 lon2 lat2 ∧
        dist P1 P2 = haversine lon1 lat1 lon2 lat2) ∧
      (∀ P0 P1 P2 : Plane, dist P0 P1 = haversine lon0 lat0 lon1 lat1 → dist P0 P2 = haversine lon0 lat0 lon2 lat2 →
        dist P1 P2 = haversine lon1 lat1 lon2 lat2 → a = ∠ P1 P0 P2 * 180 / π) ∧
      1 ≤ r ∧ (haversine lon0 lat0 lon1 lat1 = r * haversine lon0 lat0 lon2 lat2 ∨
        haversine lon0 lat0 lon2 lat2 = r * haversine lon0 lat0 lon1 lat1) := by
  have p1 := (hav_pos_iff lon0 lat0 lon1 lat1).2 h1
  have p2 := (hav_pos_iff lon0 lat0 lon2 lat2).2 h2
  have m01 := C127_metric lon0 lat0 lon1 lat1 lon2 lat2
  have m12 := C127_metric lon1 lat1 lon2 lat2 lon0 lat0
  have m10 := C127_metric lon1 lat1 lon0 lat0 lon2 lat2
  have m02 := C127_metric lon0 lat0 lon2 lat2 lon1 lat1
  obtain ⟨P0, P1, P2, e1, e2, e3⟩ := exists_flat p1 p2 m12.2.2.1 (by linarith [m10.2.1, m10.1])
    (by linarith [m02.2.1, m12.1]) (by linarith [m01.2.1])
  have key : ∀ P0 P1 P2 : Plane, dist P0 P1 = haversine lon0 lat0 lon1 lat1 →
      dist P0 P2 = haversine lon0 lat0 lon2 lat2 → dist P1 P2 = haversine lon1 lat1 lon2 lat2 →
      lawOfCosines (haversine lon0 lat0 lon1 lat1) (haversine lon0 lat0 lon2 lat2) (haversine lon1 lat1 lon2 lat2) =
        some (∠ P1 P0 P2 * 180 / π) := by
    intro P0 P1 P2 a b c
    rw [← a, ← b, ← c]
    exact law_flat (by rw [a]; exact p1) (by rw [b]; exact p2)
  refine ⟨∠ P1 P0 P2 * 180 / π, max (haversine lon0 lat0 lon1 lat1) (haversine lon0 lat0 lon2 lat2) /
    min (haversine lon0 lat0 lon1 lat1) (haversine lon0 lat0 lon2 lat2), ?_, ⟨P0, P1, P2, e1, e2, e3⟩, ?_, ?_, ?_⟩
  · unfold lawSpherical lengthRatio
    dsimp only
    rw [key P0 P1 P2 e1 e2 e3, if_pos ⟨p1, p2⟩]
  · intro Q0 Q1 Q2 a b c
    have := (key P0 P1 P2 e1 e2 e3).symm.trans (key Q0 Q1 Q2 a b c)
    exact Option.some.inj this
  · rw [le_div_iff₀ (lt_min p1 p2), one_mul]
    exact min_le_max
  · rcases le_total (haversine lon0 lat0 lon1 lat1) (haversine lon0 lat0 lon2 lat2) with h | h
    · right
      rw [max_eq_right h, min_eq_left h, div_mul_cancel₀ _ p1.ne']
    · left
      rw [max_eq_left h, min_eq_right h, div_mul_cancel₀ _ p2.ne']

/-- C130: the computation fails (an assertion) exactly if one of the links has its two ends in the same place. -/
theorem C130_fails (lat0 lon0 lat1 lon1 lat2 lon2 : ℝ) :
    lawSpherical lat0 lon0 lat1 lon1 lat2 lon2 = none ↔
      place lon1 lat1 = place lon0 lat0 ∨ place lon2 lat2 = place lon0 lat0 := by
  constructor
  · intro h
    by_contra hn
    rw [not_or] at hn
    obtain ⟨a, r, e, _⟩ := C130_flat lat0 lon0 lat1 lon1 lat2 lon2 hn.1 hn.2
    rw [h] at e
    cases e
  · intro h
    unfold lawSpherical lawOfCosines
    dsimp only
    rw [if_neg]
    rintro ⟨a, b⟩
    rcases h with h | h
    · exact (hav_pos_iff lon0 lat0 lon1 lat1).1 a h
    · exact (hav_pos_iff lon0 lat0 lon2 lat2).1 b h

/-- C130: the order of the two links does not matter. -/
theorem C130_symmetric (lat0 lon0 lat1 lon1 lat2 lon2 : ℝ) :
    lawSpherical lat0 lon0 lat1 lon1 lat2 lon2 = lawSpherical lat0 lon0 lat2 lon2 lat1 lon1 := by
  unfold lawSpherical
  dsimp only
  rw [(C127_metric lon1 lat1 lon2 lat2 0 0).1]
  generalize haversine lon0 lat0 lon1 lat1 = a
  generalize haversine lon0 lat0 lon2 lat2 = b
  generalize haversine lon2 lat2 lon1 lat1 = c
  have e1 : lawOfCosines a b c = lawOfCosines b a c := by
    unfold lawOfCosines
    rw [show a ^ 2 + b ^ 2 - c ^ 2 = b ^ 2 + a ^ 2 - c ^ 2 by ring, show 2 * a * b = 2 * b * a by ring]
    simp only [and_comm]
  have e2 : lengthRatio a b = lengthRatio b a := by
    unfold lengthRatio
    rw [max_comm, min_comm]
    simp only [and_comm]
  rw [e1, e2]

theorem law_val {a b : ℝ} (c : ℝ) (ha : 0 < a) (hb : 0 < b) :
    lawOfCosines a b c = some (open Classical in if c = 0 then 0 else
      degrees (arccos (min 1 (max (-1) ((a ^ 2 + b ^ 2 - c ^ 2) / (2 * a * b)))))) := by
  unfold lawOfCosines
  rw [if_pos ⟨ha, hb⟩]
  split <;> rfl

theorem ratio_val {a b : ℝ} (ha : 0 < a) (hb : 0 < b) : lengthRatio a b = some (max a b / min a b) := by
  unfold lengthRatio
  rw [if_pos ⟨ha, hb⟩]

theorem heading_place' (lon lat b : ℝ) : inner ℝ (heading lon lat b) (place lon lat) = 0 := by
  rw [real_inner_comm, heading_place]

theorem arccos_cos_le (t : ℝ) : arccos (cos t) ≤ |t| := by
  by_cases h : |t| ≤ π
  · rw [← cos_abs, arccos_cos (abs_nonneg _) h]
  · exact (arccos_le_pi _).trans (not_le.1 h).le

theorem heading_heading (lon lat b c : ℝ) : inner ℝ (heading lon lat b) (heading lon lat c) = cos (deg (b - c)) := by
  rw [deg_sub, cos_sub]
  rw [show inner ℝ (heading lon lat b) (heading lon lat c) =
    cos (deg b) * inner ℝ (north lon lat) (heading lon lat c) + sin (deg b) * inner ℝ (east lon) (heading lon lat c) by
      unfold heading
      rw [inner_add_left, real_inner_smul_left, real_inner_smul_left]]
  rw [heading_north, heading_east]

/-- C130: the angle is at most the angle between the directions of the two links at the common site, so that links in
directions closer than the limit of a deployment rule are always noticed. -/
theorem C130_at_most (lat0 lon0 lat1 lon1 lat2 lon2 a r : ℝ)
    (h : lawSpherical lat0 lon0 lat1 lon1 lat2 lon2 = some (a, r)) (k : ℤ) :
    0 ≤ a ∧ a ≤ 180 ∧ a ≤ |bearing lon0 lat0 lon1 lat1 - bearing lon0 lat0 lon2 lat2 - 360 * k| := by
  have hn : ¬ (place lon1 lat1 = place lon0 lat0 ∨ place lon2 lat2 = place lon0 lat0) := by
    rw [← C130_fails, h]; simp
  rw [not_or] at hn
  have p1 := (hav_pos_iff lon0 lat0 lon1 lat1).2 hn.1
  have p2 := (hav_pos_iff lon0 lat0 lon2 lat2).2 hn.2
  have hpi := pi_pos
  have R := earthRadius_pos
  set t := bearing lon0 lat0 lon1 lat1 - bearing lon0 lat0 lon2 lat2 - 360 * k with ht
  have b1 := bearing_place lon0 lat0 lon1 lat1
  have b2 := bearing_place lon0 lat0 lon2 lat2
  have i12 := haversine_arccos lon1 lat1 lon2 lat2
  rw [b1, b2, inner_add_left, inner_add_right, inner_add_right] at i12
  simp only [real_inner_smul_left, real_inner_smul_right, heading_heading, heading_place, heading_place',
    real_inner_self_eq_norm_sq, place_norm] at i12
  have m1 := C127_metric lon0 lat0 lon1 lat1 0 0
  have m2 := C127_metric lon0 lat0 lon2 lat2 0 0
  have ct : cos (deg (bearing lon0 lat0 lon1 lat1 - bearing lon0 lat0 lon2 lat2)) = cos (deg t) := by
    rw [ht, deg_turns, cos_sub_int_mul_two_pi]
  rw [ct] at i12
  unfold lawSpherical at h
  dsimp only at h
  rw [law_val _ p1 p2, ratio_val p1 p2] at h
  dsimp only at h
  obtain ⟨ha, hr⟩ := Prod.mk.inj (Option.some.inj h)
  set l1 := haversine lon0 lat0 lon1 lat1 with hl1
  set l2 := haversine lon0 lat0 lon2 lat2 with hl2
  set l3 := haversine lon1 lat1 lon2 lat2 with hl3
  have hg := hinge (a := l1 / earthRadius) (b := l2 / earthRadius) (x := cos (deg t)) (div_nonneg p1.le R.le)
    (by rw [div_le_iff₀ R, mul_comm]; exact m1.2.2.2.1) (div_nonneg p2.le R.le)
    (by rw [div_le_iff₀ R, mul_comm]; exact m2.2.2.2.1) (neg_one_le_cos _) (cos_le_one _)
  have side : l3 ^ 2 ≤ l1 ^ 2 + l2 ^ 2 - 2 * l1 * l2 * cos (deg t) := by
    have e3 : arccos (cos (l1 / earthRadius) * cos (l2 / earthRadius) +
        sin (l1 / earthRadius) * sin (l2 / earthRadius) * cos (deg t)) = l3 / earthRadius := by
      rw [eq_div_iff R.ne', i12, mul_comm]
      congr 2
      ring
    rw [e3] at hg
    have := mul_le_mul_of_nonneg_right hg (sq_nonneg earthRadius)
    have r1 : (l3 / earthRadius) ^ 2 * earthRadius ^ 2 = l3 ^ 2 := by field_simp
    have r2 : ((l1 / earthRadius) ^ 2 + (l2 / earthRadius) ^ 2 - 2 * (l1 / earthRadius) * (l2 / earthRadius) *
        cos (deg t)) * earthRadius ^ 2 = l1 ^ 2 + l2 ^ 2 - 2 * l1 * l2 * cos (deg t) := by field_simp
    rw [r1, r2] at this
    exact this
  have dle : ∀ y, degrees (arccos y) ≤ 180 := by
    intro y
    unfold degrees
    rw [div_le_iff₀ hpi]
    linarith [arccos_le_pi y]
  have dge : ∀ y, 0 ≤ degrees (arccos y) := by
    intro y
    unfold degrees
    have := arccos_nonneg y
    positivity
  rw [← ha]
  split
  · exact ⟨le_refl _, by norm_num, abs_nonneg _⟩
  · refine ⟨dge _, dle _, ?_⟩
    have ge : cos (deg t) ≤ (l1 ^ 2 + l2 ^ 2 - l3 ^ 2) / (2 * l1 * l2) := by
      rw [le_div_iff₀ (by positivity)]
      linarith
    have ge' : cos (deg t) ≤ min 1 (max (-1) ((l1 ^ 2 + l2 ^ 2 - l3 ^ 2) / (2 * l1 * l2))) :=
      le_min (cos_le_one _) (ge.trans (le_max_right _ _))
    have := (arccos_le_arccos ge').trans (arccos_cos_le (deg t))
    have q : degrees (|deg t|) = |t| := by
      unfold deg degrees
      rw [abs_mul, abs_of_pos (by positivity : 0 < π / 180)]
      field_simp
    rw [← q]
    unfold degrees
    rw [div_le_div_iff_of_pos_right hpi]
    linarith

/-- The angle can be smaller: three sites at mutual distances of a quarter of the circumference are in directions at
right angles, and the computed angle is 60 degrees. -/
theorem C130_smaller : (∃ r, lawSpherical 0 0 0 90 90 0 = some (60, r)) ∧ bearing 0 0 90 0 - bearing 0 0 0 90 = 90 := by
  have hpi := pi_pos
  have R := earthRadius_pos
  have q : ∀ lonA latA lonB latB, inner ℝ (place lonA latA) (place lonB latB) = 0 →
      haversine lonA latA lonB latB = earthRadius * (π / 2) := by
    intro a b c d h
    rw [haversine_arccos, h, arccos_zero]
  have l1 := q 0 0 90 0 (by simp [place_inner, deg_zero, deg_90])
  have l2 := q 0 0 0 90 (by simp [place_inner, deg_zero, deg_90])
  have l3 := q 90 0 0 90 (by simp [place_inner, deg_zero, deg_90])
  constructor
  · refine ⟨max (earthRadius * (π / 2)) (earthRadius * (π / 2)) / min (earthRadius * (π / 2)) (earthRadius * (π / 2)), ?_⟩
    unfold lawSpherical
    dsimp only
    rw [l1, l2, l3]
    have p : 0 < earthRadius * (π / 2) := by positivity
    rw [law_val _ p p, ratio_val p p, if_neg p.ne']
    dsimp only
    have e : ((earthRadius * (π / 2)) ^ 2 + (earthRadius * (π / 2)) ^ 2 - (earthRadius * (π / 2)) ^ 2) /
        (2 * (earthRadius * (π / 2)) * (earthRadius * (π / 2))) = cos (π / 3) := by
      rw [cos_pi_div_three]; field_simp; ring
    rw [e, max_eq_right (neg_one_le_cos _), min_eq_right (cos_le_one _), arccos_cos (by linarith) (by linarith)]
    have : degrees (π / 3) = 60 := by unfold degrees; field_simp; norm_num
    rw [this]
  · have b1 : bearing 0 0 90 0 = 90 := by
      refine (C128_bearing 0 0 90 0).2.2.2 90 (π / 2) (by norm_num) (by norm_num) (by linarith) (by linarith) ?_
      rw [cos_pi_div_two, sin_pi_div_two, zero_smul, zero_add, one_smul]
      simp [place, heading, north, east, deg_zero, deg_90]
    have b2 : bearing 0 0 0 90 = 0 := by
      refine (C128_bearing 0 0 0 90).2.2.2 0 (π / 2) (by norm_num) (by norm_num) (by linarith) (by linarith) ?_
      rw [cos_pi_div_two, sin_pi_div_two, zero_smul, zero_add, one_smul]
      simp [place, heading, north, east, deg_zero, deg_90]
    rw [b1, b2]; norm_num

/-- Hypotheses of `C130_flat` and `C130_at_most`: the three sites of `C130_smaller` are in different places. -/
example : place 90 0 ≠ place 0 0 ∧ place 0 90 ≠ place 0 0 := by
  have f := fun h => (C130_fails 0 0 0 90 90 0).2 h
  obtain ⟨⟨r, e⟩, _⟩ := C130_smaller
  constructor
  · intro h; rw [f (Or.inl h)] at e; cases e
  · intro h; rw [f (Or.inr h)] at e; cases e

end Geos
end Verif
