import Verif.Props.Geos

/-! # Azimuth at the receiving end, length and elevation of links (C129, C131) -/

namespace Verif
namespace Geos
open Real Spec InnerProductGeometry

theorem convergence (lonA latA lonB latB : ℝ) (hA : 0 ≤ cos (deg latA)) (hB : 0 ≤ cos (deg latB)) :
    cos (deg (lonB - lonA)) * (1 - inner ℝ (place lonA latA) (place lonB latB) ^ 2) ≤
      -(toNorth lonA latA lonB latB * toNorth lonB latB lonA latA +
        toEast lonA latB lonB * toEast lonB latA lonA) := by
  have ub := (inner_bounds lonA latA lonB latB).2
  rw [place_inner] at ub ⊢
  unfold toNorth toEast
  have e : deg (lonA - lonB) = -deg (lonB - lonA) := by rw [← deg_neg]; congr 1; ring
  rw [e, cos_neg, sin_neg]
  generalize deg (lonB - lonA) = D at *
  have h1 := sin_sq_add_cos_sq (deg latA)
  have h2 := sin_sq_add_cos_sq (deg latB)
  have h3 := sin_sq_add_cos_sq D
  generalize sin (deg latA) = sA at *
  generalize cos (deg latA) = cA at *
  generalize sin (deg latB) = sB at *
  generalize cos (deg latB) = cB at *
  generalize sin D = s at *
  generalize cos D = c at *
  have key : -((cA * sB - sA * cB * c) * (cB * sA - sB * cA * c) + cB * s * (cA * -s)) -
      c * (1 - (sA * sB + cA * cB * c) ^ 2) = cA * cB * s ^ 2 * (1 - (sA * sB + cA * cB * c)) := by
    have hs : s ^ 2 = 1 - c ^ 2 := by linarith
    have hA : sA ^ 2 = 1 - cA ^ 2 := by linarith
    have hB : sB ^ 2 = 1 - cB ^ 2 := by linarith
    linear_combination (cA * cB - cA * cB * (1 - (sA * sB + cA * cB * c))) * hs +
      (c * cB ^ 2 + c * sB ^ 2) * hA + (c * cA ^ 2 + c * (1 - cA ^ 2)) * hB
  have : 0 ≤ cA * cB * s ^ 2 * (1 - (sA * sB + cA * cB * c)) :=
    mul_nonneg (mul_nonneg (mul_nonneg hA hB) (sq_nonneg s)) (by linarith)
  linarith

theorem cos_deg_abs (x : ℝ) : cos (deg x) = cos (deg (|x|)) := by
  rcases abs_cases x with ⟨h, _⟩ | ⟨h, _⟩
  · rw [h]
  · rw [h, deg_neg, cos_neg]

/-- Closer to the same direction means a smaller angle. -/
theorem le_of_cos_deg {x y : ℝ} (hx : |x| ≤ 180) (h : cos (deg y) ≤ cos (deg x)) : |x| ≤ |y| := by
  by_contra hlt
  rw [not_le] at hlt
  rw [cos_deg_abs x, cos_deg_abs y] at h
  have : cos (deg (|x|)) < cos (deg (|y|)) := by
    apply cos_lt_cos_of_nonneg_of_le_pi
    · have := deg_mono (abs_nonneg y); rwa [deg_zero] at this
    · have := deg_mono hx; rwa [deg_180] at this
    · exact deg_strict hlt
  linarith

theorem turn_near {y : ℝ} (h1 : -360 < y) (h2 : y < 360) : ∃ k : ℤ, |y - 360 * k| ≤ 180 := by
  by_cases a : y ≤ -180
  · refine ⟨-1, ?_⟩
    rw [abs_le]; push_cast; constructor <;> linarith
  · by_cases b : y ≤ 180
    · refine ⟨0, ?_⟩
      rw [abs_le]; push_cast; constructor <;> linarith
    · refine ⟨1, ?_⟩
      rw [abs_le]; push_cast; constructor <;> linarith

/-- C129, partial: the azimuth of a link at its receiving end, computed as that of the transmitting end plus half a
turn, differs from the bearing from the receiving to the transmitting end by at most the difference of their
longitudes. Missing: the two are not equal in general, see `C129_violation`. -/
theorem C129_receiver_partial (tx rx : GSite) (ht : -90 ≤ tx.lat ∧ tx.lat ≤ 90) (hr : -90 ≤ rx.lat ∧ rx.lat ≤ 90)
    (h0 : 0 < haversine tx.lon tx.lat rx.lon rx.lat) (h1 : haversine tx.lon tx.lat rx.lon rx.lat < 6371000 * π)
    (m : ℤ) :
    ∃ k : ℤ, |rxBeamAzimuth tx rx - bearing rx.lon rx.lat tx.lon tx.lat - 360 * k| ≤
      |rx.lon - tx.lon - 360 * m| := by
  obtain ⟨lonA, latA, _⟩ := tx
  obtain ⟨lonB, latB, _⟩ := rx
  dsimp only at *
  unfold rxBeamAzimuth txAzimuth
  dsimp only
  set p := inner ℝ (place lonA latA) (place lonB latB) with hp
  have cv := convergence lonA latA lonB latB (cos_lat_nonneg ht) (cos_lat_nonneg hr)
  obtain ⟨a1, a2⟩ := bearing_trig lonA latA lonB latB
  obtain ⟨b1, b2⟩ := bearing_trig lonB latB lonA latA
  have n1 := norm_parts lonA latA lonB latB
  have n2 := norm_parts lonB latB lonA latA
  rw [real_inner_comm (place lonA latA) (place lonB latB)] at n2
  rw [n1] at a1 a2
  rw [n2] at b1 b2
  rw [← hp] at cv a1 a2 b1 b2
  have pos : 0 < 1 - p ^ 2 := by
    have hs : 0 < sin (haversine lonA latA lonB latB / earthRadius) := by
      apply sin_pos_of_pos_of_lt_pi (div_pos h0 earthRadius_pos)
      rw [div_lt_iff₀ earthRadius_pos, mul_comm]; exact h1
    rw [hav_sin, n1] at hs
    exact sqrt_pos.1 hs
  have sq : √(1 - p ^ 2) * √(1 - p ^ 2) = 1 - p ^ 2 := mul_self_sqrt pos.le
  set b := bearing lonA latA lonB latB with hb
  set r := bearing lonB latB lonA latA with hr'
  have e : cos (deg (fmod360 (b + 180) - r)) = -(cos (deg b) * cos (deg r) + sin (deg b) * sin (deg r)) := by
    rw [deg_sub, cos_sub, cos_fmod, sin_fmod, deg_add, deg_180, cos_add_pi, sin_add_pi]
    ring
  have ge : cos (deg (lonB - lonA)) ≤ cos (deg (fmod360 (b + 180) - r)) := by
    rw [← a1, ← a2, ← b1, ← b2] at cv
    rw [e]
    have : cos (deg (lonB - lonA)) * (1 - p ^ 2) ≤
        -(cos (deg b) * cos (deg r) + sin (deg b) * sin (deg r)) * (1 - p ^ 2) := by
      refine cv.trans (le_of_eq ?_)
      linear_combination (-(cos (deg b) * cos (deg r) + sin (deg b) * sin (deg r))) * sq
    exact le_of_mul_le_mul_right this pos
  have hb0 := fmod360_range (b + 180)
  have hr0 : 0 ≤ r ∧ r < 360 := fmod360_range _
  obtain ⟨k, hk⟩ := turn_near (y := fmod360 (b + 180) - r) (by linarith) (by linarith)
  refine ⟨k, le_of_cos_deg hk ?_⟩
  rw [deg_turns, deg_turns, cos_sub_int_mul_two_pi, cos_sub_int_mul_two_pi]
  exact ge

/-- C129 holds for sites on the same meridian. -/
theorem C129_meridian (tx rx : GSite) (ht : -90 ≤ tx.lat ∧ tx.lat ≤ 90) (hr : -90 ≤ rx.lat ∧ rx.lat ≤ 90)
    (h0 : 0 < haversine tx.lon tx.lat rx.lon rx.lat) (h1 : haversine tx.lon tx.lat rx.lon rx.lat < 6371000 * π)
    (same : tx.lon = rx.lon) :
    rxBeamAzimuth tx rx = bearing rx.lon rx.lat tx.lon tx.lat := by
  obtain ⟨k, hk⟩ := C129_receiver_partial tx rx ht hr h0 h1 0
  rw [same, sub_self] at hk
  norm_num at hk
  have a := fmod360_range (txAzimuth tx rx + 180)
  have b := (C128_bearing rx.lon rx.lat rx.lon tx.lat)
  have a' : 0 ≤ rxBeamAzimuth tx rx ∧ rxBeamAzimuth tx rx < 360 := a
  have h1 : (k : ℝ) < 1 := by linarith
  have h2 : (-1 : ℝ) < k := by linarith
  have h1' : k < 1 := by exact_mod_cast h1
  have h2' : -1 < k := by exact_mod_cast h2
  have : k = 0 := by omega
  rw [this] at hk
  push_cast at hk
  rw [same]
  linarith

/-- C129 fails: from a site on the equator to one at 45 degrees north, a quarter turn to the east, the azimuth at the
receiving end is computed as 225 degrees; the transmitting end is due west, at 270 degrees. -/
theorem C129_violation :
    rxBeamAzimuth ⟨0, 0, none⟩ ⟨90, 45, none⟩ = 225 ∧ bearing 90 45 0 0 = 270 := by
  have hpi := pi_pos
  have d45 : deg 45 = π / 4 := by unfold deg; ring
  have e1 : bearing 0 0 90 45 = 45 := by
    refine (C128_bearing 0 0 90 45).2.2.2 45 (π / 2) (by norm_num) (by norm_num) (by linarith) (by linarith) ?_
    rw [cos_pi_div_two, sin_pi_div_two, zero_smul, zero_add, one_smul]
    simp [place, heading, north, east, deg_zero, deg_90, d45]
    apply PiLp.ext
    intro i
    fin_cases i <;> simp
  have e2 : bearing 90 45 0 0 = 270 := by
    have d270 : deg 270 = π / 2 + π := by unfold deg; ring
    refine (C128_bearing 90 45 0 0).2.2.2 270 (π / 2) (by norm_num) (by norm_num) (by linarith) (by linarith) ?_
    rw [cos_pi_div_two, sin_pi_div_two, zero_smul, zero_add, one_smul]
    simp [place, heading, north, east, deg_zero, deg_90, d270, cos_add_pi, sin_add_pi]
    apply PiLp.ext
    intro i
    fin_cases i <;> simp
  refine ⟨?_, e2⟩
  unfold rxBeamAzimuth txAzimuth
  dsimp only
  rw [e1]
  unfold fmod360
  have : ⌊((45 : ℝ) + 180) / 360⌋ = 0 := by
    rw [Int.floor_eq_iff]; norm_num
  rw [this]
  norm_num

/-- Hypotheses of `C129_receiver_partial` and `C129_meridian`: sites one degree of latitude apart. -/
example : 0 < haversine 10 37 10 38 ∧ haversine 10 37 10 38 < 6371000 * π := by
  have hpi := pi_pos
  rw [C127_meridian 10 37 38 (by norm_num)]
  norm_num
  constructor <;> linarith

/-- C131: the length of a link is the hypotenuse over the distance on the ground and the difference in altitude if
both altitudes are known, else the distance on the ground; it does not depend on the direction. -/
theorem C131_length (tx rx : GSite) :
    linkDistance tx rx = linkDistance rx tx ∧ 0 ≤ linkDistance tx rx ∧
    (∀ a b, tx.alt = some a → rx.alt = some b →
      linkDistance tx rx ^ 2 = haversine tx.lon tx.lat rx.lon rx.lat ^ 2 + (b - a) ^ 2) ∧
    (tx.alt = none ∨ rx.alt = none → linkDistance tx rx = haversine tx.lon tx.lat rx.lon rx.lat) := by
  obtain ⟨lonA, latA, altA⟩ := tx
  obtain ⟨lonB, latB, altB⟩ := rx
  have hs := (C127_metric lonA latA lonB latB 0 0).1
  have hn := (C127_metric lonA latA lonB latB 0 0).2.2.1
  cases altA <;> cases altB <;> simp only [linkDistance]
  · exact ⟨hs, hn, by simp, by simp⟩
  · exact ⟨hs, hn, by simp, by simp⟩
  · exact ⟨hs, hn, by simp, by simp⟩
  · rename_i a b
    refine ⟨?_, sqrt_nonneg _, ?_, by simp⟩
    · rw [hs]; congr 1; ring
    · rintro _ _ ⟨⟩ ⟨⟩
      rw [sq_sqrt (by nlinarith [sq_nonneg (a - b)])]
      ring

/-- C131: the elevation of a link is always computed. It is the angle of the rise over the length, the opposite for
the other direction, at most 90 degrees, and zero if an altitude is unknown or the ends coincide. -/
theorem C131_elevation (tx rx : GSite) :
    ∃ e, elDev tx rx = some e ∧ elDev rx tx = some (-e) ∧ -90 ≤ e ∧ e ≤ 90 ∧
      (∀ a b, tx.alt = some a → rx.alt = some b → sin (deg e) * linkDistance tx rx = b - a) ∧
      (tx.alt = none ∨ rx.alt = none ∨ linkDistance tx rx = 0 → e = 0) := by
  obtain ⟨sym, nn, hyp, hno⟩ := C131_length tx rx
  unfold elDev
  cases ha : tx.alt with
  | none => exact ⟨0, by simp⟩
  | some a =>
    cases hb : rx.alt with
    | none => exact ⟨0, by simp⟩
    | some b =>
      dsimp only
      rw [← sym]
      have hh := hyp a b ha hb
      by_cases hp : linkDistance tx rx > 0
      · have bd : |b - a| ≤ linkDistance tx rx := by
          apply abs_le_of_sq_le_sq _ nn
          nlinarith [sq_nonneg (haversine tx.lon tx.lat rx.lon rx.lat)]
        obtain ⟨b1, b2⟩ := abs_le.1 bd
        have c1 : -1 ≤ (b - a) / linkDistance tx rx := by rw [le_div_iff₀ hp]; linarith
        have c2 : (b - a) / linkDistance tx rx ≤ 1 := by rw [div_le_iff₀ hp]; linarith
        have en : (a - b) / linkDistance tx rx = -((b - a) / linkDistance tx rx) := by ring
        refine ⟨degrees (arcsin ((b - a) / linkDistance tx rx)), ?_, ?_, ?_, ?_, ?_, ?_⟩
        · rw [if_pos hp, if_pos ⟨c1, c2⟩]
        · rw [if_pos hp, en, if_pos ⟨by linarith, by linarith⟩, arcsin_neg]
          congr 1
          unfold degrees; ring
        · have := neg_pi_div_two_le_arcsin ((b - a) / linkDistance tx rx)
          unfold degrees
          rw [le_div_iff₀ pi_pos]
          linarith
        · have := arcsin_le_pi_div_two ((b - a) / linkDistance tx rx)
          unfold degrees
          rw [div_le_iff₀ pi_pos]
          linarith
        · rintro _ _ ⟨⟩ ⟨⟩
          rw [deg_degrees, sin_arcsin c1 c2, div_mul_cancel₀ _ hp.ne']
        · rintro (h | h | h)
          · cases h
          · cases h
          · exact absurd h hp.ne'
      · have hz : linkDistance tx rx = 0 := le_antisymm (not_lt.1 hp) nn
        rw [if_neg hp]
        refine ⟨0, rfl, by rw [neg_zero, if_neg hp], by norm_num, by norm_num, ?_, fun _ => rfl⟩
        rintro _ _ ⟨⟩ ⟨⟩
        rw [hz] at hh ⊢
        have : (b - a) ^ 2 = 0 := by nlinarith [sq_nonneg (haversine tx.lon tx.lat rx.lon rx.lat), sq_nonneg (b - a)]
        have := pow_eq_zero_iff (two_ne_zero) |>.1 this
        rw [mul_zero, this]

/-- A vertical link points straight up, and 90 degrees is the elevation. -/
example : elDev ⟨10, 20, some 5⟩ ⟨10, 20, some 30⟩ = some 90 := by
  obtain ⟨e, h1, -, h3, h4, h5, -⟩ := C131_elevation ⟨10, 20, some 5⟩ ⟨10, 20, some 30⟩
  have l := (C131_length ⟨10, 20, some 5⟩ ⟨10, 20, some 30⟩).2.2.1 5 30 rfl rfl
  have n := (C131_length ⟨10, 20, some 5⟩ ⟨10, 20, some 30⟩).2.1
  dsimp only at l
  rw [(C127_metric 10 20 10 20 0 0).2.2.2.2.2 rfl] at l
  have l' : linkDistance ⟨10, 20, some 5⟩ ⟨10, 20, some 30⟩ = 25 := by nlinarith
  have s := h5 5 30 rfl rfl
  rw [l'] at s
  have s : sin (deg e) = sin (π / 2) := by rw [sin_pi_div_two]; linarith
  have := injOn_sin (by
    have a := deg_mono h3
    have b := deg_mono h4
    rw [deg_neg, deg_90] at a
    rw [deg_90] at b
    exact ⟨by linarith, b⟩) ⟨by have := pi_pos; linarith, le_refl _⟩ s
  rw [h1, ← degrees_deg e, this]
  unfold degrees
  congr 1
  field_simp
  norm_num

end Geos
end Verif
