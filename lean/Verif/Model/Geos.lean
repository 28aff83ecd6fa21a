import Mathlib.Analysis.SpecialFunctions.Complex.Arg
import Mathlib.Analysis.SpecialFunctions.Trigonometric.Inverse

/-!
# Spherical geometry: `common/geos.py`

Distances, bearings, translations and angles, over the real numbers instead of floats. `np.sin`, `np.cos`, `np.arcsin`,
`np.arccos`, `np.sqrt` are the mathematical functions. An `AssertionError` is `none`.
-/

namespace Verif
namespace Geos
open Real

/-- `EARTH_RADIUS`, `common/constants.py:13`, in metres. -/
def earthRadius : ℝ := 6371000

/-- `np.radians`. -/
noncomputable def radians (x : ℝ) : ℝ := x * π / 180

/-- `np.degrees`. -/
noncomputable def degrees (x : ℝ) : ℝ := x * 180 / π

/-- `np.arctan2(y, x)`: the angle of the vector `(x, y)`, in `(-π, π]` and 0 for the null vector. Negative zeros of
floats are not modelled. -/
noncomputable def arctan2 (y x : ℝ) : ℝ := Complex.arg ⟨x, y⟩

/-- Python `x % 360` on floats. -/
noncomputable def fmod360 (x : ℝ) : ℝ := x - 360 * (⌊x / 360⌋ : ℤ)

/-- `half_chord_length_squared`, `geos.py:260-267`. -/
noncomputable def halfChord (lonA latA lonB latB : ℝ) : ℝ :=
  sin (radians (latB - latA) / 2) ^ 2 +
    cos (radians latA) * cos (radians latB) * sin (radians (lonB - lonA) / 2) ^ 2

/-- `haversine_distance`, `geos.py:253-274`. -/
noncomputable def haversine (lonA latA lonB latB : ℝ) : ℝ :=
  earthRadius * (2 * arctan2 (√(halfChord lonA latA lonB latB)) (√(1 - halfChord lonA latA lonB latB)))

/-- `new_latitude` of `translate_point` in radians, `geos.py:280-285`; `d` is `distance / EARTH_RADIUS`. -/
noncomputable def newLat (lat bearing d : ℝ) : ℝ :=
  arcsin (sin (radians lat) * cos d + cos (radians lat) * sin d * cos (radians bearing))

/-- `longitude_delta` of `translate_point` in radians, `geos.py:287-290`. -/
noncomputable def lonDelta (lat bearing d : ℝ) : ℝ :=
  arctan2 (sin (radians bearing) * sin d * cos (radians lat))
    (cos d - sin (radians lat) * sin (newLat lat bearing d))

/-- `translate_point`, `geos.py:277-292`: longitude and latitude. -/
noncomputable def translatePoint (lon lat bearing dist : ℝ) : ℝ × ℝ :=
  (lon + degrees (lonDelta lat bearing (dist / earthRadius)),
   degrees (newLat lat bearing (dist / earthRadius)))

/-- `grid_deltas`, `geos.py:295-308`: steps in longitude and latitude. -/
noncomputable def gridDeltas (lon lat spacing : ℝ) : ℝ × ℝ :=
  ((translatePoint lon lat 90 spacing).1 - lon, (translatePoint lon lat 0 spacing).2 - lat)

/-- `_law_of_cosines`, `geos.py:311-321`, degrees. -/
noncomputable def lawOfCosines (len1 len2 len3 : ℝ) : Option ℝ :=
  open Classical in
  if len1 > 0 ∧ len2 > 0 then
    if len3 = 0 then some 0
    else some (degrees (arccos (min 1 (max (-1) ((len1 ^ 2 + len2 ^ 2 - len3 ^ 2) / (2 * len1 * len2))))))
  else none

/-- `_get_length_ratio`, `geos.py:324-326`. -/
noncomputable def lengthRatio (len1 len2 : ℝ) : Option ℝ :=
  open Classical in
  if len1 > 0 ∧ len2 > 0 then some (max len1 len2 / min len1 len2) else none

/-- `law_of_cosines_spherical`, `geos.py:329-341`: angle in degrees and length ratio. -/
noncomputable def lawSpherical (lat0 lon0 lat1 lon1 lat2 lon2 : ℝ) : Option (ℝ × ℝ) :=
  let len1 := haversine lon0 lat0 lon1 lat1
  let len2 := haversine lon0 lat0 lon2 lat2
  let len3 := haversine lon1 lat1 lon2 lat2
  match lawOfCosines len1 len2 len3, lengthRatio len1 len2 with
  | some a, some r => some (a, r)
  | _, _ => none

/-- `law_of_cosines_utm`, `geos.py:344-356`. -/
noncomputable def lawUtm (x0 y0 x1 y1 x2 y2 : ℝ) : Option ℝ :=
  lawOfCosines (√((x1 - x0) ^ 2 + (y1 - y0) ^ 2)) (√((x2 - x0) ^ 2 + (y2 - y0) ^ 2))
    (√((x2 - x1) ^ 2 + (y2 - y1) ^ 2))

/-- `bearing_in_degrees`, `geos.py:359-373`. -/
noncomputable def bearing (lonA latA lonB latB : ℝ) : ℝ :=
  fmod360 (degrees (arctan2
    (cos (radians latB) * sin (radians (lonB - lonA)))
    (cos (radians latA) * sin (radians latB) -
      sin (radians latA) * cos (radians latB) * cos (radians (lonB - lonA)))))

/-- The position of a site, `Site.latitude`, `longitude`, `altitude`. -/
structure GSite where
  lon : ℝ
  lat : ℝ
  alt : Option ℝ := none

/-- `Link.tx_beam_azimuth`, `link.py:231-235,351-357`. -/
noncomputable def txAzimuth (tx rx : GSite) : ℝ := bearing tx.lon tx.lat rx.lon rx.lat

/-- `Link.rx_beam_azimuth`, `link.py:237-241,358-360`. -/
noncomputable def rxBeamAzimuth (tx rx : GSite) : ℝ := fmod360 (txAzimuth tx rx + 180)

/-- `Link.distance`, `link.py:205-229`. -/
noncomputable def linkDistance (tx rx : GSite) : ℝ :=
  let d := haversine tx.lon tx.lat rx.lon rx.lat
  match tx.alt, rx.alt with
  | some a, some b => √(d * d + (a - b) ^ 2)
  | _, _ => d

/-- `Link.el_dev`, `link.py:257-270`, degrees. `math.asin` raises outside of `[-1, 1]` (`none`). -/
noncomputable def elDev (tx rx : GSite) : Option ℝ :=
  open Classical in
  match tx.alt, rx.alt with
  | some a, some b =>
    if linkDistance tx rx > 0 then
      if -1 ≤ (b - a) / linkDistance tx rx ∧ (b - a) / linkDistance tx rx ≤ 1 then
        some (degrees (arcsin ((b - a) / linkDistance tx rx)))
      else none
    else some 0
  | _, _ => some 0

end Geos
end Verif
