import Mathlib.Algebra.Order.Ring.Rat
import Mathlib.Data.String.Basic

/-! # Geohash of a site, `common/geos.py:208-251`

Range ends are sums of `360 / 2^k`, exactly representable in binary floating
point, so exact rationals give the same comparisons. -/

namespace Verif

/-- `lat_range`, `lon_range`, `odd_bit`. -/
structure GeoState where
  latLo : ℚ := -90
  latHi : ℚ := 90
  lonLo : ℚ := -180
  lonHi : ℚ := 180
  odd : Bool := false

/-- Body of the inner loop, `geos.py:228-249`: the narrowed state and whether the bit is set. -/
def geoBit (lat lon : ℚ) (s : GeoState) : GeoState × Bool :=
  if s.odd then
    let center := (s.latLo + s.latHi) / 2
    if lat < center then ({ s with latHi := center, odd := !s.odd }, false)
    else ({ s with latLo := center, odd := !s.odd }, true)
  else
    let center := (s.lonLo + s.lonHi) / 2
    if lon < center then ({ s with lonHi := center, odd := !s.odd }, false)
    else ({ s with lonLo := center, odd := !s.odd }, true)

/-- Inner loop over `bitvals`, `geos.py:228-249`. -/
def geoChar (lat lon : ℚ) (s : GeoState) : GeoState × Nat :=
  [16, 8, 4, 2, 1].foldl (fun (acc : GeoState × Nat) bit =>
    ((geoBit lat lon acc.1).1, if (geoBit lat lon acc.1).2 then acc.2 ||| bit else acc.2)) (s, 0)

/-- Outer loop, `geos.py:225-250`: `character_bits` of each output character. -/
def geoChars (lat lon : ℚ) : Nat → GeoState → List Nat
  | 0, _ => []
  | n + 1, s => (geoChar lat lon s).2 :: geoChars lat lon n (geoChar lat lon s).1

/-- `GEOHASH_SEED[i]`, `geos.py:25`. -/
def geoSeed (i : Nat) : Char := "0123456789abcdefghijklmnopqrstuv".toList.getD i '?'

/-- `lat_lon_to_geo_hash`, `geos.py:208-251`; `none` is the `GeoSystemException`.
`LAT_LON_TO_GEO_HASH_PRECISION` is 10 (`constants.py:20`). -/
def geoHash (lat lon : ℚ) : Option String :=
  if -90 ≤ lat ∧ lat ≤ 90 then
    if -180 ≤ lon ∧ lon ≤ 180 then
      some (String.ofList ((geoChars lat lon 10 {}).map geoSeed))
    else none
  else none

end Verif
