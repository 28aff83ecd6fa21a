import Verif.Model.Exclusion

/-!
# Places

`GeoLocation` and the UTM zones, `terragraph_planner/common/geos.py:28-206`, over the rational numbers. What pyproj
answers is a parameter.
-/

namespace Verif

/-- `_longitude_to_utm_zone`, `geos.py:175-184`. -/
def utmZone (lon : ℚ) : ℤ := ⌊(lon + 180) / 6⌋ % 60 + 1

/-- `lat_lon_to_utm_epsg`, `geos.py:200-205`. -/
def utmCode (lat lon : ℚ) : ℤ := if 0 ≤ lat then 32600 + utmZone lon else 32700 + utmZone lon

/-- The transformers of pyproj between latitude/longitude and the UTM zone with a code, `geos.py:162-173`; longitude
first. -/
structure Proj where
  toUtm : ℤ → ℚ → ℚ → ℚ × ℚ
  toLonLat : ℤ → ℚ → ℚ → ℚ × ℚ

/-- The attributes of a `GeoLocation`, `geos.py:54-76`; also the arguments of the constructor. -/
structure GeoLocation where
  lat : Option ℚ := none
  lon : Option ℚ := none
  x : Option ℚ := none
  y : Option ℚ := none
  epsg : Option ℤ := none
  alt : Option ℚ := none
  deriving DecidableEq

namespace GeoLocation

/-- `__init__`, `geos.py:34-80`. -/
def make (a : GeoLocation) : Except Err GeoLocation :=
  match a.lat, a.lon with
  | some φ, some l =>
    if -90 ≤ φ ∧ φ ≤ 90 then
      if -180 ≤ l ∧ l ≤ 180 then .ok { lat := some φ, lon := some l, alt := a.alt }
      else .error .geoSystem
    else .error .geoSystem
  | _, _ =>
    match a.x, a.y, a.epsg with
    | some x, some y, some e =>
      if 32600 < e ∧ e ≤ 32660 ∨ 32700 < e ∧ e ≤ 32760 then .ok { x := some x, y := some y, epsg := some e, alt := a.alt }
      else .error .geoSystem
    | _, _, _ => .error .geoSystem

/-- `_update_lat_lon`, `geos.py:134-141`; `none_throws` raises an `AssertionError`, here `.valueError`. -/
def updateLatLon (P : Proj) (g : GeoLocation) : Except Err GeoLocation :=
  match g.x, g.y, g.epsg with
  | some x, some y, some e => .ok { g with lon := some (P.toLonLat e x y).1, lat := some (P.toLonLat e x y).2 }
  | _, _, _ => .error .valueError

/-- The property `latitude`, `geos.py:82-86`, with the attributes afterwards. -/
def readLat (P : Proj) (g : GeoLocation) : Except Err (ℚ × GeoLocation) :=
  match g.lat with
  | some v => .ok (v, g)
  | none => match g.updateLatLon P with
    | .error e => .error e
    | .ok h => match h.lat with
      | some v => .ok (v, h)
      | none => .error .valueError

/-- The property `longitude`, `geos.py:88-92`. -/
def readLon (P : Proj) (g : GeoLocation) : Except Err (ℚ × GeoLocation) :=
  match g.lon with
  | some v => .ok (v, g)
  | none => match g.updateLatLon P with
    | .error e => .error e
    | .ok h => match h.lon with
      | some v => .ok (v, h)
      | none => .error .valueError

/-- `_update_utm`, `geos.py:146-153`. -/
def updateUtm (P : Proj) (g : GeoLocation) : Except Err GeoLocation :=
  match g.readLat P with
  | .error e => .error e
  | .ok (φ, g1) => match g1.readLon P with
    | .error e => .error e
    | .ok (l, g2) =>
      .ok { g2 with epsg := some (utmCode φ l), x := some (P.toUtm (utmCode φ l) l φ).1, y := some (P.toUtm (utmCode φ l) l φ).2 }

/-- What can be read from a location. -/
inductive Field
  | latitude | longitude | utmX | utmY | utmEpsg | altitude
  deriving DecidableEq

/-- The answer `v` of a property if the attribute is filled, and else after `update`. -/
def orUpdate (v : GeoLocation → Option ℚ) (update : GeoLocation → Except Err GeoLocation) (g : GeoLocation) :
    Except Err (Option ℚ × GeoLocation) :=
  match v g with
  | some q => .ok (some q, g)
  | none => match update g with
    | .error e => .error e
    | .ok h => match v h with
      | some q => .ok (some q, h)
      | none => .error .valueError

/-- The properties, `geos.py:82-116`, with the attributes afterwards. The code of the zone is an integer in Python. -/
def read (P : Proj) (f : Field) (g : GeoLocation) : Except Err (Option ℚ × GeoLocation) :=
  match f with
  | .latitude => orUpdate (·.lat) (updateLatLon P) g
  | .longitude => orUpdate (·.lon) (updateLatLon P) g
  | .utmX => orUpdate (·.x) (updateUtm P) g
  | .utmY => orUpdate (·.y) (updateUtm P) g
  | .utmEpsg => orUpdate (fun g => g.epsg.map (↑)) (updateUtm P) g
  | .altitude => .ok (g.alt, g)

/-- Reading one property after another. -/
def reads (P : Proj) : List Field → GeoLocation → Except Err (List (Option ℚ) × GeoLocation)
  | [], g => .ok ([], g)
  | f :: fs, g => match read P f g with
    | .error e => .error e
    | .ok (v, h) => match reads P fs h with
      | .error e => .error e
      | .ok (vs, k) => .ok (v :: vs, k)

/-- The keyword arguments of `copy`; `none` is an argument that is not given. -/
structure Changes where
  lat : Option (Option ℚ) := none
  lon : Option (Option ℚ) := none
  x : Option (Option ℚ) := none
  y : Option (Option ℚ) := none
  epsg : Option (Option ℤ) := none
  alt : Option (Option ℚ) := none

/-- `copy`, `geos.py:114-132`. -/
def copy (c : Changes) (g : GeoLocation) : Except Err GeoLocation :=
  make {
    lat := c.lat.getD g.lat
    lon := c.lon.getD g.lon
    x := c.x.getD g.x
    y := c.y.getD g.y
    epsg := c.epsg.getD g.epsg
    alt := c.alt.getD g.alt }

end GeoLocation

/-- `LOSSite` of a site given by latitude and longitude, `los/core.py:300-309`, in the zone that `_update_utm` picks. -/
noncomputable def losSite (P : Proj) (lat lon : ℚ) (alt : Option ℚ) (loc : LocationType) (building : Option Int) : RSite where
  x := ((P.toUtm (utmCode lat lon) lon lat).1 : ℚ)
  y := ((P.toUtm (utmCode lat lon) lon lat).2 : ℚ)
  alt := alt.map (↑)
  loc := loc
  building := building

end Verif
