import Verif.Model.Fresnel
import Verif.Model.GisData

/-!
# Exclusion zones and the validators of the LOS phase

`get_exclusion_zones` (`los/helper.py:199-213`) and the way of the zones to the validators (`los/helper.py:299-307`,
`los/core.py:124-145,310-317`, `los/helper.py:533-553`), over the real numbers.
-/

namespace Verif
namespace Exclusion
open Classical LosGeom

/-- `user_input_file_path.split(".")[-1].casefold()`, `los/helper.py:207`; `fold` is `str.casefold`. -/
def extension (fold : String → String) (path : String) : String :=
  fold (String.ofList (path.toList.reverse.takeWhile (· ≠ '.')).reverse)

/-- `get_exclusion_zones`, `los/helper.py:199-213`: the corners of the zones, longitude first. `features` is what
`extract_polygons` finds in the file (an exception if it cannot be read), `contains` is `contains` of the boundary. -/
def zones (fold : String → String) (path : Option String) (features : Except Err (List (Gis.Shape (ℝ × ℝ))))
    (contains : List (ℝ × ℝ) → Bool) : Except Err (List (List (ℝ × ℝ))) :=
  match path with
  | none => .ok []
  | some p =>
    if 0 < p.length then
      if extension fold p = "kmz" ∨ extension fold p = "kml" then
        match features with
        | .error e => .error e
        | .ok fs => .ok ((Gis.extractPolygons fs).filter contains)
      else .ok []
    else .ok []

/-- The parameters of the LOS phase that reach the validators, `los/core.py:141-153`. -/
structure Limits where
  maxDist : ℝ
  minDist : ℝ
  maxAngle : ℝ
  threshold : ℝ
  ellipsoidal : Bool
  radius : ℝ
  freq : ℝ

/-- The validator of a batch, `los/helper.py:533-553`, with the tolerances of `los/constants.py:42-46`. The polygons are
those of `get_exclusion_zones`, by way of `wkt`, and `area` are the points of a polygon. The ellipsoidal validator has no
radius and does not use this one. -/
noncomputable def validator (surface : Option (ℝ → ℝ → ℝ → ℝ → List P3)) (L : Limits)
    (area : List (ℝ × ℝ) → Set (ℝ × ℝ)) (polygons : List (List (ℝ × ℝ))) : Validator where
  surface := surface
  maxDist := L.maxDist * (1 + 2 / 100)
  minDist := L.minDist * (1 - 2 / 100)
  maxEl := min (L.maxAngle + 2) 90
  radius := L.radius
  zones := polygons.map area
  threshold := L.threshold

/-- `los_validator.compute_confidence`, `los/helper.py:534-553,566-571`. -/
noncomputable def confidence (sort : List P3 → List P3) (surface : Option (ℝ → ℝ → ℝ → ℝ → List P3)) (L : Limits)
    (area : List (ℝ × ℝ) → Set (ℝ × ℝ)) (polygons : List (List (ℝ × ℝ))) (a b : RSite) : ℝ :=
  if L.ellipsoidal then Verif.ellipsoidal L.freq (validator surface L area polygons) a b
  else LosGeom.confidence sort (validator surface L area polygons) a b

end Exclusion
end Verif
