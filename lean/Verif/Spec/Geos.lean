import Mathlib.Analysis.InnerProductSpace.PiL2
import Mathlib.Analysis.SpecialFunctions.Trigonometric.Basic

/-!
# Vocabulary for the geometry of the Earth (C127–C132)

The Earth is a sphere; a place is given by the unit vector that points to it from the centre.
-/

namespace Verif
namespace Spec
open Real

/-- Three-dimensional space. -/
abbrev Space := EuclideanSpace ℝ (Fin 3)

/-- An angle of `x` degrees. -/
noncomputable def deg (x : ℝ) : ℝ := x * (π / 180)

/-- Direction, seen from the centre of the Earth, of the place at this longitude and latitude. -/
noncomputable def place (lon lat : ℝ) : Space :=
  !₂[cos (deg lat) * cos (deg lon), cos (deg lat) * sin (deg lon), sin (deg lat)]

/-- The direction north at that place. -/
noncomputable def north (lon lat : ℝ) : Space :=
  !₂[-sin (deg lat) * cos (deg lon), -sin (deg lat) * sin (deg lon), cos (deg lat)]

/-- The direction east at that place. -/
noncomputable def east (lon : ℝ) : Space := !₂[-sin (deg lon), cos (deg lon), 0]

/-- The direction at that place with a bearing of `b` degrees: 0 is north, 90 is east. -/
noncomputable def heading (lon lat b : ℝ) : Space := cos (deg b) • north lon lat + sin (deg b) • east lon

end Spec
end Verif
