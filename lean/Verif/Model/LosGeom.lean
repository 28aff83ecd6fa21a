import Verif.Model.Los
import Mathlib.Analysis.SpecialFunctions.Trigonometric.Inverse
import Mathlib.Analysis.Convex.Segment

/-!
# The cylindrical LOS validator

`terragraph_planner/los/base_los_validator.py` and `los/cylindrical_los_validator.py`, over the real numbers. The
square root, the arc sine and the intersection of a segment with a polygon are the mathematical ones. The elevation
data is a function from boxes to the grid cells in them, see `Verif.Model.Elevation` for the raster.
-/

namespace Verif
open Classical

/-- `LOSSite` with real coordinates, `topology_models/site.py:249-258`. -/
structure RSite where
  x : ℝ
  y : ℝ
  alt : Option ℝ
  loc : LocationType := .unknown
  building : Option Int := none

/-- `Point3D`, `common/structs.py:39-42`: the centre and the top of a grid cell. -/
structure P3 where
  x : ℝ
  y : ℝ
  z : ℝ

/-- The attributes of a validator, `base_los_validator.py:26-57`, `cylindrical_los_validator.py:33-53`; `surface` are
the cells in the box `min_x, max_y, max_x, min_y` of the elevation data, and `zones` the exclusion zones as sets of
points. -/
structure Validator where
  surface : Option (ℝ → ℝ → ℝ → ℝ → List P3) := none
  maxDist : ℝ
  minDist : ℝ
  maxEl : ℝ
  radius : ℝ
  zones : List (Set (ℝ × ℝ)) := []
  threshold : ℝ

/-- The assertions of the constructor, `base_los_validator.py:34-48`, and the minimum of the Fresnel radius that the
configuration asserts (`configuration/configs.py`). -/
structure Validator.Valid (V : Validator) : Prop where
  min_pos : 0 < V.minDist
  min_lt : V.minDist < V.maxDist
  el : 0 ≤ V.maxEl ∧ V.maxEl ≤ 90
  thr : 0 ≤ V.threshold ∧ V.threshold ≤ 1
  radius : 0 < V.radius

namespace LosGeom

/-- The difference of the altitudes if both are known, else zero, `base_los_validator.py:67-70`. -/
noncomputable def zDiff (a b : RSite) : ℝ :=
  match a.alt, b.alt with
  | some z, some w => z - w
  | _, _ => 0

/-- `_comp_los_distance`, `base_los_validator.py:63-71`. -/
noncomputable def losDistance (a b : RSite) : ℝ :=
  Real.sqrt ((a.x - b.x) * (a.x - b.x) + (a.y - b.y) * (a.y - b.y) + zDiff a b * zDiff a b)

/-- `_same_xy`, `base_los_validator.py:103-104`. -/
def sameXY (a b : RSite) : Prop := a.x = b.x ∧ a.y = b.y

/-- `_on_the_same_building`, `base_los_validator.py:106-112`. -/
def sameBuilding (a b : RSite) : Prop := a.loc = b.loc ∧ b.loc = .rooftop ∧ a.building = b.building

/-- `_los_exceed_max_el_dev`, `base_los_validator.py:117-128`. -/
def exceedsEl (V : Validator) (a b : RSite) : Prop :=
  match a.alt, b.alt with
  | some z, some w => Real.arcsin (|z - w| / losDistance a b) * 180 / Real.pi > V.maxEl
  | _, _ => False

/-- `_passes_simple_checks`, `base_los_validator.py:73-101,130-143`. -/
def passes (V : Validator) (a b : RSite) : Prop :=
  ¬ sameXY a b ∧ ¬ sameBuilding a b
  ∧ (V.minDist ≤ losDistance a b ∧ losDistance a b ≤ V.maxDist)
  ∧ ¬ exceedsEl V a b
  ∧ ∀ zone ∈ V.zones, ¬ (segment ℝ (a.x, a.y) (b.x, b.y) ∩ zone).Nonempty

/-- The offsets of the corners, `base_los_validator.py:163-171`. -/
noncomputable def offset (x1 y1 x2 y2 r : ℝ) : ℝ × ℝ :=
  if |x2 - x1| ≥ |y2 - y1| then
    let slope := (y2 - y1) / (x2 - x1)
    let oy := r / Real.sqrt (1 + slope * slope)
    (oy * slope, oy)
  else
    let slope := (x2 - x1) / (y2 - y1)
    let ox := r / Real.sqrt (1 + slope * slope)
    (ox, ox * slope)

/-- The corners of the rectangle, `base_los_validator.py:173-178`. -/
noncomputable def corners (x1 y1 x2 y2 r : ℝ) : (ℝ × ℝ) × (ℝ × ℝ) × (ℝ × ℝ) × (ℝ × ℝ) :=
  let o := offset x1 y1 x2 y2 r
  ((x1 + o.1, y1 - o.2), (x1 - o.1, y1 + o.2), (x2 + o.1, y2 - o.2), (x2 - o.1, y2 + o.2))

/-- `_filter_points_outside_of_rectangle`, `cylindrical_los_validator.py:204-225`, with the vectors of
`cylindrical_los_validator.py:83-86`. -/
def inRectangle (p q r : ℝ × ℝ) (x y : ℝ) : Prop :=
  (0 ≤ (x - p.1) * (q.1 - p.1) + (y - p.2) * (q.2 - p.2)
    ∧ (x - p.1) * (q.1 - p.1) + (y - p.2) * (q.2 - p.2) ≤ (q.1 - p.1) * (q.1 - p.1) + (q.2 - p.2) * (q.2 - p.2))
  ∧ (0 ≤ (x - p.1) * (r.1 - p.1) + (y - p.2) * (r.2 - p.2)
    ∧ (x - p.1) * (r.1 - p.1) + (y - p.2) * (r.2 - p.2) ≤ (r.1 - p.1) * (r.1 - p.1) + (r.2 - p.2) * (r.2 - p.2))

/-- The obstructions, `cylindrical_los_validator.py:73-98`: the cells of the box around the rectangle that are in it.
`get_all_obstructions` applies the filter to each cell of the box (`elevation.py`). -/
noncomputable def obstructions (surface : ℝ → ℝ → ℝ → ℝ → List P3) (r : ℝ) (a b : RSite) : List P3 :=
  let c := corners a.x a.y b.x b.y r
  (surface
    (min (min (min c.1.1 c.2.1.1) c.2.2.1.1) c.2.2.2.1) (max (max (max c.1.2 c.2.1.2) c.2.2.1.2) c.2.2.2.2)
    (max (max (max c.1.1 c.2.1.1) c.2.2.1.1) c.2.2.2.1) (min (min (min c.1.2 c.2.1.2) c.2.2.1.2) c.2.2.2.2)).filter
      fun g => decide (inRectangle c.1 c.2.1 c.2.2.1 g.x g.y)

/-- `_distance_between_grid_and_center_line`, `cylindrical_los_validator.py:141-202`, for the line from `a` in the
direction `b`. -/
noncomputable def gridDistance (g a b : P3) : Option ℝ :=
  let dx := g.x - a.x
  let dy := g.y - a.y
  let dz := g.z - a.z
  let b2 := b.x * b.x + b.y * b.y
  let b3 := b2 + b.z * b.z
  let p := (dx * b.x + dy * b.y) / b2
  let q := dz - p * b.z
  if q > 0 then
    if 0 ≤ p ∧ p ≤ 1 then some (|-dx * b.y + dy * b.x| / Real.sqrt b2) else none
  else
    let t := (dx * b.x + dy * b.y + dz * b.z) / b3
    if t < 0 ∨ t > 1 then none
    else some (Real.sqrt ((t * b.x - dx) * (t * b.x - dx) + (t * b.y - dy) * (t * b.y - dy)
      + (t * b.z - dz) * (t * b.z - dz)))

/-- The loop over the obstructions, `cylindrical_los_validator.py:119-139`, with the minimal distance so far. -/
noncomputable def scan (V : Validator) (a b : P3) (high : ℝ) : ℝ → List P3 → ℝ
  | m, [] => m / V.radius
  | m, g :: rest =>
    if V.threshold = 1 ∧ g.z > high then 0
    else match gridDistance g a b with
      | none => scan V a b high m rest
      | some d => if d < V.radius * V.threshold then 0 else scan V a b high (min m d) rest

/-- The position of a site. With elevation data each site has an altitude; the code raises an exception otherwise
(`none_throws`), for which zero is taken here. -/
noncomputable def at3 (a : RSite) : P3 := ⟨a.x, a.y, a.alt.getD 0⟩

/-- The vector from one site to the other, `cylindrical_los_validator.py:111-113`. -/
noncomputable def toward (a b : RSite) : P3 := ⟨b.x - a.x, b.y - a.y, b.alt.getD 0 - a.alt.getD 0⟩

/-- `compute_confidence`, `cylindrical_los_validator.py:55-139`; `sort` is the order in which the sorted cells
are visited. -/
noncomputable def confidence (sort : List P3 → List P3) (V : Validator) (a b : RSite) : ℝ :=
  if passes V a b then
    match V.surface with
    | none => 1
    | some s => scan V (at3 a) (toward a b) (max (a.alt.getD 0) (b.alt.getD 0)) V.radius
        (sort (obstructions s V.radius a b))
  else 0

end LosGeom
end Verif
