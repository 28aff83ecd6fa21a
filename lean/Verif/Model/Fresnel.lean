import Verif.Model.LosGeom

/-!
# The ellipsoidal LOS validator

`terragraph_planner/los/ellipsoidal_los_validator.py` and `los/fresnel_zone.py`, over the real numbers. The attribute
`radius` of `Validator` belongs to the cylindrical validator and is not used here.
-/

namespace Verif
open Classical LosGeom

/-- `FIRST_ZONE_MULTIPLIER`, `fresnel_zone.py:60`. -/
noncomputable def zoneMultiplier : ℝ := 865725790883 / 100000000000

/-- The constants of a Fresnel zone, `fresnel_zone.py:176-205`. -/
structure Zone where
  x1 : ℝ
  y1 : ℝ
  x2 : ℝ
  y2 : ℝ
  cosA : ℝ
  sinA : ℝ
  cosB : ℝ
  sinB : ℝ
  radius : ℝ
  threshold : ℝ
  xm : ℝ
  ym : ℝ
  zm : ℝ
  half2 : ℝ
  halfXY2 : ℝ
  aOverC : ℝ
  bOverC : ℝ
  dOverC : ℝ

namespace Zone

/-- The third point of the plane, `fresnel_zone.py:244-254`; the sites do not have the same coordinates, since the
simple checks pass. -/
noncomputable def third (x1 y1 x2 y2 : ℝ) : ℝ × ℝ :=
  let dx := x2 - x1
  let dy := y2 - y1
  if dx ≠ 0 then (x1 - dy / dx, y1 + 1) else (x1 + 1, y1 - dx / dy)

/-- `_get_equation_constants`, `fresnel_zone.py:206-268`. A missing altitude raises an exception in the code
(`none_throws`), zero is taken here. -/
noncomputable def of (freq threshold : ℝ) (a b : RSite) : Zone :=
  let z1 := a.alt.getD 0
  let z2 := b.alt.getD 0
  let dx := b.x - a.x
  let dy := b.y - a.y
  let dz := z2 - z1
  let xy2 := dx * dx + dy * dy
  let xy := Real.sqrt xy2
  let dist2 := xy2 + dz * dz
  let dist := Real.sqrt dist2
  let p := third a.x a.y b.x b.y
  let pa := (b.y - a.y) * (z1 - z1) - (z2 - z1) * (p.2 - a.y)
  let pb := (z2 - z1) * (p.1 - a.x) - (b.x - a.x) * (z1 - z1)
  let pc := (b.x - a.x) * (p.2 - a.y) - (b.y - a.y) * (p.1 - a.x)
  let pd := -(pa * a.x + pb * a.y + pc * z1)
  { x1 := a.x, y1 := a.y, x2 := b.x, y2 := b.y
    cosA := dx / xy, sinA := dy / xy, cosB := xy / dist, sinB := dz / dist
    radius := zoneMultiplier * Real.sqrt (dist / freq)
    threshold := threshold
    xm := (a.x + b.x) / 2, ym := (a.y + b.y) / 2, zm := (z1 + z2) / 2
    half2 := dist2 / 4, halfXY2 := xy2 / 4
    aOverC := pa / pc, bOverC := pb / pc, dOverC := pd / pc }

variable (Z : Zone)

/-- `_inner_fresnel_radius`, `fresnel_zone.py:231-233`. -/
noncomputable def inner : ℝ := Z.radius * Z.threshold

/-- `_filter_points_outside_of_ellipse`, `fresnel_zone.py:270-288`: whether the point is inside. -/
def inEllipse (r2 x y : ℝ) : Prop :=
  let p := (x - Z.xm) * Z.cosA + (y - Z.ym) * Z.sinA
  let q := (x - Z.xm) * Z.sinA - (y - Z.ym) * Z.cosA
  p * p / Z.halfXY2 + q * q / r2 ≤ 1

/-- `_solve_for_lower_ellipsoid_height`, `fresnel_zone.py:290-332`; `none` for `math.inf`. The assertion that `quadA` is
positive is proved, `Zone.quadA_pos`. -/
noncomputable def lowerHeight (x y r2 : ℝ) : Option ℝ :=
  let t1 := (x - Z.xm) * Z.cosA * Z.cosB + (y - Z.ym) * Z.sinA * Z.cosB
  let t2 := (Z.xm - x) * Z.cosA * Z.sinB + (Z.ym - y) * Z.sinA * Z.sinB
  let t3 := (Z.xm - x) * Z.sinA + (y - Z.ym) * Z.cosA
  let quadA := Z.sinB * Z.sinB / Z.half2 + Z.cosB * Z.cosB / r2
  let quadB := 2 * (t1 * Z.sinB / Z.half2 + t2 * Z.cosB / r2)
  let quadC := t1 * t1 / Z.half2 + t2 * t2 / r2 + t3 * t3 / r2 - 1
  let quadD := quadB * quadB - 4 * quadA * quadC
  if quadD ≤ 0 then none
  else if quadB ≥ 0 then some ((-quadB - Real.sqrt quadD) / (2 * quadA) + Z.zm)
  else some (2 * quadC / (-quadB + Real.sqrt quadD) + Z.zm)

/-- `check_point_obstruct_inner_fresnel_zone`, `fresnel_zone.py:129-151`. -/
noncomputable def obstructsInner (g : P3) : Prop :=
  ¬ ((g.x = Z.x1 ∧ g.y = Z.y1) ∨ (g.x = Z.x2 ∧ g.y = Z.y2)) ∧ Z.threshold ≠ 0
  ∧ Z.inEllipse (Z.inner * Z.inner) g.x g.y
  ∧ ∃ h ∈ Z.lowerHeight g.x g.y (Z.inner * Z.inner), g.z ≥ h

/-- `_solve_for_max_fresnel_radius_2d`, `fresnel_zone.py:334-353`. -/
noncomputable def radius2d (x y : ℝ) : ℝ :=
  let p := (x - Z.xm) * Z.cosA + (y - Z.ym) * Z.sinA
  let a := p * p / Z.halfXY2
  let q := (x - Z.xm) * Z.sinA - (y - Z.ym) * Z.cosA
  if a ≥ 1 then Z.radius else Real.sqrt (q * q / (1 - a))

/-- `_solve_for_max_fresnel_radius_3d`, `fresnel_zone.py:355-385`. -/
noncomputable def radius3d (x y z : ℝ) : ℝ :=
  let e1 := (x - Z.xm) * Z.cosA * Z.cosB + (y - Z.ym) * Z.sinA * Z.cosB + (z - Z.zm) * Z.sinB
  let a := e1 * e1 / Z.half2
  let e2 := (Z.xm - x) * Z.sinA + (y - Z.ym) * Z.cosA
  let e3 := (Z.xm - x) * Z.cosA * Z.sinB + (Z.ym - y) * Z.sinA * Z.sinB + (z - Z.zm) * Z.cosB
  if a ≥ 1 then Z.radius else Real.sqrt ((e2 * e2 + e3 * e3) / (1 - a))

/-- `get_max_fresnel_radius`, `fresnel_zone.py:153-174`. -/
noncomputable def maxRadius (g : P3) : ℝ :=
  match Z.lowerHeight g.x g.y (Z.radius * Z.radius) with
  | none => Z.radius
  | some h =>
    if g.z < h then Z.radius
    else if g.z ≥ -(Z.aOverC * g.x + Z.bOverC * g.y + Z.dOverC) then Z.radius2d g.x g.y
    else Z.radius3d g.x g.y g.z

/-- The loop over the obstructions, `ellipsoidal_los_validator.py:76-86`, with the minimal radius so far. -/
noncomputable def scan : ℝ → List P3 → ℝ
  | m, [] => m / Z.radius
  | m, g :: rest => if Z.obstructsInner g then 0 else scan (min (Z.maxRadius g) m) rest

/-- The obstructions, `ellipsoidal_los_validator.py:60-74`: the cells in the box around the rectangle that are in the
outer ellipse. -/
noncomputable def obstructions (surface : ℝ → ℝ → ℝ → ℝ → List P3) (a b : RSite) : List P3 :=
  let c := corners a.x a.y b.x b.y Z.radius
  (surface
    (min (min (min c.1.1 c.2.1.1) c.2.2.1.1) c.2.2.2.1) (max (max (max c.1.2 c.2.1.2) c.2.2.1.2) c.2.2.2.2)
    (max (max (max c.1.1 c.2.1.1) c.2.2.1.1) c.2.2.2.1) (min (min (min c.1.2 c.2.1.2) c.2.2.1.2) c.2.2.2.2)).filter
      fun g => decide (Z.inEllipse (Z.radius * Z.radius) g.x g.y)

end Zone

/-- `compute_confidence`, `ellipsoidal_los_validator.py:44-86`. -/
noncomputable def ellipsoidal (freq : ℝ) (V : Validator) (a b : RSite) : ℝ :=
  if passes V a b then
    match V.surface with
    | none => 1
    | some s =>
      let Z := Zone.of freq V.threshold a b
      Z.scan Z.radius (Z.obstructions s a b)
  else 0

end Verif
