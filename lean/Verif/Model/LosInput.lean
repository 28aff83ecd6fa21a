import Verif.Model.LosGeom

/-!
# Where the sites of the LOS phase are

Input sites: `infer_input_site_location` (`terragraph_planner/los/helper.py:115-195`) and the building id that
`_construct_sites` sets (`common/data_io/input_sites_loader.py:131-205`). Detected sites:
`terragraph_planner/los/building_group.py:128-208` and `los/building.py`. The elevation at a point is a parameter,
see `Verif.Model.Elevation`; geometry of polygons is a parameter.
-/

namespace Verif

/-- The elevation data and the heights of the configuration, `los/helper.py:122-128`. -/
structure InferCfg where
  surface : Option (ℚ → ℚ → ℚ) := none
  terrain : Option (ℚ → ℚ → ℚ) := none
  mounting : ℚ
  popHeight : ℚ
  dnHeight : ℚ
  cnHeight : ℚ

/-- An input site, `common/structs.py`: the coordinates and what the user gave. -/
structure GivenSite where
  x : ℚ
  y : ℚ
  alt : Option ℚ := none
  height : Option ℚ := none
  loc : LocationType := .unknown
  typ : SiteType := .dn
  deriving DecidableEq, Repr

/-- `infer_input_site_location`, `los/helper.py:115-195`: the altitude and the location type. -/
def inferLocation (C : InferCfg) (g : GivenSite) : Option ℚ × LocationType :=
  match C.surface with
  | none => (g.alt, g.loc)
  | some surface =>
    let here := surface g.x g.y
    let loc := if g.loc = .unknown then
        match C.terrain with
        | some terrain => if here - terrain g.x g.y ≥ 2 then .rooftop else .streetLevel
        | none => g.loc
      else g.loc
    match g.alt with
    | some z => (some z, loc)
    | none => match g.height with
      | some h => (some (here + h), loc)
      | none =>
        if loc = .rooftop then (some (here + C.mounting), loc)
        else if g.typ = .pop then (some (here + C.popHeight), loc)
        else if g.typ = .dn then (some (here + C.dnHeight), loc)
        else (some (here + C.cnHeight), loc)

/-- The site that the LOS phase sees, `input_sites_loader.py:150-166`, `los/core.py:300-309`. The sites of a base
topology are read in the same way (`los/helper.py:276-280`). -/
def GivenSite.place (C : InferCfg) (g : GivenSite) : LosSite :=
  ⟨g.x, g.y, (inferLocation C g).1, (inferLocation C g).2,
    if (inferLocation C g).2 = .rooftop then some (-1) else none⟩

/-- A point on a roof, with its elevation; `Point3D`. -/
structure Spot where
  x : ℚ
  y : ℚ
  z : ℚ
  deriving DecidableEq, Repr

/-- `detect_highest`, `los/building.py:228-251`, for the grid cells within the bounds; `inside` is whether the polygon
intersects the cell's centre. -/
def highestLoop (inside : Spot → Bool) : Option Spot → List Spot → Option Spot
  | h, [] => h
  | h, c :: rest =>
    let higher := match h with
      | none => true
      | some s => decide (c.z > s.z)
    highestLoop inside (if higher && inside c then some c else h) rest

/-- The corners of the polygon whose altitude is wanted and the detected places of a building. -/
structure Roof where
  centre : Spot
  cells : List Spot
  inside : Spot → Bool
  corners : List Spot

/-- `detect_highest` with the fallback, `los/building.py:246-251`. -/
def Roof.highest (r : Roof) : Spot := (highestLoop r.inside none r.cells).getD r.centre

/-- At most three of the corners, `los/building_group.py:191-206`. -/
def someCorners (corners : List Spot) : List Spot :=
  if corners.length ≤ 3 then corners
  else (List.range 3).filterMap fun i => corners[i * (corners.length / 3)]?

/-- The flags of the site detection. -/
structure DetectCfg where
  corners : Bool
  centre : Bool
  highest : Bool

/-- The places detected on a building, `los/building_group.py:175-206`; `surface` is whether there is elevation data. -/
def Roof.spots (D : DetectCfg) (surface : Bool) (r : Roof) : List Spot :=
  (if D.centre then [r.centre] else []) ++ (if D.highest && surface then [r.highest] else [])
    ++ (if D.corners then someCorners r.corners else [])

/-- `_convert_point_3d_to_site`, `los/building_group.py:157-171`. -/
def Spot.place (surface : Bool) (mounting : ℚ) (k : Nat) (s : Spot) : LosSite :=
  ⟨s.x, s.y, if surface then some (s.z + mounting) else none, .rooftop, some k⟩

/-- `detect_site_candidates`, `los/building_group.py:128-208`, from building `k`. -/
def detectSites (D : DetectCfg) (surface : Bool) (mounting : ℚ) : Nat → List Roof → List LosSite
  | _, [] => []
  | k, r :: rest => (r.spots D surface).map (Spot.place surface mounting k) ++ detectSites D surface mounting (k + 1) rest

/-- The scan for the altitude of a corner, `los/building.py:182-206`, over the cells of the matrix around it, row by
row: `high c` is whether cell `c` is more than two metres above one of its neighbours. In the first row with such
a cell the last one is taken, since only the loop over the rows is left early. -/
def cornerScan (high : Nat × Nat → Bool) (cols : Nat) : List Nat → Option (Nat × Nat)
  | [] => none
  | row :: rest => match ((List.range cols).filter fun c => high (row, c)).getLast? with
    | some c => some (row, c)
    | none => cornerScan high cols rest

/-- Whether a cell of a matrix with `rows` rows and `cols` columns is high, `los/building.py:189-203`. -/
def cornerHigh (rows cols : Nat) (m : Nat → Nat → ℚ) (c : Nat × Nat) : Bool :=
  (List.range rows).any fun i => (List.range cols).any fun j =>
    (i + 1 ≥ c.1 && i ≤ c.1 + 1) && (j + 1 ≥ c.2 && j ≤ c.2 + 1) && (i, j) ≠ c && decide (m c.1 c.2 - m i j > 2)

/-- The altitude of a corner, `los/building.py:170-209`; `here` is the elevation at the corner itself. -/
def cornerAltitude (rows cols : Nat) (m : Nat → Nat → ℚ) (here : ℚ) : ℚ :=
  match cornerScan (cornerHigh rows cols m) cols (List.range rows) with
  | some c => m c.1 c.2
  | none => here

end Verif
