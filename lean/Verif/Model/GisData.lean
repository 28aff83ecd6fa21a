import Verif.Model.Elevation

/-!
# Geographic input data

Polygons of KML files (`common/data_io/kml_library.py:248-315`), zipped shape files
(`common/data_io/building_group_loader.py:39-95`), the validation rules (`common/data_io/elevation_rules.py`,
`building_group_rules.py`, `shared_rules.py`), reading elevation data (`common/data_io/elevation_loader.py:84-173`),
cutting buildings to the boundary (`los/building_group.py:66-126`), corners of buildings (`los/building.py:22-64`) and
`load_gis_data` (`los/core.py:168-247`).

What GDAL and shapely answer is a parameter. `TypeError` is `.valueError`, as in `ConfigDict`.
-/

namespace Verif
namespace Gis

/-! ## Polygons of a KML file -/

/-- The geometry of a placemark: a polygon with its rings, the outline first, or a collection of polygons. Geometries
without parts, such as points and lines, are `other`; collections within collections are left out. -/
inductive Shape (P : Type)
  | polygon (rings : List (List P))
  | collection (polygons : List (List (List P)))
  | other

/-- `coords` for the parts `geo.GetGeometryRef(i)` of a geometry, `kml_library.py:270-287`: the parts of a polygon are its
rings; of the parts of a collection, which are polygons, the first ring is taken. -/
def Shape.parts {P : Type} : Shape P → List (List P)
  | .polygon rings => rings
  | .collection ps => ps.map fun rings => rings.headD []
  | .other => []

/-- `extract_polygons`, `kml_library.py:248-298`. -/
def extractPolygons {P : Type} (features : List (Shape P)) : List (List P) :=
  features.flatMap fun g => g.parts.filter fun c => decide (3 < c.length)

/-- `extract_boundary_polygon`, `kml_library.py:301-315`, without the code of the UTM zone. -/
def extractBoundary {P : Type} (features : List (Shape P)) : Except Err (List P) :=
  match extractPolygons features with
  | [p] => .ok p
  | _ => .error .data

/-! ## Validation -/

/-- The entries of a spatial reference that are looked at: values of `GetAttrValue`, the linear unit, and the code of
`crs_epsg_code` (`patterns.py:25-28`) if there is one. -/
structure SpatialRef where
  authority : Option String
  geogcs : Option String
  datum : Option String
  primem : Option String
  unit : Option String
  unitValue : Option String
  projcs : Option String
  linearUnits : ℚ
  linearUnitsName : String
  vertCs : Option String
  vertDatum : Option String
  vertUnit : Option String
  vertAxis0 : Option String
  vertAxis1 : Option String
  epsg : Option ℕ
  deriving DecidableEq

/-- The messages of the rules. -/
inductive Fault
  | noCrs | noDatum | noPrimem | noUnit | timeFormat | timeOld | timeFuture | linearUnit | linearUnitName | pixelSize
  | vertDatum | vertUnit | vertAxis | geometry | topLevel | oneShp
  deriving DecidableEq, Repr

/-- `{"metre", "meter", "m"}`. -/
def metres : List String := ["metre", "meter", "m"]

/-- `has_crs_rule`, `shared_rules.py:16-22`. -/
def hasCrs (sr : SpatialRef) : List Fault := if sr.authority = none then [.noCrs] else []

/-- `vertical_crs_is_valid_if_present_rule`, `shared_rules.py:25-65`. -/
def vertical (sr : SpatialRef) : List Fault :=
  if sr.vertCs = none then []
  else (if sr.vertDatum = none then [.vertDatum] else []) ++
    (if sr.vertUnit = none ∨ sr.vertUnit.getD "" ∉ metres then [.vertUnit] else []) ++
    if (sr.vertAxis0 = none ∨ sr.vertAxis0.getD "" ≠ "up") ∧ (sr.vertAxis1 = none ∨ sr.vertAxis1.getD "" ≠ "up") then
      [.vertAxis] else []

/-- `geogcs_has_enough_info_rule`, `elevation_rules.py:28-52`. -/
def geogcsInfo (sr : SpatialRef) : List Fault :=
  if sr.geogcs = none then []
  else (if sr.datum = none then [.noDatum] else []) ++ (if sr.primem = none then [.noPrimem] else []) ++
    if sr.unit = none ∨ sr.unitValue = none then [.noUnit] else []

/-- `has_valid_linear_unit_rule(1.0, ...)`, `elevation_rules.py:88-110`. -/
def linearUnit (sr : SpatialRef) : List Fault :=
  if sr.projcs = none then []
  else (if sr.linearUnits ≠ 1 then [.linearUnit] else []) ++
    if sr.linearUnitsName ∉ metres then [.linearUnitName] else []

/-- `has_valid_pixel_size_rule(0.15, 35.0)`, `elevation_rules.py:112-131`. -/
def pixelSize (sr : SpatialRef) (r : Raster) : List Fault :=
  if sr.projcs = none then []
  else if (15 / 100 ≤ r.xRes ∧ r.xRes ≤ 35) ∧ 15 / 100 ≤ r.yRes ∧ r.yRes ≤ 35 then [] else [.pixelSize]

/-- `has_recent_collection_time_rule`, `elevation_rules.py:57-86`; `parse` is `strptime`, times are in seconds. -/
def recentTime (parse : String → Option ℤ) (now : ℤ) (time : Option String) : List Fault :=
  match time with
  | none => []
  | some s =>
    match parse s with
    | none => [.timeFormat]
    | some t => if now - t > 365 * 20 * 86400 then [.timeOld] else if now < t then [.timeFuture] else []

/-- `ElevationLoader.validate`, `elevation_loader.py:160-173`. -/
def elevationFaults (parse : String → Option ℤ) (now : ℤ) (r : Raster) (sr : SpatialRef) (time : Option String) :
    List Fault :=
  hasCrs sr ++ geogcsInfo sr ++ recentTime parse now time ++ linearUnit sr ++ pixelSize sr r ++ vertical sr

/-- What GDAL gives for GeoTIFF files after warping and cropping, `elevation_loader.py:102-141`: the raster, its spatial
reference and the entry `TIFFTAG_DATETIME` of its metadata. -/
structure Tiff where
  raster : Raster
  sr : SpatialRef
  time : Option String

/-- `_read_from_geotiff`, `elevation_loader.py:84-158`; `ds.GetMetadata_Dict["TIFFTAG_DATETIME"]` in 150 raises
`TypeError`, since `GetMetadata_Dict` is a method. -/
def readElevation (gdal : List String → Option Tiff) (parse : String → Option ℤ) (now : ℤ) (paths : List String) :
    Except Err (Raster × List Fault) :=
  match gdal paths with
  | none => .error .data
  | some t =>
    if t.time.isSome then .error .valueError
    else .ok (t.raster, elevationFaults parse now t.raster t.sr none)

/-- `BuildingGroupLoader.validate`, `building_group_loader.py:169-179`; `kinds` are the types of the geometries. -/
def buildingFaults (sr : SpatialRef) (kinds : List String) : List Fault :=
  hasCrs sr ++ vertical sr ++ if ∀ k ∈ kinds, k = "Polygon" then [] else [.geometry]

/-! ## Zipped shape files -/

/-- `os.path.basename`. -/
def baseName (s : List Char) : List Char := (s.reverse.takeWhile (· ≠ '/')).reverse

/-- `os.path.dirname`; for names that begin with `/` the result may lack slashes, which makes no difference here. -/
def dirName (s : List Char) : List Char := ((s.reverse.dropWhile (· ≠ '/')).dropWhile (· = '/')).reverse

/-- `os.path.splitext(name)[1] == ".shp"`: the dots at the beginning of the last component do not start an extension. -/
def hasShpExt (s : List Char) : Bool :=
  decide (".shp".toList <:+ s) && ((baseName s).take ((baseName s).length - 4)).any (· != '.')

/-- `all_files_at_top_level_in_zip_rule`, `building_group_rules.py:56-70`. -/
def topLevelRule (names : List String) : List Fault :=
  if ∃ n ∈ names, '/' ∈ n.toList ∧ dirName n.toList ≠ "__MACOSX".toList then [.topLevel] else []

/-- Whether a name counts in `zip_file_contains_exactly_one_shp_file`, `building_group_rules.py:73-79`. -/
def countsAsShp (n : String) : Bool :=
  decide ((baseName n.toList).head? ≠ some '.') && hasShpExt n.toList

/-- `zip_file_contains_exactly_one_shp_file`, `building_group_rules.py:72-88`. -/
def oneShpRule (names : List String) : List Fault :=
  if (names.filter countsAsShp).length ≠ 1 then [.oneShp] else []

/-- The names that `glob("*.shp")` finds in the folder the archive was extracted to; folders with such a name are left
out. -/
def globTop (names : List String) : List String :=
  names.filter fun n => decide ('/' ∉ n.toList) && decide (".shp".toList <:+ n.toList) && decide (n.toList.head? ≠ some '.')

/-- `_read_from_shapefile` up to opening the file, `building_group_loader.py:52-74`, within the `try` of `read` (43-50):
the file that is opened and the messages so far. `cwd` gives the `*.shp` files in a folder relative to the working
directory, which is where a folder of the archive is looked for in 70-73. -/
def pickShp (cwd : String → List String) (names : List String) : Except Err (String × List Fault) :=
  let dirs := names.filter fun n => decide (n.toList.getLast? = some '/')
  if 1 < dirs.length then .error .data
  else
    match (match dirs with
      | [] => globTop names
      | d :: _ => cwd d) with
    | [] => .error .data
    | p :: _ => .ok (p, topLevelRule names ++ oneShpRule names)

/-! ## Buildings -/

/-- What shapely and the coordinate transforms answer; `B` are polygons. -/
structure Geometry (B : Type) where
  valid : B → Bool
  empty : B → Bool
  /-- `prep_boundary.contains`. -/
  inBoundary : B → Bool
  /-- `prep_boundary.intersects`. -/
  meetsBoundary : B → Bool
  /-- The polygons of `geom.intersection(boundary)` if that is a `Polygon` or a `MultiPolygon`, else `none`. -/
  cut : B → Option (List B)
  toUtm : B → B
  area : B → ℚ

/-- `add_building`, `building_group.py:50-64`. -/
def addBuilding {B : Type} (g : Geometry B) (b : B) : List B := if g.valid b && !g.empty b then [b] else []

/-- What is kept of a building in lat/lon, `building_group.py:93-105`. -/
def cutBuilding {B : Type} (g : Geometry B) (b : B) : List B :=
  if g.valid b then
    if g.inBoundary b then addBuilding g b
    else if g.meetsBoundary b then
      match g.cut b with
      | none => []
      | some ps => ps.flatMap (addBuilding g)
    else []
  else []

/-- `preprocess`, `building_group.py:66-126`, with `selection_polygons = []` as in `los/core.py:204`, for buildings in
lat/lon; without EPSG code `crs_epsg_code` raises `TypeError`. -/
def preprocess {B : Type} (g : Geometry B) (epsg : Option ℕ) (bs : List B) : Except Err (List B) :=
  if epsg = none then .error .valueError
  else .ok (((bs.flatMap (cutBuilding g)).map g.toUtm).flatMap fun p =>
    if 50 < g.area p then addBuilding g p else [])

/-- The loop of `detect_corners_from_polygon_vertices`, `building.py:36-64`, over three vertices in a row; `angle b a c`
is the rounded angle at `b`. -/
def cornerLoop {P : Type} (angle : P → P → P → ℚ) (maxAngle : ℚ) : List P → List P
  | a :: b :: c :: rest =>
    if 30 ≤ angle b a c ∧ angle b a c ≤ maxAngle then b :: cornerLoop angle maxAngle (b :: c :: rest)
    else cornerLoop angle maxAngle (b :: c :: rest)
  | _ => []

/-- `detect_corners_from_polygon_vertices`, `building.py:22-64`; `vertices[1]` of a shorter list is an `IndexError`, but
the caller has checked the length. -/
def corners {P : Type} (angle : P → P → P → ℚ) (maxAngle : ℚ) (coords : List P) : List P :=
  cornerLoop angle maxAngle (coords ++ coords[1]?.toList)

/-- The corners in `detect_corners`, `building.py:149-166`. -/
def corners2d {P : Type} (angle : P → P → P → ℚ) (maxAngle : Option ℚ) (coords : List P) : List P :=
  if coords.length < 3 then []
  else
    let cs := match maxAngle with
      | some m => corners angle m coords
      | none => coords.dropLast
    if cs = [] then coords.take 1 else cs

/-! ## `load_gis_data` -/

/-- `upsample_to_same_resolution`, `los/helper.py:965-975`; `fill` is what the KD tree of a raster answers. -/
def upsample (fill : Raster → Fill) (a b : Raster) : Except Err (Raster × Raster) :=
  match a.setResolution (fill a) (min a.xRes b.xRes) (min a.yRes b.yRes) with
  | (_, some e) => .error e
  | (a', none) =>
    match b.setResolution (fill b) (min a.xRes b.xRes) (min a.yRes b.yRes) with
    | (_, some e) => .error e
    | (b', none) => .ok (a', b')

/-- Surface and terrain from what was read, `los/core.py:232-236`. -/
def surfaceTerrain (fill : Raster → Fill) (dsm dtm dhm : Option Raster) : Except Err (Option Raster × Option Raster) :=
  match dsm, dtm, dhm with
  | none, some t, some h =>
    match upsample fill t h with
    | .error e => .error e
    | .ok (t', h') =>
      match Raster.combine (· + ·) t' h' with
      | .error e => .error e
      | .ok s => .ok (some s, some t')
  | some s, none, some h =>
    match Raster.combine (· - ·) s h with
    | .error e => .error e
    | .ok t => .ok (some s, some t)
  | s, t, _ => .ok (s, t)

/-- Reading a file that may not be there. -/
def optional {α : Type} (read : Except Err (α × List Fault)) (there : Bool) : Except Err (Option α × List Fault) :=
  if there then
    match read with
    | .error e => .error e
    | .ok (a, f) => .ok (some a, f)
  else .ok (none, [])

/-- The paths of the configuration. -/
structure Paths where
  dsm : List String
  dtm : Option String
  dhm : Option String
  buildings : Option String

/-- A building file as it was read: its spatial reference, the types of its geometries, the polygons in lat/lon, and the
messages about the archive, if it is one. -/
structure BuildingFile (B : Type) where
  sr : SpatialRef
  kinds : List String
  polygons : List B
  archive : List Fault

/-- The optional buildings, `los/core.py:200-206`. -/
def readGroup {B : Type} (g : Geometry B) (readBuildings : String → Except Err (BuildingFile B)) (path : Option String) :
    Except Err (Option (List B) × List Fault) :=
  match path with
  | none => .ok (none, [])
  | some p =>
    match readBuildings p with
    | .error e => .error e
    | .ok file =>
      match preprocess g file.sr.epsg file.polygons with
      | .error e => .error e
      | .ok bs => .ok (some bs, file.archive ++ buildingFaults file.sr file.kinds)

/-- `load_gis_data`, `los/core.py:168-247`, from the boundary polygon and what the loaders give for the files. -/
def loadGis {B C : Type} (boundary : Except Err C) (validBoundary : C → Bool) (g : C → Geometry B)
    (readBuildings : String → Except Err (BuildingFile B)) (read : List String → Except Err (Raster × List Fault))
    (fill : Raster → Fill) (paths : Paths) : Except Err (C × Option Raster × Option Raster × Option (List B)) := do
  let c ← boundary
  if validBoundary c then
    let (group, f1) ← readGroup (g c) readBuildings paths.buildings
    let (dsm, f2) ← optional (read paths.dsm) (decide (0 < paths.dsm.length))
    let (dtm, f3) ← optional (read paths.dtm.toList) paths.dtm.isSome
    let (dhm, f4) ← optional (read paths.dhm.toList) paths.dhm.isSome
    let (s, t) ← surfaceTerrain fill dsm dtm dhm
    if f1 ++ f2 ++ f3 ++ f4 = [] then .ok (c, s, t, group) else .error .data
  else .error .data

end Gis
end Verif
