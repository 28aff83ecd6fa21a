import Verif.Model.GisData
import Verif.Props.Elevation
import Mathlib.Data.Set.Lattice

/-!
# Geographic input data: C150 to C155
-/

namespace Verif
namespace Gis

/-! ## C150: polygons of a KML file -/

/-- The outlines of the polygons that are drawn. -/
def Shape.drawn {P : Type} : Shape P → List (List P)
  | .polygon rings => [rings.headD []]
  | .collection ps => ps.map fun rings => rings.headD []
  | .other => []

/-- A polygon of its own has no hole. -/
def Shape.NoHole {P : Type} : Shape P → Prop
  | .polygon rings => rings.length ≤ 1
  | _ => True

/-- The outlines drawn in a file that have at least three corners and a closing point. -/
def drawnOutlines {P : Type} (features : List (Shape P)) : List (List P) :=
  (features.flatMap Shape.drawn).filter fun o => decide (4 ≤ o.length)

/-- **C150.** If no polygon has a hole, the polygons read from a KML file are the outlines that are drawn, in order. -/
theorem C150_polygons_partial {P : Type} (features : List (Shape P)) (h : ∀ g ∈ features, g.NoHole) :
    extractPolygons features = drawnOutlines features := by
  unfold extractPolygons drawnOutlines
  induction features with
  | nil => rfl
  | cons g gs ih =>
    rw [List.flatMap_cons, List.flatMap_cons, List.filter_append, ih fun x hx => h x (List.mem_cons_of_mem _ hx)]
    congr 1
    have hg := h g List.mem_cons_self
    cases g with
    | polygon rings =>
      match rings, hg with
      | [], _ => rfl
      | [r], _ => rfl
      | _ :: _ :: _, hg => exact absurd hg (by simp [Shape.NoHole])
    | collection ps => rfl
    | other => rfl

/-- **C150.** The boundary is accepted exactly if a single outline is drawn, and it is that outline. -/
theorem C150_boundary_partial {P : Type} (features : List (Shape P)) (h : ∀ g ∈ features, g.NoHole) (p : List P) :
    extractBoundary features = .ok p ↔ drawnOutlines features = [p] := by
  unfold extractBoundary
  rw [C150_polygons_partial features h]
  constructor
  · intro e
    split at e
    · rename_i q hq
      cases e
      exact hq
    · cases e
  · intro e
    rw [e]

/-- **C150 is false of the code:** the holes of a polygon are read as polygons, so that a building with a courtyard becomes
two buildings, and a boundary with a hole is rejected. -/
theorem C150_hole_violation {P : Type} (o hole : List P) (h1 : 4 ≤ o.length) (h2 : 4 ≤ hole.length) :
    extractPolygons [.polygon [o, hole]] = [o, hole] ∧ extractBoundary [.polygon [o, hole]] = .error .data ∧
      drawnOutlines [.polygon [o, hole]] = [o] := by
  have e : extractPolygons [.polygon [o, hole]] = [o, hole] := by
    simp [extractPolygons, Shape.parts]
    omega
  refine ⟨e, ?_, ?_⟩
  · unfold extractBoundary
    rw [e]
  · simp [drawnOutlines, Shape.drawn, h1]

example : (∀ g ∈ [Shape.polygon [[0, 1, 2, 0]], .other, .collection [[[5, 6, 7, 5], [8, 9, 8]]]], g.NoHole) ∧
    extractPolygons [Shape.polygon [[0, 1, 2, 0]], .other, .collection [[[5, 6, 7, 5], [8, 9, 8]]]] =
      [[0, 1, 2, 0], [5, 6, 7, 5]] := by
  refine ⟨?_, by decide⟩
  intro g hg
  simp at hg
  rcases hg with rfl | rfl | rfl <;> simp [Shape.NoHole]

/-! ## C151: validation -/

/-- A spatial reference with an authority, and with a valid vertical system if it has one. -/
structure GoodReference (sr : SpatialRef) : Prop where
  authority : ∃ a, sr.authority = some a
  vertDatum : sr.vertCs ≠ none → ∃ d, sr.vertDatum = some d
  vertUnit : sr.vertCs ≠ none → ∃ u ∈ ["metre", "meter", "m"], sr.vertUnit = some u
  vertAxis : sr.vertCs ≠ none → sr.vertAxis0 = some "up" ∨ sr.vertAxis1 = some "up"

/-- Elevation data with a complete geographic system, in metres, with cells of 15 cm to 35 m. -/
structure GoodElevation (sr : SpatialRef) (r : Raster) : Prop extends GoodReference sr where
  datum : sr.geogcs ≠ none → ∃ d, sr.datum = some d
  primem : sr.geogcs ≠ none → ∃ d, sr.primem = some d
  unit : sr.geogcs ≠ none → ∃ d, sr.unit = some d
  unitValue : sr.geogcs ≠ none → ∃ d, sr.unitValue = some d
  linear : sr.projcs ≠ none → sr.linearUnits = 1
  linearName : sr.projcs ≠ none → sr.linearUnitsName ∈ ["metre", "meter", "m"]
  cellWidth : sr.projcs ≠ none → 0.15 ≤ r.xRes ∧ r.xRes ≤ 35
  cellHeight : sr.projcs ≠ none → 0.15 ≤ r.yRes ∧ r.yRes ≤ 35

theorem ite_nil {p : Prop} [Decidable p] {f : Fault} : (if p then [f] else []) = [] ↔ ¬ p := by
  split <;> simp_all

theorem ite_nil' {p : Prop} [Decidable p] {f : Fault} : (if p then [] else [f]) = [] ↔ p := by
  split <;> simp_all

theorem reference_iff (sr : SpatialRef) : hasCrs sr = [] ∧ vertical sr = [] ↔ GoodReference sr := by
  have hsome : ∀ o : Option String, ¬ o = none ↔ ∃ a, o = some a := fun o => by cases o <;> simp
  have h1 : hasCrs sr = [] ↔ ∃ a, sr.authority = some a := by
    unfold hasCrs
    rw [ite_nil, hsome]
  have h2 : vertical sr = [] ↔ (sr.vertCs ≠ none → (∃ d, sr.vertDatum = some d) ∧
      (∃ u ∈ ["metre", "meter", "m"], sr.vertUnit = some u) ∧
      (sr.vertAxis0 = some "up" ∨ sr.vertAxis1 = some "up")) := by
    unfold vertical
    by_cases c : sr.vertCs = none
    · rw [if_pos c]
      simp [c]
    · rw [if_neg c, List.append_eq_nil_iff, List.append_eq_nil_iff, ite_nil, ite_nil, ite_nil, hsome]
      have hu : ¬ (sr.vertUnit = none ∨ sr.vertUnit.getD "" ∉ metres) ↔
          ∃ u ∈ ["metre", "meter", "m"], sr.vertUnit = some u := by
        cases sr.vertUnit with
        | none => simp
        | some u => simp [metres]; tauto
      have ha : ¬ ((sr.vertAxis0 = none ∨ sr.vertAxis0.getD "" ≠ "up") ∧
          (sr.vertAxis1 = none ∨ sr.vertAxis1.getD "" ≠ "up")) ↔
          (sr.vertAxis0 = some "up" ∨ sr.vertAxis1 = some "up") := by
        cases sr.vertAxis0 <;> cases sr.vertAxis1 <;> simp [or_iff_not_imp_left]
      rw [hu, ha, and_assoc]
      exact ⟨fun h _ => h, fun h => h c⟩
  rw [h1, h2]
  exact ⟨fun ⟨a, b⟩ => ⟨a, fun c => (b c).1, fun c => (b c).2.1, fun c => (b c).2.2⟩,
    fun g => ⟨g.authority, fun c => ⟨g.vertDatum c, g.vertUnit c, g.vertAxis c⟩⟩⟩

theorem elevation_iff (parse : String → Option ℤ) (now : ℤ) (r : Raster) (sr : SpatialRef) :
    elevationFaults parse now r sr none = [] ↔ GoodElevation sr r := by
  have hsome : ∀ o : Option String, ¬ o = none ↔ ∃ a, o = some a := fun o => by cases o <;> simp
  have h3 : geogcsInfo sr = [] ↔ (sr.geogcs ≠ none → (∃ d, sr.datum = some d) ∧ (∃ d, sr.primem = some d) ∧
      (∃ d, sr.unit = some d) ∧ ∃ d, sr.unitValue = some d) := by
    unfold geogcsInfo
    by_cases c : sr.geogcs = none
    · rw [if_pos c]
      simp [c]
    · rw [if_neg c, List.append_eq_nil_iff, List.append_eq_nil_iff, ite_nil, ite_nil, ite_nil, hsome, hsome, not_or,
        hsome, hsome]
      tauto
  have h4 : linearUnit sr = [] ↔ (sr.projcs ≠ none → sr.linearUnits = 1 ∧
      sr.linearUnitsName ∈ ["metre", "meter", "m"]) := by
    unfold linearUnit
    by_cases c : sr.projcs = none
    · rw [if_pos c]
      simp [c]
    · rw [if_neg c, List.append_eq_nil_iff, ite_nil, ite_nil, not_not, not_not]
      unfold metres
      tauto
  have h5 : pixelSize sr r = [] ↔ (sr.projcs ≠ none → (0.15 ≤ r.xRes ∧ r.xRes ≤ 35) ∧ 0.15 ≤ r.yRes ∧ r.yRes ≤ 35) := by
    unfold pixelSize
    rw [show (15 / 100 : ℚ) = 0.15 by norm_num]
    by_cases c : sr.projcs = none
    · rw [if_pos c]
      simp [c]
    · rw [if_neg c, ite_nil']
      tauto
  have h6 := reference_iff sr
  unfold elevationFaults recentTime
  simp only [List.append_eq_nil_iff, List.append_nil]
  rw [h3, h4, h5]
  constructor
  · rintro ⟨⟨⟨⟨a, b⟩, c⟩, d⟩, e⟩
    have g := h6.1 ⟨a, e⟩
    exact { toGoodReference := g, datum := fun x => (b x).1, primem := fun x => (b x).2.1, unit := fun x => (b x).2.2.1,
            unitValue := fun x => (b x).2.2.2, linear := fun x => (c x).1, linearName := fun x => (c x).2,
            cellWidth := fun x => (d x).1, cellHeight := fun x => (d x).2 }
  · intro g
    obtain ⟨a, e⟩ := h6.2 g.toGoodReference
    exact ⟨⟨⟨⟨a, fun x => ⟨g.datum x, g.primem x, g.unit x, g.unitValue x⟩⟩, fun x => ⟨g.linear x, g.linearName x⟩⟩,
      fun x => ⟨g.cellWidth x, g.cellHeight x⟩⟩, e⟩

theorem buildings_iff (sr : SpatialRef) (kinds : List String) :
    buildingFaults sr kinds = [] ↔ GoodReference sr ∧ ∀ k ∈ kinds, k = "Polygon" := by
  unfold buildingFaults
  rw [List.append_eq_nil_iff, List.append_eq_nil_iff, ite_nil', reference_iff]

/-- The elevation data `r` of an optional input: without files there is none, else it is what GDAL gives for the files,
and that is good and has no collection time. -/
def ElevationInput (gdal : List String → Option Tiff) (paths : List String) (r : Option Raster) : Prop :=
  (paths = [] ∧ r = none) ∨
    paths ≠ [] ∧ ∃ t, gdal paths = some t ∧ t.time = none ∧ GoodElevation t.sr t.raster ∧ r = some t.raster

/-- The buildings of the optional input: without file there are none, else they are the prepared ones of the file, whose
archive has no faults, whose geometries are polygons and whose spatial reference is good. -/
def BuildingInput {B : Type} (g : Geometry B) (readBuildings : String → Except Err (BuildingFile B)) (path : Option String)
    (bs : Option (List B)) : Prop :=
  (path = none ∧ bs = none) ∨
    ∃ p file out, path = some p ∧ readBuildings p = .ok file ∧ file.archive = [] ∧ GoodReference file.sr ∧
      (∀ k ∈ file.kinds, k = "Polygon") ∧ preprocess g file.sr.epsg file.polygons = .ok out ∧ bs = some out

theorem optional_iff (gdal : List String → Option Tiff) (parse : String → Option ℤ) (now : ℤ) (paths : List String)
    (there : Bool) (ht : there = true ↔ paths ≠ []) (r : Option Raster) :
    optional (readElevation gdal parse now paths) there = .ok (r, []) ↔ ElevationInput gdal paths r := by
  unfold optional ElevationInput
  by_cases h : there = true
  · have hp := ht.1 h
    rw [if_pos h]
    simp only [hp, false_and, false_or, ne_eq, not_false_eq_true, true_and]
    unfold readElevation
    cases gdal paths with
    | none => simp
    | some t =>
      dsimp only
      cases htm : t.time with
      | some s => simp [htm]
      | none =>
        simp only [Option.isSome_none, Bool.false_eq_true, if_false]
        rw [Except.ok.injEq, Prod.mk.injEq, elevation_iff]
        constructor
        · rintro ⟨rfl, e⟩
          exact ⟨t, rfl, htm, e, rfl⟩
        · rintro ⟨t', e1, _, e2, e3⟩
          cases e1
          exact ⟨e3.symm, e2⟩
  · have hp : paths = [] := by
      by_contra c
      exact h (ht.2 c)
    rw [if_neg h]
    simp [hp, eq_comm]

theorem readGroup_iff {B : Type} (g : Geometry B) (readBuildings : String → Except Err (BuildingFile B))
    (path : Option String) (bs : Option (List B)) :
    readGroup g readBuildings path = .ok (bs, []) ↔ BuildingInput g readBuildings path bs := by
  unfold readGroup BuildingInput
  cases path with
  | none => simp [eq_comm]
  | some p =>
    dsimp only
    cases hr : readBuildings p with
    | error e => simp [hr]
    | ok file =>
      dsimp only
      cases hp : preprocess g file.sr.epsg file.polygons with
      | error e =>
        constructor
        · intro h; cases h
        · rintro (⟨h, _⟩ | ⟨p', file', out, h1, h2, _, _, _, h3, _⟩)
          · cases h
          · cases h1
            rw [hr] at h2
            cases h2
            rw [hp] at h3
            cases h3
      | ok out =>
        dsimp only
        rw [Except.ok.injEq, Prod.mk.injEq, List.append_eq_nil_iff, buildings_iff]
        constructor
        · rintro ⟨rfl, h1, h2, h3⟩
          exact .inr ⟨p, file, out, rfl, hr, h1, h2, h3, hp, rfl⟩
        · rintro (⟨h, _⟩ | ⟨p', file', out', h1, h2, h4, h5, h6, h3, h7⟩)
          · cases h
          · cases h1
            rw [hr] at h2
            cases h2
            rw [hp] at h3
            cases h3
            exact ⟨h7.symm, h4, h5, h6⟩

/-- **C151.** The data are accepted exactly if there is a valid boundary, the elevation data are good and have no
collection time, the buildings are good, and surface and terrain can be combined; then all inputs that are configured
are used. The full claim also has elevation data with a recent collection time, which is false, see below. -/
theorem C151_accepted_partial {B C : Type} (boundary : Except Err C) (validBoundary : C → Bool) (g : C → Geometry B)
    (readBuildings : String → Except Err (BuildingFile B)) (gdal : List String → Option Tiff)
    (parse : String → Option ℤ) (now : ℤ) (fill : Raster → Fill) (paths : Paths) (c : C) (s t : Option Raster)
    (bs : Option (List B)) :
    loadGis boundary validBoundary g readBuildings (readElevation gdal parse now) fill paths = .ok (c, s, t, bs) ↔
      boundary = .ok c ∧ validBoundary c = true ∧ BuildingInput (g c) readBuildings paths.buildings bs ∧
      ∃ dsm dtm dhm, ElevationInput gdal paths.dsm dsm ∧ ElevationInput gdal paths.dtm.toList dtm ∧
        ElevationInput gdal paths.dhm.toList dhm ∧ surfaceTerrain fill dsm dtm dhm = .ok (s, t) := by
  have b1 : decide (0 < paths.dsm.length) = true ↔ paths.dsm ≠ [] := by
    rw [decide_eq_true_iff, List.length_pos_iff]
  have b2 : ∀ o : Option String, o.isSome = true ↔ o.toList ≠ [] := fun o => by cases o <;> simp
  have o1 := optional_iff gdal parse now paths.dsm _ b1
  have o2 := optional_iff gdal parse now paths.dtm.toList _ (b2 paths.dtm)
  have o3 := optional_iff gdal parse now paths.dhm.toList _ (b2 paths.dhm)
  unfold loadGis
  cases hb : boundary with
  | error e => simp [bind, Except.bind]
  | ok c' =>
    simp only [bind, Except.bind]
    by_cases hv : validBoundary c' = true
    · rw [if_pos hv]
      have o0 := readGroup_iff (g c') readBuildings paths.buildings
      constructor
      · intro h
        cases h0 : readGroup (g c') readBuildings paths.buildings with
        | error e => rw [h0] at h; cases h
        | ok x0 =>
          obtain ⟨group, f1⟩ := x0
          rw [h0] at h
          dsimp only at h
          cases h1 : optional (readElevation gdal parse now paths.dsm) (decide (0 < paths.dsm.length)) with
          | error e => rw [h1] at h; cases h
          | ok x1 =>
            obtain ⟨dsm, f2⟩ := x1
            rw [h1] at h
            dsimp only at h
            cases h2 : optional (readElevation gdal parse now paths.dtm.toList) paths.dtm.isSome with
            | error e => rw [h2] at h; cases h
            | ok x2 =>
              obtain ⟨dtm, f3⟩ := x2
              rw [h2] at h
              dsimp only at h
              cases h3 : optional (readElevation gdal parse now paths.dhm.toList) paths.dhm.isSome with
              | error e => rw [h3] at h; cases h
              | ok x3 =>
                obtain ⟨dhm, f4⟩ := x3
                rw [h3] at h
                dsimp only at h
                cases h4 : surfaceTerrain fill dsm dtm dhm with
                | error e => rw [h4] at h; cases h
                | ok x4 =>
                  obtain ⟨s', t'⟩ := x4
                  rw [h4] at h
                  dsimp only at h
                  split at h
                  · rename_i hf
                    cases h
                    simp only [List.append_eq_nil_iff] at hf
                    obtain ⟨⟨⟨rfl, rfl⟩, rfl⟩, rfl⟩ := hf
                    exact ⟨rfl, hv, (o0 _).1 h0, dsm, dtm, dhm, (o1 _).1 h1, (o2 _).1 h2, (o3 _).1 h3, h4⟩
                  · cases h
      · rintro ⟨e, _, h0, dsm, dtm, dhm, h1, h2, h3, h4⟩
        cases e
        rw [(o0 _).2 h0, (o1 _).2 h1, (o2 _).2 h2, (o3 _).2 h3]
        dsimp only
        rw [h4]
        rfl
    · rw [if_neg hv]
      simp
      rintro rfl h
      exact absurd h hv

/-- A UTM spatial reference. -/
def utmRef : SpatialRef where
  authority := some "EPSG"
  geogcs := some "WGS 84"
  datum := some "WGS_1984"
  primem := some "Greenwich"
  unit := some "degree"
  unitValue := some "0.0174532925199433"
  projcs := some "WGS 84 / UTM zone 32N"
  linearUnits := 1
  linearUnitsName := "metre"
  vertCs := none
  vertDatum := none
  vertUnit := none
  vertAxis0 := none
  vertAxis1 := none
  epsg := some 32632

theorem utmRef_good : GoodElevation utmRef Raster.strip :=
  (elevation_iff (fun _ => none) 0 _ _).1 (by decide +kernel)

/-- **C151 is false of the code:** good elevation data with a collection time, however recent, are not accepted: reading
them raises an exception that is not about the data. -/
theorem C151_time_violation {B C : Type} (boundary : Except Err C) (validBoundary : C → Bool) (g : C → Geometry B)
    (readBuildings : String → Except Err (BuildingFile B)) (gdal : List String → Option Tiff)
    (parse : String → Option ℤ) (now : ℤ) (fill : Raster → Fill) (paths : Paths) (hp : paths.dsm ≠ [])
    (t : Tiff) (h : gdal paths.dsm = some t) (time : String) (ht : t.time = some time) :
    readElevation gdal parse now paths.dsm = .error .valueError ∧
    ∀ out, loadGis boundary validBoundary g readBuildings (readElevation gdal parse now) fill paths ≠ .ok out := by
  constructor
  · unfold readElevation
    rw [h]
    simp [ht]
  · rintro ⟨c, s, u, bs⟩ e
    obtain ⟨_, _, _, dsm, _, _, h1, _⟩ := (C151_accepted_partial _ _ _ _ _ _ _ _ _ _ _ _ _).1 e
    rcases h1 with ⟨h1, _⟩ | ⟨_, t', h1, h2, _⟩
    · exact hp h1
    · rw [h] at h1
      cases h1
      rw [ht] at h2
      cases h2

/-- **C151 is false of the code:** the upward axis of a vertical system in the standard text form, which has the direction
`UP` in capitals, is not accepted. -/
theorem C151_axis_violation (sr : SpatialRef) (h : sr.vertCs ≠ none) (name : String) (hn : name ≠ "up")
    (h0 : sr.vertAxis0 = some name) (h1 : sr.vertAxis1 = some "UP") : ¬ GoodReference sr ∧ Fault.vertAxis ∈ vertical sr := by
  constructor
  · intro g
    rcases g.vertAxis h with e | e
    · rw [h0] at e
      cases e
      exact hn rfl
    · rw [h1] at e
      exact absurd (Option.some.inj e) (by decide)
  · unfold vertical
    rw [if_neg h, h0, h1]
    simp [hn]

/-- **C151 is false of the code:** a building file whose spatial reference has no authority is found to be faulty, but an
exception that says nothing about this is raised before. -/
theorem C151_building_violation {B C : Type} (boundary : C) (g : C → Geometry B)
    (readBuildings : String → Except Err (BuildingFile B)) (read : List String → Except Err (Raster × List Fault))
    (fill : Raster → Fill) (paths : Paths) (path : String) (hp : paths.buildings = some path) (file : BuildingFile B)
    (hf : readBuildings path = .ok file) (ha : file.sr.authority = none) (he : file.sr.epsg = none) :
    Fault.noCrs ∈ buildingFaults file.sr file.kinds ∧
    loadGis (.ok boundary) (fun _ => true) g readBuildings read fill paths = .error .valueError := by
  constructor
  · unfold buildingFaults hasCrs
    rw [if_pos ha]
    simp
  · unfold loadGis readGroup
    rw [hp]
    dsimp only [bind, Except.bind]
    rw [if_pos rfl, hf]
    dsimp only
    unfold preprocess
    rw [if_pos he]

/-- A surface file alone. -/
example {B : Type} (g : Unit → Geometry B) (fill : Raster → Fill) :
    loadGis (.ok ()) (fun _ => true) g (fun _ => .error .data)
      (readElevation (fun _ => some ⟨Raster.strip, utmRef, none⟩) (fun _ => none) 0) fill ⟨["a.tif"], none, none, none⟩ =
      .ok ((), some Raster.strip, none, none) :=
  (C151_accepted_partial _ _ _ _ _ _ _ _ _ _ _ _ _).2 ⟨rfl, rfl, .inl ⟨rfl, rfl⟩, some Raster.strip, none, none,
    .inr ⟨by simp, _, rfl, rfl, utmRef_good, rfl⟩, .inl ⟨rfl, rfl⟩, .inl ⟨rfl, rfl⟩, rfl⟩

end Gis
end Verif
