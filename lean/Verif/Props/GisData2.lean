import Verif.Props.GisData
import Mathlib.Order.Interval.Finset.Nat
import Mathlib.Data.Finset.Lattice.Basic

/-!
# Geographic input data: C152 to C155
-/

namespace Verif
namespace Gis

open Raster

/-! ## C152: surface, terrain and height -/

/-- Two rasters with the same projection, shape, resolution and position. -/
structure SameGrid (a b : Raster) : Prop where
  epsg : a.epsg = b.epsg
  xSize : a.xSize = b.xSize
  ySize : a.ySize = b.ySize
  xRes : a.xRes = b.xRes
  yRes : a.yRes = b.yRes
  left : a.left = b.left
  top : a.top = b.top

theorem upsample_same (fill : Raster → Fill) {a b : Raster} (h : SameGrid a b) : upsample fill a b = .ok (a, b) := by
  unfold upsample setResolution
  rw [← h.xRes, ← h.yRes, min_self, min_self, if_pos ⟨rfl, rfl⟩]
  dsimp only
  rw [if_pos ⟨rfl, rfl⟩]

/-- **C152.** With terrain and height data on the same grid, the terrain is as read and the surface at every coordinate is
the sum of both. -/
theorem C152_sum_partial (fill : Raster → Fill) (t h : Raster) (same : SameGrid t h) :
    ∃ s, surfaceTerrain fill none (some t) (some h) = .ok (some s, some t) ∧
      ∀ x y, s.valueAt x y = t.valueAt x y + h.valueAt x y := by
  obtain ⟨s, e, _, _, hs⟩ := C81_cellwise (· + ·) t h same.epsg same.xSize same.ySize same.xRes same.yRes same.left same.top
  refine ⟨s, ?_, fun x y => (hs x y).2⟩
  unfold surfaceTerrain
  dsimp only
  rw [upsample_same fill same]
  dsimp only
  rw [e]

/-- **C152.** With surface and height data on the same grid, the surface is as read and the terrain at every coordinate is
the difference. -/
theorem C152_difference_partial (fill : Raster → Fill) (s h : Raster) (same : SameGrid s h) :
    ∃ t, surfaceTerrain fill (some s) none (some h) = .ok (some s, some t) ∧
      ∀ x y, t.valueAt x y = s.valueAt x y - h.valueAt x y := by
  obtain ⟨t, e, _, _, ht⟩ := C81_cellwise (· - ·) s h same.epsg same.xSize same.ySize same.xRes same.yRes same.left same.top
  refine ⟨t, ?_, fun x y => (ht x y).2⟩
  unfold surfaceTerrain
  dsimp only
  rw [e]

/-- **C152.** In all other cases surface and terrain are those that were read. -/
theorem C152_given (fill : Raster → Fill) (dsm dtm dhm : Option Raster)
    (h : dhm = none ∨ dsm ≠ none ∧ dtm ≠ none ∨ dsm = none ∧ dtm = none) :
    surfaceTerrain fill dsm dtm dhm = .ok (dsm, dtm) := by
  unfold surfaceTerrain
  rcases h with rfl | ⟨h1, h2⟩ | ⟨rfl, rfl⟩
  · cases dsm <;> cases dtm <;> rfl
  · cases dsm <;> cases dtm <;> first | rfl | exact absurd rfl h1 | exact absurd rfl h2
  · rfl

theorem setResolution_xSize {r r' : Raster} {fill : Fill} {xRes yRes : ℚ} (hne : ¬ (xRes = r.xRes ∧ yRes = r.yRes))
    (h : r.setResolution fill xRes yRes = (r', none)) : r'.xSize = r.newXSize xRes := by
  unfold setResolution at h
  rw [if_neg hne] at h
  split at h
  · cases h
  · cases h
    rfl

theorem lt_newXSize {r : Raster} {n : ℕ} {x : ℚ} (hx : 0 < x) (h : r.left + n * x < r.maxX + x / 2) :
    n < r.newXSize x := by
  unfold newXSize
  have h1 : (n : ℚ) < (r.maxX + x / 2 - r.left) / x := by
    rw [lt_div_iff₀ hx]
    linarith
  have h2 : ((n : ℤ) : ℚ) < (⌈(r.maxX + x / 2 - r.left) / x⌉ : ℚ) := lt_of_lt_of_le (by exact_mod_cast h1) (Int.le_ceil _)
  have h3 : (n : ℤ) < ⌈(r.maxX + x / 2 - r.left) / x⌉ := by exact_mod_cast h2
  omega

/-- **C152 is false of the code:** if the height data are finer than the terrain data and are cut to the area, that is their
cells end less than half a cell beyond it, then the terrain data are brought to the same resolution with more columns,
and the sum is rejected. -/
theorem C152_finer_height_violation (fill : Raster → Fill) (t h : Raster) (hl : t.left = h.left) (hm : t.maxX = h.maxX)
    (hx : 0 < h.xRes) (hxr : h.xRes < t.xRes) (hyr : h.yRes ≤ t.yRes)
    (hcut : h.left + h.xSize * h.xRes < h.maxX + h.xRes / 2) :
    ∀ out, surfaceTerrain fill none (some t) (some h) ≠ .ok out := by
  intro out e
  unfold surfaceTerrain upsample at e
  dsimp only at e
  rw [min_eq_right hxr.le, min_eq_right hyr] at e
  have h2 : h.setResolution (fill h) h.xRes h.yRes = (h, none) := by
    unfold setResolution
    rw [if_pos ⟨rfl, rfl⟩]
  rw [h2] at e
  cases h1 : t.setResolution (fill t) h.xRes h.yRes with
  | mk t' o =>
    rw [h1] at e
    cases o with
    | some er => cases e
    | none =>
      dsimp only at e
      have hs := setResolution_xSize (fun c => absurd c.1 hxr.ne) h1
      have hlt : h.xSize < t'.xSize := by
        rw [hs]
        exact lt_newXSize hx (by rw [hl, hm]; exact hcut)
      rw [C81_rejects (· + ·) t' h (.inr (.inl (by omega)))] at e
      cases e

/-- **C152 is false of the code:** the same for terrain data that are finer than the height data. -/
theorem C152_finer_terrain_violation (fill : Raster → Fill) (t h : Raster) (hl : t.left = h.left) (hm : t.maxX = h.maxX)
    (hx : 0 < t.xRes) (hxr : t.xRes < h.xRes) (hyr : t.yRes ≤ h.yRes)
    (hcut : t.left + t.xSize * t.xRes < t.maxX + t.xRes / 2) :
    ∀ out, surfaceTerrain fill none (some t) (some h) ≠ .ok out := by
  intro out e
  unfold surfaceTerrain upsample at e
  dsimp only at e
  rw [min_eq_left hxr.le, min_eq_left hyr] at e
  have h2 : t.setResolution (fill t) t.xRes t.yRes = (t, none) := by
    unfold setResolution
    rw [if_pos ⟨rfl, rfl⟩]
  rw [h2] at e
  dsimp only at e
  cases h1 : h.setResolution (fill h) t.xRes t.yRes with
  | mk h' o =>
    rw [h1] at e
    cases o with
    | some er => cases e
    | none =>
      dsimp only at e
      have hs := setResolution_xSize (fun c => absurd c.1 hxr.ne) h1
      have hlt : t.xSize < h'.xSize := by
        rw [hs]
        exact lt_newXSize hx (by rw [← hl, ← hm]; exact hcut)
      rw [C81_rejects (· + ·) t h' (.inr (.inl (by omega)))] at e
      cases e

/-- **C152 is false of the code:** surface and height data with different resolutions are rejected, while terrain and height
data are at least brought to the same resolution. -/
theorem C152_difference_violation (fill : Raster → Fill) (s h : Raster) (hne : s.xRes ≠ h.xRes) :
    surfaceTerrain fill (some s) none (some h) = .error .data := by
  unfold surfaceTerrain
  dsimp only
  rw [C81_rejects _ s h (.inr (.inr (.inr (.inl hne))))]

/-- **C152 is false of the code:** where the terrain is not known, the surface is not filled in from the known values
nearby, as C60 says, but is some 32768 m below the sea. -/
theorem C152_void_violation (fill : Raster → Fill) (t h : Raster) (same : SameGrid t h) (hx : 0 < t.xSize)
    (hy : 0 < t.ySize) (x y : ℚ) (hv : t.valueAt x y = noData) (hh : h.valueAt x y ≠ 0) :
    ∃ s, surfaceTerrain fill none (some t) (some h) = .ok (some s, some t) ∧
      ∀ f, s.getValue f x y = (s, .ok (-32768 + h.valueAt x y)) := by
  obtain ⟨s, e, sx, sy, hs⟩ := C81_cellwise (· + ·) t h same.epsg same.xSize same.ySize same.xRes same.yRes same.left same.top
  refine ⟨s, ?_, fun f => ?_⟩
  · unfold surfaceTerrain
    dsimp only
    rw [upsample_same fill same]
    dsimp only
    rw [e]
  · obtain ⟨i, j, _, _, hij, h1, _⟩ := C60_value s f (by omega) (by omega) x y
    have hval : s.cell j i = -32768 + h.valueAt x y := by
      have h0 : s.valueAt x y = s.cell j i := by
        unfold valueAt
        rw [hij]
        rfl
      rw [← h0, (hs x y).2, hv]
      rfl
    rw [h1 (by rw [hval]; intro c; exact hh (by unfold noData at c; linarith)), hval]

/-- Terrain data of 2 m and height data of 1 m, both cut to an area of 4 m by 2 m. -/
def coarse : Raster where
  xSize := 2
  ySize := 1
  cell := fun _ i => 100 + i
  xRes := 2
  yRes := 2
  left := 0
  top := 2
  minX := 0
  minY := 0
  maxX := 4
  maxY := 2

/-- See `coarse`. -/
def fine : Raster where
  xSize := 4
  ySize := 2
  cell := fun _ i => i
  xRes := 1
  yRes := 1
  left := 0
  top := 2
  minX := 0
  minY := 0
  maxX := 4
  maxY := 2

example : ∀ out, surfaceTerrain (fun _ _ _ => none) none (some coarse) (some fine) ≠ .ok out :=
  C152_finer_height_violation _ _ _ rfl rfl (by decide +kernel) (by decide +kernel) (by decide +kernel)
    (by norm_num [fine])

example : ∀ out, surfaceTerrain (fun _ _ _ => none) none (some fine) (some coarse) ≠ .ok out :=
  C152_finer_terrain_violation _ _ _ rfl rfl (by decide +kernel) (by decide +kernel) (by decide +kernel)
    (by norm_num [fine])

example : ∃ s, surfaceTerrain (fun _ _ _ => none) none (some { fine with cell := fun _ _ => 100 }) (some fine) =
    .ok (some s, some { fine with cell := fun _ _ => 100 }) ∧ s.valueAt 3 1 = 103 := by
  obtain ⟨s, e, h⟩ := C152_sum_partial (fun _ _ _ => none) { fine with cell := fun _ _ => 100 } fine
    ⟨rfl, rfl, rfl, rfl, rfl, rfl, rfl⟩
  refine ⟨s, e, ?_⟩
  rw [h]
  decide +kernel

/-! ## C153: zipped shape files -/

/-- The only shape file of an archive is at the top level, and nothing else is in a folder, except in the folder that
macOS adds. -/
def GoodArchive (names : List String) (p : String) : Prop :=
  (∀ n ∈ names, '/' ∈ n.toList → dirName n.toList = "__MACOSX".toList) ∧ names.filter countsAsShp = [p] ∧
    '/' ∉ p.toList

theorem baseName_top {s : List Char} (h : '/' ∉ s) : baseName s = s := by
  have key : ∀ l : List Char, '/' ∉ l → l.takeWhile (· ≠ '/') = l := by
    intro l
    induction l with
    | nil => intro _; rfl
    | cons c l ih =>
      intro hl
      rw [List.mem_cons, not_or] at hl
      rw [List.takeWhile_cons_of_pos (by simpa using Ne.symm hl.1), ih hl.2]
  unfold baseName
  rw [key _ (by simpa using h), List.reverse_reverse]

/-- For a name at the top level, `glob` finds it exactly if the rule counts it. -/
theorem glob_counts {n : String} (h : '/' ∉ n.toList) :
    (decide (".shp".toList <:+ n.toList) && decide (n.toList.head? ≠ some '.')) = countsAsShp n := by
  unfold countsAsShp hasShpExt
  rw [baseName_top h]
  generalize n.toList = s
  rw [Bool.eq_iff_iff]
  simp only [Bool.and_eq_true, decide_eq_true_eq, List.any_eq_true, bne_iff_ne]
  constructor
  · rintro ⟨h1, h2⟩
    refine ⟨h2, h1, ?_⟩
    obtain ⟨u, rfl⟩ := h1
    cases u with
    | nil => exact absurd rfl h2
    | cons c u =>
      refine ⟨c, ?_, ?_⟩
      · have : (c :: u ++ ".shp".toList).length - 4 = (c :: u).length := by
          rw [List.length_append, show ".shp".toList.length = 4 from rfl]
          omega
        rw [this, List.take_left]
        exact List.mem_cons_self
      · rintro rfl
        exact h2 rfl
  · rintro ⟨h1, h2, _⟩
    exact ⟨h2, h1⟩

/-- **C153.** An archive without entries for folders is accepted without message exactly if it is good, and the file that is
opened is its shape file. -/
theorem C153_archive_partial (cwd : String → List String) (names : List String)
    (hd : ∀ n ∈ names, n.toList.getLast? ≠ some '/') (p : String) :
    pickShp cwd names = .ok (p, []) ↔ GoodArchive names p := by
  have hdirs : (names.filter fun n => decide (n.toList.getLast? = some '/')) = [] := by
    rw [List.filter_eq_nil_iff]
    intro n hn
    simpa using hd n hn
  have hglob : globTop names = (names.filter countsAsShp).filter fun n => decide ('/' ∉ n.toList) := by
    unfold globTop
    rw [List.filter_filter]
    refine List.filter_congr fun n _ => ?_
    by_cases c : '/' ∉ n.toList
    · rw [← glob_counts c, Bool.and_assoc]
    · simp [c]
  have htop : topLevelRule names = [] ↔ ∀ n ∈ names, '/' ∈ n.toList → dirName n.toList = "__MACOSX".toList := by
    unfold topLevelRule
    rw [ite_nil]
    push_neg
    rfl
  have hone : oneShpRule names = [] ↔ (names.filter countsAsShp).length = 1 := by
    unfold oneShpRule
    rw [ite_nil, not_not]
  unfold pickShp GoodArchive
  dsimp only
  rw [hdirs, if_neg (by simp)]
  dsimp only
  rw [hglob, ← htop]
  constructor
  · intro e
    split at e
    · cases e
    · rename_i q qs hq
      rw [Except.ok.injEq, Prod.mk.injEq, List.append_eq_nil_iff, hone] at e
      obtain ⟨rfl, e1, e2⟩ := e
      obtain ⟨r, hr⟩ := List.length_eq_one_iff.1 e2
      rw [hr] at hq
      have hm : q ∈ [r].filter fun n => decide ('/' ∉ n.toList) := by rw [hq]; exact List.mem_cons_self
      rw [List.mem_filter, List.mem_singleton] at hm
      obtain ⟨rfl, hm⟩ := hm
      exact ⟨e1, hr, by simpa using hm⟩
  · rintro ⟨h1, h2, h3⟩
    have : (([p] : List String).filter fun n => decide ('/' ∉ n.toList)) = [p] := by simp [h3]
    rw [h2, this]
    dsimp only
    rw [h1, hone.2 (by rw [h2]; rfl)]
    rfl

/-- **C153 is false of the code:** with an entry for the folder that macOS adds, which the rules allow, the shape file is
looked for in a folder of that name in the working directory, and the archive is rejected. -/
theorem C153_folder_violation (cwd : String → List String) (names : List String)
    (hd : (names.filter fun n => decide (n.toList.getLast? = some '/')) = ["__MACOSX/"]) (hc : cwd "__MACOSX/" = []) :
    pickShp cwd names = .error .data := by
  unfold pickShp
  dsimp only
  rw [hd, if_neg (by decide)]
  dsimp only
  rw [hc]

/-- An archive made by macOS: good, but rejected. -/
example : GoodArchive ["b.shp", "b.dbf", "__MACOSX/", "__MACOSX/._b.shp"] "b.shp" ∧
    pickShp (fun _ => []) ["b.shp", "b.dbf", "__MACOSX/", "__MACOSX/._b.shp"] = .error .data :=
  ⟨⟨by decide +kernel, by decide +kernel, by decide +kernel⟩, C153_folder_violation _ _ (by decide +kernel) rfl⟩

example : pickShp (fun _ => []) ["b.shp", "b.dbf", "__MACOSX/._b.shp"] = .ok ("b.shp", []) :=
  (C153_archive_partial _ _ (by decide +kernel) _).2 ⟨by decide +kernel, by decide +kernel, by decide +kernel⟩

/-! ## C154: buildings within the boundary -/

/-- What the answers of shapely mean: `pts` are the inner points of a polygon, `bd` those of the boundary. -/
structure Geometry.Means {B X : Type} (g : Geometry B) (pts : B → Set X) (bd : Set X) : Prop where
  empty : ∀ b, g.empty b = true ↔ pts b = ∅
  inside : ∀ b, g.inBoundary b = true → pts b ⊆ bd
  meets : ∀ b, (pts b ∩ bd).Nonempty → g.meetsBoundary b = true
  cut : ∀ b ps, g.cut b = some ps → (∀ p ∈ ps, g.valid p = true) ∧ (⋃ p ∈ ps, pts p) = pts b ∩ bd

theorem mem_addBuilding {B : Type} {g : Geometry B} {b p : B} :
    p ∈ addBuilding g b ↔ p = b ∧ g.valid b = true ∧ g.empty b = false := by
  unfold addBuilding
  cases g.valid b <;> cases g.empty b <;> simp

/-- **C154.** Every building that is kept is a valid polygon of more than 50 square metres, and stands for a piece of a
valid building of the file within the boundary; and every inner point of a valid building within the boundary belongs to
a piece of that building that is kept, unless it is too small or gets invalid or empty by the change of coordinates. This
needs that the common part of building and boundary is one or several polygons where they overlap. -/
theorem C154_buildings_partial {B X : Type} (g : Geometry B) (pts : B → Set X) (bd : Set X) (m : g.Means pts bd)
    (e : ℕ) (bs out : List B) (h : preprocess g (some e) bs = .ok out)
    (hcut : ∀ b ∈ bs, g.cut b = none → pts b ∩ bd = ∅) :
    (∀ q ∈ out, 50 < g.area q ∧ g.valid q = true ∧ g.empty q = false ∧
      ∃ p, q = g.toUtm p ∧ ∃ b ∈ bs, g.valid b = true ∧ pts p ⊆ pts b ∩ bd) ∧
    ∀ b ∈ bs, g.valid b = true → ∀ x ∈ pts b ∩ bd, ∃ p, x ∈ pts p ∧ pts p ⊆ pts b ∩ bd ∧
      (50 < g.area (g.toUtm p) → g.valid (g.toUtm p) = true → g.empty (g.toUtm p) = false → g.toUtm p ∈ out) := by
  unfold preprocess at h
  rw [if_neg (by simp)] at h
  cases h
  have hout : ∀ q, (q ∈ ((bs.flatMap (cutBuilding g)).map g.toUtm).flatMap fun p =>
      if 50 < g.area p then addBuilding g p else []) ↔
      ∃ b ∈ bs, ∃ p ∈ cutBuilding g b, q = g.toUtm p ∧ 50 < g.area q ∧ g.valid q = true ∧ g.empty q = false := by
    intro q
    rw [List.mem_flatMap]
    constructor
    · rintro ⟨u, hu, hq⟩
      obtain ⟨p, hp, rfl⟩ := List.mem_map.1 hu
      obtain ⟨b, hb, hp⟩ := List.mem_flatMap.1 hp
      split at hq
      · rename_i ha
        obtain ⟨rfl, h1, h2⟩ := mem_addBuilding.1 hq
        exact ⟨b, hb, p, hp, rfl, ha, h1, h2⟩
      · exact absurd hq List.not_mem_nil
    · rintro ⟨b, hb, p, hp, rfl, ha, h1, h2⟩
      refine ⟨_, List.mem_map_of_mem (List.mem_flatMap.2 ⟨b, hb, hp⟩), ?_⟩
      rw [if_pos ha]
      exact mem_addBuilding.2 ⟨rfl, h1, h2⟩
  have hpiece : ∀ b p, p ∈ cutBuilding g b → g.valid b = true ∧ pts p ⊆ pts b ∩ bd := by
    intro b p hp
    unfold cutBuilding at hp
    split at hp
    · rename_i hv
      refine ⟨hv, ?_⟩
      split at hp
      · rename_i hi
        obtain ⟨rfl, _⟩ := mem_addBuilding.1 hp
        exact fun x hx => ⟨hx, m.inside _ hi hx⟩
      · split at hp
        · split at hp
          · exact absurd hp List.not_mem_nil
          · rename_i ps hps
            obtain ⟨u, hu, hp⟩ := List.mem_flatMap.1 hp
            obtain ⟨rfl, _⟩ := mem_addBuilding.1 hp
            rw [← (m.cut b ps hps).2]
            exact Set.subset_biUnion_of_mem (u := fun p => pts p) hu
        · exact absurd hp List.not_mem_nil
    · exact absurd hp List.not_mem_nil
  constructor
  · intro q hq
    obtain ⟨b, hb, p, hp, rfl, ha, h1, h2⟩ := (hout q).1 hq
    exact ⟨ha, h1, h2, p, rfl, b, hb, hpiece b p hp⟩
  · intro b hb hv x hx
    have hne : ∀ p, x ∈ pts p → g.empty p = false := by
      intro p hp
      rw [← Bool.not_eq_true, m.empty]
      intro c
      rw [c] at hp
      exact hp
    have : ∃ p ∈ cutBuilding g b, x ∈ pts p := by
      unfold cutBuilding
      rw [if_pos hv]
      by_cases hi : g.inBoundary b = true
      · rw [if_pos hi]
        exact ⟨b, mem_addBuilding.2 ⟨rfl, hv, hne b hx.1⟩, hx.1⟩
      · rw [if_neg hi, if_pos (m.meets b ⟨x, hx⟩)]
        cases hc : g.cut b with
        | none =>
          rw [hcut b hb hc] at hx
          exact absurd hx (Set.notMem_empty _)
        | some ps =>
          obtain ⟨hvs, hun⟩ := m.cut b ps hc
          rw [← hun] at hx
          obtain ⟨p, hp, hxp⟩ := Set.mem_iUnion₂.1 hx
          exact ⟨p, List.mem_flatMap.2 ⟨p, hp, mem_addBuilding.2 ⟨rfl, hvs p hp, hne p hxp⟩⟩, hxp⟩
    obtain ⟨p, hp, hxp⟩ := this
    exact ⟨p, hxp, (hpiece b p hp).2, fun h1 h2 h3 => (hout _).2 ⟨b, hb, p, hp, rfl, h1, h2, h3⟩⟩

/-- **C154 is false of the code:** a valid building that reaches beyond the boundary is dropped, however large, if its common
part with the boundary is a collection of geometries, such as a polygon together with a line along a shared edge. -/
theorem C154_collection_violation {B : Type} (g : Geometry B) (e : ℕ) (b : B) (hi : g.inBoundary b = false)
    (hc : g.cut b = none) : preprocess g (some e) [b] = .ok [] := by
  unfold preprocess cutBuilding
  rw [if_neg (by simp)]
  simp [hi, hc]

/-- Polygons as sets of numbers; the boundary is the numbers below 100, the area is the size. -/
def demoGeometry : Geometry (Finset ℕ) where
  valid := fun _ => true
  empty := fun b => decide (b = ∅)
  inBoundary := fun b => decide (b ⊆ Finset.range 100)
  meetsBoundary := fun b => decide (b ∩ Finset.range 100 ≠ ∅)
  cut := fun b => some [b ∩ Finset.range 100]
  toUtm := id
  area := fun b => b.card

theorem demoGeometry_means : demoGeometry.Means (fun b => (b : Set ℕ)) (Finset.range 100 : Finset ℕ) where
  empty := fun b => by simp [demoGeometry]
  inside := fun b h => by
    have : b ⊆ Finset.range 100 := by simpa [demoGeometry] using h
    exact_mod_cast this
  meets := fun b h => by
    have : (b ∩ Finset.range 100).Nonempty := by exact_mod_cast h
    simpa [demoGeometry] using this.ne_empty
  cut := fun b ps h => by
    cases h
    refine ⟨fun _ _ => rfl, ?_⟩
    simp

/-- Of three buildings one is cut, one lies outside, one is too small. -/
example : preprocess demoGeometry (some 4326) [Finset.Ico 30 130, Finset.Ico 200 300, Finset.range 20] =
    .ok [Finset.Ico 30 100] := by
  decide +kernel

/-! ## C155: corners -/

/-- Vertex `i` of a polygon, counted around. -/
def around {P : Type} (ps : List P) (hn : 0 < ps.length) (i : ℕ) : P := ps[i % ps.length]'(Nat.mod_lt _ hn)

theorem cornerLoop_range {P : Type} (angle : P → P → P → ℚ) (m : ℚ) : ∀ (k : ℕ) (v : ℕ → P),
    cornerLoop angle m ((List.range (k + 2)).map v) =
      ((List.range k).filter fun i => decide (30 ≤ angle (v (i + 1)) (v i) (v (i + 2)) ∧
        angle (v (i + 1)) (v i) (v (i + 2)) ≤ m)).map fun i => v (i + 1) := by
  intro k
  induction k with
  | zero => intro v; rfl
  | succ k ih =>
    intro v
    have e : (List.range (k + 1 + 2)).map v = v 0 :: v 1 :: v 2 :: (List.range k).map (fun i => v (i + 3)) := by
      rw [show k + 1 + 2 = k + 3 by ring]
      simp [List.range_succ_eq_map, List.map_map, Function.comp_def]
    have e2 : v 1 :: v 2 :: (List.range k).map (fun i => v (i + 3)) = (List.range (k + 2)).map fun i => v (i + 1) := by
      simp [List.range_succ_eq_map, List.map_map, Function.comp_def]
    rw [e]
    unfold cornerLoop
    rw [e2, ih fun i => v (i + 1), List.range_succ_eq_map, List.filter_cons]
    have e3 : ∀ (f : ℕ → Bool), ((List.range k).map Nat.succ).filter f = ((List.range k).filter fun i => f (i + 1)).map Nat.succ := by
      intro f
      rw [List.filter_map]
      rfl
    rw [e3]
    split
    · rename_i h
      rw [if_pos (by simpa using h), List.map_cons, List.map_map]
      rfl
    · rename_i h
      rw [if_neg (by simpa using h), List.map_map]
      rfl

/-- **C155.** For a polygon with vertices `ps`, given as `exterior.coords` does with the first one repeated at the end, the
corners are the vertices with an angle between 30 degrees and the given one, each counted once, in order from the second
vertex around to the first; the angle is the one between the edges to the two neighbouring vertices. -/
theorem C155_corners {P : Type} (angle : P → P → P → ℚ) (m : ℚ) (ps : List P) (hn : 2 ≤ ps.length) :
    corners angle m (ps ++ [around ps (by omega) 0]) =
      ((List.range ps.length).filter fun i => decide (
        30 ≤ angle (around ps (by omega) (i + 1)) (around ps (by omega) i) (around ps (by omega) (i + 2)) ∧
        angle (around ps (by omega) (i + 1)) (around ps (by omega) i) (around ps (by omega) (i + 2)) ≤ m)).map
        fun i => around ps (by omega) (i + 1) := by
  rw [← cornerLoop_range]
  unfold corners
  congr 1
  have h1 : (ps ++ [around ps (by omega) 0])[1]? = some (around ps (by omega) 1) := by
    rw [List.getElem?_append_left (by omega), List.getElem?_eq_getElem (by omega)]
    unfold around
    congr 2
    rw [Nat.mod_eq_of_lt (by omega)]
  have h2 : (List.range ps.length).map (around ps (by omega)) = ps := by
    apply List.ext_getElem
    · simp
    · intro i hi hi'
      rw [List.getElem_map, List.getElem_range]
      unfold around
      congr 1
      exact Nat.mod_eq_of_lt hi'
  have h3 : around ps (by omega) ps.length = around ps (by omega) 0 := by
    unfold around
    congr 1
    simp
  have h4 : around ps (by omega) (ps.length + 1) = around ps (by omega) 1 := by
    unfold around
    congr 1
    simp
  rw [h1, List.range_succ, List.range_succ, List.map_append, List.map_append, h2]
  simp [h3, h4]

/-- **C155.** With a largest angle, a vertex is a corner exactly if its angle is between 30 degrees and that angle; if there
is no such vertex, the first vertex is the only corner. Without one, all vertices are corners. -/
theorem C155_detected {P : Type} (angle : P → P → P → ℚ) (maxAngle : Option ℚ) (ps : List P) (hn : 2 ≤ ps.length) :
    corners2d angle maxAngle (ps ++ [around ps (by omega) 0]) ≠ [] ∧
    (maxAngle = none → corners2d angle maxAngle (ps ++ [around ps (by omega) 0]) = ps) ∧
    ∀ m, maxAngle = some m →
      (∀ i < ps.length, 30 ≤ angle (around ps (by omega) (i + 1)) (around ps (by omega) i) (around ps (by omega) (i + 2)) →
        angle (around ps (by omega) (i + 1)) (around ps (by omega) i) (around ps (by omega) (i + 2)) ≤ m →
        around ps (by omega) (i + 1) ∈ corners2d angle maxAngle (ps ++ [around ps (by omega) 0])) ∧
      (∀ p ∈ corners2d angle maxAngle (ps ++ [around ps (by omega) 0]),
        corners2d angle maxAngle (ps ++ [around ps (by omega) 0]) = [around ps (by omega) 0] ∨
        ∃ i < ps.length, p = around ps (by omega) (i + 1) ∧
          30 ≤ angle (around ps (by omega) (i + 1)) (around ps (by omega) i) (around ps (by omega) (i + 2)) ∧
          angle (around ps (by omega) (i + 1)) (around ps (by omega) i) (around ps (by omega) (i + 2)) ≤ m) := by
  have hlen : ¬ (ps ++ [around ps (by omega) 0]).length < 3 := by simp; omega
  have htake : (ps ++ [around ps (by omega) 0]).take 1 = [around ps (by omega) 0] := by
    cases ps with
    | nil => exact absurd hn (by simp)
    | cons p ps => simp [around]
  have key : corners2d angle maxAngle (ps ++ [around ps (by omega) 0]) =
      if (match maxAngle with
        | some m => corners angle m (ps ++ [around ps (by omega) 0])
        | none => ps) = [] then [around ps (by omega) 0]
      else (match maxAngle with
        | some m => corners angle m (ps ++ [around ps (by omega) 0])
        | none => ps) := by
    unfold corners2d
    rw [if_neg hlen, htake, List.dropLast_concat]
    cases maxAngle <;> rfl
  rw [key]
  have hps : ps ≠ [] := by
    rintro rfl
    simp at hn
  refine ⟨?_, ?_, ?_⟩
  · by_cases c : (match maxAngle with
        | some m => corners angle m (ps ++ [around ps (by omega) 0])
        | none => ps) = []
    · rw [if_pos c]
      exact List.cons_ne_nil _ _
    · rw [if_neg c]
      exact c
  · rintro rfl
    dsimp only
    rw [if_neg hps]
  · rintro m rfl
    dsimp only
    have hmem : ∀ p, p ∈ corners angle m (ps ++ [around ps (by omega) 0]) ↔ ∃ i < ps.length,
        p = around ps (by omega) (i + 1) ∧
          30 ≤ angle (around ps (by omega) (i + 1)) (around ps (by omega) i) (around ps (by omega) (i + 2)) ∧
          angle (around ps (by omega) (i + 1)) (around ps (by omega) i) (around ps (by omega) (i + 2)) ≤ m := by
      intro p
      rw [C155_corners angle m ps hn, List.mem_map]
      constructor
      · rintro ⟨i, hi, rfl⟩
        rw [List.mem_filter, List.mem_range, decide_eq_true_eq] at hi
        exact ⟨i, hi.1, rfl, hi.2⟩
      · rintro ⟨i, hi, rfl, h⟩
        exact ⟨i, List.mem_filter.2 ⟨List.mem_range.2 hi, decide_eq_true h⟩, rfl⟩
    constructor
    · intro i hi h1 h2
      have hm := (hmem _).2 ⟨i, hi, rfl, h1, h2⟩
      rw [if_neg (List.ne_nil_of_mem hm)]
      exact hm
    · intro p hp
      split at hp
      · rename_i c
        rw [if_pos c]
        exact .inl rfl
      · exact .inr ((hmem p).1 hp)

/-- A square with a needle: the angles are right angles but for one of 5 degrees; of the vertices, four are corners. -/
example : corners (fun b _ _ => if b = 4 then 5 else 90) 120 [0, 1, 2, 3, 4, 0] = [1, 2, 3, 0] ∧
    corners2d (fun b _ _ => if b = 4 then 5 else 90) (some 60) [0, 1, 2, 3, 4, 0] = [0] := by
  decide +kernel

end Gis
end Verif
