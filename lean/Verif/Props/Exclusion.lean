import Verif.Model.Exclusion
import Verif.Props.Fresnel
import Mathlib.Analysis.Convex.Hull

/-!
# C170: exclusion zones
-/

namespace Verif
namespace Exclusion
open Classical LosGeom

/-- Limits that the configuration accepts. -/
structure Limits.Ok (L : Limits) : Prop where
  min_pos : 0 < L.minDist
  min_lt : L.minDist < L.maxDist
  angle : 0 ≤ L.maxAngle
  thr : 0 ≤ L.threshold ∧ L.threshold ≤ 1
  radius : 0 < L.radius

/-- The part of a path after its last dot is `kml` or `kmz`, in small or capital letters. -/
def IsKml (fold : String → String) (path : String) : Prop :=
  ∃ stem ext : List Char, path.toList = stem ++ '.' :: ext ∧ '.' ∉ ext ∧
    (fold (String.ofList ext) = "kml" ∨ fold (String.ofList ext) = "kmz")

/-- The points of the line from `a` to `b`, seen from above. -/
def onLine (a b : RSite) : Set (ℝ × ℝ) := {p | ∃ s : ℝ, 0 ≤ s ∧ s ≤ 1 ∧ p = (a.x + s * (b.x - a.x), a.y + s * (b.y - a.y))}

theorem validator_valid {surface : Option (ℝ → ℝ → ℝ → ℝ → List P3)} {L : Limits} (h : L.Ok)
    {area : List (ℝ × ℝ) → Set (ℝ × ℝ)} {polygons : List (List (ℝ × ℝ))} : (validator surface L area polygons).Valid := by
  refine ⟨?_, ?_, ⟨?_, ?_⟩, h.thr, h.radius⟩
  · have := h.min_pos
    unfold validator
    dsimp only
    linarith
  · have h1 := h.min_pos
    have h2 := h.min_lt
    unfold validator
    dsimp only
    linarith
  · have := h.angle
    unfold validator
    exact le_min (by linarith) (by norm_num)
  · exact min_le_right _ _

theorem confidence_passes {sort : List P3 → List P3} {surface : Option (ℝ → ℝ → ℝ → ℝ → List P3)} {L : Limits}
    {area : List (ℝ × ℝ) → Set (ℝ × ℝ)} {polygons : List (List (ℝ × ℝ))} {a b : RSite}
    (h : confidence sort surface L area polygons a b ≠ 0) : passes (validator surface L area polygons) a b := by
  by_contra c
  apply h
  unfold confidence
  split
  · exact if_neg c
  · exact if_neg c

theorem extension_iff (fold : String → String) (path : String) (dot : '.' ∈ path.toList) :
    (extension fold path = "kmz" ∨ extension fold path = "kml") ↔ IsKml fold path := by
  obtain ⟨u, v, e, hv⟩ : ∃ u v : List Char, path.toList = u ++ '.' :: v ∧ '.' ∉ v := by
    obtain ⟨s, t, hs, hn⟩ := List.eq_append_cons_of_mem (List.mem_reverse.2 dot)
    refine ⟨t.reverse, s.reverse, ?_, by simpa using hn⟩
    have := congrArg List.reverse hs
    simpa using this
  have ext : extension fold path = fold (String.ofList v) := by
    unfold extension
    rw [e, List.reverse_append, List.reverse_cons, List.append_assoc]
    rw [List.takeWhile_append_of_pos]
    · simp
    · intro c hc
      simp only [decide_eq_true_eq]
      rintro rfl
      exact hv (List.mem_reverse.1 hc)
  rw [ext]
  constructor
  · intro h
    exact ⟨u, v, e, hv, h.symm⟩
  · rintro ⟨u', v', e', hv', h⟩
    have : v' = v := by
      have h1 := congrArg (fun l => (l.reverse.takeWhile (· ≠ '.')).reverse) (e.symm.trans e')
      have key : ∀ u v : List Char, '.' ∉ v → ((u ++ '.' :: v).reverse.takeWhile (· ≠ '.')).reverse = v := by
        intro u v hv
        rw [List.reverse_append, List.reverse_cons, List.append_assoc, List.takeWhile_append_of_pos]
        · simp
        · intro c hc
          simp only [decide_eq_true_eq]
          rintro rfl
          exact hv (List.mem_reverse.1 hc)
      rw [key _ _ hv, key _ _ hv'] at h1
      exact h1.symm
    rw [← this]
    exact h.symm

/-- **C170, partial.** The zones are the polygons of a KML or KMZ file that are within the boundary; a file of another kind
has none. No line with a positive confidence has a point whose coordinates - the UTM coordinates of the sites - are those
of a point of a zone - its longitude and latitude. Full statement: no line with a positive confidence crosses a zone. -/
theorem C170_zones_partial (sort : List P3 → List P3) (surface : Option (ℝ → ℝ → ℝ → ℝ → List P3)) (L : Limits)
    (hL : L.Ok) (fold : String → String) (path : String) (dot : '.' ∈ path.toList)
    (features : List (Gis.Shape (ℝ × ℝ))) (contains : List (ℝ × ℝ) → Bool) (area : List (ℝ × ℝ) → Set (ℝ × ℝ)) :
    ∃ zs, zones fold (some path) (.ok features) contains = .ok zs ∧
      (∀ c, c ∈ zs ↔ IsKml fold path ∧ contains c = true ∧ c ∈ Gis.extractPolygons features) ∧
      ∀ a b, confidence sort surface L area zs a b ≠ 0 → ∀ c ∈ zs, Disjoint (onLine a b) (area c) := by
  have pos : 0 < path.length := by
    rw [← String.length_toList]
    exact List.length_pos_of_mem dot
  have key : ∀ zs : List (List (ℝ × ℝ)), ∀ a b, confidence sort surface L area zs a b ≠ 0 → ∀ c ∈ zs,
      Disjoint (onLine a b) (area c) := by
    intro zs a b h c hc
    have := ((passes_iff (validator_valid hL) a b).1 (confidence_passes h)).zones
    rw [Set.disjoint_left]
    rintro p ⟨s, s0, s1, rfl⟩
    exact this s s0 s1 _ (List.mem_map.2 ⟨c, hc, rfl⟩)
  by_cases k : IsKml fold path
  · refine ⟨(Gis.extractPolygons features).filter contains, ?_, ?_, key _⟩
    · unfold zones
      dsimp only
      rw [if_pos pos, if_pos ((extension_iff fold path dot).2 k)]
    · intro c
      rw [List.mem_filter]
      exact ⟨fun h => ⟨k, h.2, h.1⟩, fun h => ⟨h.2.2, h.2.1⟩⟩
  · refine ⟨[], ?_, ?_, key _⟩
    · unfold zones
      dsimp only
      rw [if_pos pos, if_neg (fun h => k ((extension_iff fold path dot).1 h))]
    · intro c
      exact ⟨fun h => absurd h (by simp), fun h => absurd h.1 k⟩

/-- **C170, unreadable files.** A KML or KMZ file that cannot be read is not taken for one without zones: the run ends
with the exception. -/
theorem C170_unreadable (fold : String → String) (path : String) (kml : IsKml fold path) (e : Err)
    (contains : List (ℝ × ℝ) → Bool) : zones fold (some path) (.error e) contains = .error e := by
  have dot : '.' ∈ path.toList := by
    obtain ⟨u, v, h, -⟩ := kml
    rw [h]
    simp
  have pos : 0 < path.length := by
    rw [← String.length_toList]
    exact List.length_pos_of_mem dot
  unfold zones
  dsimp only
  rw [if_pos pos, if_pos ((extension_iff fold path dot).2 kml)]

/-- **C170 violated.** The corners of the zones are longitudes and latitudes, the coordinates of the sites are metres. A
longitude is at most 180 and the easting of a site is far above that (at least 166 kilometres). So the zones have no
effect whatever: each line has the confidence it would have without zones. In particular, without elevation data, it is
one between any two sites that satisfy the other conditions, even if both are in a zone. -/
theorem C170_units_violation (sort : List P3 → List P3) (surface : Option (ℝ → ℝ → ℝ → ℝ → List P3)) (L : Limits)
    (fold : String → String) (path : Option String) (features : List (Gis.Shape (ℝ × ℝ)))
    (contains : List (ℝ × ℝ) → Bool) (area : List (ℝ × ℝ) → Set (ℝ × ℝ))
    (poly : ∀ c, area c ⊆ convexHull ℝ {p | p ∈ c})
    (lon : ∀ c ∈ Gis.extractPolygons features, ∀ p ∈ c, p.1 ≤ 180)
    (zs : List (List (ℝ × ℝ))) (hz : zones fold path (.ok features) contains = .ok zs)
    (a b : RSite) (ha : 180 < a.x) (hb : 180 < b.x) :
    confidence sort surface L area zs a b = confidence sort surface L area [] a b ∧
    (L.Ok → surface = none → Eligible (validator surface L area []) a b → confidence sort surface L area zs a b = 1) := by
  have sub : ∀ c ∈ zs, c ∈ Gis.extractPolygons features := by
    unfold zones at hz
    intro c hc
    split at hz
    · cases hz; cases hc
    · split at hz
      · split at hz
        · cases hz
          exact (List.mem_filter.1 hc).1
        · cases hz; cases hc
      · cases hz; cases hc
  have free : ∀ zone ∈ zs.map area, ¬ (segment ℝ (a.x, a.y) (b.x, b.y) ∩ zone).Nonempty := by
    intro zone hzone
    obtain ⟨c, hc, rfl⟩ := List.mem_map.1 hzone
    rintro ⟨p, hp, hq⟩
    have h1 : p.1 ≤ 180 := by
      have cv : Convex ℝ {p : ℝ × ℝ | p.1 ≤ 180} :=
        convex_halfSpace_le (f := fun p : ℝ × ℝ => p.1) (LinearMap.fst ℝ ℝ ℝ).isLinear 180
      exact convexHull_min (fun q hq => lon c (sub c hc) q hq) cv (poly c hq)
    have h2 : 180 < p.1 := by
      have cv : Convex ℝ {p : ℝ × ℝ | 180 < p.1} :=
        convex_halfSpace_gt (f := fun p : ℝ × ℝ => p.1) (LinearMap.fst ℝ ℝ ℝ).isLinear 180
      exact cv.segment_subset (x := (a.x, a.y)) (y := (b.x, b.y)) ha hb hp
    linarith
  have same : passes (validator surface L area zs) a b ↔ passes (validator surface L area []) a b := by
    constructor
    · rintro ⟨h1, h2, h3, h4, -⟩
      exact ⟨h1, h2, h3, h4, fun _ h => by cases h⟩
    · rintro ⟨h1, h2, h3, h4, -⟩
      exact ⟨h1, h2, h3, h4, free⟩
  have scans : ∀ u v : P3, ∀ hi m : ℝ, ∀ gs : List P3, LosGeom.scan (validator surface L area zs) u v hi m gs =
      LosGeom.scan (validator surface L area []) u v hi m gs := by
    intro u v hi m gs
    induction gs generalizing m with
    | nil => rfl
    | cons g gs ih =>
      unfold LosGeom.scan
      simp only [ih]
      rfl
  have eq : confidence sort surface L area zs a b = confidence sort surface L area [] a b := by
    unfold confidence
    split
    · unfold ellipsoidal
      by_cases h : passes (validator surface L area zs) a b
      · rw [if_pos h, if_pos (same.1 h)]
        rfl
      · rw [if_neg h, if_neg (fun c => h (same.2 c))]
    · unfold LosGeom.confidence
      by_cases h : passes (validator surface L area zs) a b
      · rw [if_pos h, if_pos (same.1 h)]
        unfold validator
        cases surface with
        | none => rfl
        | some s =>
          exact scans _ _ _ _ _
      · rw [if_neg h, if_neg (fun c => h (same.2 c))]
  refine ⟨eq, ?_⟩
  intro hL hs he
  rw [eq]
  have hp := (passes_iff (validator_valid hL) a b).2 he
  subst hs
  unfold confidence
  split
  · unfold ellipsoidal
    rw [if_pos hp]
    rfl
  · unfold LosGeom.confidence
    rw [if_pos hp]
    rfl

/-- A square of a hundredth of a degree around 48 N, 9 E. -/
noncomputable def square : List (ℝ × ℝ) := [(8.995, 47.995), (9.005, 47.995), (9.005, 48.005), (8.995, 48.005), (8.995, 47.995)]

/-- The usual limits. -/
noncomputable def limits : Limits where
  maxDist := 200
  minDist := 10
  maxAngle := 25
  threshold := 1
  ellipsoidal := false
  radius := 1
  freq := 60000

theorem limits_ok : limits.Ok := ⟨by norm_num [limits], by norm_num [limits], by norm_num [limits], by norm_num [limits], by norm_num [limits]⟩

/-- Two sites a hundred metres apart in the middle of the square: 48 N, 9 E is 500000, 5316300 in zone 32. -/
noncomputable def inside1 : RSite := { x := 500000, y := 5316300, alt := none }

/-- See `inside1`. -/
noncomputable def inside2 : RSite := { x := 500100, y := 5316300, alt := none }

theorem inside_eligible (area : List (ℝ × ℝ) → Set (ℝ × ℝ)) : Eligible (validator none limits area []) inside1 inside2 := by
  refine ⟨.inl (by norm_num [inside1, inside2]), ?_, ?_, ?_, ?_, ?_⟩
  · intro h
    cases h
  · norm_num [validator, limits, sqDist, inside1, inside2]
  · norm_num [validator, limits, sqDist, inside1, inside2]
  · intro z w h
    cases h
  · intro _ _ _ _ h
    cases h

/-- The file `zones.KML` with the square as exclusion zone and a boundary around everything. -/
example :
    zones String.toLower (some "zones.KML") (.ok [.polygon [square]]) (fun _ => true) = .ok [square] ∧
    confidence id none limits (fun c => convexHull ℝ {p | p ∈ c}) [square] inside1 inside2 = 1 := by
  have e : zones String.toLower (some "zones.KML") (.ok [.polygon [square]]) (fun _ => true) = .ok [square] := by
    unfold zones
    dsimp only
    rw [if_pos (by decide +kernel), if_pos (by decide +kernel)]
    simp [Gis.extractPolygons, Gis.Shape.parts, square]
  refine ⟨e, (C170_units_violation id none limits String.toLower (some "zones.KML") [.polygon [square]] (fun _ => true)
    (fun c => convexHull ℝ {p | p ∈ c}) (fun _ => subset_rfl) ?_ _ e inside1 inside2 (by norm_num [inside1])
    (by norm_num [inside2])).2 limits_ok rfl (inside_eligible _)⟩
  intro c hc p hp
  simp [Gis.extractPolygons, Gis.Shape.parts, square] at hc
  rcases hc with rfl
  simp at hp
  rcases hp with rfl | rfl | rfl | rfl | rfl <;> norm_num

/-- The middle of the square is in it. -/
example : ((9, 48) : ℝ × ℝ) ∈ convexHull ℝ {p | p ∈ square} := by
  have h1 : ((8.995, 47.995) : ℝ × ℝ) ∈ {p | p ∈ square} := by simp [square]
  have h2 : ((9.005, 48.005) : ℝ × ℝ) ∈ {p | p ∈ square} := by simp [square]
  have := (convex_convexHull ℝ {p | p ∈ square}) (subset_convexHull ℝ _ h1) (subset_convexHull ℝ _ h2)
    (show (0 : ℝ) ≤ 1 / 2 by norm_num) (show (0 : ℝ) ≤ 1 / 2 by norm_num) (by norm_num)
  convert this using 1
  norm_num

/-- In its own coordinates a zone does keep lines away: a line with positive confidence exists, and one through the zone
is not among them. -/
example : IsKml String.toLower "zones.KML" ∧ limits.Ok ∧
    confidence id none limits (fun c => convexHull ℝ {p | p ∈ c}) [square] inside1 inside2 ≠ 0 := by
  refine ⟨(extension_iff _ _ (by decide +kernel)).1 (.inr (by decide +kernel)), limits_ok, ?_⟩
  have e : zones String.toLower (some "zones.KML") (.ok [.polygon [square]]) (fun _ => true) = .ok [square] := by
    unfold zones
    dsimp only
    rw [if_pos (by decide +kernel), if_pos (by decide +kernel)]
    simp [Gis.extractPolygons, Gis.Shape.parts, square]
  rw [(C170_units_violation id none limits String.toLower (some "zones.KML") [.polygon [square]] (fun _ => true)
    (fun c => convexHull ℝ {p | p ∈ c}) (fun _ => subset_rfl) (by
      intro c hc p hp
      simp [Gis.extractPolygons, Gis.Shape.parts, square] at hc
      rcases hc with rfl
      simp at hp
      rcases hp with rfl | rfl | rfl | rfl | rfl <;> norm_num) _ e inside1 inside2 (by norm_num [inside1])
    (by norm_num [inside2])).2 limits_ok rfl (inside_eligible _)]
  exact one_ne_zero

end Exclusion
end Verif
