import Verif.Props.Exclusion

/-!
# C184: the LOS model of the configuration

What must be clear in an LOS run, from the limits of the configuration on.
-/

namespace Verif
namespace Exclusion
open Classical LosGeom

variable {sort : List P3 → List P3} {L : Limits} {s : ℝ → ℝ → ℝ → ℝ → List P3} {area : List (ℝ × ℝ) → Set (ℝ × ℝ)}
  {polygons : List (List (ℝ × ℝ))} {a b : RSite}

theorem confidence_cylindrical {surface : Option (ℝ → ℝ → ℝ → ℝ → List P3)} (m : L.ellipsoidal = false) :
    confidence sort surface L area polygons a b = LosGeom.confidence sort (validator surface L area polygons) a b := by
  unfold confidence
  rw [if_neg (by simp [m])]

theorem confidence_ellipsoidal {surface : Option (ℝ → ℝ → ℝ → ℝ → List P3)} (m : L.ellipsoidal = true) :
    confidence sort surface L area polygons a b = Verif.ellipsoidal L.freq (validator surface L area polygons) a b := by
  unfold confidence
  rw [if_pos m]

/-- **C184, cylinder.** With the cylindrical model, no cell beside a line with positive confidence that is not left out
(`Counted`) comes nearer to the line than the threshold times the Fresnel radius of the configuration. -/
theorem C184_cylinder (hs : ∀ L, (sort L).Perm L) (hL : L.Ok) (m : L.ellipsoidal = false)
    (h : confidence sort (some s) L area polygons a b ≠ 0) :
    ∀ g ∈ boxCells s L.radius a b, Beside a.x a.y b.x b.y L.radius g.x g.y → Counted g (at3 a) (toward a b) →
      ∀ u w, 0 ≤ u → u ≤ 1 → w ≤ g.z → L.threshold * L.radius ≤ between g (at3 a) (toward a b) u w := by
  intro g hg hb hc u w u0 u1 hw
  rw [confidence_cylindrical m] at h
  have V := validator_valid (surface := some s) hL (area := area) (polygons := polygons)
  have h1 := ((C27_clearance hs V a b).2.2 s rfl h).1 g hg hb hc u w u0 u1 hw
  rcases C27_bounds hs V a b with h2 | h2
  · exact absurd h2 h
  · exact le_trans (mul_le_mul_of_nonneg_right h2.1 hL.radius.le) h1

/-- **C184, ellipsoid.** With the ellipsoidal model and a positive threshold, no cell that lies, seen from above, inside
the ellipse with the threshold times the radius of the first Fresnel zone at the carrier frequency reaches into the
ellipsoid with that radius. -/
theorem C184_ellipsoid (hL : L.Ok) (hf : 0 < L.freq) (m : L.ellipsoidal = true) (ht : 0 < L.threshold)
    (h : confidence sort (some s) L area polygons a b ≠ 0) :
    ∀ g ∈ boxCells s (fresnelRadius L.freq a b) a b,
      InsideZone (ground a) (ground b) (L.threshold * fresnelRadius L.freq a b) ⟨g.x, g.y, 0⟩ →
      ¬ ReachesInto a b (L.threshold * fresnelRadius L.freq a b) g := by
  have hp := confidence_passes h
  rw [confidence_ellipsoidal m] at h
  exact C109_inner hf (validator_valid hL) hp rfl ht h

/-- **C184, parameters.** The Fresnel radius does not matter for the ellipsoidal model, nor the carrier frequency for
the cylindrical one. -/
theorem C184_own_parameter (surface : Option (ℝ → ℝ → ℝ → ℝ → List P3)) (r f : ℝ) :
    (L.ellipsoidal = true →
      confidence sort surface { L with radius := r } area polygons a b = confidence sort surface L area polygons a b) ∧
    (L.ellipsoidal = false →
      confidence sort surface { L with freq := f } area polygons a b = confidence sort surface L area polygons a b) := by
  constructor
  · intro m
    rw [confidence_ellipsoidal m, confidence_ellipsoidal (L := { L with radius := r }) m]
    rfl
  · intro m
    rw [confidence_cylindrical m, confidence_cylindrical (L := { L with freq := f }) m]
    rfl

/-- Both models accept the line between the two sites of `inside_eligible` if the surface has no cells. -/
example : confidence id (some fun _ _ _ _ => []) limits (fun c => convexHull ℝ {p | p ∈ c}) [] inside1 inside2 ≠ 0 ∧
    confidence id (some fun _ _ _ _ => []) { limits with ellipsoidal := true, freq := 60000 }
      (fun c => convexHull ℝ {p | p ∈ c}) [] inside1 inside2 ≠ 0 := by
  have p1 : passes (validator (some fun _ _ _ _ => []) limits (fun c => convexHull ℝ {p | p ∈ c}) []) inside1 inside2 := by
    obtain ⟨h1, h2, h3, h4, h5, h6⟩ := inside_eligible fun c => convexHull ℝ {p | p ∈ c}
    exact (passes_iff (validator_valid limits_ok) inside1 inside2).2 ⟨h1, h2, h3, h4, h5, h6⟩
  constructor
  · rw [confidence_cylindrical rfl]
    unfold LosGeom.confidence
    rw [if_pos p1]
    have e : obstructions (fun _ _ _ _ => []) (validator (some fun _ _ _ _ => []) limits
        (fun c => convexHull ℝ {p | p ∈ c}) []).radius inside1 inside2 = [] := by
      simp [obstructions]
    dsimp only [validator] at e ⊢
    rw [e]
    norm_num [LosGeom.scan, limits]
  · rw [confidence_ellipsoidal rfl]
    change Verif.ellipsoidal 60000
      (validator (some fun _ _ _ _ => []) limits (fun c => convexHull ℝ {p | p ∈ c}) []) inside1 inside2 ≠ 0
    rw [ellipsoidal_some p1 rfl]
    have e : (Zone.of 60000 limits.threshold inside1 inside2).obstructions (fun _ _ _ _ => []) inside1 inside2 = [] := by
      simp [Zone.obstructions]
    dsimp only [validator] at e ⊢
    rw [e]
    have G := Zone.of_good (freq := 60000) (thr := limits.threshold) p1.1 (by norm_num) limits_ok.thr
    exact (div_pos G.radius G.radius).ne'

end Exclusion
end Verif
