import Verif.Model.Topology
import Verif.Spec.Orient
import Mathlib.Analysis.SpecialFunctions.Trigonometric.Basic

/-! # Vocabulary for the check of the sectors of a site (C123, C124) -/

namespace Verif.Spec

/-- The sine and the cosine of an angle in degrees. -/
noncomputable def sinDeg (a : ℚ) : ℝ := Real.sin ((a : ℝ) * Real.pi / 180)
noncomputable def cosDeg (a : ℚ) : ℝ := Real.cos ((a : ℝ) * Real.pi / 180)

/-- `m` is the circular mean of the bearings `l`: the bearing of the sum of the
unit vectors that point to them. -/
def IsCircularMean (l : List ℚ) (m : ℚ) : Prop :=
  (0 ≤ m ∧ m < 360) ∧ ∃ k : ℝ, 0 < k ∧
    (l.map cosDeg).sum = k * cosDeg m ∧ (l.map sinDeg).sum = k * sinDeg m

/-- A function that computes circular means (where they are rational). -/
def ComputesMean (mean : List ℚ → ℚ) : Prop := ∀ l m, IsCircularMean l m → mean l = m

/-- The azimuths of the sectors of one node. -/
def azimuthsOf (xs : List Sector) (n : ℕ) : List ℚ := (xs.filter (fun x => x.node = n)).map Sector.azimuth

/-- The nodes of some sectors. -/
def nodesOf (xs : List Sector) : List ℕ := (xs.map Sector.node).dedup

end Verif.Spec
