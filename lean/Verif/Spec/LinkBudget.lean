import Mathlib.Analysis.SpecialFunctions.Pow.Real
import Mathlib.Analysis.SpecialFunctions.Log.Base

/-!
# What the air takes from a signal, per kilometre

The attenuation by oxygen near sea level, read off at every full gigahertz from 52 to 68, and in between on the straight
line. Rain of `R` millimetres per hour is exceeded for 0.01 percent of a year (ITU-R P.530).
-/

namespace Verif
namespace Spec

/-- Decibel per kilometre at 52, 53, …, 68 GHz. -/
def oxygenPerKm : List ℚ :=
  [0, 1, 2.2, 4, 6.6, 9.7, 12.6, 14.6, 15, 14.6, 14.3, 10.5, 6.8, 3.9, 1.9, 1, 0]

/-- At `mhz` the oxygen takes `k` decibel per kilometre. -/
def Absorbs (mhz k : ℚ) : Prop :=
  (mhz ≤ 52000 ∨ 68000 ≤ mhz) ∧ k = 0 ∨
  ∃ (n : ℕ) (s : ℚ), n < 16 ∧ 0 ≤ s ∧ s ≤ 1 ∧ mhz = (52 + n + s) * 1000 ∧
    k = (1 - s) * (oxygenPerKm[n]?.getD 0) + s * (oxygenPerKm[n + 1]?.getD 0)

/-- What such rain takes from a link of `d` kilometres at `f` gigahertz: so much per kilometre, over an effective length
that is at most two and a half times the length of the link. -/
noncomputable def rainReference (d R f : ℝ) : ℝ :=
  let alpha := 0.7486
  let perKm := 0.8515 * R ^ (alpha : ℝ)
  let shape := 0.477 * d ^ (0.633 : ℝ) * R ^ (0.073 * alpha : ℝ) * f ^ (0.123 : ℝ) - 10.579 * (1 - Real.exp (-0.024 * d))
  perKm * (d * min (1 / shape) 2.5)

end Spec
end Verif
