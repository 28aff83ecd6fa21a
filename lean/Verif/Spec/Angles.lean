import Verif.Model.Topology
import Mathlib.Algebra.Order.Field.Rat

/-! # Directions on a circle of 360 degrees (specification for C55-C57) -/

namespace Verif.Spec

/-- Directions `x` and `y` (degrees, any representative) are less than `r` apart. -/
def Within (x y r : ℚ) : Prop := ∃ k : ℤ, |x - y + 360 * k| < r

/-- Direction `x` is at most as far from `b` as `y` is. -/
def NoFarther (b x y : ℚ) : Prop := ∀ k : ℤ, ∃ k' : ℤ, |x - b + 360 * k'| ≤ |y - b + 360 * k|

/-- `sid` is a sector of `site` that points less than `r` degrees away from
`bearing`, and no sector of the site points closer. -/
def ClosestSector (t : Topology) (site : SiteId) (bearing r : ℚ) (sid : SectorId) : Prop :=
  ∃ s, t.sectors.get? sid = some s ∧ s.site = site ∧ Within s.azimuth bearing r ∧
    ∀ sid' s', t.sectors.get? sid' = some s' → s'.site = site → NoFarther bearing s.azimuth s'.azimuth

/-- No sector of `site` points less than `r` degrees away from `bearing`. -/
def NoSectorWithin (t : Topology) (site : SiteId) (bearing r : ℚ) : Prop :=
  ∀ sid s, t.sectors.get? sid = some s → s.site = site → ¬ Within s.azimuth bearing r

/-- The scan range that counts for the receiving end `site`: everything for a CN
when the caller asks for it, the device's range otherwise. -/
def RxRange (t : Topology) (scan : ℚ) (force : Bool) (site : SiteId) (r : ℚ) : Prop :=
  ((force = true ∧ ∃ s, t.sites.get? site = some s ∧ s.siteType = .cn) ∧ r = 360) ∨
  (¬ (force = true ∧ ∃ s, t.sites.get? site = some s ∧ s.siteType = .cn) ∧ r = scan)

/-- `sid` is a sector of `site` pointing less than `r` degrees away from `bearing`. -/
def SectorWithin (t : Topology) (site : SiteId) (bearing r : ℚ) (sid : SectorId) : Prop :=
  ∃ s, t.sectors.get? sid = some s ∧ s.site = site ∧ Within s.azimuth bearing r

end Verif.Spec
