import Verif.Model.Topology

/-! # What the demand properties talk about -/

namespace Verif.Spec

/-- Two longitudes differ by at most `δ`, going round the globe if needed. -/
def LonNear (a b δ : ℚ) : Prop := ∃ z : ℤ, |a - b + 360 * z| ≤ δ

/-- Some site lies within five degrees of the antimeridian on each side. -/
def Crossing (t : Topology) : Prop :=
  (∃ id s, t.sites.get? id = some s ∧ s.lon ≥ 175) ∧ ∃ id s, t.sites.get? id = some s ∧ s.lon ≤ -175

/-- A position in the smallest box around the sites; if the sites are on both
sides of the antimeridian, the box that crosses it. -/
def InBox (t : Topology) (lon lat : ℚ) : Prop :=
  (∃ i j a b, t.sites.get? i = some a ∧ t.sites.get? j = some b ∧ a.lat ≤ lat ∧ lat ≤ b.lat) ∧
  ((¬ Crossing t ∧ ∃ i j a b, t.sites.get? i = some a ∧ t.sites.get? j = some b ∧
      a.lon ≤ lon ∧ lon ≤ b.lon) ∨
   (Crossing t ∧ ∃ i a, t.sites.get? i = some a ∧
      ((175 ≤ a.lon ∧ a.lon ≤ lon ∧ lon ≤ 180) ∨ (a.lon ≤ -175 ∧ -180 ≤ lon ∧ lon ≤ a.lon))))

/-- Same longitude, latitude and altitude. -/
def SameSpot (a b : Site) : Prop := a.lon = b.lon ∧ a.lat = b.lat ∧ a.alt = b.alt

/-- On the roof of the same known building. -/
def SameRoof (a b : Site) : Prop := ∃ n : Int, 0 ≤ n ∧ a.building = some n ∧ b.building = some n

/-- `s` is a DN or POP at the spot, or on the roof, of the CN `c`. -/
def WiredTo (t : Topology) (c s : SiteId) : Prop :=
  ∃ x y, t.sites.get? c = some x ∧ t.sites.get? s = some y ∧ x.siteType = .cn ∧
    (y.siteType = .dn ∨ y.siteType = .pop) ∧ (SameSpot x y ∨ SameRoof x y)

end Verif.Spec
