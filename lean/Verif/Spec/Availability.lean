import Verif.Spec.Nx
import Mathlib.Algebra.Order.Ring.Rat

/-! Vocabulary for the statements about simulated availability. -/

namespace Verif.Spec

/-- At time `x` one of the outages (from, to) is going on. -/
def DownAt (O : List (ℚ × ℚ)) (x : ℚ) : Prop := ∃ o ∈ O, o.1 ≤ x ∧ x < o.2

open Classical in
/-- The total length of those of the intervals `[last, t1)`, `[t1, t2)`, ... at whose beginning `up`
holds. -/
noncomputable def upTime (up : ℚ → Prop) : ℚ → List ℚ → ℚ
  | _, [] => 0
  | last, t :: ts => (if up last then t - last else 0) + upTime up t ts

/-- Radio links in use between DNs and POPs in use, named with the smaller site id first. -/
def FailingLink (t : Topology) (a b : SiteId) : Prop :=
  a < b ∧ ∃ l x y, t.links.get? ⟨a, b⟩ = some l ∧ l.isWireless = true ∧ InNetwork l.status ∧
    t.sites.get? a = some x ∧ InNetwork x.status ∧ x.siteType ≠ .cn ∧
    t.sites.get? b = some y ∧ InNetwork y.status ∧ y.siteType ≠ .cn

/-- Demand site `d` has service at time `x`, when the link between `a` and `b` has the outages
`O a b`. -/
def ServedAt (t : Topology) (O : SiteId → SiteId → List (ℚ × ℚ)) (d : DemandId) (x : ℚ) : Prop :=
  ∃ G, (∀ a b, (a, b) ∈ G ↔ FailingLink t a b ∧ DownAt (O a b) x) ∧ Served t [] G d

/-- Both directions of a link are radio links or neither is. -/
def SameMedium (t : Topology) : Prop :=
  ∀ a b l r, t.links.get? ⟨a, b⟩ = some l → t.links.get? ⟨b, a⟩ = some r → l.isWireless = r.isWireless

end Verif.Spec
