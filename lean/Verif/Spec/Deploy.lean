import Verif.Model.Topology

/-! # Deployment rules (specification for C55 and C75) -/

namespace Verif.Spec

/-- The wireless link `i -> j`; if only active parts matter, it is active. -/
def LinkInScope (t : Topology) (active : Bool) (i j : SiteId) (l : Link) : Prop :=
  t.links.get? ⟨i, j⟩ = some l ∧ l.isWireless = true ∧ (active = true → l.status.active = true)

/-- Transmitting sectors differ; if only active parts matter, they also use the
same channel. -/
def SectorsClash (t : Topology) (active : Bool) (l1 l2 : Link) : Prop :=
  l1.sectors.map Prod.fst ≠ l2.sectors.map Prod.fst ∧
  (active = true → ∃ p1 p2 s1 s2, l1.sectors = some p1 ∧ l2.sectors = some p2 ∧
    t.sectors.get? p1.1 = some s1 ∧ t.sectors.get? p2.1 = some s2 ∧ s1.channel = s2.channel)

/-- Sectors of every link are sectors of the topology, on the link's two ends. -/
def SectorsOnEnds (t : Topology) : Prop :=
  ∀ id l a b, t.links.get? id = some l → l.sectors = some (a, b) →
    a.site = l.tx ∧ b.site = l.rx ∧ (∃ s, t.sectors.get? a = some s) ∧ ∃ s, t.sectors.get? b = some s

/-- Number of active links transmitted by sector `s` to a sector of type `ty`. -/
def activeLinksTo (t : Topology) (s : SectorId) (ty : SectorType) : Nat :=
  (t.links.vals.filter (fun l =>
    l.status.active && l.sectors.any (fun p => p.1 == s && p.2.typ == ty))).length

end Verif.Spec
