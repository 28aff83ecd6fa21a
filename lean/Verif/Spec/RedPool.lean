import Verif.Model.RedPool
import Mathlib.Logic.Relation

/-! Vocabulary for the statements about the link pool of the redundancy phase. -/

namespace Verif.Spec

/-- `f` is a flow from the supersource to `snk` within the capacities. -/
structure IsFlow (G : HGraph) (snk : HNode) (f : HEdge → ℚ) : Prop where
  bound : ∀ e ∈ G.edges, 0 ≤ f e ∧ f e ≤ G.cap e
  balance : ∀ v, v ≠ .super → v ≠ snk → G.inflow f v = G.outflow f v

/-- A flow of largest value. -/
def IsMaxFlow (G : HGraph) (snk : HNode) (f : HEdge → ℚ) : Prop :=
  IsFlow G snk f ∧ ∀ g, IsFlow G snk g → G.value g ≤ G.value f

/-- A link the redundancy phase may use: with capacity, joining DNs or POPs, nothing of it ruled
out. -/
def UsableHop (t : Topology) (a b : SiteId) : Prop :=
  ∃ l y z, t.links.get? ⟨a, b⟩ = some l ∧ t.sites.get? a = some y ∧ t.sites.get? b = some z ∧
    0 < l.capacity ∧ y.siteType ≠ .cn ∧ z.siteType ≠ .cn ∧
    (∀ st ∈ [l.status, y.status, z.status], st ≠ .unavailable ∧ st ≠ .unreachable)

/-- The DN `d` is reached over usable links from a POP in use. -/
def Backed (t : Topology) (d : SiteId) : Prop :=
  ∃ p y, t.sites.get? p = some y ∧ y.siteType = .pop ∧ (y.status = .proposed ∨ y.status = .existing) ∧
    Relation.ReflTransGen (UsableHop t) p d

end Verif.Spec
