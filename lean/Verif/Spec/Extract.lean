import Verif.Model.Extract

/-! # What an extracted plan should cost -/

namespace Verif.Spec

/-- Nodes (site, node id) of which some sector is selected, at sites that are not EXISTING. -/
def newNodes (P : Plan) (sol : Solution) : List (SiteId × Nat) :=
  ((P.t.sectors.filter fun e => sol.sector e.1 = 1 ∧
    (P.t.sites.get? e.2.site).map (·.status) ≠ some .existing).map
      fun e => (e.2.site, e.2.node)).dedup

/-- Cost of what has to be built: each selected site that is not EXISTING costs
the amount configured for its type; each node with a selected sector on such a
site costs the node price of the device, once. -/
def planCost (P : Plan) (sol : Solution) : ℚ :=
  ((P.t.sites.filter fun e => sol.site e.1 = 1 ∧ e.2.status ≠ .existing).map
    fun e => P.p.costs.of e.2.siteType).sum +
  ((newNodes P sol).map fun q => P.t.nodeCapex q.1).sum

end Verif.Spec
