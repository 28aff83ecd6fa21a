import Verif.Model.Redundancy

/-!
# The link pool of the redundancy phase

`compute_candidate_edges_for_redundancy`, `redundancy_optimization.py:629-893`, and its use in
`topology_optimization.py:421-443`. `networkx.maximum_flow` is the parameter `mf` (graph and
sink to flow; the source is always `SUPERSOURCE`); the pairs of DNs taken from scipy's Delaunay
triangulation are the parameter `pairs`. An edge is added at most once to the networkx graph because
the dictionaries of sites and links are keyed by id, so the graph is a list of edges.
-/

namespace Verif

/-- Nodes of the graph: `SUPERSOURCE`, `("_in", id)`, `("_out", id)`,
`redundancy_optimization.py:667-671`. -/
inductive HNode
  | super
  | inn (s : SiteId)
  | out (s : SiteId)
  deriving DecidableEq, Repr

/-- A directed edge of the graph. -/
abbrev HEdge := HNode × HNode

/-- A networkx graph with the attribute `capacity`. -/
structure HGraph where
  edges : List HEdge
  cap : HEdge → ℚ

namespace Topology

/-- The DNs and POPs that are not inactive, `redundancy_optimization.py:674-679`. -/
def heurSites (t : Topology) : List (SiteId × Site) :=
  t.sites.filter fun e => !e.2.status.inactive && e.2.siteType.isDist

/-- The links kept, `redundancy_optimization.py:696-713`. -/
def heurLinks (t : Topology) : List Link :=
  t.links.vals.filter fun l => !l.status.inactive && decide (0 < l.capacity) &&
    !(t.siteStatus l.tx).any StatusType.inactive && !(t.siteStatus l.rx).any StatusType.inactive &&
    (t.sites.get? l.tx).any (fun y => y.siteType.isDist) &&
    (t.sites.get? l.rx).any (fun y => y.siteType.isDist)

/-- Edges without those of the supersource, `redundancy_optimization.py:684-690, 716-720`. -/
def heurBase (t : Topology) : List HEdge :=
  (t.heurSites.map fun e => (.inn e.1, .out e.1)) ++
    t.heurLinks.map fun l => (.out l.tx, .inn l.rx)

/-- `G`, `redundancy_optimization.py:673-720`. -/
def heurGraph (t : Topology) (popCap : ℚ) : HGraph where
  edges := t.heurBase ++
    (t.heurSites.filter fun e => e.2.siteType == .pop).map fun e => (.super, .inn e.1)
  cap e := match e with
    | (.inn s, .out _) => if (t.sites.get? s).any (fun y => y.siteType == .pop) then popCap else 1
    | (.super, _) => popCap
    | _ => 1

/-- `pops`, `redundancy_optimization.py:724-729`. -/
def heurPops (t : Topology) : List SiteId :=
  (t.sites.filter fun e => e.2.siteType == .pop && e.2.status.active).map (·.1)

/-- `dns`, `redundancy_optimization.py:730-735`. -/
def heurDns (t : Topology) : List SiteId :=
  (t.sites.filter fun e => e.2.siteType == .dn && e.2.status.active).map (·.1)

/-- `G` with the supersource joined to `pop` only among `pops`,
`redundancy_optimization.py:744-748`. The edges to other POPs are not changed. -/
def heurFrom (t : Topology) (popCap : ℚ) (pop : SiteId) : HGraph :=
  { t.heurGraph popCap with
    cap := fun e => match e with
      | (.super, .inn o) => if t.heurPops.contains o then (if pop = o then popCap else 0) else popCap
      | e => (t.heurGraph popCap).cap e }

/-- `B` for the pair `(dn, other)`, `redundancy_optimization.py:775-776, 828-843`. -/
def heurBetween (t : Topology) (popCap dnCap : ℚ) (dn : SiteId) : HGraph where
  edges := t.heurBase ++ [(.super, .inn dn)]
  cap e := if e = (.super, .inn dn) then dnCap
    else if e = (.inn dn, .out dn) then dnCap
    else if e.2 = .inn dn then 0
    else (t.heurGraph popCap).cap e

/-- `is_symmetric`, `redundancy_optimization.py:778-782`. -/
def heurSymmetric (t : Topology) : Bool :=
  t.heurBase.all fun e => match e with
    | (.out u, .inn v) => u == v || t.heurBase.contains (.out v, .inn u)
    | _ => true

end Topology

namespace HGraph

/-- Flow entering a node. -/
def inflow (G : HGraph) (f : HEdge → ℚ) (v : HNode) : ℚ :=
  ((G.edges.filter fun e => e.2 = v).map f).sum

/-- Flow leaving a node. -/
def outflow (G : HGraph) (f : HEdge → ℚ) (v : HNode) : ℚ :=
  ((G.edges.filter fun e => e.1 = v).map f).sum

/-- The flow value returned by `nx.maximum_flow`. -/
def value (G : HGraph) (f : HEdge → ℚ) : ℚ := G.outflow f .super - G.inflow f .super

end HGraph

namespace Topology

/-- The edges between different sites with flow, `redundancy_optimization.py:755-768, 850-863`. The
assertion that the link exists holds: such edges of the graph come from links. -/
def usedLinks (G : HGraph) (f : HEdge → ℚ) : List (SiteId × SiteId) :=
  G.edges.filterMap fun e => match e with
    | (.out u, .inn v) => if u ≠ v ∧ 1 / 100000 < f e then some (u, v) else none
    | _ => none

/-- One round: a maximum flow per graph and sink; raises if its value exceeds `bound`,
`redundancy_optimization.py:749-768, 844-863`. -/
def heurRound (mf : HGraph → HNode → HEdge → ℚ) (bound : ℚ) :
    List (HGraph × SiteId) → Except Err (List (SiteId × SiteId))
  | [] => .ok []
  | (G, d) :: rest =>
    if bound < G.value (mf G (.inn d)) then .error .optimizer
    else match heurRound mf bound rest with
      | .ok L => .ok (usedLinks G (mf G (.inn d)) ++ L)
      | .error e => .error e

/-- `compute_candidate_edges_for_redundancy`, `redundancy_optimization.py:629-893`, for positive
capacities. `B.remove_node(SUPERSOURCE)` raises if there is no POP to join. -/
def heurPool (t : Topology) (mf : HGraph → HNode → HEdge → ℚ) (pairs : List (SiteId × SiteId))
    (popCap dnCap : ℚ) : Except Err (List (SiteId × SiteId)) :=
  match heurRound mf popCap
      (t.heurDns.flatMap fun d => t.heurPops.map fun p => (t.heurFrom popCap p, d)) with
  | .error e => .error e
  | .ok L =>
    if !(t.heurSites.any fun e => e.2.siteType == .pop) then .error .planner
    else match heurRound mf dnCap (pairs.map fun q => (t.heurBetween popCap dnCap q.1, q.2)) with
      | .error e => .error e
      | .ok M => .ok (L ++ M ++ if t.heurSymmetric then M.map (fun e => (e.2, e.1)) else [])

/-- `candidate_links`, `topology_optimization.py:426-443`. -/
def redPool (t : Topology) (edges : List (SiteId × SiteId)) : List (SiteId × SiteId) :=
  let nodes := edges.flatMap fun e => [e.1, e.2]
  edges ++ (t.links.vals.filter fun l => nodes.contains l.tx && nodes.contains l.rx &&
    l.status.active).map fun l => (l.tx, l.rx)

end Topology
end Verif
