import Verif.Model.NxReport

/-!
# Routing of the report

`get_topology_routing_results` and `_get_dpa_routing_paths` of
`optimization/topology_networkx.py`, `get_routing_topology` of
`optimization/topology_report.py`. The two searches of networkx are parameters.
-/

namespace Verif

/-- `TopologyRouting`, `common/configuration/enums.py:139-142`. -/
inductive TopologyRouting
  | shortestPath
  | mcsCostPath
  | dpaPath
  deriving DecidableEq, Repr

/-- `_mcs_to_cost`, `topology_networkx.py:39-56`; `none` is `math.inf`. -/
def mcsToCost (mcs : ℤ) : Option Nat :=
  if 12 < mcs then some 1
  else if mcs = 2 ∨ mcs = 3 then some 15
  else if 4 ≤ mcs ∧ mcs ≤ 8 then some 3
  else if 9 ≤ mcs then some 1
  else none

/-- The searches of networkx, started at `SUPERSOURCE`. -/
structure Searches where
  /-- `nx.single_source_shortest_path(graph, source=SUPERSOURCE)`. -/
  hops : Graph → Paths
  /-- `nx.shortest_path(graph, source=SUPERSOURCE, weight="link_cost")`. -/
  cheap : Graph → Paths

namespace Graph

/-- `graph.subgraph(nodes)`. -/
def subgraph (G : Graph) (S : List GNode) : Graph where
  nodes := G.nodes.filter fun e => S.contains e.1
  edges := G.edges.filter fun e => S.contains e.1.1 && S.contains e.1.2

end Graph

/-- One turn of the first loop of `_get_dpa_routing_paths`,
`topology_networkx.py:298-304`. -/
def zoneStep (Z : Dict GNode (List GNode)) (p : List GNode) : Dict GNode (List GNode) :=
  match p with
  | _ :: pop :: _ => Z.set pop (((Z.get? pop).getD []) ++ p)
  | _ => Z

/-- `dpa_paths.update(subgraph_paths)`, `topology_networkx.py:310`. -/
def updatePaths (acc new : Paths) : Paths := fun v =>
  match new v with
  | some p => some p
  | none => acc v

/-- `_get_dpa_routing_paths`, `topology_networkx.py:287-312`. The paths are visited in
the order of the nodes; in the code in the order in which networkx found them. -/
def dpaPaths (N : Searches) (G : Graph) (paths : Paths) : Paths :=
  ((G.nodes.keys.filterMap paths).foldl zoneStep []).vals.foldl
    (fun acc S => updatePaths acc (N.cheap (G.subgraph S))) (fun _ => none)

/-- `shortest_paths` of `get_topology_routing_results`,
`topology_networkx.py:335-345`. -/
def routingPaths (N : Searches) (G : Graph) : TopologyRouting → Paths
  | .mcsCostPath => N.cheap G
  | .shortestPath => N.hops G
  | .dpaPath => dpaPaths N G (N.hops G)

/-- The edges of a path without the first and the last, `topology_networkx.py:357-358`. -/
def innerEdges : List GNode → List GEdge
  | _ :: p => go p
  | [] => []
where
  /-- All but the last edge. -/
  go : List GNode → List GEdge
    | a :: b :: c :: r => (a, b) :: go (b :: c :: r)
    | _ => []

/-- The loop over the edges of one path, `topology_networkx.py:357-365`. The id
`"-".join(edge)` is assumed to be that of a link only if the two nodes are its sites. -/
def linksOf (t : Topology) : List GEdge → Except Err (List LinkId)
  | [] => .ok []
  | (.site a, .site b) :: rest =>
    if t.links.has ⟨a, b⟩ then
      match linksOf t rest with
      | .error e => .error e
      | .ok L => .ok (⟨a, b⟩ :: L)
    else .error .optimizer
  | _ :: _ => .error .optimizer

/-- The loop over the demand sites, `topology_networkx.py:351-365`. -/
def routeLoop (t : Topology) (paths : Paths) : List DemandId → List LinkId → Except Err (List LinkId)
  | [], used => .ok used
  | d :: rest, used =>
    match paths (.demand d) with
    | none => routeLoop t paths rest used
    | some p =>
      match linksOf t (innerEdges p) with
      | .error e => .error e
      | .ok L => routeLoop t paths rest (used ++ L)

/-- `get_topology_routing_results`, `topology_networkx.py:315-366`. The searches raise
if `SUPERSOURCE` is not in the graph. -/
def routingResults (t : Topology) (N : Searches) (G : Graph) (type : TopologyRouting) :
    Except Err (List LinkId) :=
  if G.nodes.has .super then routeLoop t (routingPaths N G type) t.demandSites.keys []
  else .error .planner

namespace Topology

/-- The loop of `get_routing_topology`, `topology_report.py:264-272`, as one change of all
links: which links are marked does not depend on the marks. -/
def markRoutes (t : Topology) (used : List LinkId) : List (LinkId × Link) → Except Err (Dict LinkId Link)
  | [] => .ok []
  | (id, l) :: rest =>
    match t.getLinkBySiteIds l.rx l.tx with
    | .error e => .error e
    | .ok r =>
      match t.markRoutes used rest with
      | .error e => .error e
      | .ok L =>
        .ok ((id, if !used.contains id && (match r with | none => true | some r => !used.contains r.id)
          then { l with isRedundant := true } else l) :: L)

/-- `get_routing_topology`, `topology_report.py:260-272`. -/
def routingTopology (t : Topology) (used : List LinkId) : Except Err Topology :=
  match t.markRoutes used t.links with
  | .error e => .error e
  | .ok L => .ok { t with links := L }

/-- The first steps of `analyze`, `topology_report.py:106-117`, with a routing type.
`level` is `link.mcs_level` at the time of the call. -/
def restrictToRoutes (t : Topology) (N : Searches) (level : LinkId → ℤ) (type : TopologyRouting) :
    Except Err Topology :=
  match routingResults t N (t.buildDigraph StatusType.active fun l => mcsToCost (level l.id)) type with
  | .error e => .error e
  | .ok used => t.routingTopology used

end Topology
end Verif
