import Verif.Model.Nx

/-!
# Disjoint paths and the failure part of the report

`disjoint_paths` of `terragraph_planner/optimization/topology_networkx.py` and the order in which
`analyze` of `topology_report.py` uses one and the same graph.
-/

namespace Verif

/-- `DisjointPath`, `structs.py:69-72`. -/
structure DisjointPath where
  disjoint : List DemandId := []
  disconnected : List DemandId := []
  atPop : List DemandId := []
  deriving DecidableEq, Repr

/-- Result of `nx.single_source_shortest_path(graph, source=SUPERSOURCE)`: a list of nodes for each node
that can be reached, starting with the source and ending with the node. -/
abbrev Paths := GNode → Option (List GNode)

/-- The edges removed for a path, given from its second node on, `topology_networkx.py:423-432`; stops
at the first CN and leaves out the edge to the demand site. -/
def pathHops (t : Topology) : List GNode → Except Err (List GEdge)
  | u :: v :: w :: rest =>
    match v with
    | .site s =>
      match t.sites.get? s with
      | none => .error .keyError
      | some y =>
        if y.siteType = .cn then .ok []
        else match pathHops t (v :: w :: rest) with
          | .error e => .error e
          | .ok L => .ok ((u, v) :: L)
    | _ => .error .keyError
  | _ => .ok []

namespace Graph

/-- `graph.remove_edge` for each edge in turn, `topology_networkx.py:431`. In the code the removals
alternate with the lookups of `pathHops`; which of two exceptions comes first is not modelled. -/
def removeEdges (G : Graph) : List GEdge → Except Err Graph
  | [] => .ok G
  | (u, v) :: L =>
    match G.removeEdge u v with
    | .error e => .error e
    | .ok G1 => G1.removeEdges L

/-- `graph.add_edge(u, v, link_id=...)` for each removed edge, `topology_networkx.py:441-444`: the
attributes `link_type` and `link_cost` are gone. -/
def addBack (G : Graph) (L : List GEdge) : Graph := L.foldl (fun (H : Graph) e => H.addEdge e.1 e.2 {}) G

end Graph

/-- The loop of `disjoint_paths`, `topology_networkx.py:384-444`. -/
def disjointLoop (t : Topology) (paths : Paths) :
    Graph → DisjointPath → List DemandId → Except Err (Graph × DisjointPath)
  | G, R, [] => .ok (G, R)
  | G, R, d :: rest =>
    match paths (.demand d) with
    | none => disjointLoop t paths G { R with disconnected := d :: R.disconnected } rest
    | some p =>
      if p.length ≤ 3 then
        if p.length ≠ 3 then .error .optimizer
        else match p with
          | _ :: .site s :: _ =>
            match t.sites.get? s with
            | none => .error .keyError
            | some y =>
              if y.siteType ≠ .pop then .error .optimizer
              else disjointLoop t paths G { R with atPop := d :: R.atPop } rest
          | _ => .error .keyError
      else match pathHops t p.tail with
        | .error e => .error e
        | .ok L =>
          match G.removeEdges L with
          | .error e => .error e
          | .ok H =>
            disjointLoop t paths (H.addBack L)
              (if (H.reach .super).contains (.demand d) then { R with disjoint := d :: R.disjoint } else R)
              rest

/-- `disjoint_paths`, `topology_networkx.py:369-449`; also the graph as the function leaves it. -/
def disjointPaths (t : Topology) (paths : Paths) (G : Graph) : Except Err (Graph × DisjointPath) :=
  if G.nodes.has .super then disjointLoop t paths G {} t.demandSites.keys else .error .planner

/-- What the report says about failures. -/
structure FailureReport where
  paths : DisjointPath
  edges : Dict GEdge (List GNode)
  sites : Dict GNode (List GNode) × Dict GNode (List GNode)
  deriving DecidableEq, Repr

/-- The calls of `analyze`, `topology_report.py:106-125`, all on one graph. The steps in between
(routing, link capacities and flow) do not touch it. -/
def failureReport (t : Topology) (cost : Link → Option Nat) (paths : Paths) : Except Err FailureReport :=
  match disjointPaths t paths (t.buildDigraph StatusType.active cost) with
  | .error e => .error e
  | .ok (G, P) =>
    match G.edgeFailures with
    | .error e => .error e
    | .ok E =>
      match G.siteFailures with
      | .error e => .error e
      | .ok S => .ok ⟨P, E, S⟩

/-- `link.breakdowns`, `topology_report.py:301`, of an active link. -/
def FailureReport.linkBreakdowns (r : FailureReport) (l : Link) : Nat :=
  ((r.edges.get? (.site l.tx, .site l.rx)).getD []).length

/-- `site.breakdowns`, `topology_report.py:303-310`. -/
def FailureReport.siteBreakdowns (r : FailureReport) (s : Site) : Nat :=
  match s.siteType with
  | .pop => ((r.sites.1.get? (.site s.id)).getD []).length
  | .dn => ((r.sites.2.get? (.site s.id)).getD []).length
  | .cn => 0

end Verif
