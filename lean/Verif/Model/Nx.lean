import Verif.Model.Counter
import Mathlib.Data.String.Basic

/-!
# Graphs of the reports: `optimization/topology_networkx.py`

A `networkx.DiGraph` is the dictionary of its nodes (with the attribute `site_type`) and the dictionary of
its edges (with their attributes). networkx groups edges by their tail when it lists them; here they
are listed in the order of insertion, and the theorems hold for graphs with any order. `nx.descendants`
is computed by `Graph.reach`.
-/

namespace Verif

/-- Nodes of the graph: the strings `SUPERSOURCE`, site ids and demand ids, assumed not to clash. -/
inductive GNode
  | super
  | site (id : SiteId)
  | demand (id : DemandId)
  deriving DecidableEq, Repr

/-- The string that stands for a node. -/
def GNode.str : GNode → String
  | .super => "SUPERSOURCE"
  | .site s => s
  | .demand d => d

/-- Values of the node attribute `site_type`. -/
inductive NodeKind
  | super
  | site (ty : SiteType)
  | demand
  deriving DecidableEq, Repr

/-- Values of the edge attribute `link_type`. -/
inductive EdgeKind
  | super
  | demand
  | link (ty : LinkType)
  deriving DecidableEq, Repr

/-- The attributes of an edge; `none` if absent. `link_cost` is `none` within `cost` for `math.inf`. -/
structure EdgeAttr where
  kind : Option EdgeKind := none
  cost : Option (Option Nat) := none
  deriving DecidableEq, Repr

/-- A directed edge. -/
abbrev GEdge := GNode × GNode

/-- `networkx.DiGraph`. -/
structure Graph where
  nodes : Dict GNode (Option NodeKind) := []
  edges : Dict GEdge EdgeAttr := []
  deriving DecidableEq, Repr

/-- Add targets of edges leaving the list until there is none, at most `n` times. -/
def closure {α : Type} [DecidableEq α] (E : List (α × α)) : Nat → List α → List α
  | 0, S => S
  | n + 1, S =>
    match E.find? (fun e => S.contains e.1 && !S.contains e.2) with
    | some e => closure E n (e.2 :: S)
    | none => S

namespace Graph

/-- Add a node without attribute unless present. -/
def addNode (G : Graph) (v : GNode) : Graph :=
  if G.nodes.has v then G else { G with nodes := G.nodes.set v none }

/-- `G.add_edge(u, v, **attr)`; attributes given replace those of an existing edge, the code gives all of
them or adds an absent edge. -/
def addEdge (G : Graph) (u v : GNode) (a : EdgeAttr) : Graph :=
  let G' := (G.addNode u).addNode v
  { G' with edges := G'.edges.set (u, v) a }

/-- `G.remove_edge(u, v)`, which raises if there is no such edge. -/
def removeEdge (G : Graph) (u v : GNode) : Except Err Graph :=
  if G.edges.has (u, v) then .ok { G with edges := G.edges.del (u, v) } else .error .planner

/-- `G.has_edge(u, v)`. -/
def hasEdge (G : Graph) (u v : GNode) : Bool := G.edges.has (u, v)

/-- `nx.set_node_attributes(G, values, name="site_type")`: nodes that are not in the graph are
ignored. -/
def setKinds (G : Graph) (d : List (GNode × NodeKind)) : Graph :=
  { G with nodes := d.foldl (fun n e => n.modify e.1 fun _ => some e.2) G.nodes }

/-- `nx.descendants(G, s)` together with `s`. -/
def reach (G : Graph) (s : GNode) : List GNode := closure G.edges.keys G.edges.length [s]

/-- `nx.descendants(G, source=SUPERSOURCE)`, which raises if the source is not a node. -/
def descendants (G : Graph) : Except Err (List GNode) :=
  if G.nodes.has .super then .ok ((G.reach .super).filter (· ≠ .super)) else .error .planner

/-- `find_connected_demands`, `topology_networkx.py:112-122`. -/
def connectedDemands (G : Graph) : Except Err (List GNode) :=
  match G.descendants with
  | .error e => .error e
  | .ok D => .ok ((G.nodes.filter fun e => e.2 == some .demand && D.contains e.1).map (·.1))

/-- `_sorted_edge`, `topology_networkx.py:134-137`. -/
def sortedEdge (u v : GNode) : GEdge := if u.str < v.str then (u, v) else (v, u)

/-- The link types passed over, `topology_networkx.py:143-149`. -/
def skipped (a : EdgeAttr) : Bool :=
  a.kind == some .super || a.kind == some .demand || a.kind == some (.link .wirelessAccess) ||
    a.kind == some (.link .ethernet)

/-- Remove an edge and, if `rev`, its reverse, `topology_networkx.py:158-160`. -/
def cut (G : Graph) (u v : GNode) (rev : Bool) : Except Err Graph :=
  match G.removeEdge u v with
  | .error e => .error e
  | .ok G1 => if rev then G1.removeEdge v u else .ok G1

/-- Add them again without attributes, `topology_networkx.py:162-164`. -/
def uncut (G : Graph) (u v : GNode) (rev : Bool) : Graph :=
  let G1 := G.addEdge u v {}
  if rev then G1.addEdge v u {} else G1

/-- The loop of `single_edge_failures`, `topology_networkx.py:142-170`; `H` is `graph_copy`. -/
def edgeLoop (G : Graph) (conn : List GNode) :
    Graph → Dict GEdge (List GNode) → List (GEdge × EdgeAttr) → Except Err (Dict GEdge (List GNode))
  | _, D, [] => .ok D
  | H, D, ((u, v), a) :: rest =>
    if skipped a then edgeLoop G conn H D rest
    else if D.has (sortedEdge u v) then edgeLoop G conn H D rest
    else match H.cut u v (G.hasEdge v u) with
      | .error e => .error e
      | .ok H1 =>
        match H1.descendants with
        | .error e => .error e
        | .ok S => edgeLoop G conn (H1.uncut u v (G.hasEdge v u))
            (D.set (sortedEdge u v) (conn.filter fun d => !S.contains d)) rest

/-- `single_edge_failures`, `topology_networkx.py:125-171`. -/
def edgeFailures (G : Graph) : Except Err (Dict GEdge (List GNode)) :=
  match G.connectedDemands with
  | .error e => .error e
  | .ok conn => edgeLoop G conn G [] G.edges

/-- `graph_copy.remove_edges_from` of all edges that leave `s`, `topology_networkx.py:202-206`. -/
def isolate (G : Graph) (s : GNode) : Graph :=
  { G with edges := G.edges.filter fun e => e.1.1 ≠ s }

/-- `graph_copy.add_edges_from(edges_to_remove)`, `topology_networkx.py:208`. -/
def restore (G : Graph) (L : List (GEdge × EdgeAttr)) : Graph :=
  L.foldl (fun H e => H.addEdge e.1.1 e.1.2 e.2) G

/-- Nodes passed over, `topology_networkx.py:196-201`. -/
def passedOver (v : GNode) (k : Option NodeKind) : Bool :=
  k == some (.site .cn) || k == some .demand || v == .super

/-- The loop of `single_site_failures`, `topology_networkx.py:195-218`; the result is
`pop_disruptions`, `dn_disruptions`. -/
def siteLoop (conn : List GNode) :
    Graph → Dict GNode (List GNode) × Dict GNode (List GNode) → List (GNode × Option NodeKind) →
    Except Err (Dict GNode (List GNode) × Dict GNode (List GNode))
  | _, D, [] => .ok D
  | H, D, (s, k) :: rest =>
    if passedOver s k then siteLoop conn H D rest
    else match (H.isolate s).descendants with
      | .error e => .error e
      | .ok S =>
        let H' := (H.isolate s).restore (H.edges.filter fun e => e.1.1 = s)
        let lost := conn.filter fun d => !S.contains d
        siteLoop conn H'
          (if lost = [] then D
           else if k = some (.site .pop) then (D.1.set s lost, D.2)
           else if k = some (.site .dn) then (D.1, D.2.set s lost)
           else D) rest

/-- `single_site_failures`, `topology_networkx.py:174-220`. -/
def siteFailures (G : Graph) : Except Err (Dict GNode (List GNode) × Dict GNode (List GNode)) :=
  match G.connectedDemands with
  | .error e => .error e
  | .ok conn => siteLoop conn G ([], []) G.nodes

end Graph

namespace Topology

/-- The edges added by `build_digraph` in order, `topology_networkx.py:62-98`. `cost` is
`_mcs_to_cost(link.mcs_level)`. A demand site refers to its sites by id, so one that was removed from the
topology does not count (in the code its object, if still listed, does). -/
def digraphEdges (t : Topology) (f : Filter) (cost : Link → Option Nat) :
    List (GNode × GNode × EdgeAttr) :=
  ((t.sites.filter fun e => e.2.siteType == .pop && f e.2.status).map fun e =>
    (.super, .site e.1, { kind := some .super, cost := some (some 1) })) ++
  ((t.links.vals.filter fun l => f l.status && t.admits f l.tx && t.admits f l.rx).map fun l =>
    (.site l.tx, .site l.rx, { kind := some (.link (t.linkType l)), cost := some (cost l) })) ++
  t.demandSites.flatMap fun e => (e.2.connected.filter (t.admits f)).map fun s =>
    (.site s, .demand e.1, { kind := some .demand, cost := some (some 1) })

/-- `build_digraph`, `topology_networkx.py:31-109`. The attribute `site_type` of each node is set once
all its edges are there; setting it at the end gives the same graph. -/
def buildDigraph (t : Topology) (f : Filter) (cost : Link → Option Nat) : Graph :=
  let G : Graph := (t.digraphEdges f cost).foldl (fun (G : Graph) e => G.addEdge e.1 e.2.1 e.2.2) {}
  G.setKinds (((.super, .super) :: t.sites.map fun e => (.site e.1, .site e.2.siteType)) ++
    t.demandSites.map fun e => (.demand e.1, .demand))

end Topology
end Verif
