import Verif.Model.Nx
import Verif.Model.Ilp
import Mathlib.Data.List.Sort
import Mathlib.Algebra.Order.Ring.Rat
import Mathlib.Data.Rat.Floor

/-!
# Adversarial links

`find_most_disruptive_links`, `topology_networkx.py:223-284`, and `get_adversarial_links`,
`topology_operations.py:225-320`: the links whose flow the coverage problem sets to zero. A set of edges
is a list without repetition.
-/

namespace Verif
namespace Graph

/-- `disruptive_edges.add(e)`. -/
def addTo (R : List GEdge) (e : GEdge) : List GEdge := if R.contains e then R else e :: R

/-- `sorted(edge_disruptions, key=lambda i: len(edge_disruptions[i]), reverse=True)`,
`topology_networkx.py:242-244`; Python's sort is stable also in reverse, as is insertion sort. -/
def byDisruption (D : Dict GEdge (List GNode)) : List GEdge :=
  D.keys.insertionSort fun a b => ((D.get? b).getD []).length ≤ ((D.get? a).getD []).length

/-- The loop of `find_most_disruptive_links`, `topology_networkx.py:250-279`: `P` is `proposed_graph`, `C`
is `candidate_graph`, `conn` is `candidate_connected_demands`, `D` is `edge_disruptions`; the graph that
changes is `candidate_graph_copy`. -/
def disruptLoop (P C : Graph) (conn : List GNode) (D : Dict GEdge (List GNode)) (count : Int) :
    Graph → List GEdge → List GEdge → Except Err (List GEdge)
  | _, R, [] => .ok R
  | H, R, (u, v) :: rest =>
    if count ≤ R.length then .ok R
    else if ((D.get? (u, v)).getD []).length = 0 then .ok R
    else match (P.edges.get? (u, v)).bind (·.kind) with
      | none => .error .keyError
      | some k =>
        if k = .link .wirelessAccess then disruptLoop P C conn D count H R rest
        else if R.contains (u, v) then disruptLoop P C conn D count H R rest
        else match H.cut u v (C.hasEdge v u) with
          | .error e => .error e
          | .ok H1 =>
            match H1.descendants with
            | .error e => .error e
            | .ok S =>
              if (conn.filter fun d => !S.contains d).length = 0 then
                disruptLoop P C conn D count H1
                  (if C.hasEdge v u then addTo (addTo R (u, v)) (v, u) else addTo R (u, v)) rest
              else disruptLoop P C conn D count (H1.uncut u v (C.hasEdge v u)) R rest

/-- `find_most_disruptive_links`, `topology_networkx.py:223-284`. -/
def mostDisruptive (P C : Graph) (count : Int) : Except Err (List GEdge) :=
  if count ≤ 0 then .ok []
  else match P.edgeFailures with
    | .error e => .error e
    | .ok D =>
      match C.connectedDemands with
      | .error e => .error e
      | .ok conn => disruptLoop P C conn D count C [] (byDisruption D)

/-- `G.remove_node(v)` for a node of the graph, otherwise nothing, `topology_operations.py:306-308`. -/
def dropNode (G : Graph) (v : GNode) : Graph :=
  { nodes := G.nodes.del v, edges := G.edges.filter fun e => e.1.1 ≠ v && e.1.2 ≠ v }

/-- One step of `topology_operations.py:296-302`. -/
def dropEdge (G : Graph) (u v : GNode) : Graph := { G with edges := G.edges.del (u, v) }

end Graph

namespace Topology

/-- `max_site_type`, `topology_operations.py:241-248`. -/
def topType (t : Topology) (ids : List SiteId) : SiteType :=
  ids.foldl (fun m s => match (t.sites.get? s).map Site.siteType with
    | some .dn => if m = .pop then m else .dn
    | some .pop => .pop
    | _ => m) .cn

/-- `_find_colocated_sites_to_remove`, `topology_operations.py:225-269`; the valid site types for each
maximal type (249-257) are those of `network_optimization.py:636-644`. -/
def colocatedToRemove (t : Topology) : List SiteId :=
  t.colocated.vals.flatMap fun ids =>
    let act := ids.filter (t.admits StatusType.active)
    if act.length = 0 then []
    else ids.filter fun s =>
      !(((t.sites.get? s).map Site.siteType).any fun ty => (Plan.validTypes (t.topType act)).contains ty) ||
      ((t.sites.get? s).map Site.siteType == some (t.topType act) && !t.admits StatusType.active s)

/-- `candidate_graph` without links of zero capacity and sites that cannot be selected,
`topology_operations.py:292-308`. -/
def candidateGraph (t : Topology) (cost : Link → Option Nat) : Graph :=
  let G := (t.links.vals.filter fun l => decide (l.capacity ≤ 0)).foldl
    (fun (G : Graph) l => G.dropEdge (.site l.tx) (.site l.rx)) (t.buildDigraph StatusType.reachable cost)
  t.colocatedToRemove.foldl (fun (G : Graph) s => G.dropNode (.site s)) G

/-- `nb_of_active_backhaul_links`, `topology_operations.py:279-286`. -/
def activeBackhaul (t : Topology) : Nat :=
  (t.links.vals.filter fun l => l.status.active && t.linkType l == .wirelessBackhaul).length

/-- `get_adversarial_links`, `topology_operations.py:272-320`. -/
def adversarialLinks (t : Topology) (cost : Link → Option Nat) (ratio : ℚ) : Except Err (List GEdge) :=
  if t.activeBackhaul = 0 ∨ ratio = 0 then .ok []
  else (t.buildDigraph StatusType.active cost).mostDisruptive (t.candidateGraph cost)
    ⌈(t.activeBackhaul : ℚ) * ratio⌉

end Topology
end Verif
