import Verif.Model.Pipeline
import Verif.Model.Create
import Verif.Model.Demand

/-!
# The planning call: `optimize_and_report_topology`, `optimization/topology_optimization.py:121-129`

Without the report (`analyze_with_dump`), which reads the plan; the parts of it that are modelled are in
`Model/Metrics.lean`, `Model/Statistics.lean` and `Model/Tables.lean`.
-/

namespace Verif
namespace Topology

/-- What the preparation of a topology consults: the sector searches, the geometry, the link budget without deviation
from boresight, and the parameters of the demand. -/
structure PrepEnv where
  mean : List ℚ → ℚ
  radio : SiteId → Radio
  /-- `find_best_sectors` for a DN. -/
  bestDn : Topology → SiteId → Except Err (List (List ℚ))
  /-- `find_best_equidistant_sectors` for a CN. -/
  bestCn : Topology → SiteId → Except Err (List (List ℚ))
  geo : Topology → Geometry
  /-- Capacity of `fspl_based_estimation`, or the exception raised on the way. -/
  estimate : Link → Except Err ℚ
  popCapacity : ℚ
  hash : DemandHash
  dist : Dist
  demand : DemandParams
  fuel : Nat

/-- One turn of the loop of `add_link_capacities(with_deviation=False)`, `topology_preparation.py:84-138`: only the
capacity of the link budget is kept. -/
def addCapacity (E : PrepEnv) (t : Topology) (id : LinkId) : Out :=
  match t.links.get? id with
  | none => (t, some .keyError)
  | some l =>
    let c : Except Err ℚ := if !l.isWireless then .ok E.popCapacity
      else if l.sectors.isNone then .ok 0 else E.estimate l
    match c with
    | .error e => (t, some e)
    | .ok c => ({ t with links := t.links.modify id (fun l => { l with capacity := c }) }, none)

/-- `setup_node_structure`, `topology_preparation.py:141-151`. -/
def setupNodes (E : PrepEnv) (t : Topology) : Out :=
  match createDnSectors E.mean E.radio (E.bestDn t) t with
  | (t1, some e) => (t1, some e)
  | (t1, none) =>
    match createCnSectors E.mean E.radio (E.bestCn t1) t1 with
    | (t2, some e) => (t2, some e)
    | (t2, none) => t2.addSectorsToLinks (E.geo t2) true none

/-- `prepare_topology_for_optimization`, `topology_preparation.py:51-62`; `none`: the demand grid is not finished. -/
def prepare (E : PrepEnv) (t : Topology) : Option Out :=
  match t.setupNodes E with
  | (t1, some e) => some (t1, some e)
  | (t1, none) =>
    match foldOut (addCapacity E) t1 t1.links.keys with
    | (t2, some e) => some (t2, some e)
    | (t2, none) => t2.addDemand E.hash E.dist E.demand E.fuel

/-- `optimize_and_report_topology` up to the report, `topology_optimization.py:121-128`. -/
def planTopology (E : PrepEnv) (O : Outside) (p : RunParams) (t : Topology) : Option Phase :=
  match t.preOptCheck p.extraPops E.demand.uniform E.demand.manual with
  | some h => some (t, some h)
  | none => ((t.prepare E).map Out.phase).bind fun r => r.next (optimize O p)

end Topology
end Verif
