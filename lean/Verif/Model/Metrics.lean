import Verif.Model.NxReport
import Verif.Model.Extract

/-!
# Numbers of the report: `optimization/topology_report.py`

`flow id` is `flow_solution.flow_decisions.get(link_key, 0)` for the link key of `id`.
-/

namespace Verif

/-- `percent_capacity`, `topology_report.py:232-233`. -/
def percentOf (flow : LinkId → ℚ) (l : Link) : ℚ :=
  100 * (if 0 < l.capacity then flow l.id / l.capacity else 0)

/-- One turn of the loop of `get_routing_flow_solution`, `topology_report.py:222-249`. -/
def utilStep (flow : LinkId → ℚ) (U : Dict LinkId ℚ) (l : Link) : Dict LinkId ℚ :=
  if l.status.active then
    let u := percentOf flow l
    let U1 := U.set l.id u
    match U1.get? ⟨l.rx, l.tx⟩ with
    | none => U1
    | some v =>
      if Plan.near0 u || Plan.near0 v then
        if v < u then U1.del ⟨l.rx, l.tx⟩ else U1.del l.id
      else U1
  else U

/-- `active_link_utilization` of `get_routing_flow_solution`, `topology_report.py:217-249`. -/
def Topology.linkUtilization (t : Topology) (flow : LinkId → ℚ) : Dict LinkId ℚ :=
  t.links.vals.foldl (utilStep flow) []

/-- `link.utilization` set by `add_statistics_to_topology`, `topology_report.py:296-300`, for an active
link. -/
def reportedUtil (U : Dict LinkId ℚ) (l : Link) : ℚ := (U.get? l.id).getD 0

end Verif
