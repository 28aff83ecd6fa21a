import Verif.Model.Ilp

/-!
# The routing problem of the report: `optimization/ilp_models/flow_optimization.py`

`conn` is `connected_demand_sites` and `b` the buffer variable. The site and
sector "decisions" are constants here. The solver call and the objective
(maximize `b`) are not modelled; theorems are about all feasible assignments.
-/

namespace Verif
namespace Plan

/-- `max_throughput`, `flow_optimization.py:90-92`. -/
def routeMax (P : Plan) : ℚ := ((P.t.popIds (fun _ => true)).length : ℚ) * P.p.popCapacity

/-- `link_capacities` after `flow_optimization.py:106-112`. -/
def routeCap (P : Plan) (e : Arc) : ℚ :=
  match P.linkOf e with
  | some l => if l.isRedundant then 0 else l.capacity
  | none => P.cap e

/-- `(i, j) in inactive_links` after `flow_optimization.py:82-86`. -/
def routeInactive (P : Plan) (e : Arc) : Bool :=
  P.inactiveArc e || (P.linkOf e).any fun l => l.status == .candidate

/-- `create_site_decisions`, `flow_optimization.py:172-179`. -/
def routeSite (P : Plan) (s : SiteId) : ℚ := if P.isActive s then 1 else 0

/-- `create_sector_decisions`, `flow_optimization.py:181-189`: 1 for the sectors in
`proposed_sectors`, `optimization_setup.py:149-152`. -/
def routeSector (P : Plan) (k : SectorId) : ℚ :=
  if (P.t.sectors.get? k).any fun d => d.status == .proposed then 1 else 0

/-- `create_flow_balance_with_buffer`, `flow_optimization.py:203-230`. -/
def RouteBalance (P : Plan) (conn : List Loc) (b : ℚ) (x : Vars) : Prop :=
  ∀ l ∈ P.locations, (P.incoming l ≠ [] ∨ P.outgoing l ≠ []) →
    match l with
    | .source => P.inFlow x.flow l - P.outFlow x.flow l ≤ 0
    | .site _ => P.inFlow x.flow l - P.outFlow x.flow l = 0
    | .demand _ _ => P.inFlow x.flow l - P.outFlow x.flow l = if l ∈ conn then b else 0

/-- The constraints of `set_up_problem_skeleton`, `flow_optimization.py:123-140`,
with the bounds of `network_optimization.py:253-283` and `flow_optimization.py:194-201`. -/
structure RouteFeasible (P : Plan) (conn : List Loc) (b : ℚ) (x : Vars) : Prop where
  site : ∀ s ∈ P.t.sites.keys, x.site s = P.routeSite s
  sector : ∀ k ∈ P.t.sectors.keys, x.sector k 0 = P.routeSector k
  flow : ∀ e ∈ P.arcs, 0 ≤ x.flow e
  tdm : ∀ e ∈ P.arcs, P.hasTdm e = true → 0 ≤ x.tdm e 0 ∧ x.tdm e 0 ≤ 1
  tdmSector : P.TdmSector 1 x
  tdmFlow : P.TdmFlow P.routeCap P.routeMax 1 x
  flowSite : P.FlowSite P.routeMax x
  inactive : ∀ e ∈ P.arcs, P.routeInactive e = true → x.flow e = 0
  popLoad : P.PopLoad x
  buffer : 0 ≤ b
  balance : P.RouteBalance conn b x

end Plan
end Verif
