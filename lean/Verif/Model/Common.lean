import Verif.Model.Optimum
import Verif.Model.Connected

/-!
# The cost and the coverage phase with `maximize_common_bandwidth`

`conn` is `connected_demand_sites`; how it is found and the variable `common_bandwidth` are in `Verif.Model.Connected`. As in
`Verif.Model.Optimum`, solves stopped early are not modelled.
-/

namespace Verif
namespace Plan

/-- The problem of `MaxCoverageNetwork.build_model` as in `CoverageBest`, but with the objective
`-common_bandwidth`, `network_optimization.py:822-832`; that is, with `conn` not empty. -/
structure CommonBest (P : Plan) (adv : Arc → Bool) (conn : List Loc) (x : Vars) (b : ℚ) : Prop where
  feas : P.SiteFeasible adv x
  cost : P.CostConstraint 1 x
  common : P.CommonBandwidth conn b x
  best : ∀ z c, P.SiteFeasible adv z → P.CostConstraint 1 z → P.CommonBandwidth conn c z → -b ≤ -c

/-- The problem of `MinCostNetwork.build_model` as in `CostBest`, but with the coverage constraint for
`maximize_common_bandwidth`, `network_optimization.py:765-784`. -/
structure CommonCostBest (P : Plan) (conn : List Loc) (x : Vars) : Prop where
  feas : P.SiteFeasible (fun _ => false) x
  cover : P.Coverage (some conn) x
  best : ∀ z, P.SiteFeasible (fun _ => false) z → P.Coverage (some conn) z → P.costObjective x ≤ P.costObjective z

/-- Whether `create_coverage_constraint` gets past `min(...)`, `network_optimization.py:763-777`, with
`maximize_common_bandwidth`; the error is the `ValueError` of `min([])`. -/
def coverageBuild (P : Plan) (conn : List Loc) : Except String Unit :=
  if P.demands = [] then .ok ()
  else match pyMin ((P.locations.filter conn.contains).map P.demandAt) with
    | some _ => .ok ()
    | none => .error "ValueError"

end Plan
end Verif
