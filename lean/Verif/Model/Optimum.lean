import Verif.Model.Extract

/-!
# What the solver is asked to minimise in the cost and in the coverage phase

A solve that ends without time limit or gap is an assignment that meets the constraints and is best;
solves stopped early are not modelled here. Without `maximize_common_bandwidth`.
-/

namespace Verif
namespace Plan

/-- `create_cost_objective`, `network_optimization.py:722-732`. -/
def costObjective (P : Plan) (x : Vars) : ℚ := P.extractCost x.site (P.sectorSum 1 x)

/-- `_create_coverage_objective_expr`, `network_optimization.py:822-832`. -/
def coverageObjective (P : Plan) (x : Vars) : ℚ := (P.demands.map x.shortage).sum

/-- The problem of `MinCostNetwork.build_model`, `cost_optimization.py:37-52` and
`add_coverage_constraint_cost_objective`, `site_optimization.py:168-176`, solved; there are no
adversarial links (`cost_optimization.py:33`). -/
structure CostBest (P : Plan) (x : Vars) : Prop where
  feas : P.SiteFeasible (fun _ => false) x
  cover : P.Coverage none x
  best : ∀ z, P.SiteFeasible (fun _ => false) z → P.Coverage none z → P.costObjective x ≤ P.costObjective z

/-- The problem of `MaxCoverageNetwork.build_model`, `coverage_optimization.py:37-51` and
`add_cost_constraint_coverage_objective`, `site_optimization.py:158-166`, solved. -/
structure CoverageBest (P : Plan) (adv : Arc → Bool) (x : Vars) : Prop where
  feas : P.SiteFeasible adv x
  cost : P.CostConstraint 1 x
  best : ∀ z, P.SiteFeasible adv z → P.CostConstraint 1 z → P.coverageObjective x ≤ P.coverageObjective z

end Plan
end Verif
