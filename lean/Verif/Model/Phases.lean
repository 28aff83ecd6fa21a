import Verif.Model.Ilp
import Verif.Model.Capex

/-!
# Solving one planning phase: `optimization/ilp_models/cost_optimization.py`

The solver call is not modelled.
-/

namespace Verif
namespace Plan

/-- The early exit of `MinCostNetwork.solve`, `cost_optimization.py:69-84`: the
method returns `None` without building the problem. -/
def minCostExit (P : Plan) : Bool :=
  decide (P.t.maxPopCapacity P.p.popCapacity StatusType.reachable < P.maxThroughput * P.p.coverage)

end Plan
end Verif
