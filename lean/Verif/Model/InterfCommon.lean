import Verif.Model.InterfBest
import Verif.Model.Connected

/-!
# The interference phase with `maximize_common_bandwidth`

`conn` is `connected_demand_sites`; how it is found is in `Verif.Model.ConnInterf`. As in `Verif.Model.InterfBest`, solves
stopped early are not modelled.
-/

namespace Verif
namespace Plan

/-- The objective of `create_coverage_and_weighted_link_objective`, `interference_optimization.py:1064-1082`, with
`maximize_common_bandwidth` and `conn` not empty: `coverage_obj` is `-common_bandwidth`
(`network_optimization.py:824-827`) times `len(self.shortage)`, the number of demand locations. -/
def interfCommonObjective (P : Plan) (b : ℚ) (x : IVars) : ℚ :=
  P.maxThroughput * (-b * (P.demands.length : ℚ)) - P.weightedLinks x

/-- The first `self.problem.solve()` of `MinInterferenceNetwork.solve`, `interference_optimization.py:198-216`, with
`maximize_common_bandwidth` and `conn` not empty, solved. -/
structure InterfCommonBest (P : Plan) (I : Interf) (conn : List Loc) (x : IVars) (b : ℚ) : Prop where
  feas : P.InterfFeasible I x
  common : P.CommonBandwidth conn b x.toVars
  best : ∀ z c, P.InterfFeasible I z → P.CommonBandwidth conn c z.toVars →
    P.interfCommonObjective b x ≤ P.interfCommonObjective c z

/-- The assignment that `MinInterferenceNetwork.solve`, `interference_optimization.py:195-258`, hands to
`extract_solution` with `maximize_common_bandwidth`, and the value of `common_bandwidth` at that time.

* `kept`: the first solve found a common bandwidth other than 0.
* `again`: it is 0, and the problem is solved again without it (`:231-244`). Deleting the variable leaves the
  constraints `0 <= demand - shortage`, which the bounds of `shortage` imply, so this is the problem of `InterfBest`.
* `nothing`: no demand site is connectable. There is no variable, and `coverage_obj` is 0
  (`network_optimization.py:823-827`), so only links count. -/
inductive InterfSolved (P : Plan) (I : Interf) (conn : List Loc) : IVars → Option ℚ → Prop
  | kept {x b} : conn ≠ [] → P.InterfCommonBest I conn x b → b ≠ 0 → InterfSolved P I conn x (some b)
  | again {x y} : conn ≠ [] → P.InterfCommonBest I conn y 0 → P.InterfBest I x → InterfSolved P I conn x none
  | nothing {x} : conn = [] → P.InterfFeasible I x →
      (∀ z, P.InterfFeasible I z → -P.weightedLinks x ≤ -P.weightedLinks z) → InterfSolved P I conn x none

end Plan
end Verif
