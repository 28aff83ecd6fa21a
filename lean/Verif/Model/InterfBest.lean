import Verif.Model.Interf
import Verif.Model.Rf

/-!
# What the solver is asked to minimise in the interference phase

Without `maximize_common_bandwidth`. A solve that ends without time limit or gap is an assignment that meets the
constraints and is best; solves stopped early are not modelled.
-/

namespace Verif
namespace Plan

/-- `maximum_distance`, `optimization_setup.py:186-191`. -/
def maxDistance (P : Plan) : ℚ := (pyMax (P.t.links.vals.map (·.distance))).getD 1

/-- `link_weights[(i, j)]`, `optimization_setup.py:193-196, 229-231, 291-293, 317-322`. -/
def linkWeight (P : Plan) (e : Arc) : ℚ :=
  match P.linkOf e with
  | some l =>
    if l.sectors.isNone || decide (P.maxDistance = 0) then 1
    else 1 + (P.maxDistance - l.distance) / P.maxDistance
  | none => 1

/-- `weighted_number_of_links`, `interference_optimization.py:1072-1077`. -/
def weightedLinks (P : Plan) (x : IVars) : ℚ :=
  ((P.arcs.filter P.hasActive).map fun e => P.linkWeight e * x.active e).sum

/-- `create_coverage_and_weighted_link_objective`, `interference_optimization.py:1064-1082`, with
`_create_coverage_objective_expr`, `network_optimization.py:822-832`. -/
def interfObjective (P : Plan) (x : IVars) : ℚ :=
  P.maxThroughput * (P.demands.map x.shortage).sum - P.weightedLinks x

/-- The problem of `MinInterferenceNetwork.solve`, `interference_optimization.py:195-222`, solved. -/
structure InterfBest (P : Plan) (I : Interf) (x : IVars) : Prop where
  feas : P.InterfFeasible I x
  best : ∀ z, P.InterfFeasible I z → P.interfObjective x ≤ P.interfObjective z

end Plan
end Verif
