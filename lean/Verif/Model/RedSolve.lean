import Verif.Model.Redundancy

/-!
# The two solves of the redundancy problem: `optimization/ilp_models/redundancy_optimization.py`

The solver is left out. A solve that ends without a time limit or gap is a value of the variables
that meets the constraints and minimises the objective; a solve stopped early is not modelled here.
-/

namespace Verif
namespace Plan

/-- `create_shortage_objective`, `redundancy_optimization.py:420-424`. -/
def redTotal (P : Plan) (x : RVars) : ℚ := (P.redDns.map x.shortage).sum

/-- `create_cost_objective`, `redundancy_optimization.py:392-418`: existing sites and sites
without a usable link are not counted; supersource and demand sites are not sites of `P.t`. -/
def redObj (P : Plan) (restr : Option (List (SiteId × SiteId))) (x : RVars) : ℚ :=
  ((P.t.sites.keys.filter fun s => P.redSite restr (.site s) && !P.isExisting s).map fun s =>
    P.siteCost s * x.site s + ((P.sectorsAt s).map fun k => P.sectorCost k * x.site s).sum).sum

/-- `shortage_solve`, `redundancy_optimization.py:426-466`, ran to the end and found `x`. -/
structure RedFirst (P : Plan) (r : RedParams) (restr : Option (List (SiteId × SiteId)))
    (x : RVars) : Prop where
  feas : P.RedFeasible r restr x
  best : ∀ z, P.RedFeasible r restr z → P.redTotal x ≤ P.redTotal z

/-- The second problem of `solve`, `redundancy_optimization.py:468-490`: the shortage of every DN
is the number found by the first solve (lines 199-216 with `shortage_decisions=False`). -/
def RedSecondFeasible (P : Plan) (r : RedParams) (restr : Option (List (SiteId × SiteId)))
    (x y : RVars) : Prop :=
  P.RedFeasible r restr y ∧ ∀ d ∈ P.redDns, y.shortage d = x.shortage d

/-- `solve`, `redundancy_optimization.py:468-517`, ran to the end: the first solve found `x`, the
second `y`. -/
structure RedSolved (P : Plan) (r : RedParams) (restr : Option (List (SiteId × SiteId)))
    (x y : RVars) : Prop where
  first : P.RedFirst r restr x
  feas : P.RedSecondFeasible r restr x y
  best : ∀ z, P.RedSecondFeasible r restr x z → P.redObj restr y ≤ P.redObj restr z

end Plan
end Verif
