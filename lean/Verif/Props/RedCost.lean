import Verif.Props.RedSolve
import Verif.Props.Redundancy2

/-!
# The cost reported with the plan of the redundancy phase
-/

namespace Verif
open Topology Plan Spec

/-- C194. The cost reported with a redundancy plan is the cost of what the plan selects and does not
exist yet: sites at the price of their type and each node once, however many sectors it has. -/
theorem C194_redundancy_cost (ops : List Op) (p : OptParams) (restr : Option (List (SiteId × SiteId)))
    (x : RVars) :
    (Plan.mk (run {} ops) p).redCost restr x =
      planCost ⟨run {} ops, p⟩ ((Plan.mk (run {} ops) p).redSolution restr x) := by
  have inv : (Plan.mk (run {} ops) p).t.Inv := Inv.empty.run ops
  unfold redCost
  refine extractCost_eq inv _ ?_ ?_ ?_
  · intro s
    unfold redSolution
    dsimp only
    split
    · exact redDec_cases s
    · exact .inl rfl
  · intro k d hd
    unfold redSolution
    dsimp only at hd ⊢
    rw [hd]
    exact redDec_cases d.site
  · intro k k' d d' hd hd' e _
    unfold redSolution
    dsimp only at hd hd' ⊢
    rw [hd, hd']
    dsimp only
    rw [e]

/-- The protected network of `redDemo`, where new sites and nodes are paid for. -/
example : redDemoPlan.redErr none = none ∧ redDemoPlan.redCost none redDemoVars = 148 := by
  refine ⟨by decide +kernel, ?_⟩
  have h := C194_redundancy_cost redDemo redDemoParams none redDemoVars
  rw [show redDemoPlan = Plan.mk (run {} redDemo) redDemoParams from rfl, h]
  decide +kernel

end Verif
