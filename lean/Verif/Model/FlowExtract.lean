import Verif.Model.MaxFlow
import Verif.Model.Prune

/-!
# The routing that the report uses: `extract_flow_solution`

`optimization/ilp_models/flow_optimization.py:233-268`. The answer of the solver is a
parameter: `none` for the statuses of `xpress_no_solution_statuses`, else the values of
the variables. Logging is not modelled.
-/

namespace Verif

/-- `FlowSolution`, `optimization/structs.py`. -/
structure FlowSolution where
  flow : Arc → ℚ
  tdm : Arc → ℚ
  buffer : ℚ
  connected : List Loc

namespace Plan

/-- `extract_flow_solution`, `flow_optimization.py:233-268`, with the fuel of
`pruneFlows`; `none` if it runs out. The assertion on the channel holds, as
`number_of_channels` is 1, lines 73 and `network_optimization.py:271-283`. -/
def extractFlow (P : Plan) (n : Nat) (conn : List Loc) (answer : Option (ℚ × Vars)) :
    Option (Option FlowSolution) :=
  match answer with
  | none => some none
  | some (b, x) => (pruneFlows n P.locations P.arcs x.flow).map fun g =>
      some { flow := g, tdm := fun e => x.tdm e 0, buffer := b, connected := conn }

end Plan
end Verif
