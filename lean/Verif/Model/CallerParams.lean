import Verif.Model.Pipeline

/-!
# What a planning run leaves in the parameters of the caller

`optimize_topology` and two constructors assign to the `OptimizerParams` they are given. All other assignments are to the
copy made in `optimization_setup.py:109` (`deepcopy`), which the caller does not see.
-/

namespace Verif

/-- The fields of `OptimizerParams` that are assigned to, `configs.py`. -/
structure Flags where
  ignorePolarities : Bool
  alwaysActivePops : Bool
  common : Bool
  deriving DecidableEq, Repr

namespace Topology

/-- The parameters after `_run_propose_extra_pops_step`, `topology_optimization.py:261-305`, with
`POPProposalNetwork.__init__`, `pop_proposal_optimization.py:189-209`: an exception of `super().__init__` skips the lines that
restore them; one of `_compute_access_candidate_topology` comes before they are changed. -/
def popFlags (p : RunParams) (t : Topology) (f : Flags) : Flags :=
  if p.extraPops = 0 then f
  else match t.accessTopology with
    | some (a, none) =>
      let g : Flags := ⟨true, false, false⟩
      match (Plan.mk a { p.toOptParams with ignorePolarities := true, alwaysActivePops := false }).setupErr with
      | some _ => g
      | none => f
    | _ => f

/-- The parameters after step 2, `topology_optimization.py:185-191, 419-443`, with `RedundantNetwork.__init__`,
`redundancy_optimization.py:67-75`: as in `popFlags`. -/
def redFlags (O : Outside) (p : RunParams) (t : Topology) (f : Flags) : Flags :=
  if p.legacy then f
  else match p.level with
    | none => f
    | some _ => match t.heurPool O.maxFlow (O.pairs t) 4 2 with
      | .error _ => f
      | .ok _ => match (Plan.mk t p.toOptParams).setupErr with
        | some _ => { f with common := false }
        | none => f

/-- The parameters after `optimize_topology`, `topology_optimization.py:154-204`; `common` is
`maximize_common_bandwidth` before the call. The interference phase changes its copy only
(`interference_optimization.py:235`). `none` only if a hop loop did not finish. -/
def optimizeLeaves (O : Outside) (p : RunParams) (common : Bool) (t : Topology) : Option Flags :=
  let f : Flags := popFlags p t.sort ⟨p.ignorePolarities, p.alwaysActivePops, common⟩
  let q : RunParams := { p with ignorePolarities := false }
  let g : Flags := { f with ignorePolarities := false }
  (popStep O p t.sort).bind fun r => match r with
  | (_, some _) => some f
  | (t, none) => (t.markUnreachable p.maxHops).bind fun r => match r with
    | (_, some _) => some f
    | (t, none) => (costStep O q.toOptParams t).bind fun r => match r with
      | (_, some _) => some g
      | (t, none) => some (redFlags O q t g)

end Topology
end Verif
