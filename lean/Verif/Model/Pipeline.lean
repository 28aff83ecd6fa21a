import Verif.Model.Phases
import Verif.Model.Extract
import Verif.Model.PopProposal
import Verif.Model.RedPool
import Verif.Model.Redundancy
import Verif.Model.InterfExtract
import Verif.Model.Adversarial
import Verif.Model.Prepare

/-!
# The planning run: `optimization/topology_optimization.py:131-528`

The answers of the solver, the inputs computed for the interference phase, the maximum flows of the redundancy
heuristic and the sector search are parameters.
-/

namespace Verif

/-- What is seen of a call of the solver: the solution found, and whether `did_problem_timeout()` holds afterwards
(`network_optimization.py:220-238`). -/
structure Answer (α : Type) where
  found : Option α
  timedOut : Bool := false

/-- A solution of a planning problem: the variables, the flow after `prune_loops` and `common_bandwidth`. -/
structure Found (V : Type) where
  vars : V
  flow : Arc → ℚ
  common : Option ℚ := none

/-- Why a planning run ends with an exception. The first seven are the messages of `OptimizerException` in
`topology_optimization.py`; `raised` is any other exception. -/
inductive Halt
  | noPop
  | noDemand
  | costTimedOut
  | fewPops
  | costInfeasible
  | interfTimedOut
  | interfInfeasible
  | raised (e : Err)
  deriving DecidableEq, Repr

/-- The parameters that choose the phases, `configs.py`; `level = none` is `RedundancyLevel.NONE`. -/
structure RunParams extends OptParams where
  extraPops : Nat := 0
  maxHops : Option Nat := none
  legacy : Bool := false
  level : Option RedLevel := none
  ratio : ℚ := 0

/-- Everything outside the model that a planning run consults. -/
structure Outside where
  /-- Answer to the POP proposal problem. -/
  pops : Plan → Answer (Found Vars)
  /-- The id of the POP put on a DN. -/
  pid : SiteId → SiteId
  /-- Answer to the minimum cost problem. -/
  cost : Plan → Answer (Found Vars)
  /-- Number of wireless hops used as edge cost, see `Model/Adversarial.lean`. -/
  edgeCost : Topology → Link → Option Nat
  /-- Answer to the maximum coverage problem. -/
  coverage : Plan → List GEdge → Answer (Found Vars)
  /-- Maximum flows of the redundancy heuristic. -/
  maxFlow : HGraph → HNode → HEdge → ℚ
  /-- Pairs of DNs of the redundancy heuristic. -/
  pairs : Topology → List (SiteId × SiteId)
  /-- Answer to the redundancy problem: both solves. -/
  redundancy : Plan → RedParams → List (SiteId × SiteId) → Answer RVars
  /-- Violating link pairs and interfering signal levels, or the exception raised while computing them. -/
  interf : Topology → Except Err Interf
  /-- Answer to the interference problem, after the second solve if there is one. -/
  interference : Plan → Interf → Answer (Found IVars)
  /-- Device data and bearings. -/
  geo : Topology → Geometry
  /-- `find_best_sectors`. -/
  best : Topology → SiteId → List (List ℚ)

namespace Topology

/-- A topology and the reason the run was given up, if it was. -/
abbrev Phase := Topology × Option Halt

/-- The next phase runs if no exception was raised. -/
def Phase.next (r : Phase) (k : Topology → Option Phase) : Option Phase :=
  match r with
  | (t, some h) => some (t, some h)
  | (t, none) => k t

/-- An `Err` raised by a step of the run. -/
def Out.phase (o : Out) : Phase := (o.1, o.2.map Halt.raised)

/-- `pre_opt_check`, `topology_optimization.py:131-151`. -/
def preOptCheck (t : Topology) (extraPops : Nat) (uniform manual : Bool) : Option Halt :=
  if extraPops = 0 ∧ ¬ t.sites.vals.any (fun s => s.siteType == .pop) then some .noPop
  else if !uniform && !manual && !t.sites.vals.any (fun s => s.siteType == .cn) then some .noDemand
  else none

/-- `_run_propose_extra_pops_step`, `topology_optimization.py:261-305`. -/
def popStep (O : Outside) (p : RunParams) (t : Topology) : Option Phase :=
  if p.extraPops = 0 then
    some (t, if t.sites.vals.any (fun s => s.siteType == .pop) then none else some .noPop)
  else
    (Plan.popProposal t p.toOptParams).map fun r => match r with
      | .error e => (t, some (.raised e))
      | .ok P => match (O.pops P).found with
        | none => (t, none)
        | some f => match P.extract f.vars f.flow f.common with
          | .error e => (t, some (.raised e))
          | .ok none => (t, none)
          | .ok (some (sol, _)) => (t.addPopsOnDns O.pid (fun s => sol.site s == 1)).phase

/-- The values of `coverage_percentage`, `topology_optimization.py:212-226`, `COVERAGE_STEP_SIZE`, `COVERAGE_THRESHOLD`:
in floating point the loop runs for the same six values, up to rounding. -/
def coverages : List ℚ := [1, 9/10, 8/10, 7/10, 6/10, 5/10]

/-- `MinCostNetwork.solve` for one coverage and `did_problem_timeout`, `cost_optimization.py:54-118`,
`topology_optimization.py:221-225`. After an early exit there is no problem to time out: the earlier attempts, with
more demand to cover, exited early as well (demands are not negative). The problem left behind by
`maximize_common_bandwidth` is not modelled. -/
def costTry (O : Outside) (t : Topology) (p : OptParams) (c : ℚ) : Except Err (Option Solution × Bool) :=
  let P : Plan := ⟨t, { p with coverage := c }⟩
  if P.minCostExit then .ok (none, false)
  else match (O.cost P).found with
    | none => .ok (none, (O.cost P).timedOut)
    | some f => match P.extract f.vars f.flow f.common with
      | .error e => .error e
      | .ok none => .ok (none, (O.cost P).timedOut)
      | .ok (some (sol, _)) => .ok (some sol, (O.cost P).timedOut)

/-- The loop of `_run_min_cost_step`, `topology_optimization.py:215-226`, with `solution` and `timed_out` at the end. -/
def costLoop (attempt : ℚ → Except Err (Option Solution × Bool)) : List ℚ → Bool → Except Err (Option Solution × Bool)
  | [], timedOut => .ok (none, timedOut)
  | c :: rest, _ =>
    match attempt c with
    | .error e => .error e
    | .ok (some sol, b) => .ok (some sol, b)
    | .ok (none, b) => costLoop attempt rest b

/-- `max_throughput` of `_run_min_cost_step`, `topology_optimization.py:245-247`. A demand that is not set has been
rejected before (`setupErr`). -/
def plainDemand (t : Topology) : ℚ := (t.demandSites.vals.map fun d => d.demand.getD 0).sum

/-- `_run_min_cost_step`, `topology_optimization.py:207-258`. -/
def costStep (O : Outside) (p : OptParams) (t : Topology) : Option Phase :=
  match (Plan.mk t p).setupErr with
  | some e => some (t, some (.raised e))
  | none => match costLoop (costTry O t p) coverages false with
    | .error e => some (t, some (.raised e))
    | .ok (some sol, _) => (updateWithSolution sol t).map Out.phase
    | .ok (none, true) => some (t, some .costTimedOut)
    | .ok (none, false) =>
      if t.maxPopCapacity p.popCapacity StatusType.reachable < t.plainDemand * (1/2) then
        some (t, some .fewPops)
      else some (t, some .costInfeasible)

/-- `_run_max_coverage_step`, `topology_optimization.py:308-373`, `coverage_optimization.py:55-82`. -/
def coverageStep (O : Outside) (p : RunParams) (t : Topology) : Option Phase :=
  if p.budget - (t.computeCapex p.costs).2 ≤ 0 then some (t, none)
  else match t.adversarialLinks (O.edgeCost t) p.ratio with
    | .error e => some (t, some (.raised e))
    | .ok adv =>
      let P : Plan := ⟨t, p.toOptParams⟩
      match P.setupErr with
      | some e => some (t, some (.raised e))
      | none =>
        if p.budget ≤ 0 then some (t, none)
        else match (O.coverage P adv).found with
          | none => some (t, none)
          | some f => match P.extract f.vars f.flow f.common with
            | .error e => some (t, some (.raised e))
            | .ok none => some (t, none)
            | .ok (some (sol, _)) => (updateWithSolution sol t).map Out.phase

/-- `_run_redundancy_step`, `topology_optimization.py:376-479`. -/
def redundancyStep (O : Outside) (p : RunParams) (t : Topology) : Option Phase :=
  match p.level with
  | none => some (t, none)
  | some lv =>
    let r := RedParams.of lv
      (t.sites.vals.filter fun s => s.siteType == .pop && s.status.active).length
    match t.heurPool O.maxFlow (O.pairs t) 4 2 with
    | .error e => some (t, some (.raised e))
    | .ok edges =>
      let restr := t.redPool edges
      let P : Plan := ⟨t, p.toOptParams⟩
      match P.redErr (some restr) with
      | some e => some (t, some (.raised e))
      | none => match (O.redundancy P r restr).found with
        | none => some (t, none)
        | some x => (updateWithSolution (P.redSolution (some restr) x) t).map Out.phase

/-- `_run_interference_step`, `topology_optimization.py:482-528`, `interference_optimization.py:194-259`. -/
def interferenceStep (O : Outside) (p : OptParams) (t : Topology) : Option Phase :=
  match O.interf t with
  | .error e => some (t, some (.raised e))
  | .ok I =>
    let P : Plan := ⟨t, p⟩
    match P.setupErr with
    | some e => some (t, some (.raised e))
    | none =>
      if ¬ t.sites.vals.any (fun s => s.status.active) then some (t, some .interfInfeasible)
      else
        let none' : Option Phase :=
          some (t, some (if (O.interference P I).timedOut then .interfTimedOut else .interfInfeasible))
        match (O.interference P I).found with
        | none => none'
        | some f => match P.iExtract I.channels f.vars f.flow f.common with
          | .error e => some (t, some (.raised e))
          | .ok none => none'
          | .ok (some (sol, _)) => (updateWithSolution sol t).map Out.phase

/-- Step 2, `topology_optimization.py:185-191`. -/
def secondStep (O : Outside) (p : RunParams) (t : Topology) : Option Phase :=
  if p.legacy then coverageStep O p t else redundancyStep O p t

/-- `optimize_topology`, `topology_optimization.py:154-204`; `none` only if a hop loop did not finish. -/
def optimize (O : Outside) (p : RunParams) (t : Topology) : Option Phase :=
  let q : RunParams := { p with ignorePolarities := false }
  (popStep O p t.sort).bind fun r => r.next fun t =>
  ((t.markUnreachable p.maxHops).map Out.phase).bind fun r => r.next fun t =>
  (costStep O q.toOptParams t).bind fun r => r.next fun t =>
  (secondStep O q t).bind fun r => r.next fun t =>
  (interferenceStep O q.toOptParams t).bind fun r => r.next fun t =>
  some (t.readjust (O.geo t) (O.best t)).phase

end Topology
end Verif
