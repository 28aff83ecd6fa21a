import Verif.Model.Extract

/-!
# The redundancy problem: `optimization/ilp_models/redundancy_optimization.py`

As in `Model/Ilp`, the solver is left out: an assignment of the variables is a value of `RVars`
and the constraints are predicates. `compute_candidate_edges_for_redundancy` (627-893) is left
out; its result is the parameter `restr`. The total shortage found by the first solve enters the
second one as constants; both solves have the same constraints, so one predicate serves both.
-/

namespace Verif

/-- `RedundancyParams`, `optimization/structs.py:108-111`. -/
structure RedParams where
  pop : Nat
  dn : Nat
  sink : Nat
  deriving DecidableEq, Repr

/-- `RedundancyLevel`, `common/configuration/enums.py`; `NONE` skips the phase. -/
inductive RedLevel
  | low
  | medium
  | high
  deriving DecidableEq, Repr

/-- Choice of the parameters, `topology_optimization.py:379-419`; `pops` is the number of active
POPs. -/
def RedParams.of (lv : RedLevel) (pops : Nat) : RedParams :=
  match lv with
  | .low => ⟨2, 2, 2⟩
  | .medium => if 1 < pops then ⟨1, 1, 2⟩ else ⟨2, 1, 2⟩
  | .high => if 1 < pops then ⟨2, 1, 4⟩ else ⟨3, 1, 3⟩

/-- The decision variables, `redundancy_optimization.py:145-216`: `flow d e` is the flow on link
`e` of the network flow problem for the DN `d`. -/
structure RVars where
  site : SiteId → ℚ
  odd : SiteId → ℚ
  flow : SiteId → Arc → ℚ
  shortage : SiteId → ℚ

namespace Plan

/-- `location_to_type[loc] in super_dist_site_types`, `redundancy_optimization.py:86-90`. -/
def superDist (P : Plan) : Loc → Bool
  | .source => true
  | l => P.isDist l

/-- `self.dns`, `redundancy_optimization.py:77-82`. -/
def redDns (P : Plan) : List SiteId :=
  P.t.sites.keys.filter fun s => P.isActive s && P.siteType? (.site s) == some .dn

/-- `self.restricted_links`, `redundancy_optimization.py:87-98`; `restr` is the argument
`restricted_links`. -/
def redArcs (P : Plan) (restr : Option (List (SiteId × SiteId))) : List Arc :=
  P.arcs.filter fun e => decide (0 < P.cap e) && P.superDist e.1 && P.superDist e.2 &&
    (restr.isNone || e.1 == .source || e.2 == .source ||
      match e with
      | (.site a, .site b) => (restr.getD []).contains (a, b)
      | _ => false)

/-- `loc in self.restricted_sites`, `redundancy_optimization.py:99-101`. -/
def redSite (P : Plan) (restr : Option (List (SiteId × SiteId))) (l : Loc) : Bool :=
  (P.redArcs restr).any fun e => e.1 == l || e.2 == l

/-- `RedundantNetwork.__init__`, `redundancy_optimization.py:60-106`: the exception raised, if any. -/
def redErr (P : Plan) (restr : Option (List (SiteId × SiteId))) : Option Err :=
  match P.setupErr with
  | some e => some e
  | none => if P.redDns.all fun s => P.redSite restr (.site s) then none else some .optimizer

/-- The links of `_get_incoming_flow`, `redundancy_optimization.py:276-290`. -/
def redIn (P : Plan) (restr : Option (List (SiteId × SiteId))) (l : Loc) : List Arc :=
  (P.incoming l).filter fun e => (P.redArcs restr).contains e

/-- The links of `_get_outgoing_flow`, `redundancy_optimization.py:293-307`. -/
def redOut (P : Plan) (restr : Option (List (SiteId × SiteId))) (l : Loc) : List Arc :=
  (P.outgoing l).filter fun e => (P.redArcs restr).contains e

/-- `cap` of `create_flow_site_relationship`, `redundancy_optimization.py:320-326`, for the
flow of DN `d`. -/
def redCap (P : Plan) (r : RedParams) (d : SiteId) (l : Loc) : ℚ :=
  if P.isPop l then r.pop else if l = .site d then r.sink else r.dn

/-- The constraints of `setup_problem_skeleton`, `redundancy_optimization.py:118-390`. -/
structure RedFeasible (P : Plan) (r : RedParams) (restr : Option (List (SiteId × SiteId)))
    (x : RVars) : Prop where
  /-- Binary variables, 145-173. -/
  site : ∀ s ∈ P.t.sites.keys, P.redSite restr (.site s) = true → x.site s = 0 ∨ x.site s = 1
  odd : P.p.ignorePolarities = false → ∀ s ∈ P.t.sites.keys, P.redSite restr (.site s) = true →
    P.isDist (.site s) = true → x.odd s = 0 ∨ x.odd s = 1
  /-- Bounds of the flow variables, 175-197. -/
  flow : ∀ d ∈ P.redDns, ∀ e ∈ P.redArcs restr, 0 ≤ x.flow d e ∧
    x.flow d e ≤ if e.1 = .source ∨ e.2 = .source then (r.pop : ℚ) else 1
  /-- Bounds of the shortage, 199-216. -/
  shortage : ∀ d ∈ P.redDns, 0 ≤ x.shortage d ∧ x.shortage d ≤ r.sink
  /-- `create_decided_site_constraints`, 218-235. -/
  decided : ∀ s ∈ P.t.sites.keys, P.redSite restr (.site s) = true →
    if P.isActive s = true then x.site s = 1
    else if P.isInactive s = true then x.site s = 0
    else if P.isPop (.site s) = true then x.site s = 0
    else True
  /-- `create_inactive_link_flow_constraints`, 237-247. -/
  inactive : ∀ e ∈ P.redArcs restr, P.inactiveArc e = true → ∀ d ∈ P.redDns, x.flow d e = 0
  /-- `create_colocated_site_relationship`, 249-268; an empty sum adds no constraint. -/
  colocated : ∀ locs ∈ P.t.colocated.vals,
    ((locs.filter fun s => P.isDist (.site s) && P.redSite restr (.site s)).map x.site).sum ≤ 1
  /-- `create_flow_site_relationship`, 309-334; no link enters the supersource. -/
  flowSite : ∀ l ∈ P.locations, P.redSite restr l = true → ∀ d ∈ P.redDns, P.redIn restr l ≠ [] →
    ((P.redIn restr l).map (x.flow d)).sum ≤ P.redCap r d l *
      match l with
      | .site s => x.site s
      | _ => 1
  /-- `create_flow_balance_with_shortage`, 336-364. -/
  balance : ∀ l ∈ P.locations, P.redSite restr l = true → ∀ d ∈ P.redDns,
    (P.redIn restr l ≠ [] ∨ P.redOut restr l ≠ []) →
    let net := ((P.redIn restr l).map (x.flow d)).sum - ((P.redOut restr l).map (x.flow d)).sum
    if l = .source then x.shortage d - r.sink ≤ net
    else if l = .site d then r.sink - x.shortage d ≤ net
    else net = 0
  /-- `create_flow_polarity_constraints`, 366-400. -/
  polarity : P.p.ignorePolarities = false → ∀ a b, (Loc.site a, Loc.site b) ∈ P.redArcs restr →
    P.isWired (.site a, .site b) = false →
    if P.inputActive (.site a, .site b) = true then x.odd a = 1 - x.odd b
    else ∀ d ∈ P.redDns, x.flow d (.site a, .site b) ≤ x.odd a + x.odd b ∧
      x.flow d (.site a, .site b) ≤ 2 - x.odd a - x.odd b

/-- `site_decisions[loc]` of a DN or POP, `redundancy_optimization.py:533-535, 565-572`. -/
def redDist (P : Plan) (restr : Option (List (SiteId × SiteId))) (x : RVars) (s : SiteId) : Int :=
  if P.redSite restr (.site s) then bin (x.site s) else if P.keptActive s then 1 else 0

/-- The other sites of `colocated_locations[geoloc]` and the site itself. -/
def group (P : Plan) (s : SiteId) : List SiteId :=
  match P.t.sites.get? s with
  | some y => (P.t.colocated.get? y.point).getD []
  | none => []

/-- `site_decisions`, `redundancy_optimization.py:533-572`. The loop visits the sites in
dictionary order, so the decision of a DN or POP without variable is seen from a co-located
CN only if it comes first. -/
def redDec (P : Plan) (restr : Option (List (SiteId × SiteId))) (x : RVars) (s : SiteId) : Int :=
  if P.isDist (.site s) then P.redDist restr x s
  else if !P.keptActive s then 0
  else if (P.group s).length ≤ 1 then 1
  else if (P.group s).any (fun c => P.isDist (.site c) &&
      (P.redSite restr (.site c) || (P.t.sites.keys.takeWhile (· ≠ s)).contains c) &&
      P.redDist restr x c == 1) then 0
  else 1

/-- `odd_site_decisions[loc]` before unselected sites are cleared,
`redundancy_optimization.py:574-591`; `site_polarities` has active sites only, see `getSitePolarities`. -/
def redOddRaw (P : Plan) (restr : Option (List (SiteId × SiteId))) (x : RVars) (s : SiteId) : Int :=
  if P.redSite restr (.site s) then bin (x.odd s)
  else if P.redDec restr x s = 1 ∧ (P.t.sites.get? s).any (fun y => y.status.active && y.polarity == .odd) then 1 else 0

/-- `odd_site_decisions.get(loc, 0)`, `redundancy_optimization.py:593-599`. -/
def redOdd (P : Plan) (restr : Option (List (SiteId × SiteId))) (x : RVars) (s : SiteId) : Int :=
  if P.p.ignorePolarities || !P.isDist (.site s) || P.redDec restr x s = 0 then 0
  else P.redOddRaw restr x s

/-- `even_site_decisions.get(loc, 0)`, same lines. -/
def redEven (P : Plan) (restr : Option (List (SiteId × SiteId))) (x : RVars) (s : SiteId) : Int :=
  if P.p.ignorePolarities || !P.isDist (.site s) || P.redDec restr x s = 0 then 0
  else 1 - P.redOddRaw restr x s

/-- `sector_decisions.get((loc, sec), 0)`, `get_sector_decisions_from_sites`,
`site_optimization.py:219-235`. -/
def redSector (P : Plan) (restr : Option (List (SiteId × SiteId))) (x : RVars) (s : SiteId)
    (k : SectorId) : Int :=
  if (P.t.sectors.get? k).any (fun d => d.site == s) then P.redDec restr x s else 0

/-- `_compatible_polarity`, `site_optimization.py:184-217`. -/
def redPolOk (P : Plan) (restr : Option (List (SiteId × SiteId))) (x : RVars) (a b : SiteId) : Bool :=
  P.p.ignorePolarities || P.inputActive (.site a, .site b) || P.isWired (.site a, .site b) ||
  !(P.isDist (.site a) && P.isDist (.site b)) || P.redOdd restr x a != P.redOdd restr x b

/-- The conditions of `site_optimization.py:256-276`. -/
def redCand (P : Plan) (restr : Option (List (SiteId × SiteId))) (x : RVars) (a b : SiteId) : Bool :=
  !P.inactiveArc (.site a, .site b) && decide (0 < P.cap (.site a, .site b)) &&
  P.redPolOk restr x a b && P.redDec restr x a == 1 && P.redDec restr x b == 1

/-- `link_decisions[(a, b)] == 1`, `site_optimization.py:255-300`. -/
def redLink (P : Plan) (restr : Option (List (SiteId × SiteId))) (x : RVars) (a b : SiteId) : Bool :=
  P.redCand restr x a b &&
  (P.isWired (.site a, .site b) ||
    ((P.txSector (.site a, .site b)).any (fun k => P.redSector restr x a k == 1) &&
     (P.rxSector (.site a, .site b)).any (fun k => P.redSector restr x b k == 1)))

/-- The decisions returned by `extract_redundancy_solution`, `redundancy_optimization.py:519-626`.
The assertion of `site_optimization.py:284-288` cannot fail: a wireless link without sectors is in
`inactive_links`. -/
def redSolution (P : Plan) (restr : Option (List (SiteId × SiteId))) (x : RVars) : Solution where
  site s := if P.t.sites.has s then P.redDec restr x s else 0
  odd := P.redOdd restr x
  even := P.redEven restr x
  sector k := match P.t.sectors.get? k with
    | some d => P.redDec restr x d.site
    | none => 0
  channel k := match P.t.sectors.get? k with
    | some d => if P.redDec restr x d.site = 1 then 0 else -1
    | none => -1
  link id := if P.arcs.contains (.site id.tx, .site id.rx) && P.redLink restr x id.tx id.rx then 1 else 0

/-- `cost` of the returned solution, `redundancy_optimization.py:611`. -/
def redCost (P : Plan) (restr : Option (List (SiteId × SiteId))) (x : RVars) : ℚ :=
  P.extractCost (fun s => ((P.redSolution restr x).site s : ℚ))
    (fun k => ((P.redSolution restr x).sector k : ℚ))

end Plan
end Verif
