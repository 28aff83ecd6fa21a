import Verif.Model.Prepare
import Verif.Model.Counter
import Verif.Model.Rf
import Mathlib.Algebra.BigOperators.Group.List.Basic

/-!
# The planning problem: `optimization/ilp_models/optimization_setup.py`,
`network_optimization.py`, `site_optimization.py`, `cost_optimization.py`,
`coverage_optimization.py`, `flow_optimization.py`

The decision variables of the Xpress problem are the fields of `Vars`; each
`create_*` method that adds constraints is a predicate over an assignment. The
solver itself is not modelled: theorems are about every assignment that
satisfies the constraints exactly (Xpress accepts violations up to its
feasibility tolerance).

Location names are the constructors of `Loc`: the strings `SUPERSOURCE`, site
ids, demand ids and `demand_id + "_" + str(k)` are assumed not to clash. The
imaginary sectors `site + "_super"` and `site + "_demand"` carry no variable and
are left out; link weights, azimuths and device SKUs occur in no constraint
modelled here and are left out.
-/

namespace Verif

/-- Element of `locations`: the supersource, a site, or copy `k` of a demand
site, `optimization_setup.py:198-202, 212, 274-283`. -/
inductive Loc
  | source
  | site (id : SiteId)
  | demand (id : DemandId) (k : Nat)
  deriving DecidableEq, Repr

/-- Element of `links`: an ordered pair of locations. -/
abbrev Arc := Loc × Loc

/-- The part of `OptimizerParams` read by the constraints, `configs.py:530-760`. -/
structure OptParams where
  popCapacity : ℚ
  oversubscription : ℚ := 1
  ignorePolarities : Bool := false
  alwaysActivePops : Bool := true
  costs : SiteCosts
  budget : ℚ := 0
  coverage : ℚ := 1

/-- An `OptimizationSetup` object. -/
structure Plan where
  t : Topology
  p : OptParams

namespace Plan

/-- The copies of the demand sites, `optimization_setup.py:263-277`. -/
def copies (P : Plan) : List (DemandId × Nat × DemandSite) :=
  P.t.demandSites.flatMap fun e => (List.range e.2.numSites).map fun k => (e.1, k, e.2)

/-- Locations of type `DEMAND` in the order of `locations`. -/
def demands (P : Plan) : List Loc := P.copies.map fun c => Loc.demand c.1 c.2.1

/-- `self.locations`, `optimization_setup.py:199-212, 283`. -/
def locations (P : Plan) : List Loc := .source :: (P.t.sites.keys.map Loc.site ++ P.demands)

/-- `demand_at_location`, `optimization_setup.py:211, 279-282`. -/
def demandAt (P : Plan) : Loc → ℚ
  | .demand id _ =>
    match P.t.demandSites.get? id with
    | some d => d.demand.getD 0 / P.p.oversubscription
    | none => 0
  | _ => 0

/-- `location_to_type[loc]` for a real site. -/
def siteType? (P : Plan) : Loc → Option SiteType
  | .site s => (P.t.sites.get? s).map (·.siteType)
  | _ => none

/-- `location_to_type[loc] in SiteType.dist_site_types()`. -/
def isDist (P : Plan) (l : Loc) : Bool := (P.siteType? l).any SiteType.isDist

/-- `loc in type_sets[SiteType.POP]`. -/
def isPop (P : Plan) (l : Loc) : Bool := P.siteType? l == some .pop

/-- `max_link_cap`, `optimization_setup.py:258-262`. -/
def maxLinkCap (P : Plan) : ℚ :=
  if P.t.links = [] then P.p.popCapacity
  else Topology.listMax (P.t.links.vals.map (·.capacity))

/-- Supersource links, `optimization_setup.py:215-228`. -/
def sourceArcs (P : Plan) : List (Arc × ℚ) :=
  (P.t.sites.filter fun e => e.2.siteType == .pop).map fun e =>
    ((.source, .site e.1), P.p.popCapacity)

/-- Links to the demand copies, `optimization_setup.py:288-290`. -/
def demandArcs (P : Plan) : List (Arc × ℚ) :=
  P.copies.flatMap fun c => c.2.2.connected.map fun s =>
    ((.site s, .demand c.1 c.2.1), P.maxLinkCap)

/-- Links of the topology, `optimization_setup.py:307-316`. -/
def linkArcs (P : Plan) : List (Arc × ℚ) :=
  P.t.links.vals.map fun l => ((.site l.tx, .site l.rx), l.capacity)

/-- `link_capacities`. -/
def caps (P : Plan) : Dict Arc ℚ := Dict.ofList (P.sourceArcs ++ P.demandArcs ++ P.linkArcs)

/-- `links`, `optimization_setup.py:360`. -/
def arcs (P : Plan) : List Arc := P.caps.keys

/-- `link_capacities[(i, j)]`. -/
def cap (P : Plan) (e : Arc) : ℚ := (P.caps.get? e).getD 0

/-- `incoming_links[loc]`, `optimization_setup.py:361-369`. -/
def incoming (P : Plan) (l : Loc) : List Arc := P.arcs.filter fun e => e.2 = l

/-- `outgoing_links[loc]`, `optimization_setup.py:362-370`. -/
def outgoing (P : Plan) (l : Loc) : List Arc := P.arcs.filter fun e => e.1 = l

/-- The topology link behind an arc. The code scans `topology.links.values()`
for the two ends; the dictionary is keyed by them (C01). -/
def linkOf (P : Plan) : Arc → Option Link
  | (.site a, .site b) => P.t.links.get? ⟨a, b⟩
  | _ => none

/-- Both ends are real sites, i.e. not of a type in `IMAGINARY_SITE_TYPES`. -/
def real : Arc → Bool
  | (.site _, .site _) => true
  | _ => false

/-- `(i, j) in wired_links`, `optimization_setup.py:336-354`. -/
def isWired (P : Plan) : Arc → Bool
  | (.source, _) => true
  | (_, .demand _ _) => true
  | e => (P.linkOf e).any fun l => !l.isWireless

/-- `(i, j, c) in tdm` for `c < number_of_channels`, `network_optimization.py:271-283`. -/
def hasTdm (P : Plan) (e : Arc) : Bool := real e && !P.isWired e

/-- `(i, j) in proposed_links | existing_links`, `optimization_setup.py:138-143`. -/
def inputActive (P : Plan) (e : Arc) : Bool := (P.linkOf e).any fun l => l.status.active

/-- `(i, j) in inactive_links`, `optimization_setup.py:144-147`. -/
def inactiveArc (P : Plan) (e : Arc) : Bool :=
  (P.linkOf e).any fun l => l.status.inactive || (l.isWireless && l.sectors.isNone)

/-- `link_to_sectors[(i, j)][0]`, `None` for imaginary sectors. -/
def txSector (P : Plan) (e : Arc) : Option SectorId := ((P.linkOf e).bind (·.sectors)).map (·.1)

/-- `link_to_sectors[(i, j)][1]`, `None` for imaginary sectors. -/
def rxSector (P : Plan) (e : Arc) : Option SectorId := ((P.linkOf e).bind (·.sectors)).map (·.2)

/-- Status of a site. -/
def statusOf (P : Plan) (s : SiteId) : Option StatusType := P.t.siteStatus s

/-- `loc in existing_sites`. -/
def isExisting (P : Plan) (s : SiteId) : Bool := P.statusOf s == some .existing

/-- `loc in proposed_sites | existing_sites`. -/
def isActive (P : Plan) (s : SiteId) : Bool := (P.statusOf s).any StatusType.active

/-- `loc in inactive_sites`. -/
def isInactive (P : Plan) (s : SiteId) : Bool := (P.statusOf s).any StatusType.inactive

/-- `max_throughput`, `network_optimization.py:57-61`. -/
def maxThroughput (P : Plan) : ℚ := (P.demands.map P.demandAt).sum

/-- Demand loop of `set_up_topology_input`, `optimization_setup.py:263-282`. -/
def demandErr (P : Plan) (d : DemandSite) : Option Err :=
  match d.demand with
  | none => some .optimizer
  | some q =>
    if q < 0 then some .optimizer
    else if d.numSites < 1 then some .planner
    else if P.p.oversubscription = 0 then some .zeroDivision
    else none

/-- `OptimizationSetup.__init__` and `NetworkOptimization.__init__`,
`optimization_setup.py:105-118, 267-273, 310, 368-370`,
`network_optimization.py:49-52, 85-122`: the exception raised, if any. -/
def setupErr (P : Plan) : Option Err :=
  if P.t.validateStatus.isSome then P.t.validateStatus
  else match P.t.demandSites.vals.findSome? P.demandErr with
  | some e => some e
  | none =>
    if P.t.links.vals.any (fun l => l.tx == l.rx) then some .planner
    else if P.arcs.any (fun e => !(P.locations.contains e.1 && P.locations.contains e.2)) then
      some .keyError
    else if !(P.t.popIds (fun _ => true)).any
        (fun s => ((P.outgoing (.site s)).map P.cap).sum > 0) then some .optimizer
    else if !P.t.demandSites.vals.any (fun d => d.connected.any
        (fun s => ((P.incoming (.site s)).map P.cap).sum > 0)) then some .optimizer
    else none

end Plan

/-- An assignment of the decision variables, `network_optimization.py:240-341`;
only the entries for which the code creates a variable are constrained. -/
structure Vars where
  site : SiteId → ℚ
  sector : SectorId → Nat → ℚ
  flow : Arc → ℚ
  tdm : Arc → Nat → ℚ
  odd : SiteId → ℚ
  shortage : Loc → ℚ

namespace Plan

/-- `(i, a, c) in sector_vars`, `network_optimization.py:328-340`; with one
channel this is also the key set of `site_optimization.py:151-156`. -/
def hasSector (P : Plan) (n : Nat) (k : SectorId) (c : Nat) : Bool :=
  (P.t.sectors.get? k).any fun x => decide (c < if x.typ = .dn then n else 1)

/-- Sum of the flow variables of incoming links, `network_optimization.py:535-546`. -/
def inFlow (P : Plan) (f : Arc → ℚ) (l : Loc) : ℚ := ((P.incoming l).map f).sum

/-- Sum of the flow variables of outgoing links, `network_optimization.py:548-558`. -/
def outFlow (P : Plan) (f : Arc → ℚ) (l : Loc) : ℚ := ((P.outgoing l).map f).sum

/-- `xp.Sum(self.tdm[(i, j, channel)] for channel in range(...))`. -/
def tdmSum (n : Nat) (x : Vars) (e : Arc) : ℚ := ((List.range n).map fun c => x.tdm e c).sum

/-- Variable types and bounds, `network_optimization.py:243-313`. -/
structure Bounds (P : Plan) (n : Nat) (x : Vars) : Prop where
  site : ∀ s ∈ P.t.sites.keys, x.site s = 0 ∨ x.site s = 1
  flow : ∀ e ∈ P.arcs, 0 ≤ x.flow e
  tdm : ∀ e ∈ P.arcs, P.hasTdm e = true → ∀ c < n, 0 ≤ x.tdm e c ∧ x.tdm e c ≤ 1
  odd : P.p.ignorePolarities = false → ∀ s, P.isDist (.site s) = true → x.odd s = 0 ∨ x.odd s = 1
  shortage : ∀ l ∈ P.demands, 0 ≤ x.shortage l ∧ x.shortage l ≤ P.demandAt l

/-- `_get_rhs_for_flow_balance`, `network_optimization.py:576-591`. -/
def balanceRhs (P : Plan) (x : Vars) : Loc → ℚ
  | .source => -P.maxThroughput + (P.demands.map x.shortage).sum
  | .site _ => 0
  | .demand i k => P.demandAt (.demand i k) - x.shortage (.demand i k)

/-- `create_flow_balance_with_shortage`, `network_optimization.py:560-574, 611-619`: no
constraint for a location without links. -/
def FlowBalance (P : Plan) (x : Vars) : Prop :=
  ∀ l ∈ P.locations, (P.incoming l ≠ [] ∨ P.outgoing l ≠ []) →
    P.inFlow x.flow l - P.outFlow x.flow l = P.balanceRhs x l

/-- `site_var` of `create_flow_site_relationship`, 1 for imaginary locations. -/
def siteVar (x : Vars) : Loc → ℚ
  | .site s => x.site s
  | _ => 1

/-- `create_flow_site_relationship`, `network_optimization.py:593-609`. `m` is
`max_throughput`, which `MaxFlowNetwork` overwrites. -/
def FlowSite (P : Plan) (m : ℚ) (x : Vars) : Prop :=
  ∀ l ∈ P.locations, (P.incoming l ≠ [] → P.inFlow x.flow l ≤ m * siteVar x l) ∧
    (P.outgoing l ≠ [] → P.outFlow x.flow l ≤ m * siteVar x l)

/-- `create_tdm_flow_relationship`, `network_optimization.py:477-495`; `cap` is
`link_capacities`. -/
def TdmFlow (P : Plan) (cap : Arc → ℚ) (m : ℚ) (n : Nat) (x : Vars) : Prop :=
  ∀ e ∈ P.arcs, if P.hasTdm e = true ∧ 0 < n then x.flow e ≤ cap e * tdmSum n x e
    else x.flow e ≤ min (cap e) m

/-- Outgoing arcs of a site that use sector `k` and have a time share. -/
def txArcs (P : Plan) (s : SiteId) (k : SectorId) : List Arc :=
  (P.outgoing (.site s)).filter fun e => P.txSector e = some k && P.hasTdm e

/-- Incoming arcs of a site that use sector `k` and have a time share. -/
def rxArcs (P : Plan) (s : SiteId) (k : SectorId) : List Arc :=
  (P.incoming (.site s)).filter fun e => P.rxSector e = some k && P.hasTdm e

/-- `create_tdm_sector_relationship`, `network_optimization.py:427-462`. -/
def TdmSector (P : Plan) (n : Nat) (x : Vars) : Prop :=
  ∀ k d, P.t.sectors.get? k = some d → d.site ∈ P.t.sites.keys →
    ∀ c < n, P.hasSector n k c = true →
      (P.txArcs d.site k ≠ [] →
        ((P.txArcs d.site k).map fun e => x.tdm e c).sum ≤ x.sector k c) ∧
      (P.rxArcs d.site k ≠ [] →
        ((P.rxArcs d.site k).map fun e => x.tdm e c).sum ≤ x.sector k c)

/-- `create_pop_load_constraints`, `network_optimization.py:464-475`. -/
def PopLoad (P : Plan) (x : Vars) : Prop :=
  ∀ s ∈ P.t.sites.keys, P.isPop (.site s) = true → P.outgoing (.site s) ≠ [] →
    P.outFlow x.flow (.site s) ≤ P.p.popCapacity

/-- `create_tdm_polarity_relationship`, `network_optimization.py:497-532`. -/
def TdmPolarity (P : Plan) (n : Nat) (x : Vars) : Prop :=
  P.p.ignorePolarities = false → ∀ a b, (Loc.site a, Loc.site b) ∈ P.arcs →
    P.inputActive (.site a, .site b) = false → P.isWired (.site a, .site b) = false →
    P.isDist (.site a) = true → P.isDist (.site b) = true →
    tdmSum n x (.site a, .site b) ≤ x.odd a + x.odd b ∧
    tdmSum n x (.site a, .site b) ≤ 2 - x.odd a - x.odd b

/-- `create_active_link_polarity_constraints`, `network_optimization.py:877-887`. -/
def ActivePolarity (P : Plan) (x : Vars) : Prop :=
  P.p.ignorePolarities = false → ∀ a b, (Loc.site a, Loc.site b) ∈ P.arcs →
    P.inputActive (.site a, .site b) = true →
    P.isDist (.site a) = true → P.isDist (.site b) = true → x.odd a = 1 - x.odd b

/-- `create_inactive_link_flow_constraints`, `network_optimization.py:889-893`. -/
def InactiveFlow (P : Plan) (x : Vars) : Prop :=
  ∀ e ∈ P.arcs, P.inactiveArc e = true → x.flow e = 0

/-- `input_active_sites` of `create_colocated_site_relationship`,
`network_optimization.py:652-662`. -/
def forcedSite (P : Plan) (s : SiteId) : Bool :=
  P.isActive s ||
  P.t.links.vals.any (fun l => l.status.active && (l.tx == s || l.rx == s)) ||
  (P.p.alwaysActivePops && P.isPop (.site s) && !P.isInactive s)

/-- `max_site_type`, `network_optimization.py:626-632`. -/
def maxType (P : Plan) (sites : List SiteId) : SiteType :=
  sites.foldl (fun m s => match P.siteType? (.site s) with
    | some .dn => if m = .pop then m else .dn
    | some .pop => .pop
    | _ => m) .cn

/-- `valid_site_types`, `network_optimization.py:636-644`. -/
def validTypes : SiteType → List SiteType
  | .cn => [.cn, .dn, .pop]
  | .dn => [.dn]
  | .pop => [.pop]

/-- `invalid_sites`, `network_optimization.py:694-702`. -/
def invalidSites (P : Plan) (m : SiteType) (locs : List SiteId) : List SiteId :=
  locs.filter fun s => !((P.siteType? (.site s)).any fun ty => (validTypes m).contains ty) ||
    (P.siteType? (.site s) == some m && !P.forcedSite s)

/-- `create_colocated_site_relationship`, `network_optimization.py:648-704`. -/
def Colocated (P : Plan) (x : Vars) : Prop :=
  ∀ locs ∈ P.t.colocated.vals, 1 < locs.length →
    if locs.filter P.forcedSite = [] then (locs.map x.site).sum ≤ 1
    else (locs.map x.site).sum = 1 ∧
      ((P.invalidSites (P.maxType (locs.filter P.forcedSite)) locs).map x.site).sum = 0

/-- Size of `colocated_locations.get(location_to_geoloc[loc], [])`. -/
def groupSize (P : Plan) (s : SiteId) : Nat :=
  match P.t.sites.get? s with
  | some x => ((P.t.colocated.get? x.point).getD []).length
  | none => 0

/-- `create_decided_site_constraints`, `network_optimization.py:843-875`. -/
def DecidedSites (P : Plan) (x : Vars) : Prop :=
  ∀ s ∈ P.t.sites.keys,
    if (P.p.alwaysActivePops && P.isPop (.site s)) = true then
      P.isInactive s = false → P.groupSize s ≤ 1 → x.site s = 1
    else if P.isActive s = true then P.groupSize s ≤ 1 → x.site s = 1
    else P.isInactive s = true → x.site s = 0

/-- `create_sector_decisions` of `SiteOptimization`: the sector variable is the
site variable, `site_optimization.py:146-156`. -/
def SectorIsSite (P : Plan) (x : Vars) : Prop :=
  ∀ k d, P.t.sectors.get? k = some d → x.sector k 0 = x.site d.site

/-- The constraints of `set_up_problem_skeleton`, `site_optimization.py:112-144`,
shared by the cost, coverage and POP-proposal problems (one channel).
`adv` is `adversarial_links`. -/
structure SiteFeasible (P : Plan) (adv : Arc → Bool) (x : Vars) : Prop where
  bounds : P.Bounds 1 x
  sectorSite : P.SectorIsSite x
  colocated : P.Colocated x
  tdmFlow : P.TdmFlow P.cap P.maxThroughput 1 x
  tdmSector : P.TdmSector 1 x
  popLoad : P.PopLoad x
  flowBalance : P.FlowBalance x
  flowSite : P.FlowSite P.maxThroughput x
  /-- `create_adversarial_restrictions`, `site_optimization.py:178-182`. -/
  adversarial : ∀ e ∈ P.arcs, adv e = true → x.flow e = 0
  tdmPolarity : P.TdmPolarity 1 x
  decided : P.DecidedSites x
  activePolarity : P.ActivePolarity x
  inactiveFlow : P.InactiveFlow x

/-- `cost_sector[site][sector]`, `optimization_setup.py:242-255`: node capex for the
first sector of each node in dictionary order. -/
def sectorCost (P : Plan) (k : SectorId) : ℚ :=
  match P.t.sectors.get? k with
  | none => 0
  | some x =>
    match P.t.sectors.find? (fun e => e.2.site = x.site ∧ e.2.node = x.node) with
    | some e => if e.1 = k then P.t.nodeCapex x.site else 0
    | none => 0

/-- `cost_site[location_to_type[i]]`. -/
def siteCost (P : Plan) (s : SiteId) : ℚ :=
  match P.t.sites.get? s with
  | some x => P.p.costs.of x.siteType
  | none => 0

/-- Real sectors of `location_sectors[i]`. -/
def sectorsAt (P : Plan) (s : SiteId) : List SectorId :=
  (P.t.sectors.filter fun e => e.2.site = s).map (·.1)

/-- `_extract_cost`, `network_optimization.py:735-760`. -/
def extractCost (P : Plan) (site : SiteId → ℚ) (sector : SectorId → ℚ) : ℚ :=
  ((P.t.sites.keys.filter fun s => !P.isExisting s).map fun s =>
    P.siteCost s * site s + ((P.sectorsAt s).map fun k => P.sectorCost k * sector k).sum).sum

/-- `xp.Sum(self.sector_vars[(loc, sec, channel)] ... if ... in sector_vars)`. -/
def sectorSum (P : Plan) (n : Nat) (x : Vars) (k : SectorId) : ℚ :=
  (((List.range n).filter fun c => P.hasSector n k c).map fun c => x.sector k c).sum

/-- `create_cost_constraint`, `network_optimization.py:706-720`. The test
`isinstance(total_cost, (int, float))` is true only if no site contributes a
term, and then the sum is 0. -/
def CostConstraint (P : Plan) (n : Nat) (x : Vars) : Prop :=
  P.t.sites.keys.filter (fun s => !P.isExisting s) ≠ [] →
    P.extractCost x.site (P.sectorSum n x) ≤ P.p.budget

/-- `create_coverage_constraint`, `network_optimization.py:762-797`; `connected` is
`connected_demand_sites` when `maximize_common_bandwidth` is set. -/
def Coverage (P : Plan) (connected : Option (List Loc)) (x : Vars) : Prop :=
  P.demands ≠ [] →
    match connected with
    | none => (P.demands.map x.shortage).sum ≤ (1 - P.p.coverage) * (P.demands.map P.demandAt).sum
    | some conn =>
      ∀ m, pyMin ((P.locations.filter conn.contains).map P.demandAt) = some m →
        ∀ l ∈ P.locations, l ∈ conn → P.p.coverage * m ≤ P.demandAt l - x.shortage l

end Plan
end Verif
