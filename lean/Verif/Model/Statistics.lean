import Verif.Model.Metrics
import Verif.Model.NxReport
import Mathlib.Data.List.Sort
import Mathlib.Data.Rat.Floor

/-!
# Numbers of the report: `get_topology_metrics`

`optimization/topology_report.py:313-590`. The costs and the numbers of components are those of `Model/Capex.lean` and
`Model/Counter.lean`; they are not repeated here except where an exception may come from them.
-/

namespace Verif

/-- `MetricStatistics`, `structs.py`. -/
structure Stat where
  avg : ℚ
  max : ℚ
  min : ℚ
  deriving DecidableEq, Repr

/-- Python `max` of a list that is not empty. -/
def maxOf : List ℚ → ℚ
  | [] => 0
  | x :: xs => xs.foldl (fun m y => if m < y then y else m) x

/-- Python `min` of a list that is not empty. -/
def minOf : List ℚ → ℚ
  | [] => 0
  | x :: xs => xs.foldl (fun m y => if y < m then y else m) x

/-- Average, maximum and minimum with 0 for an empty list, `topology_report.py:484-490`, `499-505`, `521-528`. -/
def statOf (xs : List ℚ) : Stat :=
  if xs.length > 0 then ⟨xs.sum / xs.length, maxOf xs, minOf xs⟩ else ⟨0, 0, 0⟩

/-- Statistics of the links per sector, `topology_report.py:446-475`; `n` is `active_dn_sectors`. -/
def sectorStat (xs : List ℚ) (n : Nat) : Stat :=
  { avg := if n > 0 then xs.sum / n else 0
    max := if xs.length > 0 then maxOf xs else 0
    min := if xs.length > 0 then minOf xs else 0 }

/-- Statistics of the failures of sites, `topology_report.py:530-549`; `n` is the number of active sites. The code
checks for `n = 0` only for DNs; for POPs see `metrics`. -/
def failStat (xs : List ℚ) (n : Nat) : Stat :=
  { avg := if n > 0 then xs.sum / n else 0
    max := if xs.length > 0 then maxOf xs else 0
    min := if xs.length > 0 ∧ xs.length = n then minOf xs else 0 }

/-- `set.add` on a set kept as a list without repetitions. -/
def setAdd (h : String) (xs : List String) : List String := if xs.contains h then xs else h :: xs

/-- `d[s].add(h)`, which raises if there is no entry. -/
def addHash (d : Dict SectorId (List String)) (s : SectorId) (h : String) : Except Err (Dict SectorId (List String)) :=
  match d.get? s with
  | none => .error .keyError
  | some xs => .ok (d.set s (setAdd h xs))

/-- `active_backhaul_links_by_dn_sector` and `active_access_links_by_dn_sector`. -/
abbrev SectorLinks := Dict SectorId (List String) × Dict SectorId (List String)

namespace Topology

/-- The dictionaries before the loop, `topology_report.py:404-415`. -/
def dnSectors (t : Topology) : Dict SectorId (List String) :=
  (t.sectors.filter fun e => e.2.typ == .dn && e.2.status.active).map fun e => (e.1, [])

/-- One turn of the loop, `topology_report.py:416-433`. The `AssertionError` of `none_throws` is represented by
`attributeError`. -/
def countLink (t : Topology) (d : SectorLinks) (l : Link) : Except Err SectorLinks :=
  if !l.status.active then .ok d
  else match l.sectors with
    | none => .error .attributeError
    | some (a, b) =>
      match t.linkType l with
      | .wirelessBackhaul =>
        match addHash d.1 a (t.linkHash l) with
        | .error e => .error e
        | .ok d1 =>
          match addHash d1 b (t.linkHash l) with
          | .error e => .error e
          | .ok d2 => .ok (d2, d.2)
      | .wirelessAccess =>
        match addHash d.2 a (t.linkHash l) with
        | .error e => .error e
        | .ok d2 => .ok (d.1, d2)
      | .ethernet => .ok d

/-- The loop, `topology_report.py:416-433`. -/
def countLinks (t : Topology) : SectorLinks → List Link → Except Err SectorLinks
  | d, [] => .ok d
  | d, l :: rest =>
    match t.countLink d l with
    | .error e => .error e
    | .ok d' => t.countLinks d' rest

/-- The active links of a type. -/
def activeOf (t : Topology) (ty : LinkType) : List Link :=
  t.links.vals.filter fun l => l.status.active && t.linkType l == ty

/-- `backhaul_link_mcs`, `access_link_mcs`, `topology_report.py:508-516`. -/
def pairMcs (t : Topology) (mcs : LinkId → ℤ) (ty : LinkType) : Dict (SiteId × SiteId) ℤ :=
  (t.activeOf ty).foldl (fun d l => d.set l.sortedIds (mcs l.id)) []

/-- `total_demand`, `topology_report.py:358-362`. -/
def totalDemand (t : Topology) : ℚ :=
  (t.demandSites.vals.map fun d => match d.demand with | some q => q * d.numSites | none => 0).sum

end Topology

/-- `percentage_of_demand_with_disjoint_path`, `topology_report.py:346-357`. -/
def disjointPercent (demands atPop disjoint : Nat) : ℚ :=
  if demands = 0 ∨ atPop ≥ demands then 0
  else 100 * ((disjoint : ℚ) / ((demands : ℚ) - atPop))

/-- `np.percentile(xs, p)` with linear interpolation, the default of numpy. -/
def percentile (xs : List ℚ) (p : ℚ) : ℚ :=
  let s := xs.insertionSort (· ≤ ·)
  let v := p / 100 * ((xs.length : ℚ) - 1)
  let i := ⌊v⌋.toNat
  let a := s.getD i 0
  let b := s.getD (i + 1) a
  a + (b - a) * (v - i)

/-- What `get_topology_metrics` is given besides the topology. -/
structure MetricsInput where
  /-- `params.oversubscription`. -/
  oversubscription : ℚ
  /-- `routing_solution.active_link_utilization`; `none` without routing solution. -/
  utilization : Option (Dict LinkId ℚ)
  /-- Results of the failure analyses. -/
  failures : FailureReport
  /-- The values of `availability`. -/
  availability : List ℚ
  /-- `link.mcs_level`. -/
  mcs : LinkId → ℤ

/-- `TopologyMetrics`, `structs.py`, as far as computed in `get_topology_metrics`. A `Counter` is the function from
levels to numbers. -/
structure Metrics where
  demands : Nat
  disconnected : Nat
  atPop : Nat
  disjoint : Nat
  disjointPercent : ℚ
  totalDemand : ℚ
  totalOversubscribed : ℚ
  utilization : Option Stat
  backhaulPerSector : Stat
  accessPerSector : Stat
  backhaulDist : Stat
  accessDist : Stat
  backhaulMcs : ℤ → Nat
  accessMcs : ℤ → Nat
  edgeFail : Stat
  popFail : Stat
  dnFail : Stat
  availability : ℚ
  percentiles : List (ℚ × ℚ)

/-- The lengths of the values of a dictionary. -/
def sizes {α β : Type} (d : Dict α (List β)) : List ℚ := d.vals.map fun v => (v.length : ℚ)

/-- `get_topology_metrics`, `topology_report.py:313-590`. Left out: costs (`compute_capex`), the numbers of components
except for the assertion on channels (`linkChannels`), bandwidths, which are products, and the numbers of deployment
rule violations, which are lengths. -/
def metrics (t : Topology) (I : MetricsInput) : Except Err Metrics :=
  match t.linkChannels Topology.activeFilter, t.linkChannels Topology.anyFilter with
  | some _, some _ =>
    if I.oversubscription = 0 then .error .zeroDivision
    else if I.utilization = some [] then .error .zeroDivision
    else match t.countLinks (t.dnSectors, t.dnSectors) t.links.vals with
      | .error e => .error e
      | .ok (bh, ac) =>
        if t.siteCount Topology.activeFilter .pop = 0 then .error .zeroDivision
        else .ok
          { demands := t.demandSites.length
            disconnected := I.failures.paths.disconnected.length
            atPop := I.failures.paths.atPop.length
            disjoint := I.failures.paths.disjoint.length
            disjointPercent := disjointPercent t.demandSites.length I.failures.paths.atPop.length
              I.failures.paths.disjoint.length
            totalDemand := t.totalDemand
            totalOversubscribed := t.totalDemand / I.oversubscription
            utilization := I.utilization.map fun u => statOf u.vals
            backhaulPerSector := sectorStat (sizes bh) (t.sectorCount Topology.activeFilter .dn)
            accessPerSector := sectorStat (sizes ac) (t.sectorCount Topology.activeFilter .dn)
            backhaulDist := statOf ((t.activeOf .wirelessBackhaul).map (·.distance))
            accessDist := statOf ((t.activeOf .wirelessAccess).map (·.distance))
            backhaulMcs := fun m => (t.pairMcs I.mcs .wirelessBackhaul).vals.count m
            accessMcs := fun m => (t.pairMcs I.mcs .wirelessAccess).vals.count m
            edgeFail := statOf (sizes I.failures.edges)
            popFail := failStat (sizes I.failures.sites.1) (t.siteCount Topology.activeFilter .pop)
            dnFail := failStat (sizes I.failures.sites.2) (t.siteCount Topology.activeFilter .dn)
            availability := 100 * (if I.availability.length > 0 then I.availability.sum / I.availability.length else 0)
            percentiles := [0, 25, 50, 75, 100].map fun p =>
              (p, 100 * (if I.availability.length > 0 then percentile I.availability p else 0)) }
  | _, _ => .error .planner

end Verif
