import Verif.Model.Hops
import Mathlib.Algebra.BigOperators.Group.List.Basic
import Mathlib.Algebra.Order.Ring.Rat

/-! # Costs and POP capacity, `optimization/topology_operations.py` -/

namespace Verif

/-- The three site costs of `OptimizerParams` used by `compute_capex`. -/
structure SiteCosts where
  pop : ℚ
  dn : ℚ
  cn : ℚ

/-- `site_type_to_cost`, `topology_operations.py:488-492`. -/
def SiteCosts.of (c : SiteCosts) : SiteType → ℚ
  | .pop => c.pop
  | .dn => c.dn
  | .cn => c.cn

namespace Topology

/-- `sector.site.device.node_capex`, `sector.py:90-92`. -/
def nodeCapex (t : Topology) (s : SiteId) : ℚ :=
  match t.sites.get? s with
  | some x => x.device.nodeCapex
  | none => 0

/-- Loop state of `compute_capex`: proposed and existing cost, nodes seen. -/
structure CapexState where
  proposed : ℚ := 0
  existing : ℚ := 0
  seen : List (SiteId × Nat) := []

/-- Loop over sectors, `topology_operations.py:477-486`. -/
def capexSector (t : Topology) (st : CapexState) (x : Sector) : CapexState :=
  if (x.site, x.node) ∈ st.seen then st
  else
    let st := { st with seen := (x.site, x.node) :: st.seen }
    match x.status with
    | .proposed => { st with proposed := st.proposed + t.nodeCapex x.site }
    | .existing => { st with existing := st.existing + t.nodeCapex x.site }
    | _ => st

/-- Loop over sites, `topology_operations.py:494-498`. -/
def capexSite (c : SiteCosts) (st : CapexState) (s : Site) : CapexState :=
  match s.status with
  | .proposed => { st with proposed := st.proposed + c.of s.siteType }
  | .existing => { st with existing := st.existing + c.of s.siteType }
  | _ => st

/-- `compute_capex`, `topology_operations.py:469-504`: (total, proposed). -/
def computeCapex (t : Topology) (c : SiteCosts) : ℚ × ℚ :=
  let st := t.sectors.vals.foldl t.capexSector {}
  let st := t.sites.vals.foldl (capexSite c) st
  (st.proposed + st.existing, st.proposed)

/-- Second loop of `_set_sector_status_in_same_node`, `topology_operations.py:464-466`. -/
def setProposedIn (t : Topology) (nodes : List (SiteId × Nat)) : List SectorId → Out
  | [] => (t, none)
  | id :: rest =>
    match t.sectors.get? id with
    | none => (t, some .keyError)
    | some x =>
      if (x.site, x.node) ∈ nodes then
        match t.setSectorStatus id .proposed with
        | (t1, some e) => (t1, some e)
        | (t1, none) => setProposedIn t1 nodes rest
      else setProposedIn t nodes rest

/-- `_set_sector_status_in_same_node`, `topology_operations.py:455-466`. -/
def setSameNode (t : Topology) : Out :=
  t.setProposedIn ((t.sectors.vals.filter (fun x => x.status == .proposed)).map
    (fun x => (x.site, x.node))) t.sectors.keys

/-- `d.setdefault(k, []).append(a)`. -/
def _root_.Verif.Dict.append {κ α : Type} [DecidableEq κ] (d : Dict κ (List α)) (k : κ) (a : α) :
    Dict κ (List α) := d.set k ((d.get? k).getD [] ++ [a])

/-- The two dictionaries of `compute_max_pop_capacity_of_topology`. -/
structure PopCaps where
  sector : Dict SiteId (Dict SectorId (List ℚ)) := []
  wired : Dict SiteId (List ℚ) := []

/-- Loop over links, `topology_operations.py:173-203`. A link whose end site is
absent (a dangling reference, excluded by C01) is skipped. -/
def popCapStep (t : Topology) (f : Filter) (acc : PopCaps) (l : Link) : PopCaps :=
  if !f l.status then acc
  else match t.sites.get? l.tx, t.sites.get? l.rx with
  | some tx, some rx =>
    if tx.siteType ≠ .pop then acc
    else if !f tx.status || !f rx.status then acc
    else if !l.isWireless then { acc with wired := acc.wired.append l.tx l.capacity }
    else match l.sectors with
      | none => acc
      | some (k, _) =>
        let d := Dict.append ((acc.sector.get? l.tx).getD []) k l.capacity
        { acc with sector := acc.sector.set l.tx d }
  | _, _ => acc

/-- `max(capacities)` of a nonempty list, else 0. -/
def listMax : List ℚ → ℚ
  | [] => 0
  | a :: as => as.foldl max a

/-- `compute_max_pop_capacity_of_topology`, `topology_operations.py:160-222`. -/
def maxPopCapacity (t : Topology) (popCap : ℚ) (f : Filter) : ℚ :=
  let acc := t.links.vals.foldl (t.popCapStep f) {}
  ((t.popIds (fun _ => true)).map fun p =>
    let wireless := match acc.sector.get? p with
      | some d => (d.vals.map listMax).sum
      | none => 0
    let wired := match acc.wired.get? p with
      | some cs => cs.sum
      | none => 0
    min (wireless + wired) popCap).sum

end Topology
end Verif
