import Verif.Model.Hops

/-! # Demand reachability under ignored links and sites,
`optimization/ilp_models/network_optimization.py:148-188` -/

namespace Verif
namespace Topology

/-- First loop, `network_optimization.py:160-165`: save the status of each
ignored link and assign UNREACHABLE. -/
def hideLinks (t : Topology) (sv : Dict LinkId StatusType) :
    List LinkId → Topology × Dict LinkId StatusType × Option Err
  | [] => (t, sv, none)
  | id :: rest =>
    match t.getLinkBySiteIds id.tx id.rx with
    | .error e => (t, sv, some e)
    | .ok none => hideLinks t sv rest
    | .ok (some l) =>
      match t.setLinkStatus id .unreachable with
      | (t1, some e) => (t1, sv.set id l.status, some e)
      | (t1, none) => hideLinks t1 (sv.set id l.status) rest

/-- Second loop, `network_optimization.py:166-170`. -/
def hideSites (t : Topology) (sv : Dict SiteId StatusType) :
    List SiteId → Topology × Dict SiteId StatusType × Option Err
  | [] => (t, sv, none)
  | id :: rest =>
    match t.sites.get? id with
    | none => hideSites t sv rest
    | some s =>
      match t.setSiteStatus id .unreachable with
      | (t1, some e) => (t1, sv.set id s.status, some e)
      | (t1, none) => hideSites t1 (sv.set id s.status) rest

/-- Third loop, `network_optimization.py:174-178`; a `none_throws` on an absent
link is an assertion error. -/
def restoreLinks (t : Topology) (sv : Dict LinkId StatusType) : List LinkId → Out
  | [] => (t, none)
  | id :: rest =>
    match t.getLinkBySiteIds id.tx id.rx with
    | .error e => (t, some e)
    | .ok none => (t, some .valueError)
    | .ok (some _) =>
      match sv.get? id with
      | none => (t, some .keyError)
      | some st =>
        match t.setLinkStatus id st with
        | (t1, some e) => (t1, some e)
        | (t1, none) => restoreLinks t1 sv rest

/-- Fourth loop, `network_optimization.py:179-181`. -/
def restoreSites (t : Topology) (sv : Dict SiteId StatusType) : List SiteId → Out
  | [] => (t, none)
  | id :: rest =>
    match t.sites.get? id with
    | none => (t, some .valueError)
    | some _ =>
      match sv.get? id with
      | none => (t, some .keyError)
      | some st =>
        match t.setSiteStatus id st with
        | (t1, some e) => (t1, some e)
        | (t1, none) => restoreSites t1 sv rest

/-- Names of the copies of a demand site, `network_optimization.py:182-187`. -/
def demandCopies (d : DemandSite) : List DemandId :=
  (List.range d.numSites).map (fun n => if n = 0 then d.id else d.id ++ "_" ++ Nat.repr n)

/-- `_get_reachable_demand_sites_without_constraints`,
`network_optimization.py:148-188`, with the two ignore sets as arguments (lists
in iteration order). `none` only if the hop loop did not finish (impossible, C08). -/
def reachableIgnoring (t : Topology) (f : Filter) (L : List LinkId) (S : List SiteId) :
    Option (Topology × Except Err (List DemandId)) :=
  match t.hideLinks [] L with
  | (t1, _, some e) => some (t1, .error e)
  | (t1, lsv, none) =>
    match t1.hideSites [] S with
    | (t2, _, some e) => some (t2, .error e)
    | (t2, ssv, none) =>
      (t2.reachableDemand f).map fun reach =>
        match t2.restoreLinks lsv L with
        | (t3, some e) => (t3, .error e)
        | (t3, none) =>
          match t3.restoreSites ssv S with
          | (t4, some e) => (t4, .error e)
          | (t4, none) =>
            (t4, .ok ((t4.demandSites.vals.filter (fun d => decide (d.id ∈ reach))).flatMap
              demandCopies))

end Topology
end Verif
