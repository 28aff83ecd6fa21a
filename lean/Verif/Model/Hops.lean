import Verif.Model.History
import Mathlib.Data.List.Dedup

/-! # `hops_from_pops`, demand reachability and marking of unreachable components -/

namespace Verif
namespace Topology

/-- A status filter; `None` is the filter that accepts every status. -/
abbrev Filter := StatusType → Bool

/-- `topology.sites[id].status_type in status_filter`; an absent id, a
`KeyError` in the code, cannot occur on a consistent topology (C01). -/
def admits (t : Topology) (f : Filter) (id : SiteId) : Bool :=
  match t.sites.get? id with
  | some s => f s.status
  | none => false

/-- `get_site_ids(status_filter, {POP})`, `topology.py:393-408`. -/
def popIds (t : Topology) (f : Filter) : List SiteId :=
  (t.sites.filter (fun p => f p.2.status && p.2.siteType == .pop)).map Prod.fst

/-- `new_ids`, `topology_operations.py:79-95`. -/
def newIds (t : Topology) (f : Filter) (cur : List SiteId) : List SiteId :=
  let newLinks := t.links.vals.filter (fun l => decide (l.tx ∈ cur) && f l.status)
  ((newLinks.flatMap (fun l => [l.tx, l.rx])).filter
    (fun s => t.admits f s && !decide (s ∈ cur))).dedup

/-- The `while True` loop, `topology_operations.py:77-101`. `fuel` bounds the
number of rounds; running out of it is `none` (shown impossible). -/
def hopLoop (t : Topology) (f : Filter) : Nat → Nat → Dict SiteId Nat → List SiteId →
    Option (Dict SiteId Nat)
  | 0, _, _, _ => none
  | fuel + 1, hop, hc, cur =>
    let new := t.newIds f cur
    if new = [] then some hc
    else hopLoop t f fuel (hop + 1) (new.foldl (fun d s => d.set s (hop + 1)) hc) (cur ++ new)

/-- `hops_from_pops`, `topology_operations.py:57-102`. The order of the result's
entries is set-iteration order in the code and of no significance. -/
def hopsFromPops (t : Topology) (f : Filter) : Option (Dict SiteId Nat) :=
  let cur := t.popIds f
  if cur = [] then some []
  else hopLoop t f (t.sites.length + 1) 0 (cur.foldl (fun d s => d.set s 0) []) cur

/-- `get_reachable_demand_sites`, `topology_operations.py:105-117`. -/
def reachableDemand (t : Topology) (f : Filter) : Option (List DemandId) :=
  (t.hopsFromPops f).map fun hc =>
    (t.demandSites.vals.filter (fun d => d.connected.any (fun s => hc.has s))).map (·.id)

/-- Assign UNREACHABLE to the links between `site` and the listed sites,
`topology_operations.py:142-153`; `mk` builds the link id from the other end. -/
def markLinks (t : Topology) (mk : SiteId → LinkId) : List SiteId → Out
  | [] => (t, none)
  | o :: rest =>
    match t.getLinkBySiteIds (mk o).tx (mk o).rx with
    | .error e => (t, some e)
    | .ok none => (t, some .valueError)
    | .ok (some l) =>
      match t.setLinkStatus l.id .unreachable with
      | (t1, some e) => (t1, some e)
      | (t1, none) => markLinks t1 mk rest

/-- `site_id not in hop_counts or (maximum_hops and hop_counts[site_id] > maximum_hops)`. -/
def tooFar (hc : Dict SiteId Nat) (maxHops : Option Nat) (id : SiteId) : Bool :=
  match hc.get? id with
  | none => true
  | some n => match maxHops with
    | none => false
    | some m => m != 0 && decide (n > m)

/-- One site of the marking loop, `topology_operations.py:132-153`. -/
def markSite (t : Topology) (hc : Dict SiteId Nat) (maxHops : Option Nat) (id : SiteId) : Out :=
  match t.sites.get? id with
  | none => (t, some .keyError)
  | some s =>
    if tooFar hc maxHops id && s.status == .candidate then
      match t.setSiteStatus id .unreachable with
      | (t1, some e) => (t1, some e)
      | (t1, none) =>
        match t1.getSuccessorSites id with
        | .error e => (t1, some e)
        | .ok succ =>
          match t1.markLinks (fun o => ⟨id, o⟩) (succ.map (·.id)) with
          | (t2, some e) => (t2, some e)
          | (t2, none) =>
            match t2.getPredecessorSites id with
            | .error e => (t2, some e)
            | .ok pred => t2.markLinks (fun o => ⟨o, id⟩) (pred.map (·.id))
    else (t, none)

/-- The loop over sites. -/
def markSites (t : Topology) (hc : Dict SiteId Nat) (maxHops : Option Nat) : List SiteId → Out
  | [] => (t, none)
  | id :: rest =>
    match t.markSite hc maxHops id with
    | (t1, some e) => (t1, some e)
    | (t1, none) => markSites t1 hc maxHops rest

/-- The loop over sectors, `topology_operations.py:155-157`. -/
def markSectors (t : Topology) : List SectorId → Out
  | [] => (t, none)
  | id :: rest =>
    match t.sectors.get? id with
    | none => (t, some .keyError)
    | some s =>
      if t.siteStatus s.site = some .unreachable then
        match t.setSectorStatus id .unreachable with
        | (t1, some e) => (t1, some e)
        | (t1, none) => markSectors t1 rest
      else markSectors t rest

/-- `mark_unreachable_components`, `topology_operations.py:120-157`. -/
def markUnreachable (t : Topology) (maxHops : Option Nat) : Option Out :=
  (t.hopsFromPops StatusType.reachable).map fun hc =>
    match t.markSites hc maxHops t.sites.keys with
    | (t1, some e) => (t1, some e)
    | (t1, none) => t1.markSectors t1.sectors.keys

end Topology
end Verif
