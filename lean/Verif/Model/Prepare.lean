import Verif.Model.Angles
import Verif.Model.Capex
import Verif.Model.Solution

/-! # Status validation before each optimization step, and re-orientation afterwards -/

namespace Verif
namespace Topology

/-- `link.link_type != LinkType.WIRELESS_ACCESS`, `link.py:194-204`. -/
def notAccess (t : Topology) (l : Link) : Bool :=
  !(l.isWireless && (t.sites.get? l.rx).map (·.siteType) == some .cn)

/-- `link.tx_sector is not None and p(link.tx_sector.status_type) and ...` for
both sectors. -/
def sectorsAll (t : Topology) (l : Link) (p : StatusType → Bool) : Bool :=
  match l.sectors with
  | none => false
  | some (a, b) =>
    ((t.sectors.get? a).any (fun s => p s.status)) && ((t.sectors.get? b).any (fun s => p s.status))

/-- `(link.tx_sector is None or p(...)) and (link.rx_sector is None or p(...))`. -/
def sectorsAllOrNone (t : Topology) (l : Link) (p : StatusType → Bool) : Bool :=
  match l.sectors with
  | none => true
  | some _ => t.sectorsAll l p

/-- Both end sites satisfy `p`. -/
def sitesAll (t : Topology) (l : Link) (p : StatusType → Bool) : Bool :=
  (t.siteStatus l.tx).any p && (t.siteStatus l.rx).any p

/-- Body of the loop of `validate_topology_status`,
`topology_preparation.py:1004-1081`: `true` = no exception. -/
def statusOk (t : Topology) (l : Link) : Bool :=
  match t.links.get? ⟨l.rx, l.tx⟩ with
  | none => !t.notAccess l
  | some r =>
    (l.status == r.status) &&
    match l.status with
    | .existing => t.sitesAll l (· == .existing) && t.sectorsAll l (· == .existing)
    | .proposed => t.sitesAll l StatusType.active && t.sectorsAll l StatusType.active
    | .candidate =>
      t.sitesAll l (fun s => !s.inactive) && t.sectorsAllOrNone l (fun s => !s.inactive)
    | _ => true

/-- `validate_topology_status`, `topology_preparation.py:998-1081`, called by the
constructor of every optimization model (`optimization_setup.py:108`). All
checks raise `TopologyException`. -/
def validateStatus (t : Topology) : Option Err :=
  if t.links.vals.all t.statusOk then none else some .topology

/-- `Link.link_channel`, `link.py:282-291`. -/
def linkChannelE (t : Topology) (l : Link) : Except Err Int :=
  if l.status.active then
    match l.sectors with
    | none => .ok (-1)
    | some (a, b) =>
      match t.sectors.get? a, t.sectors.get? b with
      | some x, some y => if x.channel = y.channel then .ok x.channel else .error .topology
      | _, _ => .error .keyError
  else .ok (-1)

/-- `link_channel_map` of `readjust_sectors_post_opt`, `topology_operations.py:349-369`. -/
def channelMap (t : Topology) : List (LinkId × Link) → Except Err (Dict LinkId Int)
  | [] => .ok []
  | (id, l) :: rest =>
    if l.status.active && l.isWireless then
      match t.linkChannelE l with
      | .error e => .error e
      | .ok c =>
        match channelMap t rest with
        | .error e => .error e
        | .ok m => .ok ((id, c) :: m)
    else channelMap t rest

/-- The new sectors of a site, `topology_operations.py:417-426`. -/
def newSectors (s : Site) (angles : List (List ℚ)) : List Sector :=
  angles.zipIdx.flatMap fun (node, i) => node.zipIdx.map fun (az, j) =>
    { site := s.id, node := i, pos := j, azimuth := az, status := .candidate,
      typ := if s.siteType = .cn then .cn else .dn }

/-- `topology_operations.py:434-447`: links into inactive CNs lose their sectors. -/
def clearInactiveCn (t : Topology) (id : LinkId) : Out :=
  match t.links.get? id with
  | none => (t, some .keyError)
  | some l =>
    match t.sites.get? l.rx with
    | none => (t, some .keyError)
    | some s =>
      if s.siteType = .cn ∧ s.status.active = false then
        if l.status.active then (t, some .optimizer) else (t.clearLinkSectors id, none)
      else (t, none)

/-- `readjust_sectors_post_opt`, `topology_operations.py:323-452`. `best` is the
result of `find_best_sectors` for a site (empty list: leave the site as it was);
the search itself is not modelled. -/
def readjust (t : Topology) (g : Geometry) (best : SiteId → List (List ℚ)) : Out :=
  match t.channelMap t.links with
  | .error e => (t, some e)
  | .ok chan =>
    let moved := t.sites.vals.filter (fun s => !(best s.id).isEmpty)
    if moved.all (fun s => sectorCompat s.status .candidate) then
      let old := moved.flatMap (fun s => (t.sectors.vals.filter (fun x => x.site = s.id)).map Sector.id)
      let new := moved.flatMap (fun s => newSectors s (best s.id))
      Out.andThen (foldOut removeSector t old) fun t1 =>
      Out.andThen (foldOut addSector t1 new) fun t2 =>
      Out.andThen (foldOut clearInactiveCn t2 t2.links.keys) fun t3 =>
      Out.andThen (t3.addSectorsToLinks g false (some chan)) fun t4 =>
      t4.setSameNode
    else (t, some .topology)

end Topology
end Verif
