import Verif.Base
import Verif.Model.Enums
import Mathlib.Algebra.Order.Field.Rat

/-!
# `Topology`: `common/topology_models/topology.py`

Sites are referred to by id from links and sectors and looked up in the
topology (in Python they are shared object references), so a status change of
a site is seen through every link and sector.  `site_id` is a fixed length MD5
hex digest; `link_id = f"{tx}-{rx}"` and
`sector_id = f"{site}-{node}-{position}-{type}"` are modelled by the tuples they
render (see `Verif.Props.Sort` for the injectivity of the rendering).

Each mutator returns the resulting topology together with the exception it
raised, if any; a call that raises half way returns the half-way state.
-/

namespace Verif

/-- `Site.site_id`, MD5 hex digest, `site.py:96-102`. -/
abbrev SiteId := String
/-- `DemandSite.demand_id`, `demand_site.py:47-49`. -/
abbrev DemandId := String

/-- `Link.link_id`, `link.py:100-102,347-349`. -/
structure LinkId where
  tx : SiteId
  rx : SiteId
  deriving DecidableEq, Repr

/-- `Sector.sector_id`, `sector.py:58`. -/
structure SectorId where
  site : SiteId
  node : Nat
  pos : Nat
  typ : SectorType
  deriving DecidableEq, Repr

/-- The part of `DeviceData` used by the topology code, `configs.py` (`DeviceData`). -/
structure Device where
  sku : String := ""
  deviceType : DeviceType := .dn
  nodeCapex : ℚ := 0
  nodesPerSite : Nat := 1
  sectorsPerNode : Nat := 1
  deriving DecidableEq, Repr

/-- `Site`, `site.py:72-113`; `id` is the hash of the key attributes. -/
structure Site where
  id : SiteId
  siteType : SiteType
  status : StatusType
  lat : ℚ := 0
  lon : ℚ := 0
  alt : Option ℚ := none
  device : Device := {}
  /-- `building_id`, set iff the site is on a rooftop, `site.py:72-84`. -/
  building : Option Int := none
  /-- `number_of_subscribers`, `site.py:193-198`. -/
  subscribers : Nat := 0
  polarity : PolarityType := .unassigned
  breakdowns : Nat := 0
  deriving DecidableEq, Repr

/-- `Sector`, `sector.py:47-64`. -/
structure Sector where
  site : SiteId
  node : Nat
  pos : Nat
  typ : SectorType := .dn
  azimuth : ℚ := 0
  status : StatusType := .candidate
  channel : Int := -1
  deriving DecidableEq, Repr

/-- `Sector.sector_id`, `sector.py:58`. -/
def Sector.id (s : Sector) : SectorId := ⟨s.site, s.node, s.pos, s.typ⟩

/-- `Link`, `link.py:74-135`: the two sectors are both set or both `None`. -/
structure Link where
  tx : SiteId
  rx : SiteId
  sectors : Option (SectorId × SectorId) := none
  isWireless : Bool := true
  status : StatusType := .candidate
  capacity : ℚ := 0
  distance : ℚ := 0
  confidence : Option ℚ := none
  isRedundant : Bool := false
  deriving DecidableEq, Repr

/-- `Link.link_id`, `link.py:100-102`. -/
def Link.id (l : Link) : LinkId := ⟨l.tx, l.rx⟩

/-- `DemandSite`, `demand_site.py:46-55`; connected sites by id. -/
structure DemandSite where
  id : DemandId
  connected : List SiteId := []
  demand : Option ℚ := none
  numSites : Nat := 1
  lat : ℚ := 0
  lon : ℚ := 0
  deriving DecidableEq, Repr

/-- `Topology`, `topology.py:36-48`. -/
structure Topology where
  sites : Dict SiteId Site := []
  demandSites : Dict DemandId DemandSite := []
  sectors : Dict SectorId Sector := []
  links : Dict LinkId Link := []
  /-- `site_id_to_sector_ids` (a `defaultdict(set)`). -/
  siteSectors : Dict SiteId (List SectorId) := []
  /-- `site_connectivity`. -/
  conn : Dict SiteId (Dict SiteId LinkId) := []
  /-- `site_connectivity_reverse`. -/
  connRev : Dict SiteId (Dict SiteId LinkId) := []
  deriving DecidableEq, Repr

namespace Topology

/-- Outcome of a mutator: new state and the exception raised, if any. -/
abbrev Out := Topology × Option Err

/-- `site_id_to_sector_ids[s]` of the `defaultdict(set)`. -/
def sectorIndex (t : Topology) (s : SiteId) : List SectorId := (t.siteSectors.get? s).getD []

/-- `Topology.add_site`, `topology.py:93-104`.  `detected` says that the object
is a `DetectedSite`. -/
def addSite (t : Topology) (s : Site) (detected : Bool := false) : Out :=
  if detected then (t, some .topology)
  else if t.sites.has s.id then (t, some .topology)
  else ({ t with sites := t.sites.set s.id s }, none)

/-- `Topology.remove_link`, `topology.py:244-254`.  The two inner `del`
statements raise `KeyError` if the connectivity entry is missing. -/
def removeLink (t : Topology) (id : LinkId) : Out :=
  match t.links.get? id with
  | none => (t, some .planner)
  | some l =>
    match t.conn.get? l.tx with
    | none => (t, some .keyError)
    | some row =>
      if row.has l.rx then
        let t1 := { t with conn := t.conn.set l.tx (row.del l.rx) }
        match t1.connRev.get? l.rx with
        | none => (t1, some .keyError)
        | some rowR =>
          if rowR.has l.tx then
            ({ t1 with
                connRev := t1.connRev.set l.rx (rowR.del l.tx)
                links := t1.links.del id }, none)
          else (t1, some .keyError)
      else (t, some .keyError)

/-- The loop `for sector_id in ...: del self.sectors[sector_id]`,
`topology.py:114-115`; stops at the first `KeyError`. -/
def delSectors (t : Topology) : List SectorId → Out
  | [] => (t, none)
  | s :: rest =>
    if t.sectors.has s then delSectors { t with sectors := t.sectors.del s } rest
    else (t, some .keyError)

/-- The loop `for link_id in link_to_remove: self.remove_link(link_id)`,
`topology.py:123-124`. -/
def removeLinks (t : Topology) : List LinkId → Out
  | [] => (t, none)
  | l :: rest =>
    match removeLink t l with
    | (t', none) => removeLinks t' rest
    | (t', some e) => (t', some e)

/-- Link ids listed by `site_connectivity.get(s, {}).values()` and the reverse
map, `topology.py:118-122`. -/
def linksToRemove (t : Topology) (s : SiteId) : List LinkId :=
  ((t.conn.get? s).getD []).vals ++ ((t.connRev.get? s).getD []).vals

/-- `Topology.remove_site`, `topology.py:106-127`.  Note that the entry of
`site_id_to_sector_ids` is read but never cleared (a missing entry of the
`defaultdict` is created empty by the read, which `sectorIndex` cannot tell
from absence and is omitted). -/
def removeSite (t : Topology) (s : SiteId) : Out :=
  if t.sites.has s then
    match delSectors t (t.sectorIndex s) with
    | (t1, some e) => (t1, some e)
    | (t1, none) =>
      match removeLinks t1 (linksToRemove t1 s) with
      | (t2, some e) => (t2, some e)
      | (t2, none) => ({ t2 with sites := t2.sites.del s }, none)
  else (t, some .topology)

/-- `Topology.add_demand_site`, `topology.py:129-134`. -/
def addDemandSite (t : Topology) (d : DemandSite) : Out :=
  ({ t with demandSites := t.demandSites.set d.id d }, none)

/-- `Topology.remove_demand_site`, `topology.py:136-142`. -/
def removeDemandSite (t : Topology) (d : DemandId) : Out :=
  if t.demandSites.has d then ({ t with demandSites := t.demandSites.del d }, none)
  else (t, some .topology)

/-- `set.add` on a duplicate-free list. -/
def setAdd (l : List SectorId) (x : SectorId) : List SectorId := if x ∈ l then l else l ++ [x]

/-- `Topology.add_sector`, `topology.py:144-162`. -/
def addSector (t : Topology) (s : Sector) : Out :=
  if t.sectors.has s.id then (t, some .topology)
  else if t.sites.has s.site then
    ({ t with
        siteSectors := t.siteSectors.set s.site (setAdd (t.sectorIndex s.site) s.id)
        sectors := t.sectors.set s.id s }, none)
  else (t, some .topology)

/-- `Link.clear_sectors`, `link.py:177-179`. -/
def clearLinkSectors (t : Topology) (id : LinkId) : Topology :=
  { t with links := t.links.modify id (fun l => { l with sectors := none }) }

/-- Loop body of `remove_sector`, `topology.py:181-194`: clear the sectors of
the listed links whose selected (`tx` or `rx`) sector is `sid`. A listed link
that is absent is a `KeyError`. -/
def clearLoop (t : Topology) (sel : SectorId × SectorId → SectorId) (sid : SectorId) :
    List LinkId → Out
  | [] => (t, none)
  | id :: rest =>
    match t.links.get? id with
    | none => (t, some .keyError)
    | some l =>
      let t' := if l.sectors.map sel = some sid then t.clearLinkSectors id else t
      clearLoop t' sel sid rest

/-- `Topology.remove_sector`, `topology.py:164-196`. -/
def removeSector (t : Topology) (sid : SectorId) : Out :=
  match t.sectors.get? sid with
  | none => (t, some .topology)
  | some sec =>
    if t.sites.has sec.site then
      match clearLoop t Prod.fst sid ((t.conn.get? sec.site).getD []).vals with
      | (t1, some e) => (t1, some e)
      | (t1, none) =>
        match clearLoop t1 Prod.snd sid ((t1.connRev.get? sec.site).getD []).vals with
        | (t2, some e) => (t2, some e)
        | (t2, none) =>
          if sid ∈ t2.sectorIndex sec.site then
            ({ t2 with
                siteSectors := t2.siteSectors.set sec.site
                  ((t2.sectorIndex sec.site).filter (· ≠ sid))
                sectors := t2.sectors.del sid }, none)
          else (t2, some .keyError)
    else (t, some .topology)

/-- `Topology.add_link`, `topology.py:198-217`. Overwrites a link with the same
id and does not check the link's sectors. -/
def addLink (t : Topology) (l : Link) : Out :=
  if t.sites.has l.tx && t.sites.has l.rx then
    ({ t with
        links := t.links.set l.id l
        conn := t.conn.set l.tx (((t.conn.get? l.tx).getD []).set l.rx l.id)
        connRev := t.connRev.set l.rx (((t.connRev.get? l.rx).getD []).set l.tx l.id) }, none)
  else (t, some .planner)

/-- `Link.get_link_by_site_ids`, `topology.py:318-332`. -/
def getLinkBySiteIds (t : Topology) (tx rx : SiteId) : Except Err (Option Link) :=
  if t.sites.has tx && t.sites.has rx then .ok (t.links.get? ⟨tx, rx⟩) else .error .topology

/-- `[self.sites[id] for id in ids]`; `none` models the `KeyError`. -/
def lookupSites (t : Topology) (ids : List SiteId) : Except Err (List Site) :=
  ids.mapM fun id => match t.sites.get? id with
    | some s => .ok s
    | none => .error .keyError

/-- `Topology.get_successor_sites`, `topology.py:256-274`. -/
def getSuccessorSites (t : Topology) (s : SiteId) : Except Err (List Site) :=
  if t.sites.has s then t.lookupSites ((t.conn.get? s).getD []).keys else .error .topology

/-- `Topology.get_predecessor_sites`, `topology.py:276-294`. -/
def getPredecessorSites (t : Topology) (s : SiteId) : Except Err (List Site) :=
  if t.sites.has s then t.lookupSites ((t.connRev.get? s).getD []).keys else .error .topology

/-- The filter loops of `topology.py:300-305` and `311-316`: both look up the
link `site -> other`. -/
def filterWireless (t : Topology) (s : SiteId) : List Site → Except Err (List Site)
  | [] => .ok []
  | o :: rest => do
    let l ← t.getLinkBySiteIds s o.id
    let r ← filterWireless t s rest
    match l with
    | some l => if l.isWireless then pure (o :: r) else pure r
    | none => pure r

/-- `Topology.get_wireless_successor_sites`, `topology.py:296-305`. -/
def getWirelessSuccessorSites (t : Topology) (s : SiteId) : Except Err (List Site) := do
  let xs ← t.getSuccessorSites s
  t.filterWireless s xs

/-- `Topology.get_wireless_predecessor_sites`, `topology.py:307-316`: looks up
the link `site -> predecessor`, not `predecessor -> site`. -/
def getWirelessPredecessorSites (t : Topology) (s : SiteId) : Except Err (List Site) := do
  let xs ← t.getPredecessorSites s
  t.filterWireless s xs

/-- `Topology.get_reverse_link`, `topology.py:356-359`. -/
def getReverseLink (t : Topology) (l : Link) : Except Err (Option Link) :=
  t.getLinkBySiteIds l.rx l.tx

end Topology
end Verif
