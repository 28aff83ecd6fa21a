import Verif.Model.Hops
import Verif.Model.GeoHash

/-! # `optimization/topology_component_counter.py` -/

namespace Verif

/-- `SiteType.to_string`, `enums.py:12-13`, `101-104`. -/
def SiteType.str : SiteType → String
  | .cn => "CN"
  | .dn => "DN"
  | .pop => "POP"

/-- `Site.site_hash`, `site.py:103-105`; coordinates out of range are rejected by
the constructor, so the default is never used. -/
def Site.hash (s : Site) : String := (geoHash s.lat s.lon).getD ""

namespace Topology

/-- `site.site_hash + "_" + site.site_type.to_string()`, `link.py:275-276`. -/
def endHash (t : Topology) (s : SiteId) : String :=
  match t.sites.get? s with
  | some x => x.hash ++ "_" ++ x.siteType.str
  | none => ""

/-- `Link.link_hash`, `link.py:272-279`; `sort` of a two-element list. -/
def linkHash (t : Topology) (l : Link) : String :=
  let a := t.endHash l.tx
  let b := t.endHash l.rx
  if b < a then b ++ "-" ++ a else a ++ "-" ++ b

/-- `Link.link_type`, `link.py:194-203`. -/
def linkType (t : Topology) (l : Link) : LinkType :=
  if !l.isWireless then .ethernet
  else match t.sites.get? l.rx with
    | some x => if x.siteType = .cn then .wirelessAccess else .wirelessBackhaul
    | none => .wirelessBackhaul

/-- `site_counts_by_type[ty]`, `topology_component_counter.py:214-218`. -/
def siteCount (t : Topology) (f : Filter) (ty : SiteType) : Nat :=
  ((t.sites.vals.filter (fun s => f s.status)).map (·.siteType)).count ty

/-- `sector_counts_by_type[ty]`, `topology_component_counter.py:225-229`. -/
def sectorCount (t : Topology) (f : Filter) (ty : SectorType) : Nat :=
  ((t.sectors.vals.filter (fun s => f s.status)).map (·.typ)).count ty

/-- `node_counts_by_type[ty]`, `topology_component_counter.py:231-241`. -/
def nodeCount (t : Topology) (f : Filter) (ty : SectorType) : Nat :=
  ((t.sectors.vals.filter (fun s => s.typ = ty && f s.status)).map
    (fun s => (s.site, s.node))).dedup.length

/-- `link_counts_by_type[ty]`, `topology_component_counter.py:243-253`. -/
def linkCount (t : Topology) (f : Filter) (ty : LinkType) : Nat :=
  ((t.links.vals.filter (fun l => f l.status && t.linkType l = ty)).map t.linkHash).dedup.length

/-- `GeoPoint(longitude, latitude, altitude)` of a site. -/
def _root_.Verif.Site.point (s : Site) : ℚ × ℚ × Option ℚ := (s.lon, s.lat, s.alt)

/-- `get_colocated_sites`, `topology.py:374-387`. -/
def colocated (t : Topology) : Dict (ℚ × ℚ × Option ℚ) (List SiteId) :=
  t.sites.foldl (fun d p => d.set p.2.point ((d.get? p.2.point).getD [] ++ [p.1])) []

/-- `counts[ty]` for one group, `topology_component_counter.py:306-312`. -/
def groupCount (t : Topology) (sub : SiteId → Bool) (ids : List SiteId) (ty : SiteType) : Nat :=
  (ids.filter (fun i => match t.sites.get? i with
    | some s => sub i && s.siteType = ty
    | none => false)).length

/-- `_redundant_sites_counter(...)[ty]`, `topology_component_counter.py:289-317`;
`site_subset = None` is the subset accepting everything. -/
def redundant (t : Topology) (sub : SiteId → Bool) (ty : SiteType) : Nat :=
  (t.colocated.vals.map (fun ids =>
    if t.groupCount sub ids ty > 1 then t.groupCount sub ids ty - 1 else 0)).sum

/-- `StatusType.active_status()` as a filter. -/
def activeFilter : Filter := StatusType.active

/-- `set(StatusType)` as a filter. -/
def anyFilter : Filter := fun _ => true

/-- `total_<ty>_sites`, `topology_component_counter.py:84-99`. -/
def totalSitesOf (t : Topology) (ty : SiteType) : Int :=
  (t.siteCount anyFilter ty : Int) - t.redundant (fun _ => true) ty

/-- `total_sites`, `topology_component_counter.py:80-83`. -/
def totalSites (t : Topology) : Int :=
  (([SiteType.cn, .dn, .pop].map (t.siteCount anyFilter)).sum : Int) -
    ([SiteType.cn, .dn, .pop].map (t.redundant (fun _ => true))).sum

/-- `active_sites`, `topology_component_counter.py:34-37`. -/
def activeSites (t : Topology) : Nat := ([SiteType.cn, .dn, .pop].map (t.siteCount activeFilter)).sum

/-- `connectable_<ty>_sites`, `topology_component_counter.py:121-146`. -/
def connectable (t : Topology) (ty : SiteType) : Option Int :=
  (t.hopsFromPops StatusType.reachable).map fun hc =>
    ((t.sites.filter (fun p => p.2.siteType = ty && hc.has p.1)).length : Int) -
      t.redundant hc.has ty

/-- `cns_from_active_dns`, `topology_component_counter.py:149-158`. -/
def cnsFromActive (t : Topology) : Dict SiteId Nat :=
  t.links.vals.foldl (fun d l =>
    match t.sites.get? l.rx, l.sectors.bind (fun q => t.sectors.get? q.1) with
    | some rx, some tx =>
      if rx.siteType = .cn ∧ rx.status.active ∧ tx.status.active then
        d.set l.rx ((d.get? l.rx).getD 0 + 1)
      else d
    | _, _ => d) []

/-- `active_cns_with_backup_dns`, `topology_component_counter.py:160-162`. -/
def backupCns (t : Topology) : Nat := (t.cnsFromActive.vals.filter (fun n => n > 1)).length

/-- `Link.link_channel`, `link.py:281-291`; the `planner_assert` is `none`. -/
def linkChannel (t : Topology) (l : Link) : Option Int :=
  if l.status.active then
    match l.sectors with
    | some (a, b) =>
      match t.sectors.get? a, t.sectors.get? b with
      | some x, some y => if x.channel = y.channel then some x.channel else none
      | _, _ => none
    | none => some (-1)
  else some (-1)

/-- `Link.sorted_site_ids`, `link.py:341-345`. -/
def _root_.Verif.Link.sortedIds (l : Link) : SiteId × SiteId :=
  if l.tx < l.rx then (l.tx, l.rx) else (l.rx, l.tx)

/-- `link_channels`, `topology_component_counter.py:255-258`; `none` if a channel assertion fails. -/
def linkChannels (t : Topology) (f : Filter) : Option (Dict (SiteId × SiteId) Int) :=
  t.links.vals.foldlM (fun d l =>
    if f l.status && l.isWireless then (t.linkChannel l).map (d.set l.sortedIds) else some d) []

/-- `link_counts_by_channel[ch]`, `topology_component_counter.py:259`. -/
def channelCount (t : Topology) (f : Filter) (ch : Int) : Option Nat :=
  (t.linkChannels f).map (fun d => d.vals.count ch)

end Topology
end Verif
