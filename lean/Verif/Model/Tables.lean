import Verif.Model.Statistics
import Verif.Model.Angles
import Verif.Model.Prepare

/-!
# The tables of the report

`build_links_df`, `build_sectors_df`, `site_flow_statistics` and `build_sites_df`, `optimization/topology_report.py:593-831`,
and the part of `analyze` that calls them, `topology_report.py:177-209`.

Only the columns are modelled that these functions compute themselves. Those copied from the component, the rounding of
floats to a number of digits, the index of the data frame and the conversion to `float32` are not. A data frame is the
list of its rows.
-/

namespace Verif

/-- `d[k].add(a)` for a dictionary of sets, which raises if there is no entry; a set is a list without repetitions. -/
def addAt {κ α : Type} [DecidableEq κ] [DecidableEq α] (d : Dict κ (List α)) (k : κ) (a : α) :
    Except Err (Dict κ (List α)) :=
  match d.get? k with
  | none => .error .keyError
  | some xs => .ok (d.set k (if a ∈ xs then xs else a :: xs))

/-- Several `d[k].add(a)` one after the other. -/
def addAll {κ α : Type} [DecidableEq κ] [DecidableEq α] : Dict κ (List α) → List (κ × α) → Except Err (Dict κ (List α))
  | d, [] => .ok d
  | d, p :: rest =>
    match addAt d p.1 p.2 with
    | .error e => .error e
    | .ok d' => addAll d' rest

/-- A row of the table of sites. `hops = none` is "disconnected". -/
structure SiteRow where
  id : SiteId
  capex : ℚ
  nodes : Nat
  sectors : Nat
  links : Nat
  hops : Option Nat
  outgoing : ℚ
  incoming : ℚ
  deriving DecidableEq, Repr

/-- A row of the table of sectors. `channel = none` is "UNASSIGNED". -/
structure SectorRow where
  id : SectorId
  channel : Option Int
  backhaul : Nat
  access : Nat
  overLimit : Bool
  deriving DecidableEq, Repr

/-- The sectors of a link in the table of links. -/
inductive Ends
  | wired
  | unknown
  | sectors (a b : SectorId)
  deriving DecidableEq, Repr

/-- A row of the table of links. `channel = none` is "UNASSIGNED". -/
structure LinkRow where
  id : LinkId
  ends : Ends
  channel : Option Int
  diffSector : Bool
  nearFar : Bool
  overLimit : Bool
  deriving DecidableEq, Repr

/-- `str(channel) if channel > UNASSIGNED_CHANNEL else "UNASSIGNED"`. -/
def channelLabel (c : Int) : Option Int := if c > -1 then some c else none

/-- `site_flow` for a site: (outgoing, incoming). -/
abbrev SiteFlow := Dict SiteId (ℚ × ℚ)

namespace Topology

/-- One turn of the loop of `site_flow_statistics`, `topology_report.py:733-741`. The comparison with `SUPERSOURCE` is
left out: no site has this id. -/
def flowStep (t : Topology) (flow : LinkId → ℚ) (d : SiteFlow) (l : Link) : SiteFlow :=
  if !l.status.active then d
  else if t.demandSites.has l.rx then d
  else
    let a := (d.get? l.tx).getD (0, 0)
    let d := d.set l.tx (a.1 + flow l.id, a.2)
    let b := (d.get? l.rx).getD (0, 0)
    d.set l.rx (b.1, b.2 + flow l.id)

/-- `site_flow_statistics`, `topology_report.py:726-742`; `flow` is `link.proposed_flow`. -/
def siteFlow (t : Topology) (flow : LinkId → ℚ) : SiteFlow := t.links.vals.foldl (t.flowStep flow) []

/-- `{s.site_id: set() for s in topology.sites.values()}`, `topology_report.py:752-755`, `760`. -/
def noneAt {α : Type} (t : Topology) : Dict SiteId (List α) := t.sites.vals.foldl (fun d s => d.set s.id []) []

/-- `{s.sector_id: set() for s in topology.sectors.values()}`, `topology_report.py:661-666`. -/
def noneOn {α : Type} (t : Topology) : Dict SectorId (List α) := t.sectors.vals.foldl (fun d s => d.set s.id []) []

/-- The loop over the sectors, `topology_report.py:756-759`, for one of its two dictionaries. -/
def usedSectors {α : Type} (t : Topology) (what : Sector → α) : List (SiteId × α) :=
  (t.sectors.vals.filter fun x => x.status.active).map fun x => (x.site, what x)

/-- The loop over the links, `topology_report.py:761-767`. -/
def linksInUse (t : Topology) : List (SiteId × String) :=
  (t.links.vals.filter fun l => l.status.active && t.linkType l != .ethernet).flatMap fun l =>
    [(l.tx, t.linkHash l), (l.rx, t.linkHash l)]

/-- `len(d[k])`. -/
def sizeAt {κ α : Type} [DecidableEq κ] (d : Dict κ (List α)) (k : κ) : Except Err Nat :=
  match d.get? k with
  | none => .error .keyError
  | some xs => .ok xs.length

/-- One row, `topology_report.py:775-813`. -/
def siteRow (c : SiteCosts) (nodes : Dict SiteId (List Nat)) (sectors : Dict SiteId (List SectorId))
    (links : Dict SiteId (List String)) (hops : Dict SiteId Nat) (fl : SiteFlow) (e : SiteId × Site) :
    Except Err SiteRow :=
  match sizeAt nodes e.1, sizeAt sectors e.1, sizeAt links e.1 with
  | .ok n, .ok s, .ok l =>
    .ok { id := e.1, capex := c.of e.2.siteType, nodes := n, sectors := s, links := l, hops := hops.get? e.1
          outgoing := ((fl.get? e.2.id).getD (0, 0)).1, incoming := ((fl.get? e.2.id).getD (0, 0)).2 }
  | _, _, _ => .error .keyError

/-- `build_sites_df`, `topology_report.py:745-831`. `c` has a cost for each type of site, as in `analyze`,
`topology_report.py:191-195`. The column of names is not modelled. -/
def siteTable (t : Topology) (c : SiteCosts) (flow : LinkId → ℚ) : Except Err (List SiteRow) :=
  match addAll t.noneAt (t.usedSectors (·.node)), addAll t.noneAt (t.usedSectors Sector.id), addAll t.noneAt t.linksInUse,
    t.hopsFromPops activeFilter with
  | .ok nodes, .ok sectors, .ok links, some hops =>
    t.sites.mapM (siteRow c nodes sectors links hops (t.siteFlow flow))
  | _, _, _, _ => .error .keyError

/-- One turn of the loop, `topology_report.py:667-682`: the additions to the dictionary for links of type `ty`. The
`AssertionError` of `none_throws` is represented by `attributeError`. -/
def sectorAdds (t : Topology) (ty : LinkType) (l : Link) : Except Err (List (SectorId × String)) :=
  if l.status.active && t.linkType l == ty then
    match l.sectors with
    | none => .error .attributeError
    | some (a, b) => .ok [(a, t.linkHash l), (b, t.linkHash l)]
  else .ok []

/-- `active_backhaul_links_per_sector` and `active_access_links_per_sector` after the loop, `topology_report.py:661-682`.
Simplified: one loop for each of the two, so that of several exceptions another one may be raised. -/
def sectorSets (t : Topology) (ty : LinkType) : Except Err (Dict SectorId (List String)) :=
  match t.links.vals.mapM (t.sectorAdds ty) with
  | .error e => .error e
  | .ok adds => addAll t.noneOn adds.flatten

/-- One row, `topology_report.py:684-712`. -/
def sectorRow (bh ac : Dict SectorId (List String)) (over : Dict SectorId (List SectorId)) (e : SectorId × Sector) :
    Except Err SectorRow :=
  match sizeAt bh e.1, sizeAt ac e.1 with
  | .ok b, .ok a =>
    .ok { id := e.1, channel := channelLabel e.2.channel, backhaul := b, access := a, overLimit := over.has e.1 }
  | _, _ => .error .keyError

/-- `build_sectors_df`, `topology_report.py:653-723`. Without rows `set_index` raises a `KeyError`. -/
def sectorTable (t : Topology) (over : Dict SectorId (List SectorId)) : Except Err (List SectorRow) :=
  match t.sectorSets .wirelessBackhaul, t.sectorSets .wirelessAccess with
  | .ok bh, .ok ac =>
    match (t.sectors.filter fun e => e.2.status.active).mapM (sectorRow bh ac over) with
    | .error e => .error e
    | .ok [] => .error .keyError
    | .ok rows => .ok rows
  | .error e, _ => .error e
  | _, .error e => .error e

/-- `_get_sector_identifier`, `topology_report.py:603-608`. -/
def endsOf (t : Topology) (l : Link) : Ends :=
  if t.linkType l = .ethernet then .wired
  else match l.sectors with
    | none => .unknown
    | some (a, b) => .sectors a b

/-- One row, `topology_report.py:618-642`. -/
def linkRow (t : Topology) (diff near : List LinkId) (over : Dict SectorId (List SectorId)) (e : LinkId × Link) :
    Except Err LinkRow :=
  match t.linkChannelE e.2 with
  | .error x => .error x
  | .ok c =>
    .ok { id := e.1, ends := t.endsOf e.2, channel := channelLabel c
          diffSector := diff.contains e.2.id, nearFar := near.contains e.1
          overLimit := match e.2.sectors with | none => false | some (a, _) => over.has a }

/-- `build_links_df`, `topology_report.py:593-650`; `D` and `N` are the two lists of `violating_links`. Without rows
`set_index` raises a `KeyError`. -/
def linkTable (t : Topology) (D N : List Triple) (over : Dict SectorId (List SectorId)) : Except Err (List LinkRow) :=
  match t.violatingLinkIds D, t.violatingLinkIds N with
  | .ok diff, .ok near =>
    match t.links.mapM (t.linkRow diff near over) with
    | .error e => .error e
    | .ok [] => .error .keyError
    | .ok rows => .ok rows
  | .error e, _ => .error e
  | _, .error e => .error e

/-- The tables of a report. -/
structure _root_.Verif.Tables where
  links : List LinkRow
  sites : List SiteRow
  sectors : List SectorRow

/-- The end of `analyze`, `topology_report.py:177-209`. -/
def tables (t : Topology) (c : SiteCosts) (flow : LinkId → ℚ) (D N : List Triple)
    (over : Dict SectorId (List SectorId)) : Except Err Tables :=
  match (if t.linkCount activeFilter .wirelessBackhaul + t.linkCount activeFilter .wirelessAccess +
      t.linkCount activeFilter .ethernet > 0 then t.linkTable D N over else .ok []) with
  | .error e => .error e
  | .ok links =>
    match (if t.activeSites > 0 then t.siteTable c flow else .ok []) with
    | .error e => .error e
    | .ok sites =>
      match (if t.sectorCount activeFilter .dn + t.sectorCount activeFilter .cn > 0 then t.sectorTable over
        else .ok []) with
      | .error e => .error e
      | .ok sectors => .ok ⟨links, sites, sectors⟩

end Topology
end Verif
