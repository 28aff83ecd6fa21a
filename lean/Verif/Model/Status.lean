import Verif.Model.Topology

/-! # Status setters and the link constructor -/

namespace Verif

/-- `Sector._check_compatible_status_type`, `sector.py:111-126`: `true` = accepted. -/
def sectorCompat (site st : StatusType) : Bool :=
  if site.active then
    st == .candidate || st == .proposed || st == .existing
  else st == site

/-- `Link._check_compatible_status`, `link.py:362-392`: the four checks in order,
`true` = accepted. -/
def linkCompat (tx rx st : StatusType) : Bool :=
  if st == .existing && (tx != .existing || rx != .existing) then false
  else if (tx == .unavailable || rx == .unavailable) && st != .unavailable then false
  else if (tx == .unreachable || rx == .unreachable) && st != .unreachable then false
  else if (tx == .candidate || rx == .candidate) && st.active then false
  else true

/-- `{old, new} & immutable_status() == {}`, the guard of all three setters
(`site.py:165-172`, `sector.py:100-107`, `link.py:183-190`). -/
def statusMutable (old new : StatusType) : Bool := !(old.immutable || new.immutable)

/-- A sector object passed to the link constructor, with the site it refers to. -/
structure SectorRef where
  sid : SectorId
  site : Site
  deriving DecidableEq, Repr

/-- `Link.__init__`, `link.py:74-117`. `is` on site objects is equality of ids. -/
def mkLink (txSite rxSite : Option Site) (txSec rxSec : Option SectorRef)
    (st : StatusType) (wireless : Bool) : Except Err Link :=
  match txSite <|> txSec.map (·.site), rxSite <|> rxSec.map (·.site) with
  | some tx, some rx =>
    if tx.siteType = .cn then .error .topology
    else
      let fin (secs : Option (SectorId × SectorId)) : Except Err Link :=
        if linkCompat tx.status rx.status st then
          .ok { tx := tx.id, rx := rx.id, sectors := secs, isWireless := wireless, status := st }
        else .error .topology
      match txSec, rxSec with
      | none, none => fin none
      | some a, some b =>
        if a.site.id ≠ tx.id then .error .topology
        else if b.site.id ≠ rx.id then .error .topology
        else fin (some (a.sid, b.sid))
      | _, _ => .error .topology
  | _, _ => .error .topology

namespace Topology

/-- Status of a site, looked up by id. -/
def siteStatus (t : Topology) (s : SiteId) : Option StatusType := (t.sites.get? s).map (·.status)

/-- `site.status_type = st` on `topology.sites[id]`, `site.py:163-173`. -/
def setSiteStatus (t : Topology) (id : SiteId) (st : StatusType) : Out :=
  match t.sites.get? id with
  | none => (t, some .keyError)
  | some s =>
    if statusMutable s.status st then
      ({ t with sites := t.sites.modify id (fun s => { s with status := st }) }, none)
    else (t, some .topology)

/-- `sector.status_type = st` on `topology.sectors[id]`, `sector.py:98-109`. -/
def setSectorStatus (t : Topology) (id : SectorId) (st : StatusType) : Out :=
  match t.sectors.get? id with
  | none => (t, some .keyError)
  | some s =>
    if statusMutable s.status st then
      match t.siteStatus s.site with
      | none => (t, some .keyError)
      | some ss =>
        if sectorCompat ss st then
          ({ t with sectors := t.sectors.modify id (fun s => { s with status := st }) }, none)
        else (t, some .topology)
    else (t, some .topology)

/-- `link.status_type = st` on `topology.links[id]`, `link.py:181-192`. -/
def setLinkStatus (t : Topology) (id : LinkId) (st : StatusType) : Out :=
  match t.links.get? id with
  | none => (t, some .keyError)
  | some l =>
    if statusMutable l.status st then
      match t.siteStatus l.tx, t.siteStatus l.rx with
      | some a, some b =>
        if linkCompat a b st then
          ({ t with links := t.links.modify id (fun l => { l with status := st }) }, none)
        else (t, some .topology)
      | _, _ => (t, some .keyError)
    else (t, some .topology)

/-- A status assignment. -/
inductive Assign
  | site (id : SiteId) (st : StatusType)
  | sector (id : SectorId) (st : StatusType)
  | link (id : LinkId) (st : StatusType)
  deriving DecidableEq, Repr

/-- Perform one assignment. -/
def assign (t : Topology) : Assign → Out
  | .site i st => t.setSiteStatus i st
  | .sector i st => t.setSectorStatus i st
  | .link i st => t.setLinkStatus i st

/-- Perform assignments in order; a raising assignment is caught and skipped. -/
def assigns (t : Topology) (as : List Assign) : Topology := as.foldl (fun t a => (t.assign a).1) t

end Topology
end Verif
