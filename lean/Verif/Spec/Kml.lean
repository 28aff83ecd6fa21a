import Verif.Model.Kml
import Verif.Spec.Tables
import Verif.Spec.Nx

/-! # What a KML file should show -/

namespace Verif
namespace Kml

/-- The placemarks in the folders named `b` of the folders named `a`. -/
def Doc.marksAt (d : Doc) (a b : String) : List Mark :=
  (d.tops.filter (·.name = a)).flatMap fun f => (f.subs.filter (·.name = b)).flatMap (·.marks)

/-- All placemarks of the file. -/
def Doc.marks (d : Doc) : List Mark := d.tops.flatMap fun f => f.subs.flatMap (·.marks)

/-- The `Data` element named `k` says `s`. -/
def Says (m : Mark) (k s : String) : Prop := ∃ raw, (k, Val.text raw) ∈ m.data ∧ readText raw = some s

/-- The placemark stands for the site: its name, its place, and what is said about it. -/
structure ShowsSite (K : Info) (s : Site) (m : Mark) : Prop where
  name : readText m.name = some (K.name s.id)
  coords : m.coords = [(s.lon, s.lat, s.alt)]
  mode : m.mode = if s.alt.isSome then "absolute" else "clampToGround"
  typ : Says m "Site Type" s.siteType.str
  status : Says m "Status" s.status.str
  sku : Says m "Device SKU" s.device.sku
  loc : Says m "Location Type" (K.loc s.id).str
  subs : ("Number of Subscribers", Val.int s.subscribers) ∈ m.data

/-- The placemark stands for the link between the two sites. -/
structure ShowsLink (t : Topology) (K : Info) (l : Link) (m : Mark) : Prop where
  name : m.name = t.linkHash l
  coords : ∃ a b, t.sites.get? l.tx = some a ∧ t.sites.get? l.rx = some b ∧
    m.coords = [(a.lon, a.lat, a.alt), (b.lon, b.lat, b.alt)] ∧ (a.alt.isSome ↔ b.alt.isSome) ∧
    m.mode = if a.alt.isSome then "absolute" else "clampToGround"
  typ : Says m "Link Type" (t.linkType l).str
  status : Says m "Status" l.status.str
  tx : Says m "Tx Site Name" (K.name l.tx)
  rx : Says m "Rx Site Name" (K.name l.rx)
  channel : ∀ c : Nat, ("Channel", Val.int c) ∈ m.data ↔ Spec.InNetwork l.status ∧
    ∃ a b x, l.sectors = some (a, b) ∧ t.sectors.get? a = some x ∧ x.channel = c

/-- The demand can be coloured: either all demands are the same, or all are given and the greatest is not 0. -/
def DemandShown (t : Topology) : Prop :=
  (∀ d ∈ t.demandSites.vals, ∀ e ∈ t.demandSites.vals, d.demand.getD 0 = e.demand.getD 0) ∨
  (∀ d ∈ t.demandSites.vals, d.demand ≠ none) ∧
    ∃ d ∈ t.demandSites.vals, ∃ x, d.demand = some x ∧ x ≠ 0 ∧
      ∀ e ∈ t.demandSites.vals, ∀ y, e.demand = some y → y ≤ x

/-- The placemark stands for the demand site: its place, its demand, and its shade. One shade is used if all demands
are the same, otherwise three for the thirds of the greatest demand. -/
structure ShowsDemand (t : Topology) (d : DemandSite) (m : Mark) : Prop where
  coords : m.coords = [(d.lon, d.lat, some 0)]
  demand : ∀ x, ("site_demand", Val.float x) ∈ m.data ↔ d.demand = some x
  same : (∀ e ∈ t.demandSites.vals, ∀ f ∈ t.demandSites.vals, e.demand.getD 0 = f.demand.getD 0) →
    m.style = "demand_site_0"
  shade : ∀ x M, d.demand = some x → 0 ≤ x → 0 < M → (∃ e ∈ t.demandSites.vals, e.demand = some M) →
    (∀ e ∈ t.demandSites.vals, e.demand.getD 0 ≤ M) → (∃ e ∈ t.demandSites.vals, e.demand.getD 0 ≠ M) →
    m.style = if 3 * x < M then "demand_site_0" else if 3 * x < 2 * M then "demand_site_1" else "demand_site_2"

/-- The placemark is the line from the demand site to the site. -/
structure ShowsConn (p : DemandSite × Site) (m : Mark) : Prop where
  coords : m.coords = [(p.1.lon, p.1.lat, some 0), (p.2.lon, p.2.lat, some 0)]
  name : m.name = "link_" ++ p.2.id ++ "_" ++ p.1.id

/-- The status is shown when the file is opened. -/
def Visible (st : StatusType) : Prop := st = .proposed ∨ st = .unreachable

end Kml
end Verif

namespace Verif
namespace Kml

/-- How the LIBKML driver names the field of a `Data` element, in small letters: spaces become underscores. -/
def launder (s : String) : String := String.ofList (s.toList.map fun c => if c = ' ' then '_' else c.toLower)

/-- The names of the `Data` elements of a site or link. -/
def dataNames : List String :=
  ["Site Type", "Site Geohash", "Altitude", "Status", "Polarity", "Location Type", "Device SKU",
    "Number of Subscribers", "Link Type", "Tx Site Name", "Rx Site Name", "Confidence Level", "Channel"]

/-- The text has no character that is special in XML. -/
def Plain (s : String) : Prop := ∀ c ∈ s.toList, c ≠ '&' ∧ c ≠ '<'

end Kml
end Verif

namespace Verif
namespace Kml

/-- What a topology must satisfy so that the file written for it can be read again by `L`: names are given and
different; devices are known; no site is on a rooftop; ids are hashes; the statuses of links suit those of their sites,
and those of the two directions of a link are the same. -/
structure Reloadable (t : Topology) (K : Info) (L : Loader) : Prop where
  named : ∀ s ∈ t.sites.vals, K.name s.id ≠ ""
  distinct : ∀ s ∈ t.sites.vals, ∀ s' ∈ t.sites.vals, K.name s.id = K.name s'.id → s.id = s'.id
  known : ∀ s ∈ t.sites.vals, s.device.sku ≠ "" ∧ L.device s.device.sku = some s.device
  ground : ∀ s ∈ t.sites.vals, K.loc s.id ≠ .rooftop ∧ s.building = none
  typ : ∀ s ∈ t.sites.vals, s.siteType = .cn ↔ s.device.deviceType = .cn
  hash : ∀ s ∈ t.sites.vals, s.id = L.hash s.siteType s.lat s.lon s.alt s.device.sku
  subs : ∀ s ∈ t.sites.vals, s.siteType = .cn ↔ s.subscribers ≠ 0
  compat : ∀ l ∈ t.links.vals, l.isWireless = true → ∀ a b, t.sites.get? l.tx = some a → t.sites.get? l.rx = some b →
    linkCompat a.status b.status l.status = true ∧ linkCompat b.status a.status l.status = true
  back : ∀ l ∈ t.links.vals, ∀ l' ∈ t.links.vals, l.isWireless = true → l'.isWireless = true → l'.tx = l.rx →
    l'.rx = l.tx → l'.status = l.status
  sitePlain : ∀ s ∈ t.sites.vals, Plain s.id
  demandPlain : ∀ d ∈ t.demandSites.vals, Plain d.id
  title : Plain K.title

end Kml
end Verif
