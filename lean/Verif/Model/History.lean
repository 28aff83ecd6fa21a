import Verif.Model.Status
import Verif.Model.Ids

/-! # Histories of API calls and attribute writes on a topology -/

namespace Verif
namespace Topology

/-- Writes of plain attributes (no setter logic, nothing else depends on them):
`site.polarity`/`breakdowns` (`site.py:112-113`), `sector.ant_azimuth`/`channel`
(`sector.py:64,68`), the link attributes of `link.py:111-135`, and the pair of
link sector setters `link.py:161-175` (both set, or cleared). -/
inductive Write
  | site (id : SiteId) (pol : PolarityType) (breakdowns : Nat)
  | sector (id : SectorId) (azimuth : ℚ) (channel : Int)
  | link (id : LinkId) (isWireless : Bool) (capacity : ℚ) (confidence : Option ℚ)
      (isRedundant : Bool)
  | linkSectors (id : LinkId) (secs : Option (SectorId × SectorId))

/-- Perform one write. The sector setters raise if a sector is not on the
link's end; the first sector may then already have been stored, which this
model leaves out (no call site of the setters can hit that case). -/
def write (t : Topology) : Write → Out
  | .site i p b =>
    if t.sites.has i then
      ({ t with sites := t.sites.modify i (fun s => { s with polarity := p, breakdowns := b }) }, none)
    else (t, some .keyError)
  | .sector i a c =>
    if t.sectors.has i then
      ({ t with sectors := t.sectors.modify i (fun s => { s with azimuth := a, channel := c }) }, none)
    else (t, some .keyError)
  | .link i w c f r =>
    if t.links.has i then
      ({ t with links := t.links.modify i (fun l =>
          { l with isWireless := w, capacity := c, confidence := f, isRedundant := r }) }, none)
    else (t, some .keyError)
  | .linkSectors i secs =>
    match t.links.get? i with
    | none => (t, some .keyError)
    | some l =>
      match secs with
      | some (a, b) =>
        if a.site = l.tx ∧ b.site = l.rx then
          ({ t with links := t.links.modify i (fun l => { l with sectors := secs }) }, none)
        else (t, some .topology)
      | none => ({ t with links := t.links.modify i (fun l => { l with sectors := none }) }, none)

/-- The mutating API calls, including `Topology.sort`, status assignments and attribute writes. `add_link_from_site_ids` (`topology.py:219-242`) is
`add_link` of a freshly built link after two more site checks and is covered by
`addLink`. -/
inductive Op
  | addSite (s : Site) (detected : Bool)
  | removeSite (s : SiteId)
  | addDemandSite (d : DemandSite)
  | removeDemandSite (d : DemandId)
  | addSector (s : Sector)
  | removeSector (s : SectorId)
  | addLink (l : Link)
  | removeLink (l : LinkId)
  | assign (a : Assign)
  | write (w : Write)
  | sort

/-- One API call. -/
def step (t : Topology) : Op → Out
  | .addSite s d => t.addSite s d
  | .removeSite s => t.removeSite s
  | .addDemandSite d => t.addDemandSite d
  | .removeDemandSite d => t.removeDemandSite d
  | .addSector s => t.addSector s
  | .removeSector s => t.removeSector s
  | .addLink l => t.addLink l
  | .removeLink l => t.removeLink l
  | .assign a => t.assign a
  | .write w => t.write w
  | .sort => (t.sort, none)

/-- A history of API calls; exceptions are caught by the caller, which goes on
with the state the failed call left behind. -/
def run (t : Topology) (ops : List Op) : Topology := ops.foldl (fun t o => (t.step o).1) t

end Topology
end Verif
