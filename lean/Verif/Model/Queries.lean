import Verif.Model.History

/-!
# Questions about a topology: `common/topology_models/topology.py`

Sets are lists; only membership matters.
-/

namespace Verif
namespace Topology

/-- `get_link_by_sector_ids`, `topology.py:334-354`. -/
def getLinkBySectorIds (t : Topology) (a b : SectorId) : Except Err (Option Link) :=
  match t.sectors.get? a, t.sectors.get? b with
  | some x, some y => t.getLinkBySiteIds x.site y.site
  | _, _ => .error .topology

/-- `get_sector_ids`, `topology.py:427-436`. -/
def getSectorIds (t : Topology) (status : StatusType → Bool) : Dict SiteId (List SectorId) :=
  t.sectors.foldl (fun d e => if status e.2.status then d.set e.2.site ((d.get? e.2.site).getD [] ++ [e.1]) else d) []

/-- `get_site_polarities`, `topology.py:438-450`: the sites of polarity `p`, which is ODD or EVEN. -/
def getSitePolarities (t : Topology) (p : PolarityType) : List SiteId :=
  (t.sites.filter fun e => e.2.status.active && (e.2.siteType == .dn || e.2.siteType == .pop) &&
    e.2.polarity != .unassigned && e.2.polarity == p).map (·.1)

end Topology
end Verif
