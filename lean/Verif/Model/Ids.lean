import Verif.Model.Topology
import Mathlib.Data.String.Basic
import Mathlib.Data.List.Sort

/-! # Rendered identifiers and `Topology.sort` -/

namespace Verif

/-- `Link.get_link_id_by_site_ids`, `link.py:347-349`: `f"{tx}-{rx}"`. -/
def LinkId.render (i : LinkId) : String := i.tx ++ "-" ++ i.rx

/-- `SectorType.name`, `enums.py:96-98`. -/
def SectorType.name : SectorType → String
  | .cn => "CN"
  | .dn => "DN"

/-- `Sector._sector_id`, `sector.py:58`:
`f"{site_id}-{node_id}-{position_in_node}-{sector_type.name}"`. -/
def SectorId.render (i : SectorId) : String :=
  i.site ++ "-" ++ Nat.repr i.node ++ "-" ++ Nat.repr i.pos ++ "-" ++ i.typ.name

/-- `dict(sorted(d.items()))`: keys are compared first and are unique, so values
are never compared. The sorted permutation is unique, so insertion sort stands
for Timsort. -/
def Dict.sortBy {κ ν : Type} (f : κ → String) (d : Dict κ ν) : Dict κ ν :=
  d.insertionSort (fun a b => f a.1 ≤ f b.1)

/-- `Topology.sort`, `topology.py:361-372`. -/
def Topology.sort (t : Topology) : Topology :=
  { t with
    sites := t.sites.sortBy id
    demandSites := (t.demandSites.sortBy id).map (fun p =>
      (p.1, { p.2 with connected := p.2.connected.insertionSort (· ≤ ·) }))
    sectors := t.sectors.sortBy SectorId.render
    links := t.links.sortBy LinkId.render }

end Verif
