import Verif.Model.Counter
import Verif.Model.Rf
import Verif.Model.History

/-!
# Demand: `optimization/topology_demand.py`

`DemandSite.demand_id` is an MD5 of latitude, longitude and altitude (`None` for
all demand placed by the planner); it is the parameter `hash lon lat`. The
haversine distance is a parameter, and so are the grid steps `dx`, `dy` computed
by `grid_deltas` (`geos.py:296-309`). Coordinates are exact rationals.
-/

namespace Verif

/-- Identifier of a demand site at a position, `demand_site.py:47-49`. -/
abbrev DemandHash := ℚ → ℚ → DemandId

/-- Bounds (with buffer) and steps of the uniform grid, `topology_demand.py:121-148`. -/
structure Grid where
  left : ℚ
  right : ℚ
  bottom : ℚ
  top : ℚ
  dx : ℚ
  dy : ℚ
  anti : Bool
  deriving DecidableEq, Repr

/-- `if longitude > 180: longitude -= 360`, `topology_demand.py:164-165`. -/
def wrapLon (x : ℚ) : ℚ := if x > 180 then x - 360 else x

/-- Loop condition, `topology_demand.py:151`. -/
def Grid.more (g : Grid) (x : ℚ) : Bool := decide (x ≤ g.right) || (g.anti && decide (x ≥ g.left))

namespace Topology

/-- `topology.add_demand_site(DemandSite(GeoLocation(...), demand))`,
`topology_demand.py:154-161`, with the range checks of `geos.py:47-58`. -/
def addGridPoint (t : Topology) (hash : DemandHash) (demand lon lat : ℚ) : Out :=
  if -90 ≤ lat ∧ lat ≤ 90 ∧ -180 ≤ lon ∧ lon ≤ 180 then
    t.addDemandSite { id := hash lon lat, demand := some demand, lat := lat, lon := lon }
  else (t, some .geoSystem)

/-- Inner loop, `topology_demand.py:152-162`; `none`: not finished after `fuel` rounds. -/
def latLoop (hash : DemandHash) (demand : ℚ) (g : Grid) (lon : ℚ) :
    Nat → Topology → ℚ → Option Out
  | 0, _, _ => none
  | fuel + 1, t, lat =>
    if lat ≤ g.top then
      match t.addGridPoint hash demand lon lat with
      | (t1, some e) => some (t1, some e)
      | (t1, none) => latLoop hash demand g lon fuel t1 (lat + g.dy)
    else some (t, none)

/-- Outer loop, `topology_demand.py:150-165`; `none`: not finished after `fuel` rounds. -/
def lonLoop (hash : DemandHash) (demand : ℚ) (g : Grid) (rounds : Nat) :
    Nat → Topology → ℚ → Option Out
  | 0, _, _ => none
  | fuel + 1, t, lon =>
    if g.more lon then
      match latLoop hash demand g lon rounds t g.bottom with
      | none => none
      | some (t1, some e) => some (t1, some e)
      | some (t1, none) => lonLoop hash demand g rounds fuel t1 (wrapLon (lon + g.dx))
    else some (t, none)

/-- `topology_demand.py:124-129`: sites on both sides of the antimeridian. -/
def antimeridian (t : Topology) : Bool :=
  t.sites.vals.any (fun s => decide (s.lon ≥ 175)) && t.sites.vals.any (fun s => decide (s.lon ≤ -175))

/-- `topology_demand.py:121-148`; `none` is the `ValueError` of `min` over no sites. -/
def gridOf (t : Topology) (dx dy : ℚ) : Option Grid :=
  match pyMin ((t.sites.vals.filter (fun s => !t.antimeridian || decide (s.lon ≥ 175))).map (·.lon)),
        pyMax ((t.sites.vals.filter (fun s => !t.antimeridian || decide (s.lon ≤ -175))).map (·.lon)),
        pyMin (t.sites.vals.map (·.lat)), pyMax (t.sites.vals.map (·.lat)) with
  | some l, some r, some b, some u =>
    some ⟨l - dx, r + dx, b - dy, u + dy, dx, dy, t.antimeridian⟩
  | _, _, _, _ => none

/-- `_add_uniform_demand_sites`, `topology_demand.py:115-165`, run for at most
`fuel` rounds of each loop. -/
def addUniform (t : Topology) (hash : DemandHash) (demand dx dy : ℚ) (fuel : Nat) : Option Out :=
  match t.gridOf dx dy with
  | none => some (t, some .valueError)
  | some g => lonLoop hash demand g fuel fuel t g.left

/-- `cn_sites_to_dn_sites` after `_handle_hybrid_locations`,
`topology_demand.py:190-219`; the sets as lists without repeats. -/
def addPair (m : Dict SiteId (List SiteId)) (p : SiteId × SiteId) : Dict SiteId (List SiteId) :=
  m.set p.1 (((m.get? p.1).getD []).insert p.2)

/-- `[s for s in ids if topology.sites[s].site_type is CN]`, `topology_demand.py:208-212`. -/
def cnsOf (t : Topology) (ids : List SiteId) : List SiteId :=
  ids.filter (fun s => (t.sites.get? s).any (fun x => x.siteType == .cn))

/-- `[s for s in ids if topology.sites[s].site_type in dist_site_types()]`,
`topology_demand.py:213-217`. -/
def dnsOf (t : Topology) (ids : List SiteId) : List SiteId :=
  ids.filter (fun s => (t.sites.get? s).any (fun x => x.siteType == .dn || x.siteType == .pop))

/-- `_handle_hybrid_locations`, `topology_demand.py:190-219`. -/
def hybridPairs (t : Topology) : List (SiteId × SiteId) :=
  (t.colocated.vals.filter (fun ids => decide (ids.length > 1))).flatMap
    (fun ids => (t.cnsOf ids) ×ˢ (t.dnsOf ids))

/-- Body of the loop over the sites, `topology_demand.py:238-252`, for the sites
of type `p`; a negative number is an unknown building. -/
def buildStep (p : SiteType → Bool) (d : Dict Int (List SiteId)) (e : SiteId × Site) :
    Dict Int (List SiteId) :=
  match e.2.building with
  | some b => if b > -1 && p e.2.siteType then d.set b (((d.get? b).getD []).insert e.1) else d
  | none => d

/-- Sites of type `p` by known building, `topology_demand.py:236-252`. -/
def onBuildings (t : Topology) (p : SiteType → Bool) : Dict Int (List SiteId) :=
  t.sites.foldl (buildStep p) []

/-- `_handle_rooftop_connections`, `topology_demand.py:222-260`. -/
def rooftopPairs (t : Topology) : List (SiteId × SiteId) :=
  let cns := t.onBuildings (· == .cn)
  let dns := t.onBuildings (fun x => x == .dn || x == .pop)
  (cns.keys.filter (fun b => dns.has b)).flatMap
    (fun b => ((cns.get? b).getD []) ×ˢ ((dns.get? b).getD []))

/-- Loop of `connect_demand_to_colocated_sites` over one demand site,
`topology_demand.py:270-279`. Python's `for` over the list also visits what is
appended meanwhile: `todo` is the part still to visit, `out` all of it. The set
`connected_site_ids` always holds the ids of the list. -/
def connectLoop (m : Dict SiteId (List SiteId)) (out todo : List SiteId) : List SiteId :=
  match todo with
  | [] => out
  | s :: rest =>
    let new := (((m.get? s).getD []).filter (fun x => x ∉ out)).dedup
    connectLoop m (out ++ new) (rest ++ new)
  termination_by ((m.vals.flatten.filter (fun x => x ∉ out)).length, todo.length)
  decreasing_by
    by_cases c : (((m.get? s).getD []).filter (fun x => x ∉ out)).dedup = []
    · rw [c, List.append_nil, List.append_nil]
      exact Prod.Lex.right _ (Nat.lt_succ_self _)
    · apply Prod.Lex.left
      obtain ⟨x, hx⟩ := List.exists_mem_of_ne_nil _ c
      have h1 := List.mem_filter.1 (List.mem_dedup.1 hx)
      have h2 : x ∉ out := of_decide_eq_true h1.2
      have h3 : x ∈ m.vals.flatten := by
        have h4 := h1.1
        cases hg : m.get? s with
        | none => rw [hg] at h4; cases h4
        | some v =>
          rw [hg] at h4
          exact List.mem_flatten.2 ⟨v, List.mem_map.2 ⟨_, Dict.mem_of_get? m hg, rfl⟩, h4⟩
      have h5 : m.vals.flatten.filter (fun y =>
            y ∉ out ++ (((m.get? s).getD []).filter (fun x => x ∉ out)).dedup) =
          (m.vals.flatten.filter (fun y => y ∉ out)).filter
            (fun y => y ∉ (((m.get? s).getD []).filter (fun x => x ∉ out)).dedup) := by
        rw [List.filter_filter]
        congr 1
        funext y
        rw [← Bool.decide_and]
        congr 1
        rw [List.mem_append, not_or, and_comm]
      rw [h5, List.length_filter_lt_length_iff_exists]
      exact ⟨x, List.mem_filter.2 ⟨h3, decide_eq_true h2⟩, fun k => of_decide_eq_true k hx⟩

/-- `connect_demand_to_colocated_sites`, `topology_demand.py:263-279`. Every id in
`m` is the id of a site, so `topology.sites[dn_site_id]` does not raise. -/
def connectDemand (t : Topology) (m : Dict SiteId (List SiteId)) : Topology :=
  { t with demandSites := t.demandSites.map (fun p =>
      (p.1, { p.2 with connected := connectLoop m p.2.connected p.2.connected })) }

/-- `_add_dn_sites_to_cn_connected_demand`, `topology_demand.py:168-187`. -/
def connectColocated (t : Topology) : Topology :=
  t.connectDemand ((t.hybridPairs ++ t.rooftopPairs).foldl addPair [])

/-- The demand parameters of `OptimizerParams`. -/
structure DemandParams where
  manual : Bool
  uniform : Bool
  cn : Bool
  demand : ℚ
  radius : ℚ
  dx : ℚ
  dy : ℚ
  deriving DecidableEq, Repr

/-- `haversine_distance(lon_a, lat_a, lon_b, lat_b)`. -/
abbrev Dist := ℚ → ℚ → ℚ → ℚ → ℚ

/-- `topology_demand.py:37-42`. -/
def resetDemand (t : Topology) (p : DemandParams) : Topology :=
  { t with demandSites :=
      if p.manual then
        t.demandSites.map (fun e => (e.1, { e.2 with demand := some p.demand, connected := [] }))
      else [] }

/-- `topology_demand.py:55-65`. -/
def sitesNear (t : Topology) (dist : Dist) (radius : ℚ) (d : DemandSite) : List SiteId :=
  (t.sites.filter (fun s => decide (dist s.2.lon s.2.lat d.lon d.lat ≤ radius))).map Prod.fst

/-- Body of the loop over the demand sites, `topology_demand.py:53-69`. -/
def connectNear (dist : Dist) (radius : ℚ) (manual : List DemandId) (t : Topology) (id : DemandId) :
    Topology :=
  match t.demandSites.get? id with
  | none => t
  | some d =>
    if t.sitesNear dist radius d = [] ∧ id ∉ manual then
      { t with demandSites := t.demandSites.del id }
    else
      { t with demandSites :=
          t.demandSites.modify id (fun d => { d with connected := t.sitesNear dist radius d }) }

/-- The demand site placed at a CN, `topology_demand.py:102-107`. -/
def cnDemand (hash : DemandHash) (demand : ℚ) (c : Site) : DemandSite where
  id := hash c.lon c.lat
  demand := some demand
  lat := c.lat
  lon := c.lon
  numSites := c.subscribers
  connected := [c.id]

/-- Body of the loop of `_add_cn_demand_sites`, `topology_demand.py:99-112`. The
second component is `demand_locations`. -/
def cnStep (hash : DemandHash) (demand : ℚ) (st : Topology × Dict (ℚ × ℚ) DemandId) (c : Site) :
    Topology × Dict (ℚ × ℚ) DemandId :=
  match st.2.get? (c.lon, c.lat) with
  | none =>
    ((st.1.addDemandSite (cnDemand hash demand c)).1,
     st.2.set (c.lon, c.lat) (hash c.lon c.lat))
  | some id =>
    ({ st.1 with demandSites := st.1.demandSites.modify id (fun d =>
        { d with connected := d.connected ++ [c.id] }) }, st.2)

/-- `_add_cn_demand_sites`, `topology_demand.py:87-112`. -/
def addCnDemand (t : Topology) (hash : DemandHash) (demand : ℚ) : Topology :=
  ((t.sites.vals.filter (fun s => s.siteType == .cn)).foldl (cnStep hash demand) (t, [])).1

/-- `add_demand_to_topology` from line 51 on, once the uniform grid is there. -/
def finishDemand (t : Topology) (hash : DemandHash) (dist : Dist) (p : DemandParams)
    (manual : List DemandId) : Out :=
  let t1 := t.demandSites.keys.foldl (connectNear dist p.radius manual) t
  let t2 := if p.cn then t1.addCnDemand hash p.demand else t1
  let t3 := t2.connectColocated
  if t3.demandSites = [] then (t3, some .optimizer) else (t3, none)

/-- `add_demand_to_topology`, `topology_demand.py:33-84`; `none`: not finished. -/
def addDemand (t : Topology) (hash : DemandHash) (dist : Dist) (p : DemandParams) (fuel : Nat) :
    Option Out :=
  let t0 := t.resetDemand p
  let grid := if p.uniform then t0.addUniform hash p.demand p.dx p.dy fuel else some (t0, none)
  match grid with
  | none => none
  | some (t1, some e) => some (t1, some e)
  | some (t1, none) => some (t1.finishDemand hash dist p t0.demandSites.keys)

end Topology
end Verif
