import Verif.Model.History
import Mathlib.Data.String.Basic
import Mathlib.Data.Rat.Floor

/-!
# Angles, sector assignment and deployment rules

`angle_delta`, `add_sectors_to_links`, `find_angle_violating_link_pairs`,
`get_violating_link_ids`, `sector_connectivity`, `find_sector_limit_violations`.

Angles are exact rationals instead of floats. Spherical trigonometry is not
modelled: the bearing of a link and the angle / length ratio of a site triple
are parameters.
-/

namespace Verif

/-- `angle_delta`, `common/geos.py:186-197`. -/
def angleDelta (a b : ℚ) : ℚ :=
  let dev := a - b
  if dev > 180 then dev - 360
  else if dev ≤ -180 then dev + 360
  else dev

/-- Python `x % 360` on floats. -/
def mod360 (x : ℚ) : ℚ := x - 360 * (⌊x / 360⌋ : ℤ)

/-- `Link.rx_beam_azimuth` from `tx_beam_azimuth`, `link.py:358-360`. -/
def rxAzimuth (tx : ℚ) : ℚ := mod360 (tx + 180)

/-- `SECTOR_LINK_ANGLE_TOLERANCE`, `common/constants.py`. -/
def angleTol : ℚ := 1 / 100

/-- The two identical loops of `add_sectors_to_links`,
`topology_preparation.py:314-332`: strict improvement over `bound`, first one
wins a tie. Sectors are given by id and azimuth. -/
def closestLoop (bearing : ℚ) : ℚ → Option SectorId → List (SectorId × ℚ) → Option SectorId
  | _, best, [] => best
  | bound, best, (s, az) :: rest =>
    let d := |angleDelta az bearing|
    if d < bound then closestLoop bearing d (some s) rest
    else closestLoop bearing bound best rest

/-- What `add_sectors_to_links` reads from the devices and the geometry. -/
structure Geometry where
  /-- `device.sector_params.horizontal_scan_range` of a site. -/
  scan : SiteId → ℚ
  /-- `Link.tx_beam_azimuth`, `link.py:231-235`. -/
  bearing : LinkId → ℚ

namespace Topology

/-- `sectors_for_sites.get(site, [])`, `topology_preparation.py:279-281`, with
the azimuth of each sector. -/
def sectorAz (t : Topology) (s : SiteId) : List (SectorId × ℚ) :=
  (t.sectors.vals.filter (fun x => x.site = s)).map (fun x => (x.id, x.azimuth))

/-- `site_to.site_type == CN and force_full_cn_scan_range`,
`topology_preparation.py:305-309` and `504-508`. -/
def fullScan (t : Topology) (force : Bool) (s : SiteId) : Bool :=
  force && ((t.sites.get? s).map (·.siteType) == some .cn)

/-- Scan range used for the receiving end, `topology_preparation.py:305-309`. -/
def scanTo (t : Topology) (g : Geometry) (force : Bool) (s : SiteId) : ℚ :=
  if t.fullScan force s then 360 else g.scan s

/-- `validate_link_sectors`, `topology_preparation.py:491-518`: `none` = passes.
A sector is an object reference in Python; here it is looked up by id. -/
def validateLinkSectors (t : Topology) (g : Geometry) (force : Bool) (l : Link) : Option Err :=
  match l.sectors with
  | none => none
  | some (a, b) =>
    match t.sectors.get? a, t.sectors.get? b with
    | some sa, some sb =>
      if |angleDelta (g.bearing l.id) sa.azimuth| < g.scan l.tx / 2 + angleTol then
        if t.fullScan force b.site then none
        else if |angleDelta (rxAzimuth (g.bearing l.id)) sb.azimuth| < g.scan l.rx / 2 + angleTol
          then none
        else some .optimizer
      else some .optimizer
    | _, _ => some .keyError

/-- The best sector at each end of a link, `topology_preparation.py:295-332`. -/
def bestSectors (t : Topology) (g : Geometry) (force : Bool) (l : Link) :
    Option SectorId × Option SectorId :=
  (closestLoop (g.bearing l.id) (g.scan l.tx / 2 + angleTol) none (t.sectorAz l.tx),
   closestLoop (rxAzimuth (g.bearing l.id)) (t.scanTo g force l.rx / 2 + angleTol) none
     (t.sectorAz l.rx))

/-- `sector.channel = c`, `topology_preparation.py:364`. -/
def setChannel (t : Topology) (s : SectorId) (c : Int) : Topology :=
  { t with sectors := t.sectors.modify s (fun x => { x with channel := c }) }

/-- `topology_preparation.py:360-367`: channel and status of the two sectors of
an active link. -/
def markAssigned (t : Topology) (chan : Option (Dict LinkId Int)) (l : Link) (a b : SectorId) : Out :=
  match chan with
  | none => (t, none)
  | some m =>
    if l.status.active then
      match m.get? l.id with
      | none => (t, some .keyError)
      | some c =>
        match ((t.setChannel a c).setChannel b c).setSectorStatus a .proposed with
        | (t1, some e) => (t1, some e)
        | (t1, none) => t1.setSectorStatus b .proposed
    else (t, none)

/-- `Link.tx_sector = a; Link.rx_sector = b`, `link.py:161-175`. -/
def setLinkSectors (t : Topology) (id : LinkId) (p : Option (SectorId × SectorId)) : Topology :=
  { t with links := t.links.modify id (fun l => { l with sectors := p }) }

/-- One iteration of `add_sectors_to_links`, `topology_preparation.py:283-367`.
The setters' check that a sector is on the link's end cannot fail, because the
candidates are the sectors of that very site. -/
def assignLink (t : Topology) (g : Geometry) (force : Bool) (chan : Option (Dict LinkId Int))
    (l : Link) : Out :=
  if l.isWireless then
    if l.sectors.isSome then (t, t.validateLinkSectors g force l)
    else
      match t.bestSectors g force l with
      | (some a, some b) =>
        let t1 := t.setLinkSectors l.id (some (a, b))
        let t2 := t1.setLinkSectors ⟨l.rx, l.tx⟩ (some (b, a))
        t2.markAssigned chan l a b
      | _ =>
        if l.status.active then (t, some .optimizer)
        else (t.setLinkSectors l.id none, none)
  else (t, none)

/-- The loop over `topology.links.values()`. -/
def assignLoop (t : Topology) (g : Geometry) (force : Bool) (chan : Option (Dict LinkId Int)) :
    List LinkId → Out
  | [] => (t, none)
  | id :: rest =>
    match t.links.get? id with
    | none => (t, some .keyError)
    | some l =>
      match t.assignLink g force chan l with
      | (t1, some e) => (t1, some e)
      | (t1, none) => assignLoop t1 g force chan rest

/-- `add_sectors_to_links`, `topology_preparation.py:256-367`. -/
def addSectorsToLinks (t : Topology) (g : Geometry) (force : Bool)
    (chan : Option (Dict LinkId Int)) : Out :=
  t.assignLoop g force chan t.links.keys

/-- A site triple `(i, j, k)`: links `(i, j)` and `(i, k)`, `LinkPair`. -/
structure Triple where
  i : SiteId
  j : SiteId
  k : SiteId
  deriving DecidableEq, Repr

/-- `itertools.combinations(l, 2)`. -/
def combos {α : Type} : List α → List (α × α)
  | [] => []
  | x :: xs => xs.map (fun y => (x, y)) ++ combos xs

/-- One row of `_get_adjacency_dictionary`, `deployment_rules.py:88-103`. -/
def adjacency (t : Topology) (active : Bool) (s : SiteId) : List Link :=
  t.links.vals.filter (fun l => l.isWireless && (!active || l.status.active) && (l.tx == s))

/-- The angle limits of the deployment rules. -/
structure AngleLimits where
  diffSector : ℚ
  nearFar : ℚ
  ratio : ℚ

/-- `sector1 is not sector2 and (not active or sector1.channel == sector2.channel)`,
`deployment_rules.py:73-75`; `None.channel` raises. -/
def clashing (t : Topology) (active : Bool) (l1 l2 : Link) : Except Err Bool :=
  if l1.sectors.map Prod.fst = l2.sectors.map Prod.fst then .ok false
  else if active then
    match (l1.sectors.bind fun p => t.sectors.get? p.1),
          (l2.sectors.bind fun p => t.sectors.get? p.1) with
    | some a, some b => .ok (decide (a.channel = b.channel))
    | _, _ => .error .attributeError
  else .ok true

/-- Body of the inner loop, `deployment_rules.py:57-83`; `angle` is
`law_of_cosines_spherical` on the three sites. -/
def angleStep (t : Topology) (lim : AngleLimits) (active : Bool)
    (angle : SiteId → SiteId → SiteId → ℚ × ℚ) (acc : List Triple × List Triple)
    (p : Link × Link) : Except Err (List Triple × List Triple) :=
  match t.clashing active p.1 p.2 with
  | .error e => .error e
  | .ok c =>
    let tr : Triple := ⟨p.1.tx, min p.1.rx p.2.rx, max p.1.rx p.2.rx⟩
    let ar := angle p.1.tx p.1.rx p.2.rx
    if c then
      if ar.1 ≤ lim.diffSector then .ok (acc.1 ++ [tr], acc.2)
      else if ar.1 ≤ lim.nearFar ∧ ar.2 ≥ lim.ratio then .ok (acc.1, acc.2 ++ [tr])
      else .ok acc
    else .ok acc

/-- `find_angle_violating_link_pairs`, `deployment_rules.py:20-85`. -/
def findAngleViolations (t : Topology) (lim : AngleLimits) (active : Bool)
    (angle : SiteId → SiteId → SiteId → ℚ × ℚ) : Except Err (List Triple × List Triple) :=
  (t.sites.keys.flatMap (fun s => combos (t.adjacency active s))).foldlM
    (t.angleStep lim active angle) ([], [])

/-- `get_violating_link_ids`, `deployment_rules.py:106-121` (the result is a set;
here a list with repeats). -/
def violatingLinkIds (t : Topology) : List Triple → Except Err (List LinkId)
  | [] => .ok []
  | p :: rest => do
    let a ← t.getLinkBySiteIds p.i p.j
    let b ← t.getLinkBySiteIds p.i p.k
    let c ← t.getLinkBySiteIds p.j p.i
    let d ← t.getLinkBySiteIds p.k p.i
    let r ← violatingLinkIds t rest
    return ([a, b, c, d].filterMap id).map Link.id ++ r

/-- Loop of `Topology.sector_connectivity`, `topology.py:60-74`. -/
def connStep (d : Dict SectorId (Dict SectorId LinkId)) (l : Link) :
    Dict SectorId (Dict SectorId LinkId) :=
  match l.sectors with
  | none => d
  | some (a, b) => d.set a (((d.get? a).getD []).set b l.id)

/-- `Topology.sector_connectivity`, `topology.py:60-74`. -/
def sectorConnectivity (t : Topology) : Dict SectorId (Dict SectorId LinkId) :=
  t.links.vals.foldl connStep []

/-- Counting loop of `find_sector_limit_violations`,
`deployment_rules.py:146-156`: counts for DN and CN receivers. -/
def countRx (t : Topology) : List (SectorId × LinkId) → Nat → Nat → Except Err (Nat × Nat)
  | [], d, c => .ok (d, c)
  | (rx, id) :: rest, d, c =>
    match t.links.get? id with
    | none => .error .keyError
    | some l =>
      if l.status.active then
        match t.sectors.get? rx with
        | none => .error .keyError
        | some s =>
          match s.typ with
          | .dn => countRx t rest (d + 1) c
          | .cn => countRx t rest d (c + 1)
      else countRx t rest d c

/-- `[n for n in all_rx_sectors if topology.sectors[n].status_type in active]`,
`deployment_rules.py:160-164`. -/
def activeRx (t : Topology) : List SectorId → Except Err (List SectorId)
  | [] => .ok []
  | n :: rest =>
    match t.sectors.get? n with
    | none => .error .keyError
    | some s =>
      match activeRx t rest with
      | .error e => .error e
      | .ok r => .ok (if s.status.active then n :: r else r)

/-- Loop over the active DN sectors, `deployment_rules.py:139-164`. -/
def limitLoop (t : Topology) (dnLimit totalLimit : Nat) :
    List SectorId → Except Err (Dict SectorId (List SectorId))
  | [] => .ok []
  | s :: rest =>
    let row := (t.sectorConnectivity.get? s).getD []
    match t.countRx row 0 0 with
    | .error e => .error e
    | .ok (d, c) =>
      if d > dnLimit ∨ d + c > totalLimit then
        match t.activeRx row.keys with
        | .error e => .error e
        | .ok xs =>
          match limitLoop t dnLimit totalLimit rest with
          | .error e => .error e
          | .ok r => .ok ((s, xs) :: r)
      else limitLoop t dnLimit totalLimit rest

/-- `find_sector_limit_violations`, `deployment_rules.py:123-165`. -/
def sectorLimitViolations (t : Topology) (dnLimit totalLimit : Nat) :
    Except Err (Dict SectorId (List SectorId)) :=
  t.limitLoop dnLimit totalLimit
    ((t.sectors.filter (fun p => p.2.typ == .dn && p.2.status.active)).map Prod.fst)

end Topology
end Verif
