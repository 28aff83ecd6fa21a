import Verif.Model.Orient
import Verif.Model.Prepare
import Mathlib.Data.List.Sort

/-!
# Creating and checking the sectors of the sites

`create_dn_sectors`, `create_cn_sectors`, `validate_site_sectors` and
`find_best_equidistant_sectors`, `optimization/topology_preparation.py:154-254`,
`370-488` and `521-580`.

Angles are exact rationals. The circular mean of a list of azimuths (a sum of
sines and cosines and an arc tangent) is a parameter.
-/

namespace Verif

/-- What the search and the check read from the device of a site. -/
structure Radio where
  /-- `device.number_of_nodes_per_site`. -/
  nodes : ℕ
  /-- `device.sector_params.number_sectors_per_node`. -/
  perNode : ℕ
  /-- `device.sector_params.horizontal_scan_range`. -/
  scan : ℚ

/-- Lines 379-395: the azimuths per node, in the order of the sectors. `pos`
are the positions seen so far per node. -/
def groupSectors (site : SiteId) : List Sector → Dict Nat (List ℚ) → Dict Nat (List Nat) →
    Except Err (Dict Nat (List ℚ))
  | [], az, _ => .ok az
  | x :: xs, az, pos =>
    if x.site ≠ site then .error .optimizer
    else if ((pos.get? x.node).getD []).contains x.pos then .error .optimizer
    else groupSectors site xs (az.set x.node ((az.get? x.node).getD [] ++ [x.azimuth]))
      (pos.set x.node (x.pos :: (pos.get? x.node).getD []))

/-- `l1 + l2`, lines 409-426: the azimuths of a node, sorted below and above
their circular mean `m`. -/
def aroundMean (m : ℚ) (azs : List ℚ) : List ℚ :=
  (azs.filter (fun a => decide ((a ≤ m ∧ a > m - 180) ∨ a > m + 180))).insertionSort (· ≤ ·) ++
  (azs.filter (fun a => decide ((a > m ∧ a ≤ m + 180) ∨ a ≤ m - 180))).insertionSort (· ≤ ·)

/-- Lines 430-443: neighbouring sectors of a node are a scan range apart. -/
def evenlySpaced (scan : ℚ) : List ℚ → Bool
  | a :: b :: rest =>
    decide (|(|angleDelta a b|) - scan| < angleTol) && evenlySpaced scan (b :: rest)
  | _ => true

/-- `_inside_interval`, lines 449-455. -/
def insideInterval (p start stop : ℚ) : Bool :=
  if start ≤ stop then decide (p ≥ start ∧ p ≤ stop) else decide (p ≥ start ∨ p ≤ stop)

/-- Lines 461-488, for two nodes. -/
def nodesApart (scan : ℚ) (a b : List ℚ) : Bool :=
  let a0 := a.headD 0
  let a1 := a.getLastD 0
  let b0 := b.headD 0
  let b1 := b.getLastD 0
  decide (scan ≤ min (min |angleDelta a0 b0| |angleDelta a1 b0|) (min |angleDelta a0 b1| |angleDelta a1 b1|)) &&
  !(insideInterval b0 a0 a1 || insideInterval b1 a0 a1 || insideInterval a0 b0 b1 || insideInterval a1 b0 b1)

/-- `validate_site_sectors`, `topology_preparation.py:370-488`; `none` = passes. -/
def validateSiteSectors (mean : List ℚ → ℚ) (r : Radio) (sectors : List Sector) : Option Err :=
  match sectors with
  | [] => none
  | x :: _ =>
    match groupSectors x.site sectors [] [] with
    | .error e => some e
    | .ok d =>
      if d.length > r.nodes then some .optimizer
      else if !d.vals.all (fun azs => decide (azs.length = r.perNode)) then some .optimizer
      else
        let d' := d.map (fun e => (e.1, aroundMean (mean e.2) e.2))
        if decide (r.perNode > 1) && !d'.all (fun e => evenlySpaced r.scan e.2) then some .optimizer
        else if d'.all (fun e => d'.all (fun f => decide (e.1 = f.1) || nodesApart r.scan e.2 f.2)) then none
        else some .optimizer

/-- `np.round`: to the nearest integer, halves to the even one. -/
def roundHalfEven (x : ℚ) : ℤ :=
  let f := ⌊x⌋
  if x - f < 1 / 2 then f
  else if x - f > 1 / 2 then f + 1
  else if f % 2 = 0 then f else f + 1

/-- Index of the first least value, `mets.argmin()`; `(best, place)` so far. -/
def argminFrom : List ℚ → ℕ → ℚ → ℕ → ℕ
  | [], _, _, place => place
  | x :: xs, i, best, place => if x < best then argminFrom xs (i + 1) x i else argminFrom xs (i + 1) best place

/-- `find_best_equidistant_sectors`, `topology_preparation.py:521-580`, given
the bearings of the links. A width of zero raises `ZeroDivisionError`, and so
does a width of more than a turn (`num_nodes = 0`). -/
def equidistant (r : Radio) (angles : List ℚ) : Except Err (List (List ℚ)) :=
  let width := r.scan * r.perNode
  if width = 0 then .error .zeroDivision
  else
    let n := min ⌊360 / width⌋.toNat r.nodes
    if n = 0 then .error .zeroDivision
    else
      let arc : ℚ := 360 / n
      if angles = [] then .ok []
      else
        let steps := (roundHalfEven (arc / (Search.precision : ℕ))).toNat
        let rotations := (List.range steps).map (fun i : ℕ => (i : ℚ) * arc / steps)
        let mets := rotations.map (fun rot => (angles.map (fun a =>
          let node : ℤ := roundHalfEven ((a - rot) / arc) % (n : ℤ)
          let d := a - node * arc - rot
          let d' := if |d| > width / 2 then 360 else d
          d' ^ 2)).sum)
        match mets with
        | [] => .error .valueError
        | m :: ms =>
          let best := rotations.getD (argminFrom ms 1 m 0) 0
          (List.range n).mapM (fun i : ℕ => nodeAzimuths (best + (i : ℚ) * arc) r.perNode r.scan)

namespace Topology

/-- The sectors of a type on a site, in the order of `topology.sectors`:
`sectors_for_sites` of lines 158-163 and 208-213. -/
def sectorsOfType (t : Topology) (ty : SectorType) (s : SiteId) : List Sector :=
  t.sectors.vals.filter (fun x => decide (x.typ = ty ∧ x.site = s))

/-- The loop over the sites of `create_dn_sectors` (lines 165-202) and
`create_cn_sectors` (lines 223-253). `have_` are the sectors that were there
before the loop, `want` tells the sites that get sectors, `best` is the result
of the search for a site. `Sector(...)` fails if a candidate sector does not fit
the status of the site. -/
def createLoop (mean : List ℚ → ℚ) (radio : SiteId → Radio) (want : Site → Bool)
    (best : SiteId → Except Err (List (List ℚ))) (have_ : SiteId → List Sector) :
    Topology → List Site → Out
  | t, [] => (t, none)
  | t, s :: rest =>
    if (have_ s.id).length > 0 || !want s then
      match validateSiteSectors mean (radio s.id) (have_ s.id) with
      | some e => (t, some e)
      | none => createLoop mean radio want best have_ t rest
    else
      match best s.id with
      | .error e => (t, some e)
      | .ok angles =>
        if (newSectors s angles).isEmpty || sectorCompat s.status .candidate then
          match foldOut addSector t (newSectors s angles) with
          | (t1, some e) => (t1, some e)
          | (t1, none) => createLoop mean radio want best have_ t1 rest
        else (t, some .topology)

/-- `create_dn_sectors`, `topology_preparation.py:154-202`. -/
def createDnSectors (mean : List ℚ → ℚ) (radio : SiteId → Radio)
    (best : SiteId → Except Err (List (List ℚ))) (t : Topology) : Out :=
  createLoop mean radio (fun s => decide (s.siteType ≠ .cn)) best (t.sectorsOfType .dn) t t.sites.vals

/-- `create_cn_sectors`, `topology_preparation.py:205-253`. -/
def createCnSectors (mean : List ℚ → ℚ) (radio : SiteId → Radio)
    (best : SiteId → Except Err (List (List ℚ))) (t : Topology) : Out :=
  createLoop mean radio (fun s => decide (s.siteType = .cn)) best (t.sectorsOfType .cn) t t.sites.vals

end Topology
end Verif
