import Verif.Model.Angles

/-!
# The search for the best sector orientation

`find_best_sectors` and `get_sector_azimuths_from_node_center`,
`optimization/topology_preparation.py:583-995`.

Angles, distances and metrics are exact rationals instead of floats. The
spherical trigonometry (`bearing_in_degrees`, `haversine_distance`,
`law_of_cosines_spherical`) is a parameter: a search is given the bearing and
the distance of each neighbouring site and, for two neighbours, the angle
between the links and the ratio of their lengths.
-/

namespace Verif

/-- The arguments of `find_best_sectors`, `topology_preparation.py:632-645`.
The three lists have one entry per neighbouring site, in the order of
`neighbor_site_list`. -/
structure Search where
  /-- `link_angles`, lines 697-702. -/
  angles : List ℚ
  /-- `link_dists`, lines 703-708. -/
  dists : List ℚ
  /-- `site.site_type in SiteType.dist_site_types()` of each neighbour. -/
  isDist : List Bool
  /-- `number_of_nodes`. -/
  nodes : ℕ
  /-- `number_of_sectors_per_node`. -/
  perNode : ℕ
  /-- `horizontal_scan_range`. -/
  scan : ℚ
  /-- `dn_dn_sector_limit`. The configuration only admits positive limits. -/
  dnLimit : Option ℕ := none
  /-- `dn_total_sector_limit`. -/
  totalLimit : Option ℕ := none
  /-- `diff_sector_angle_limit`. -/
  diffAngle : Option ℚ := none
  /-- `near_far_angle_limit`. -/
  nearAngle : Option ℚ := none
  /-- `near_far_length_ratio`. -/
  nearRatio : Option ℚ := none
  /-- `law_of_cosines_spherical` for two neighbours: angle and length ratio. -/
  triangle : ℕ → ℕ → ℚ × ℚ := fun _ _ => (180, 1)
  /-- `backhaul_link_type_weight`. -/
  weight : Option ℚ := none
  /-- `sector_channel_list`. -/
  channels : Option (List (SectorId × Int)) := none

/-- `np.arange(start, stop, step)` for a positive step. -/
def arange (start stop step : ℚ) : List ℚ :=
  (List.range ⌈(stop - start) / step⌉.toNat).map (fun i : ℕ => start + (i : ℚ) * step)

/-- `get_sector_azimuths_from_node_center`, `topology_preparation.py:583-629`. -/
def nodeAzimuths (center : ℚ) (sectors : ℕ) (scan : ℚ) : Except Err (List ℚ) :=
  if sectors = 0 then .ok []
  else
    let half : ℚ := if sectors % 2 = 0 then (sectors : ℚ) / 2 - 1 / 2 else (sectors / 2 : ℕ)
    let start := center - scan * half
    let stop := center + scan * half
    let positions := (arange start (stop + scan / 2) scan).map mod360
    if positions.length = sectors then .ok positions else .error .optimizer

namespace Search

variable (q : Search)

/-- `num_neighbors`, line 681. -/
def neighbours : ℕ := q.angles.length

/-- `horizontal_scan_range * number_of_sectors_per_node`. -/
def width : ℚ := q.scan * q.perNode

/-- `num_nodes`, lines 685-691. -/
def numNodes : ℕ := min ⌊360 / q.width⌋.toNat q.nodes

/-- Indices of the neighbours. -/
def js : List ℕ := List.range q.neighbours

/-- `angle_violation_pairs`, lines 710-733. -/
def anglePairs : List (ℕ × ℕ) :=
  if q.diffAngle.isSome || (q.nearAngle.isSome && q.nearRatio.isSome) then
    (Topology.combos q.js).filter (fun p =>
      let (angle, ratio) := q.triangle p.1 p.2
      q.diffAngle.any (fun lim => decide (angle ≤ lim)) ||
        (q.nearAngle.any (fun lim => decide (angle ≤ lim)) &&
          q.nearRatio.any (fun lim => decide (ratio ≥ lim))))
  else []

/-- `diff_sector_violation_pairs`, lines 735-749: links that must not leave
different sectors. A channel list shorter than the list of neighbours raises
`IndexError` in Python; here a missing entry equals another missing one. -/
def diffPairs : List (ℕ × ℕ) :=
  match q.channels with
  | some cs => (Topology.combos q.js).filter (fun p =>
      decide ((cs[p.1]?).map (·.1) = (cs[p.2]?).map (·.1)))
  | none => q.anglePairs

/-- `same_sector_violation_pairs`, lines 735-749: links that must not leave the
same sector. -/
def samePairs : List (ℕ × ℕ) :=
  match q.channels with
  | some cs => (Topology.combos q.js).filter (fun p =>
      decide ((cs[p.1]?).map (·.2) ≠ (cs[p.2]?).map (·.2)))
  | none => []

/-- `DEFAULT_POINTING_PRECISION`, `common/constants.py`. -/
def precision : ℕ := 3

/-- `num_azimuth_candidates`, lines 756-758. -/
def numCandidates : ℕ := 360 / precision

/-- `node_azimuth_candidates[k]`, lines 762-765. -/
def center (k : ℕ) : ℚ := (k * precision : ℕ)

/-- Azimuth of sector `i` of candidate `k`, lines 766-773. -/
def sectorAzimuth (k i : ℕ) : ℚ :=
  match nodeAzimuths (center k) q.perNode q.scan with
  | .ok l => l.getD i 0
  | .error _ => 0

/-- The difference of two angles in `[0, 180]`, lines 774-785. -/
def delta (a b : ℚ) : ℚ := 180 - |180 - (|a - b|)|

/-- The bearing of the link to neighbour `j`. -/
def angle (j : ℕ) : ℚ := q.angles.getD j 0

/-- `sector_azimuth_link_mat[k][i][j] == 1` before pruning, lines 787-796. -/
def sectorMat0 (x : ℕ × ℕ) (j : ℕ) : Bool :=
  let d := delta (q.sectorAzimuth x.1 x.2) (q.angle j)
  decide (-q.scan / 2 ≤ d) && decide (d < q.scan / 2)

/-- `node_azimuth_link_mat[k][j] == 1` before pruning, lines 797-805. -/
def nodeMat0 (k : ℕ) (j : ℕ) : Bool :=
  let d := delta (center k) (q.angle j)
  decide (-q.scan * q.perNode / 2 ≤ d) && decide (d < q.scan * q.perNode / 2)

/-- `mat[x][j] = 0`. -/
def zero {ι : Type} [DecidableEq ι] (m : ι → ℕ → Bool) (x : ι) (j : ℕ) : ι → ℕ → Bool :=
  fun y l => if y = x ∧ l = j then false else m y l

/-- Lines 815-830: a sector (or node) that covers both links of a pair loses both. -/
def pruneSame {ι : Type} [DecidableEq ι] (idx : List ι) (pairs : List (ℕ × ℕ))
    (m : ι → ℕ → Bool) : ι → ℕ → Bool :=
  pairs.foldl (fun m p =>
    idx.foldl (fun m x =>
      if m x p.1 && m x p.2 then zero (zero m x p.1) x p.2 else m) m) m

/-- Lines 834-869: of two sectors (or nodes) that cover one link of a pair
each, both lose it. -/
def pruneDiff {ι : Type} [DecidableEq ι] (idx : List ι) (pairs : List (ℕ × ℕ))
    (m : ι → ℕ → Bool) : ι → ℕ → Bool :=
  pairs.foldl (fun m p =>
    (Topology.combos idx).foldl (fun m xy =>
      let m1 := if m xy.1 p.1 && !m xy.1 p.2 && !m xy.2 p.1 && m xy.2 p.2
        then zero (zero m xy.1 p.1) xy.2 p.2 else m
      if m1 xy.2 p.1 && !m1 xy.2 p.2 && !m1 xy.1 p.1 && m1 xy.1 p.2
        then zero (zero m1 xy.2 p.1) xy.1 p.2 else m1) m) m

/-- `sector_list`, lines 807-812. -/
def sectorList : List (ℕ × ℕ) :=
  (List.range numCandidates).flatMap (fun k => (List.range q.perNode).map (fun i => (k, i)))

/-- `sector_azimuth_link_mat`, lines 787-852. -/
def sectorMat : ℕ × ℕ → ℕ → Bool :=
  pruneDiff q.sectorList q.diffPairs (pruneSame q.sectorList q.samePairs q.sectorMat0)

/-- `node_azimuth_link_mat`, lines 797-869. -/
def nodeMat : ℕ → ℕ → Bool :=
  pruneDiff (List.range numCandidates) q.diffPairs
    (pruneSame (List.range numCandidates) q.samePairs q.nodeMat0)

/-- `valid_candidate_idx[k]`, lines 881-897. -/
def valid (k : ℕ) : Bool :=
  (List.range q.perNode).all (fun i =>
    decide ((q.js.filter (fun j => q.sectorMat (k, i) j)).length
      ≤ q.totalLimit.getD q.neighbours)) &&
  (List.range q.perNode).all (fun i =>
    decide ((q.js.filter (fun j => q.sectorMat (k, i) j && q.isDist.getD j false)).length
      ≤ q.dnLimit.getD q.neighbours))

/-- `link_type_weight`, line 874. -/
def typeWeight : ℚ := match q.weight with
  | none => 1
  | some w => if w = 0 then 1 else w

/-- `UNCOVERED_PENALTY`, line 755. -/
def penalty : ℚ := 1000000 * q.neighbours

/-- `max(link_dists)`. -/
def maxDist : ℚ := q.dists.foldl max (q.dists.headD 0)

/-- `sector_weighted[k][i][j]`, lines 908-914. -/
def weighted (k i j : ℕ) : ℚ :=
  if q.sectorMat (k, i) j then
    delta (q.sectorAzimuth k i) (q.angle j) ^ 2 * q.dists.getD j 0 / q.maxDist
      * (if q.isDist.getD j false then q.typeWeight else 1)
  else q.penalty

/-- `node_mets[k]`, line 915. -/
def nodeMet (k : ℕ) : ℚ :=
  ((List.range q.perNode).map (fun i => (q.js.map (fun j => q.weighted k i j)).sum)).sum

end Search

/-! ## The dynamic program, lines 918-979 -/

/-- `azimuth_candidates`, `node_mets` and the sizes, as the dynamic program
reads them. -/
structure Tableau where
  /-- `num_azimuth_candidates`, line 916. -/
  size : ℕ
  /-- `azimuth_candidates[idx]`. -/
  az : ℕ → ℚ
  /-- `node_mets[idx]`. -/
  met : ℕ → ℚ
  /-- `num_nodes`. -/
  n : ℕ
  /-- `horizontal_scan_range * number_of_sectors_per_node`. -/
  width : ℚ

namespace Tableau

/-- `mets[r]` and `prev_sector[r]`; `none` stands for infinity. -/
abbrev Row := ℕ → Option (ℚ × ℕ)

/-- `w < mets[r + 1][x]`, lines 959-963. -/
def improves (w : ℚ) : Option (ℚ × ℕ) → Bool
  | none => true
  | some (u, _) => decide (w < u)

variable (T : Tableau)

/-- Lines 941-970, for `candidate_idx = c` with `mets[r][c] = v`. -/
def relax (first c : ℕ) (v : ℚ) : List ℕ → Row → Row
  | [], R => R
  | x :: xs, R =>
    if T.az x - T.az c < T.width then relax first c v xs R
    else if T.az first + 360 - T.az x < T.width then R
    else if improves (v + T.met x) (R x) then
      relax first c v xs (fun y => if y = x then some (v + T.met x, c) else R y)
    else relax first c v xs R

/-- Lines 939-970: the row after `R`. -/
def nextRow (first : ℕ) (R : Row) : Row :=
  (List.range T.size).foldl (fun R' c =>
    match R c with
    | none => R'
    | some (v, _) => T.relax first c v (List.range' (c + 1) (T.size - (c + 1))) R') (fun _ => none)

/-- `mets[r]`, lines 934-970. -/
def row (first : ℕ) : ℕ → Row
  | 0 => fun x => if x = first then some (T.met first, 0) else none
  | r + 1 => T.nextRow first (row first r)

/-- `min(mets[-1])` and `mets[-1].index(...)`, lines 971 and 974: the first
place of the least entry, `none` if all entries are infinite. -/
def least (R : Row) : List ℕ → Option (ℕ × ℚ)
  | [] => none
  | x :: xs =>
    match R x, least R xs with
    | none, b => b
    | some (v, _), none => some (x, v)
    | some (v, _), some (y, u) => if u < v then some (y, u) else some (x, v)

/-- Lines 975-978, already reversed (line 992). -/
def back (first : ℕ) : ℕ → ℕ → List ℕ
  | 0, x => [x]
  | r + 1, x =>
    match T.row first (r + 1) x with
    | some (_, p) => back first r p ++ [x]
    | none => [x]

/-- Lines 925-978. -/
def search : List ℕ → ℚ → Option (List ℕ) → Option (List ℕ)
  | [], _, pos => pos
  | f :: fs, best, pos =>
    if T.az f ≥ 360 - ((T.n : ℚ) - 1) * T.width then pos
    else
      match least (T.row f (T.n - 1)) (List.range T.size) with
      | none => search fs best pos
      | some (x, v) =>
        if v < best then search fs v (some (T.back f (T.n - 1) x)) else search fs best pos

end Tableau

namespace Search

variable (q : Search)

/-- `np.flatnonzero(valid_candidate_idx)`. -/
def validIdx : List ℕ := (List.range numCandidates).filter q.valid

/-- What the dynamic program works on, lines 902-916. -/
def tableau : Tableau where
  size := q.validIdx.length
  az := fun p => center (q.validIdx.getD p 0)
  met := fun p => q.nodeMet (q.validIdx.getD p 0)
  n := q.numNodes
  width := q.width

/-- The initial `best_met`, lines 921-923. -/
def initialBest : ℚ :=
  ((q.numNodes * q.perNode * q.neighbours : ℕ) + 1) * q.penalty ^ 2

/-- `find_best_sectors`, `topology_preparation.py:632-995`. A scan range of
zero raises `ZeroDivisionError`; zero nodes raise `IndexError` at `mets[0]`,
recorded here as `valueError`. Two neighbours at distance zero of the site
(`max(link_dists) == 0`, not a number in Python) are outside the model. -/
def findBest : Except Err (List (List ℚ)) :=
  if q.neighbours = 0 then .ok []
  else if q.width = 0 then .error .zeroDivision
  else if q.validIdx = [] then .ok []
  else if q.numNodes = 0 then .error .valueError
  else
    match q.tableau.search (List.range q.tableau.size) q.initialBest none with
    | none => .error .optimizer
    | some pos =>
      ((pos.map (fun p => q.validIdx.getD p 0)).filter (fun k =>
          decide (0 < (q.js.filter (fun j => q.nodeMat k j)).length))).mapM
        (fun k => nodeAzimuths (center k) q.perNode q.scan)

end Search

end Verif
