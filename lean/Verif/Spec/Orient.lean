import Verif.Model.Orient

/-!
# What a good orientation of the radios of a site is

Vocabulary for C121 and C122, independent of how the search works.
-/

namespace Verif.Spec

/-- The angle between two bearings in `[0, 360)`, the shorter way round. -/
def bearingGap (a b : ℚ) : ℚ := min |a - b| (360 - |a - b|)

/-- The bearing of sector `i` of a node with `n` sectors of width `scan` side
by side around the bearing `c`. -/
def sectorAt (c scan : ℚ) (n i : ℕ) : ℚ := mod360 (c + scan * (i - ((n : ℚ) - 1) / 2))

/-- The bearings of the sectors of a node. -/
def nodeSectors (c scan : ℚ) (n : ℕ) : List ℚ := (List.range n).map (sectorAt c scan n)

/-- A way to point the nodes of a site: every node points to a multiple of
three degrees, the nodes are given in increasing order and do not overlap, also
not the last and the first one. -/
structure Pointing (width : ℚ) (n : ℕ) (s : List ℚ) : Prop where
  count : s.length = n
  grid : ∀ c ∈ s, ∃ k : ℕ, k < 120 ∧ c = 3 * k
  gaps : s.Pairwise (fun a b => width ≤ b - a ∧ width ≤ 360 - (b - a))

/-- A sector of the site at bearing `az` sees the link to neighbour `j`. -/
def Sees (q : Search) (az : ℚ) (j : ℕ) : Prop := bearingGap az (q.angles.getD j 0) < q.scan / 2

instance (q : Search) (az : ℚ) (j : ℕ) : Decidable (Sees q az j) := by
  unfold Sees; infer_instance

/-- The links one sector sees. -/
def seenBy (q : Search) (az : ℚ) : List ℕ :=
  (List.range q.angles.length).filter (fun j => decide (Sees q az j))

/-- The number of links that some sector sees. -/
def seen (q : Search) (azs : List ℚ) : ℕ :=
  ((List.range q.angles.length).filter (fun j => decide (∃ az ∈ azs, Sees q az j))).length

/-- No sector of a node pointed at `c` sees more links, or more links to
distribution sites, than the limits allow. -/
def WithinLimits (q : Search) (c : ℚ) : Prop :=
  ∀ az ∈ nodeSectors c q.scan q.perNode,
    (∀ lim, q.totalLimit = some lim → (seenBy q az).length ≤ lim) ∧
    (∀ lim, q.dnLimit = some lim →
      ((seenBy q az).filter (fun j => q.isDist.getD j false)).length ≤ lim)

/-- How far the links are off the centre of the sectors that see them: the sum
of the squared angles, weighted by the length of the link and, for backhaul
links, by the weight of backhaul links (1 unless another one is given). -/
def spread (q : Search) (azs : List ℚ) : ℚ :=
  (azs.map (fun az => ((seenBy q az).map (fun j =>
    bearingGap az (q.angles.getD j 0) ^ 2 * q.dists.getD j 0 *
      (if q.isDist.getD j false then
        (match q.weight with | some w => if w = 0 then 1 else w | none => 1) else 1))).sum)).sum

/-- What the configuration and the geometry guarantee about a search: at least
one sector per node and one node, no more than a full turn of sectors (checked
when the device is configured, C114), bearings in `[0, 360)`, neighbours that are
not at the very place of the site, and a moderate backhaul weight (the code uses
1 and 8). -/
structure Sensible (q : Search) : Prop where
  scan_pos : 0 < q.scan
  per_pos : 0 < q.perNode
  nodes_pos : 0 < q.nodes
  turn : q.scan * q.perNode * q.nodes ≤ 360
  angle : ∀ a ∈ q.angles, 0 ≤ a ∧ a < 360
  lens : q.dists.length = q.angles.length
  dist : ∀ d ∈ q.dists, 0 < d
  weight : ∀ w, q.weight = some w → 0 ≤ w ∧ w ≤ 30

/-- No rule about which links share a sector applies: no multiple channels, no
angle limits. This is how sectors are created before the optimization. -/
def NoPairRule (q : Search) : Prop :=
  q.channels = none ∧ q.diffAngle = none ∧ (q.nearAngle = none ∨ q.nearRatio = none)

end Verif.Spec
