import Verif.Model.Extract
import Verif.Model.Angles

/-!
# The interference problem: `optimization/ilp_models/interference_optimization.py`

Decision variables and constraints as in `Verif.Model.Ilp`; the sites are constants.
The tables derived from devices and radio computations are parameters. Not modelled:
the objective, the solver, missing device SKUs or azimuths (they raise), and the
`KeyError` for a sector of type CN on a distribution site when there are several
channels.
-/

namespace Verif

/-- The inputs of `MinInterferenceNetwork` besides the topology and the parameters of
`OptParams`, `interference_optimization.py:60-121`. Radio levels are in linear units.
`mcs s` lists `(1 / snr, gbps)` for the device of site `s`, `noise s` is its
`noise_linear`. -/
structure Interf where
  channels : Nat := 1
  violating : List (SiteId × SiteId × SiteId) := []
  dnLimit : Nat := 2
  totalLimit : Nat := 15
  rsl : Arc → ℚ := fun _ => 0
  rslInterf : Arc → ℚ := fun _ => 0
  scan : SiteId → ℚ := fun _ => 360
  rxAzimuth : Arc → ℚ := fun _ => 0
  noise : SiteId → ℚ := fun _ => 0
  mcs : SiteId → List (ℚ × ℚ) := fun _ => []

/-- An assignment of the variables of the interference problem. `active`, `deploy`,
`cls`, `pol` are `active_link`, `deployment_link`, `link_capacity_vars`,
`tdm_compatible_polarity`. -/
structure IVars extends Vars where
  active : Arc → ℚ
  deploy : Arc → Nat → ℚ
  cls : Arc → Nat → Nat → ℚ
  pol : SiteId → Arc → Nat → ℚ

/-- `SECTOR_LINK_ANGLE_TOLERANCE`, `common/constants.py:23`. -/
def sectorAngleTolerance : ℚ := 1 / 100

namespace Plan

/-- `loc in active_sites`, `_get_active_sites`, `interference_optimization.py:261-300`. -/
def liveSite (P : Plan) (s : SiteId) : Bool :=
  P.isActive s && (decide (P.groupSize s ≤ 1) ||
    match P.t.sites.get? s with
    | some x => x.siteType == P.maxType (((P.t.colocated.get? x.point).getD []).filter P.isActive)
    | none => false)

/-- `(i, j) in active_link`, `interference_optimization.py:311-323`. -/
def hasActive (P : Plan) (e : Arc) : Bool :=
  P.hasTdm e && decide (0 < P.cap e) && ((P.linkOf e).bind (·.sectors)).isSome

/-- `(i, j) in proposed_links | existing_links`; the former is cleared,
`interference_optimization.py:70-74`. -/
def fixedArc (P : Plan) (e : Arc) : Bool := (P.linkOf e).any fun l => l.status == .existing

/-- `create_sector_site_relationship`, `network_optimization.py:383-398`. -/
def SectorSite (P : Plan) (n : Nat) (x : Vars) : Prop :=
  ∀ k d, P.t.sectors.get? k = some d → d.site ∈ P.t.sites.keys → P.sectorSum n x k ≤ x.site d.site

/-- The keys of `sector_vars`, `network_optimization.py:328-340`. A tuple `(i, a, c)` is
`(i, a, some c)` and a tuple `(i, a)` is `(i, a, none)`. -/
def sectorKeys (P : Plan) (n : Nat) : List (SiteId × SectorId × Option Nat) :=
  P.t.sectors.flatMap fun e => ((List.range n).filter (P.hasSector n e.1)).map fun c =>
    (e.2.site, e.1, some c)

/-- `create_same_node_sector_relationship`, `network_optimization.py:400-425`; a sector is
collected if `(loc, sec) in self.sector_vars`. -/
def SameNode (P : Plan) (n : Nat) (x : Vars) : Prop :=
  ∀ k1 k2 d1 d2, P.t.sectors.get? k1 = some d1 → P.t.sectors.get? k2 = some d2 →
    d1.site = d2.site → d1.node = d2.node →
    (d1.site, k1, none) ∈ P.sectorKeys n → (d2.site, k2, none) ∈ P.sectorKeys n →
    P.sectorSum n x k1 = P.sectorSum n x k2

/-- `create_sector_channel_constraints`, `network_optimization.py:350-364`. -/
def SectorChannel (P : Plan) (n : Nat) (x : Vars) : Prop :=
  1 < n → ∀ k d, P.t.sectors.get? k = some d → d.typ = .dn →
    ((List.range n).map fun c => x.sector k c).sum ≤ 1

/-- `create_tdm_link_relationship`, `interference_optimization.py:550-561`. -/
def TdmLink (P : Plan) (n : Nat) (x : IVars) : Prop :=
  0 < n → ∀ e ∈ P.arcs, P.hasActive e = true → tdmSum n x.toVars e ≤ x.active e

/-- `create_flow_link_relationship`, `interference_optimization.py:465-478`. -/
def FlowLink (P : Plan) (x : IVars) : Prop :=
  ∀ e ∈ P.arcs, P.hasActive e = true → x.flow e ≤ P.cap e * x.active e

/-- `create_symmetric_link_constraints`, `interference_optimization.py:596-602`. -/
def SymmetricLinks (P : Plan) (x : IVars) : Prop :=
  ∀ a b, (a, b) ∈ P.arcs → P.hasActive (a, b) = true → (b, a) ∈ P.arcs →
    P.hasActive (b, a) = true → x.active (a, b) = x.active (b, a)

/-- `create_cn_link_constraints`, `interference_optimization.py:480-493`. -/
def CnLinks (P : Plan) (x : IVars) : Prop :=
  ∀ s, P.siteType? (.site s) = some .cn → (P.incoming (.site s)).filter P.hasActive ≠ [] →
    (((P.incoming (.site s)).filter P.hasActive).map x.active).sum ≤ 1

/-- The outgoing links of `create_multi_point_contstraints` counted for sector `k`;
`dn` restricts to distribution sites as receivers. -/
def multiArcs (P : Plan) (dn : Bool) (s : SiteId) (k : SectorId) : List Arc :=
  (P.outgoing (.site s)).filter fun e => P.txSector e = some k && P.hasActive e &&
    (P.isDist e.2 || (!dn && P.siteType? e.2 == some .cn))

/-- `create_multi_point_contstraints`, `interference_optimization.py:403-463`. -/
def MultiPoint (P : Plan) (I : Interf) (x : IVars) : Prop :=
  ∀ k d, P.t.sectors.get? k = some d → P.isDist (.site d.site) = true →
    (I.dnLimit ≤ (P.multiArcs true d.site k).length →
      ((P.multiArcs true d.site k).map x.active).sum ≤
        I.dnLimit * ((List.range I.channels).map fun c => x.sector k c).sum) ∧
    (I.totalLimit ≤ (P.multiArcs false d.site k).length →
      ((P.multiArcs false d.site k).map x.active).sum ≤
        I.totalLimit * ((List.range I.channels).map fun c => x.sector k c).sum)

/-- `create_sector_link_constraints`, `interference_optimization.py:495-548`. -/
def SectorLink (P : Plan) (n : Nat) (x : IVars) : Prop :=
  ∀ e ∈ P.arcs, P.hasActive e = true → ∀ k1 k2, P.txSector e = some k1 → P.rxSector e = some k2 →
    (P.hasSector n k1 0 = true → x.active e ≤ P.sectorSum n x.toVars k1) ∧
    (P.hasSector n k2 0 = true → x.active e ≤ P.sectorSum n x.toVars k2) ∧
    (n ≠ 1 → P.siteType? e.2 ≠ some .cn → ∀ c < n,
      x.active e ≤ x.sector k1 c - x.sector k2 c + 1 ∧
      x.active e ≤ x.sector k2 c - x.sector k1 c + 1)

/-- `create_polarity_link_relationship`, `interference_optimization.py:563-594`. -/
def PolarityLink (P : Plan) (x : IVars) : Prop :=
  P.p.ignorePolarities = false → ∀ a b, (Loc.site a, Loc.site b) ∈ P.arcs →
    P.fixedArc (.site a, .site b) = false → P.hasActive (.site a, .site b) = true →
    P.isDist (.site a) = true → P.isDist (.site b) = true →
    x.active (.site a, .site b) ≤ x.odd a + x.odd b ∧
    x.active (.site a, .site b) ≤ 2 - x.odd a - x.odd b

/-- `create_active_link_polarity_constraints`, `network_optimization.py:877-887`, with
`proposed_links` cleared. -/
def FixedPolarity (P : Plan) (x : Vars) : Prop :=
  P.p.ignorePolarities = false → ∀ a b, (Loc.site a, Loc.site b) ∈ P.arcs →
    P.fixedArc (.site a, .site b) = true →
    P.isDist (.site a) = true → P.isDist (.site b) = true → x.odd a = 1 - x.odd b

/-- `create_decided_link_constraints`, `interference_optimization.py:353-401`. -/
def DecidedLinks (P : Plan) (n : Nat) (x : IVars) : Prop :=
  (∀ a b, (Loc.site a, Loc.site b) ∈ P.arcs → P.fixedArc (.site a, .site b) = true →
    x.site a ≠ 0 → x.site b ≠ 0 →
    (P.hasActive (.site a, .site b) = true → x.active (.site a, .site b) = 1) ∧
    (∀ k, P.txSector (.site a, .site b) = some k → P.sectorSum n x.toVars k = 1) ∧
    (∀ k, P.rxSector (.site a, .site b) = some k → P.sectorSum n x.toVars k = 1)) ∧
  ∀ e ∈ P.arcs, P.inactiveArc e = true → P.hasActive e = true → x.active e = 0

/-- `(i, j) in deployment_links`, `interference_optimization.py:325-346`. -/
def hasDeploy (P : Plan) (I : Interf) (e : Arc) : Bool :=
  I.violating.any fun v =>
    P.arcs.contains (.site v.1, .site v.2.1) && P.hasActive (.site v.1, .site v.2.1) &&
    P.arcs.contains (.site v.1, .site v.2.2) && P.hasActive (.site v.1, .site v.2.2) &&
    (e == (.site v.1, .site v.2.1) || e == (.site v.1, .site v.2.2))

/-- `rx_sector_var`, `interference_optimization.py:624-630`. -/
def rxVar (P : Plan) (n : Nat) (x : Vars) (k : SectorId) (c : Nat) : ℚ :=
  if P.hasSector n k c then x.sector k c else x.sector k 0

/-- `create_deployment_link_constraints`, `interference_optimization.py:604-641`. -/
def Deployment (P : Plan) (I : Interf) (x : IVars) : Prop :=
  I.channels ≠ 1 → ∀ e, P.hasDeploy I e = true → ∀ c < I.channels,
    ∀ k1 k2, P.txSector e = some k1 → P.rxSector e = some k2 →
    (x.deploy e c = 0 ∨ x.deploy e c = 1) ∧ x.deploy e c ≤ x.active e ∧
    x.deploy e c ≤ x.sector k1 c ∧ x.deploy e c ≤ P.rxVar I.channels x.toVars k2 c ∧
    x.active e + x.sector k1 c + P.rxVar I.channels x.toVars k2 c - 2 ≤ x.deploy e c

/-- `create_angle_limit_guideline_constraints`, `interference_optimization.py:643-674`. -/
def AngleLimit (P : Plan) (I : Interf) (x : IVars) : Prop :=
  ∀ v ∈ I.violating,
    let e : Arc := (.site v.1, .site v.2.1)
    let f : Arc := (.site v.1, .site v.2.2)
    e ∈ P.arcs → P.hasActive e = true → f ∈ P.arcs → P.hasActive f = true →
    ¬ (P.fixedArc e = true ∧ P.fixedArc f = true) →
      if I.channels = 1 then x.active e + x.active f ≤ 1
      else ∀ c < I.channels, x.deploy e c + x.deploy f c ≤ 1

/-- The tests of `get_interferering_links` on `in_link = (k, rx)`,
`interference_optimization.py:694-723`. -/
def interfPath (P : Plan) (I : Interf) (x : Vars) (a b : SiteId) (k2 : SectorId) (e : Arc) : Bool :=
  let cn := P.siteType? (.site b) == some .cn
  P.hasActive e && (cn || P.rxSector e == some k2) &&
  (match e.1 with
    | .site k => x.site k != 0 && k != a
    | _ => false) &&
  !(cn && decide (I.scan b < 360) &&
    decide (I.scan b / 2 + sectorAngleTolerance ≤
      |angleDelta (I.rxAzimuth e) (I.rxAzimuth (.site a, .site b))|))

/-- The tests on `out_link`, `interference_optimization.py:727-737`. -/
def interfOut (P : Plan) (x : Vars) (b : SiteId) (e f : Arc) : Bool :=
  P.hasActive f && P.txSector f == P.txSector e &&
  (match f.2 with
    | .site l => x.site l != 0 && l != b
    | _ => false)

/-- `get_interferering_links`, `interference_optimization.py:676-741`. -/
def interferers (P : Plan) (I : Interf) (x : Vars) (a b : SiteId) (k2 : SectorId) : List Arc :=
  ((P.incoming (.site b)).filter (P.interfPath I x a b k2)).flatMap fun e =>
    (P.outgoing e.1).filter (P.interfOut x b e)

/-- `create_tdm_compatible_polarity_decisions`, `interference_optimization.py:743-831`,
for one link: bounds of the variable and the five constraints. -/
def PolarityProduct (P : Plan) (I : Interf) (x : IVars) (a b : SiteId) (k2 : SectorId) : Prop :=
  P.p.ignorePolarities = false → ∀ k l, (Loc.site k, Loc.site l) ∈ P.interferers I x.toVars a b k2 →
    ∀ c < I.channels,
      let q := x.pol a (.site k, .site l) c
      let t := x.tdm (.site k, .site l) c
      0 ≤ q ∧ q ≤ 1 ∧ q ≤ 1 + x.odd k - x.odd a ∧ q ≤ 1 - x.odd k + x.odd a ∧ q ≤ t ∧
      t + x.odd k + x.odd a - 2 ≤ q ∧ t - x.odd a - x.odd k ≤ q

/-- `interfering_rsl_expr`, `interference_optimization.py:833-878`. -/
def interfExpr (P : Plan) (I : Interf) (x : IVars) (a b : SiteId) (k2 : SectorId) (c : Nat) : ℚ :=
  ((P.interferers I x.toVars a b k2).map fun f =>
    I.rslInterf (f.1, .site b) *
      (if P.p.ignorePolarities then x.tdm f c else x.pol a f c)).sum

/-- `max_neighboring_rsl`, same lines. -/
def maxNeighbor (P : Plan) (I : Interf) (x : IVars) (a b : SiteId) (k2 : SectorId) : ℚ :=
  ((P.interferers I x.toVars a b k2).map fun f => I.rslInterf (f.1, .site b)).sum

/-- `cap_gbps[sku]` and `snr_linear_inverse[sku]` after
`interference_optimization.py:889-896`. -/
def classes (I : Interf) (b : SiteId) : List (ℚ × ℚ) :=
  if (I.mcs b).any (fun r => r.2 == 0) then I.mcs b else I.mcs b ++ [(0, 0)]

/-- `zero_row[sku]`, `interference_optimization.py:896`. -/
def zeroRow (I : Interf) (b : SiteId) : Nat := (classes I b).findIdx fun r => r.2 == 0

/-- `q / current_link_rsl_linear if current_link_rsl_linear != 0 else 0`. -/
def perRsl (I : Interf) (e : Arc) (q : ℚ) : ℚ := if I.rsl e = 0 then 0 else q / I.rsl e

/-- `snr_linear_inverse[rx_sku][i]` after `interference_optimization.py:975-980`. -/
def threshold (P : Plan) (I : Interf) (x : IVars) (a b : SiteId) (k2 : SectorId) (i : Nat) : ℚ :=
  if i = zeroRow I b then
    perRsl I (.site a, .site b) (P.maxNeighbor I x a b k2 + I.noise b)
  else (((classes I b)[i]?).map (·.1)).getD 0

/-- `create_exact_capacity_constraints`, `interference_optimization.py:880-1062`. -/
def ExactCapacity (P : Plan) (I : Interf) (x : IVars) : Prop :=
  ∀ a b, (Loc.site a, Loc.site b) ∈ P.arcs → P.hasActive (.site a, .site b) = true →
    x.site a ≠ 0 → x.site b ≠ 0 → ∀ k2, P.rxSector (.site a, .site b) = some k2 →
    let e : Arc := (.site a, .site b)
    let m := (classes I b).length
    P.PolarityProduct I x a b k2 ∧
    (∀ c < I.channels,
      (∀ i < m, x.cls e c i = 0 ∨ x.cls e c i = 1) ∧
      perRsl I e (P.interfExpr I x a b k2 c + I.noise b) ≤
        ((List.range m).map fun i => P.threshold I x a b k2 i * x.cls e c i).sum ∧
      ((List.range m).map fun i => x.cls e c i).sum ≤ 1 ∧
      (1 < I.channels → x.tdm e c ≤ 1 - x.cls e c (zeroRow I b))) ∧
    (1 < I.channels →
      (I.channels : ℚ) - 1 ≤ ((List.range I.channels).map fun c => x.cls e c (zeroRow I b)).sum) ∧
    x.flow e ≤ ((List.range m).map fun i =>
      ((List.range I.channels).map fun c =>
        (((classes I b)[i]?).map (·.2)).getD 0 * x.cls e c i).sum).sum

/-- The constraints of `setup_problem_skeleton`, `interference_optimization.py:158-192`,
with the bounds of the variables. `create_always_active_sector_constraints` adds
nothing, as `proposed_sectors` is empty. -/
structure InterfFeasible (P : Plan) (I : Interf) (x : IVars) : Prop where
  bounds : P.Bounds I.channels x.toVars
  site : ∀ s ∈ P.t.sites.keys, x.site s = if P.liveSite s then 1 else 0
  sector : ∀ k c, c < I.channels → P.hasSector I.channels k c = true →
    x.sector k c = 0 ∨ x.sector k c = 1
  active : ∀ e ∈ P.arcs, P.hasActive e = true → x.active e = 0 ∨ x.active e = 1
  tdmFlow : P.TdmFlow P.cap P.maxThroughput I.channels x.toVars
  tdmLink : P.TdmLink I.channels x
  flowBalance : P.FlowBalance x.toVars
  popLoad : P.PopLoad x.toVars
  flowLink : P.FlowLink x
  symmetric : P.SymmetricLinks x
  tdmSector : P.TdmSector I.channels x.toVars
  sectorSite : P.SectorSite I.channels x.toVars
  sameNode : P.SameNode I.channels x.toVars
  sectorChannel : P.SectorChannel I.channels x.toVars
  sectorLink : P.SectorLink I.channels x
  cnLinks : P.CnLinks x
  polarity : P.PolarityLink x
  decided : P.DecidedLinks I.channels x
  fixedPolarity : P.FixedPolarity x.toVars
  inactiveFlow : P.InactiveFlow x.toVars
  multiPoint : P.MultiPoint I x
  deployment : P.Deployment I x
  angle : P.AngleLimit I x
  exact : P.ExactCapacity I x

end Plan
end Verif
