import Verif.Model.Ilp
import Verif.Model.Solution

/-!
# Reading a plan off the solver's answer:
`optimization/ilp_models/site_optimization.py:184-461`

`flow` is the result of `prune_loops`; `x` holds the values of the solution
vector. `tdm_decisions`, `shortage_decisions` and `objective_value` are copied
from the vector and left out.
-/

namespace Verif
namespace Plan

/-- `EPSILON`, `optimization/constants.py:11`. -/
def eps : ℚ := 1 / 100000

/-- `_get_binary_value`, `network_optimization.py:990-991`. -/
def bin (q : ℚ) : Int := if 1 - eps < q then 1 else 0

/-- `math.isclose(q, 0, abs_tol=EPSILON)`; the default relative tolerance adds
nothing when one argument is 0. -/
def near0 (q : ℚ) : Bool := decide (-eps ≤ q ∧ q ≤ eps)

/-- `loc in forced_active_sites`, `site_optimization.py:345-348`. -/
def keptActive (P : Plan) (s : SiteId) : Bool :=
  P.isActive s || P.t.links.vals.any (fun l => l.status.active && (l.tx == s || l.rx == s))

/-- `site_decisions` after `site_optimization.py:350-367`. -/
def siteDec (P : Plan) (x : Vars) (flow : Arc → ℚ) (s : SiteId) : Int :=
  if bin (x.site s) = 0 || P.keptActive s then bin (x.site s)
  else if near0 (P.inFlow flow (.site s)) && near0 (P.outFlow flow (.site s)) then 0
  else bin (x.site s)

/-- `odd_site_decisions.get(loc, 0)` after `site_optimization.py:311-322, 365-367`. -/
def oddDec (P : Plan) (x : Vars) (flow : Arc → ℚ) (s : SiteId) : Int :=
  if P.p.ignorePolarities || !P.isDist (.site s) || P.siteDec x flow s = 0 then 0
  else bin (x.odd s)

/-- `even_site_decisions.get(loc, 0)`, same lines. -/
def evenDec (P : Plan) (x : Vars) (flow : Arc → ℚ) (s : SiteId) : Int :=
  if P.p.ignorePolarities || !P.isDist (.site s) || P.siteDec x flow s = 0 then 0
  else 1 - bin (x.odd s)

/-- `sector_decisions.get((loc, sec), 0)` with the values of
`get_sector_decisions_from_sites`, `site_optimization.py:219-235`. -/
def sectorDec (P : Plan) (x : Vars) (flow : Arc → ℚ) (s : SiteId) (k : SectorId) : Int :=
  if (P.t.sectors.get? k).any (fun d => d.site == s) then P.siteDec x flow s else 0

/-- `_compatible_polarity`, `site_optimization.py:184-217`, `True` if polarities are ignored. -/
def polOk (P : Plan) (x : Vars) (flow : Arc → ℚ) (a b : SiteId) : Bool :=
  P.p.ignorePolarities || P.inputActive (.site a, .site b) || P.isWired (.site a, .site b) ||
  !(P.isDist (.site a) && P.isDist (.site b)) || P.oddDec x flow a != P.oddDec x flow b

/-- The conditions of `site_optimization.py:256-276` for a link between sites. -/
def linkCand (P : Plan) (x : Vars) (flow : Arc → ℚ) (a b : SiteId) : Bool :=
  !P.inactiveArc (.site a, .site b) && decide (0 < P.cap (.site a, .site b)) &&
  P.polOk x flow a b && P.siteDec x flow a == 1 && P.siteDec x flow b == 1

/-- `link_decisions[(a, b)] == 1` of `get_link_decisions_from_sectors_and_polarity`,
`site_optimization.py:255-300`. -/
def linkSel (P : Plan) (x : Vars) (flow : Arc → ℚ) : Arc → Bool
  | (.site a, .site b) => P.linkCand x flow a b &&
    (P.isWired (.site a, .site b) ||
      ((P.txSector (.site a, .site b)).any (fun k => P.sectorDec x flow a k == 1) &&
       (P.rxSector (.site a, .site b)).any (fun k => P.sectorDec x flow b k == 1)))
  | _ => false

/-- The assertion of `site_optimization.py:284-288` fails for this link. -/
def noSector (P : Plan) (x : Vars) (flow : Arc → ℚ) : Arc → Bool
  | (.site a, .site b) => P.linkCand x flow a b && !P.isWired (.site a, .site b) &&
    (P.txSector (.site a, .site b)).isNone
  | _ => false

/-- The selected links. -/
def selArcs (P : Plan) (x : Vars) (flow : Arc → ℚ) : List Arc :=
  P.arcs.filter (P.linkSel x flow)

/-- The (site, sector) ends of a selected link, `network_optimization.py:1031-1036`. -/
def sectorEnds (P : Plan) : Arc → List (SiteId × SectorId)
  | (.site a, .site b) =>
    ((P.txSector (.site a, .site b)).map fun k => (a, k)).toList ++
    ((P.rxSector (.site a, .site b)).map fun k => (b, k)).toList
  | _ => []

/-- `sec in sectors_with_active_links.get(loc, set())`,
`network_optimization.py:1023-1050`: all sectors at the site with the node of a
sector of a selected link. -/
def sectorUsed (P : Plan) (x : Vars) (flow : Arc → ℚ) (k : SectorId) : Bool :=
  (P.t.sectors.get? k).any fun d => (P.selArcs x flow).any fun e =>
    (P.sectorEnds e).any fun q => q.1 == d.site &&
      (P.t.sectors.get? q.2).any fun d' => d'.node == d.node

/-- `self.sector_to_type[sec]` raises for a sector of a selected link that is
not in the topology, `network_optimization.py:1038`. -/
def sectorMissing (P : Plan) (x : Vars) (flow : Arc → ℚ) : Bool :=
  (P.selArcs x flow).any fun e => (P.sectorEnds e).any fun q => (P.t.sectors.get? q.2).isNone

/-- An arc from the site to a demand. -/
def feedsDemand (s : SiteId) : Arc → Bool
  | (.site a, .demand _ _) => a == s
  | _ => false

/-- `loc in sites_with_active_links`, `network_optimization.py:1009-1021`,
`site_optimization.py:391-397`. -/
def siteUsed (P : Plan) (x : Vars) (flow : Arc → ℚ) (s : SiteId) : Bool :=
  (P.selArcs x flow).any (fun e => e.1 == .site s || e.2 == .site s) ||
  (P.arcs.any (feedsDemand s) && P.siteDec x flow s == 1)

/-- `0` unless the site is used, `site_optimization.py:399-408`. -/
def ifUsed (P : Plan) (x : Vars) (flow : Arc → ℚ) (s : SiteId) (d : Int) : Int :=
  if P.siteUsed x flow s then d else 0

/-- Final `sector_decisions`, `site_optimization.py:409-413`. -/
def finalSector (P : Plan) (x : Vars) (flow : Arc → ℚ) (k : SectorId) : Int :=
  match P.t.sectors.get? k with
  | some d => if P.sectorUsed x flow k then P.siteDec x flow d.site else 0
  | none => 0

/-- `channel_decisions`, `site_optimization.py:375-378`. -/
def channelDec (P : Plan) (x : Vars) (flow : Arc → ℚ) (k : SectorId) : Int :=
  match P.t.sectors.get? k with
  | some d => if P.siteDec x flow d.site = 1 then 0 else -1
  | none => -1

/-- The decisions of the returned `OptimizationSolution`. -/
def extracted (P : Plan) (x : Vars) (flow : Arc → ℚ) : Solution where
  site s := P.ifUsed x flow s (P.siteDec x flow s)
  odd s := P.ifUsed x flow s (P.oddDec x flow s)
  even s := P.ifUsed x flow s (P.evenDec x flow s)
  sector := P.finalSector x flow
  channel := P.channelDec x flow
  link id := if P.linkSel x flow (.site id.tx, .site id.rx) &&
    P.arcs.contains (.site id.tx, .site id.rx) then 1 else 0

/-- `extract_solution` after a solution was found, `site_optimization.py:302-461`:
`none` for a plan without flow. `common` is the value of `common_bandwidth`,
`none` if there is no such variable. The second component is `cost`. -/
def extract (P : Plan) (x : Vars) (flow : Arc → ℚ) (common : Option ℚ) :
    Except Err (Option (Solution × ℚ)) :=
  if near0 (P.arcs.map flow).sum then
    if common.any (fun q => q ≠ 0) then .error .optimizer else .ok none
  else if P.arcs.any (P.noSector x flow) then .error .optimizer
  else if P.sectorMissing x flow then .error .keyError
  else
    let sol := P.extracted x flow
    .ok (some (sol, P.extractCost (fun s => (sol.site s : ℚ)) (fun k => (sol.sector k : ℚ))))

end Plan
end Verif
