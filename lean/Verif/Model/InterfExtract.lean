import Verif.Model.Interf

/-!
# Reading the solution of the interference problem:
`interference_optimization.py:1084-1306`

`flow` is the result of `prune_loops`; `x` holds the values of the solution vector.
`tdm_decisions`, `shortage_decisions` and `objective_value` are copied from the vector
and left out.
-/

namespace Verif
namespace Plan

/-- `site_decisions = self.site_vars`, `interference_optimization.py:302-309, 1189`. -/
def iSite (P : Plan) (s : SiteId) : Int := if P.liveSite s then 1 else 0

/-- `link_decisions.get((i, j), 0) == 1` of `get_link_decisions`,
`interference_optimization.py:1084-1112`. -/
def iLinkSel (P : Plan) (x : IVars) (flow : Arc → ℚ) : Arc → Bool
  | (.site a, .site b) =>
    if P.isWired (.site a, .site b) && P.iSite a == 1 && P.iSite b == 1 then true
    else if P.hasActive (.site a, .site b) then bin (x.active (.site a, .site b)) == 1
    else !near0 (flow (.site a, .site b))
  | _ => false

/-- The assertion of `interference_optimization.py:1203-1217` fails for this link. -/
def tdmClash (P : Plan) (n : Nat) (x : Vars) (e : Arc) : Bool :=
  P.hasTdm e && decide (0 < n) &&
    decide (1 < ((List.range n).filter fun c => !near0 (x.tdm e c)).length)

/-- `decisions`, `interference_optimization.py:1124-1129`. -/
def chanDecisions (P : Plan) (n : Nat) (x : Vars) (k : SectorId) : List Int :=
  ((List.range n).filter (P.hasSector n k)).map fun c => bin (x.sector k c)

/-- `channel_decisions` of a DN sector, `interference_optimization.py:1143-1147`. -/
def dnChannel (P : Plan) (n : Nat) (x : Vars) (k : SectorId) : Int :=
  if (P.chanDecisions n x k).sum = 1 then (P.chanDecisions n x k).findIdx (· == 1) else -1

/-- The links that give a CN sector its channel, `interference_optimization.py:1159-1174`. -/
def cnFeeds (P : Plan) (x : IVars) (flow : Arc → ℚ) (s : SiteId) (k : SectorId) : List Arc :=
  (P.incoming (.site s)).filter fun e =>
    P.hasActive e && P.iLinkSel x flow e && P.rxSector e == some k

/-- `sector_decisions` of `get_sector_and_channel_decisions`,
`interference_optimization.py:1114-1184`. -/
def iSectorDec (P : Plan) (n : Nat) (x : IVars) (flow : Arc → ℚ) (k : SectorId) : Int :=
  match P.t.sectors.get? k with
  | none => 0
  | some d =>
    if d.typ = .cn ∧ P.cnFeeds x flow d.site k = [] then 0
    else (P.chanDecisions n x.toVars k).sum

/-- `channel_decisions`, same lines. -/
def iChannelDec (P : Plan) (n : Nat) (x : IVars) (flow : Arc → ℚ) (k : SectorId) : Int :=
  match P.t.sectors.get? k with
  | none => -1
  | some d =>
    if d.typ = .cn then
      if (P.chanDecisions n x.toVars k).sum = 0 then -1
      else match (P.cnFeeds x flow d.site k).getLast? with
        | none => -1
        | some e =>
          match P.txSector e with
          | none => -1
          | some k1 => P.dnChannel n x.toVars k1
    else P.dnChannel n x.toVars k

/-- The selected links. -/
def iSelArcs (P : Plan) (x : IVars) (flow : Arc → ℚ) : List Arc := P.arcs.filter (P.iLinkSel x flow)

/-- `sec in sectors_with_active_links.get(loc, set())`, `network_optimization.py:1023-1050`. -/
def iSectorUsed (P : Plan) (x : IVars) (flow : Arc → ℚ) (k : SectorId) : Bool :=
  (P.t.sectors.get? k).any fun d => (P.iSelArcs x flow).any fun e =>
    (P.sectorEnds e).any fun q => q.1 == d.site &&
      (P.t.sectors.get? q.2).any fun d' => d'.node == d.node

/-- `loc in sites_with_active_links`, `network_optimization.py:1009-1021`,
`interference_optimization.py:1252-1258`. -/
def iSiteUsed (P : Plan) (x : IVars) (flow : Arc → ℚ) (s : SiteId) : Bool :=
  (P.iSelArcs x flow).any (fun e => e.1 == .site s || e.2 == .site s) ||
  (P.arcs.any (feedsDemand s) && P.iSite s == 1)

/-- The decisions of the returned `OptimizationSolution`,
`interference_optimization.py:1219-1231, 1260-1280`. -/
def iExtracted (P : Plan) (n : Nat) (x : IVars) (flow : Arc → ℚ) : Solution where
  site s := if P.iSiteUsed x flow s then P.iSite s else 0
  odd s := if P.p.ignorePolarities || !P.isDist (.site s) || P.iSite s == 0 ||
      !P.iSiteUsed x flow s then 0 else bin (x.odd s)
  even s := if P.p.ignorePolarities || !P.isDist (.site s) || P.iSite s == 0 ||
      !P.iSiteUsed x flow s then 0 else 1 - bin (x.odd s)
  sector k := if (P.t.sectors.get? k).any (fun d => P.iSiteUsed x flow d.site) &&
      P.iSectorUsed x flow k then P.iSectorDec n x flow k else 0
  channel k := if (P.t.sectors.get? k).any (fun d => P.iSiteUsed x flow d.site) &&
      P.iSectorUsed x flow k then P.iChannelDec n x flow k else -1
  link id := if P.iLinkSel x flow (.site id.tx, .site id.rx) &&
    P.arcs.contains (.site id.tx, .site id.rx) then 1 else 0

/-- The sectors of `location_sectors`. -/
def iSectorErr (P : Plan) (n : Nat) (x : IVars) (flow : Arc → ℚ) : Option Err :=
  if P.t.sectors.any (fun e => (P.chanDecisions n x.toVars e.1).isEmpty ||
      decide (1 < (P.chanDecisions n x.toVars e.1).sum)) then some .optimizer
  else if P.t.sectors.any (fun e => e.2.typ == .cn &&
      (P.chanDecisions n x.toVars e.1).sum != 0 &&
      decide (1 < (P.cnFeeds x flow e.2.site e.1).length)) then some .optimizer
  else if (P.iSelArcs x flow).any (fun e => (P.sectorEnds e).any fun q =>
      (P.t.sectors.get? q.2).isNone) then some .keyError
  else none

/-- `extract_solution` after a solution was found, `interference_optimization.py:1186-1306`.
Not modelled: the `KeyError` when a CN is fed by a sector that has no channel
decision yet (a sector missing from the topology, or of type CN), and the order in
which the assertions on different sectors fire. -/
def iExtract (P : Plan) (n : Nat) (x : IVars) (flow : Arc → ℚ) (common : Option ℚ) :
    Except Err (Option (Solution × ℚ)) :=
  if P.arcs.any (P.tdmClash n x.toVars) then .error .optimizer
  else if near0 (P.arcs.map flow).sum then
    if common.any (fun q => q ≠ 0) then .error .optimizer else .ok none
  else match P.iSectorErr n x flow with
    | some e => .error e
    | none =>
      let sol := P.iExtracted n x flow
      .ok (some (sol, P.extractCost (fun s => (sol.site s : ℚ)) (fun k => (sol.sector k : ℚ))))

end Plan
end Verif
