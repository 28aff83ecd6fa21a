import Verif.Model.Interf
import Verif.Model.Connected

/-!
# Connectable demand sites of the interference phase

`MinInterferenceNetwork.build_connected_demand_model`,
`interference_optimization.py:1311-1345`, with the parts of `network_optimization.py` it
calls. The problem is a predicate on assignments; the objective is the number of marked
demand locations. Solver tolerances and time limits are not modelled.
-/

namespace Verif
namespace Plan

/-- `create_unit_flow_balance_constraints`, `network_optimization.py:1118-1167`, with the
`site_vars` of `network_optimization.py:1101-1107` and the ignored sites of
`interference_optimization.py:146-162`: `site_vars[loc]` is 1 exactly for the sites of
`active_sites`, as every other site is inactive, CANDIDATE or active but not among
them. -/
def LiveUnitBalance (P : Plan) (x : Vars) (mark : Loc → ℚ) : Prop :=
  ∀ l ∈ P.locations,
    match l with
    | .source => P.outgoing l ≠ [] → 0 ≤ P.outFlow x.flow l
    | .site s =>
      if P.liveSite s = true then
        P.incoming l ≠ [] ∨ P.outgoing l ≠ [] → P.outFlow x.flow l = P.inFlow x.flow l
      else (P.incoming l ≠ [] → P.inFlow x.flow l = 0) ∧
        (P.outgoing l ≠ [] → P.outFlow x.flow l = 0)
    | .demand _ _ => mark l ≤ 10 * (P.demands.length : ℚ) * P.inFlow x.flow l

/-- `create_unit_flow_link_relationship`, `interference_optimization.py:1365-1373`. -/
def UnitFlowLink (P : Plan) (x : IVars) : Prop :=
  ∀ e ∈ P.arcs, P.hasActive e = true → x.flow e ≤ x.active e

/-- The constraints of `build_connected_demand_model`,
`interference_optimization.py:1321-1343`, with the bounds of the variables.
`create_always_active_sector_constraints` adds nothing, as `proposed_sectors` is empty;
there are no adversarial links. -/
structure ConnInterfFeasible (P : Plan) (I : Interf) (x : IVars) (mark : Loc → ℚ) : Prop where
  flow : ∀ e ∈ P.arcs, 0 ≤ x.flow e ∧ x.flow e ≤ 1
  active : ∀ e ∈ P.arcs, P.hasActive e = true → x.active e = 0 ∨ x.active e = 1
  sector : ∀ k c, c < I.channels → P.hasSector I.channels k c = true →
    x.sector k c = 0 ∨ x.sector k c = 1
  odd : P.p.ignorePolarities = false → ∀ s, P.isDist (.site s) = true → x.odd s = 0 ∨ x.odd s = 1
  binary : ∀ l ∈ P.demands, mark l = 0 ∨ mark l = 1
  site : ∀ s ∈ P.t.sites.keys, x.site s = if P.liveSite s then 1 else 0
  inactive : P.InactiveFlow x.toVars
  ignored : ∀ e ∈ P.arcs, P.ignoreLink (fun _ => false) e = true → x.flow e = 0
  polarity : P.PolarityLink x
  fixedPolarity : P.FixedPolarity x.toVars
  balance : P.LiveUnitBalance x.toVars mark
  decided : P.DecidedLinks I.channels x
  sectorSite : P.SectorSite I.channels x.toVars
  sameNode : P.SameNode I.channels x.toVars
  sectorChannel : P.SectorChannel I.channels x.toVars
  sectorLink : P.SectorLink I.channels x
  symmetric : P.SymmetricLinks x
  multiPoint : P.MultiPoint I x
  cnLinks : P.CnLinks x
  deployment : P.Deployment I x
  angle : P.AngleLimit I x
  flowLink : P.UnitFlowLink x

end Plan
end Verif
