import Verif.Model.Ilp

/-!
# Connectable demand sites under polarity constraints

`_get_reachable_demand_sites_with_constraints`, `network_optimization.py:135-146`, with
`SiteOptimization.build_connected_demand_model`, `site_optimization.py:463-489`. The
problem is a predicate on assignments; the objective is the number of marked demand
locations. Solver tolerances and time limits are not modelled.
-/

namespace Verif
namespace Plan

/-- `(i, j) in ignore_links`, `network_optimization.py:124-130`,
`site_optimization.py:73-82`; `adv` is `adversarial_links`. -/
def ignoreLink (P : Plan) (adv : Arc → Bool) (e : Arc) : Bool :=
  ((P.linkOf e).any fun l => decide (l.capacity ≤ 0)) || adv e

/-- `_get_ignore_sites`, `site_optimization.py:84-109`. -/
def ignoreSites (P : Plan) : List SiteId :=
  P.t.colocated.vals.flatMap fun locs =>
    if locs.filter P.isActive = [] then []
    else locs.filter fun s =>
      !((P.siteType? (.site s)).any fun ty =>
        (validTypes (P.maxType (locs.filter P.isActive))).contains ty) ||
      (P.siteType? (.site s) == some (P.maxType (locs.filter P.isActive)) && !P.isActive s)

/-- `site_vars[loc]` is not 0, `network_optimization.py:1101-1107`. -/
def usableSite (P : Plan) (s : SiteId) : Bool :=
  !(P.isInactive s || P.ignoreSites.contains s)

/-- `create_unit_flow_balance_constraints`, `network_optimization.py:1118-1167`; `mark`
is `demand_vars`. -/
def UnitBalance (P : Plan) (x : Vars) (mark : Loc → ℚ) : Prop :=
  ∀ l ∈ P.locations,
    match l with
    | .source => P.outgoing l ≠ [] → 0 ≤ P.outFlow x.flow l
    | .site s =>
      if P.usableSite s = true then
        P.incoming l ≠ [] ∨ P.outgoing l ≠ [] → P.outFlow x.flow l = P.inFlow x.flow l
      else (P.incoming l ≠ [] → P.inFlow x.flow l = 0) ∧
        (P.outgoing l ≠ [] → P.outFlow x.flow l = 0)
    | .demand _ _ => mark l ≤ 10 * (P.demands.length : ℚ) * P.inFlow x.flow l

/-- The constraints of `build_connected_demand_model`, `site_optimization.py:463-489`,
with the bounds of `network_optimization.py:1073-1107` and `site_optimization.py:491-497`. -/
structure ConnFeasible (P : Plan) (adv : Arc → Bool) (x : Vars) (mark : Loc → ℚ) : Prop where
  flow : ∀ e ∈ P.arcs, 0 ≤ x.flow e ∧ x.flow e ≤ 1
  tdm : ∀ e ∈ P.arcs, x.tdm e 0 = x.flow e
  odd : P.p.ignorePolarities = false → ∀ s, P.isDist (.site s) = true → x.odd s = 0 ∨ x.odd s = 1
  binary : ∀ l ∈ P.demands, mark l = 0 ∨ mark l = 1
  inactive : P.InactiveFlow x
  ignored : ∀ e ∈ P.arcs, P.ignoreLink adv e = true → x.flow e = 0
  tdmPolarity : P.TdmPolarity 1 x
  activePolarity : P.ActivePolarity x
  balance : P.UnitBalance x mark

/-- `create_common_bandwidth_variable_and_constraint`, `network_optimization.py:799-819`;
`b` is `common_bandwidth`, `conn` is `connected_demand_sites`. -/
def CommonBandwidth (P : Plan) (conn : List Loc) (b : ℚ) (x : Vars) : Prop :=
  0 ≤ b ∧ (∀ l ∈ conn, b ≤ P.demandAt l) ∧
    ∀ l ∈ P.locations, l ∈ conn → b ≤ P.demandAt l - x.shortage l

end Plan
end Verif
