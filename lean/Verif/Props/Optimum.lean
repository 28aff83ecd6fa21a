import Verif.Model.Optimum
import Verif.Props.Extract2
import Verif.Props.Phases
import Verif.Props.Apply2
import Mathlib.Tactic.Linarith

/-! # C176, C177: the cost phase finds the cheapest network, the coverage phase the one that serves most -/

namespace Verif
open Topology Spec

/-! ## Specification -/

/-- Build exactly the sites chosen by an assignment, each with all its sectors. -/
def Spec.buildAll (P : Plan) (x : Vars) : Solution where
  site s := if x.site s = 1 then 1 else 0
  sector k := match P.t.sectors.get? k with
    | some d => if x.site d.site = 1 then 1 else 0
    | none => 0

/-- A network that can be built: the choice of sites and the routing meet all rules, without the links in
`adv`, and the demand sites together receive at least the fraction `c` of the demand. -/
def Spec.Serves (P : Plan) (adv : Arc → Bool) (x : Vars) (c : ℚ) : Prop :=
  P.SiteFeasible adv x ∧ c * totalDemand P ≤ (P.demands.map (arriving P x.flow)).sum

/-! ## Lemmas -/

namespace Plan
variable {P : Plan} {x : Vars} {flow : Arc → ℚ}

theorem sectorSum_one (feas_s : P.SectorIsSite x) {k : SectorId} {d : Sector}
    (hk : P.t.sectors.get? k = some d) : P.sectorSum 1 x k = x.site d.site := by
  have h3 : P.sectorSum 1 x k = x.sector k 0 := by
    unfold sectorSum hasSector
    rw [hk]
    cases d.typ <;> simp
  rw [h3, feas_s k d hk]

/-- The extracted plan costs at most the value of the objective. -/
theorem extracted_le (inv : P.t.Inv) {adv : Arc → Bool} (feas : P.SiteFeasible adv x)
    (hs : ∀ ty, 0 ≤ P.p.costs.of ty) (hn : ∀ s, 0 ≤ P.t.nodeCapex s) :
    P.extractCost (fun s => ((P.extracted x flow).site s : ℚ))
      (fun k => ((P.extracted x flow).sector k : ℚ)) ≤ P.costObjective x := by
  unfold costObjective extractCost
  apply List.sum_le_sum
  intro s hs'
  rw [List.mem_filter] at hs'
  have hx := feas.bounds.site s hs'.1
  have h1 : 0 ≤ P.siteCost s := by
    unfold siteCost; split
    · exact hs _
    · exact le_refl 0
  apply add_le_add
  · apply mul_le_mul_of_nonneg_left _ h1
    dsimp only
    rcases extracted_site_cases (P := P) (x := x) (flow := flow) s with h | ⟨h, hb⟩ <;> rw [h]
    · rcases hx with h | h <;> rw [h] <;> norm_num
    · rw [bin_one hx hb]; norm_num
  · apply List.sum_le_sum
    intro k hk
    unfold sectorsAt at hk
    rw [List.mem_map] at hk
    obtain ⟨⟨k', d⟩, hm, rfl⟩ := hk
    rw [List.mem_filter, decide_eq_true_eq] at hm
    have hg := (Dict.mem_iff_get? inv.nd_sectors k' d).1 hm.1
    have hds : d.site = s := hm.2
    have h2 : 0 ≤ P.sectorCost k' := by
      rw [sectorCost_of inv.nd_sectors hm.1]; split
      · exact hn _
      · exact le_refl 0
    apply mul_le_mul_of_nonneg_left _ h2
    dsimp only
    rw [sectorSum_one feas.sectorSite hg, hds]
    rcases extracted_sector_cases (P := P) (x := x) (flow := flow) hg with h | ⟨h, hb⟩ <;> rw [h]
    · rcases hx with h | h <;> rw [h] <;> norm_num
    · rw [hds] at hb; rw [bin_one hx hb]; norm_num

/-- The objective is the cost of building the chosen sites. -/
theorem objective_eq (inv : P.t.Inv) {adv : Arc → Bool} (feas : P.SiteFeasible adv x) :
    P.costObjective x = planCost P (buildAll P x) := by
  rw [← extractCost_eq inv (buildAll P x)]
  · unfold costObjective extractCost
    congr 1
    apply List.map_congr_left
    intro s hs
    rw [List.mem_filter] at hs
    have hx : x.site s = (((buildAll P x).site s : ℤ) : ℚ) := by
      unfold buildAll
      dsimp only
      rcases feas.bounds.site s hs.1 with h | h <;> rw [h] <;> norm_num
    congr 1
    · dsimp only; rw [← hx]
    · congr 1
      apply List.map_congr_left
      intro k hk
      unfold sectorsAt at hk
      rw [List.mem_map] at hk
      obtain ⟨⟨k', d⟩, hm, rfl⟩ := hk
      rw [List.mem_filter, decide_eq_true_eq] at hm
      have hg := (Dict.mem_iff_get? inv.nd_sectors k' d).1 hm.1
      have hds : d.site = s := hm.2
      dsimp only
      rw [sectorSum_one feas.sectorSite hg, hds, hx]
      congr 2
      unfold buildAll
      dsimp only
      rw [hg]
      dsimp only
      rw [hds]
  · intro s
    unfold buildAll
    dsimp only
    split <;> simp
  · intro k d hk
    unfold buildAll
    dsimp only
    rw [hk]
    dsimp only
    split <;> simp
  · intro k k' d d' hk hk' e _
    unfold buildAll
    dsimp only
    rw [hk, hk']
    dsimp only
    rw [e]

end Plan

theorem coverage_of (ops : List Op) (p : OptParams) {x : Vars} (ok : (Plan.mk (run {} ops) p).setupErr = none)
    {adv : Arc → Bool} (h : Serves ⟨run {} ops, p⟩ adv x p.coverage) : (Plan.mk (run {} ops) p).Coverage none x := by
  intro _
  dsimp only
  obtain ⟨-, b, -⟩ := C39_flow_bookkeeping ops p adv x ok h.1
  have inv : Topology.Inv (Plan.mk (run {} ops) p).t := Inv.empty.run ops
  have htot : ((Plan.mk (run {} ops) p).demands.map (Plan.mk (run {} ops) p).demandAt).sum =
    totalDemand (Plan.mk (run {} ops) p) := Plan.demands_sum inv.nd_demand
  have h2 := h.2
  rw [b] at h2
  rw [htot]
  change totalShortage (Plan.mk (run {} ops) p) x ≤ _
  linarith

/-! ## Theorems -/

/-- **C176.** No network that meets the rules and serves the required share of the demand can be built
for less than the plan of the cost phase. -/
theorem C176_cheapest (ops : List Op) (p : OptParams) (x : Vars) (flow : Arc → ℚ) (common : Option ℚ)
    (sol : Solution) (cost : ℚ) (ok : (Plan.mk (run {} ops) p).setupErr = none)
    (best : (Plan.mk (run {} ops) p).CostBest x)
    (h : (Plan.mk (run {} ops) p).extract x flow common = .ok (some (sol, cost)))
    (hs : ∀ ty, 0 ≤ p.costs.of ty)
    (hn : ∀ s y, (run {} ops).sites.get? s = some y → 0 ≤ y.device.nodeCapex) :
    let P : Plan := ⟨run {} ops, p⟩
    cost = planCost P sol ∧ Serves P (fun _ => false) x p.coverage ∧
    ∀ z, Serves P (fun _ => false) z p.coverage → planCost P sol ≤ planCost P (buildAll P z) := by
  intro P
  have inv : Topology.Inv P.t := Inv.empty.run ops
  have hc := (C44_cost ops p _ x flow common sol cost best.feas h).1
  refine ⟨hc, ⟨best.feas, C86_coverage_met ops p _ x ok best.feas best.cover⟩, fun z hz => ?_⟩
  have hcov := coverage_of ops p ok hz
  rw [← hc, (Plan.extract_ok h).2, ← Plan.objective_eq inv hz.1]
  obtain ⟨hsol, -⟩ := Plan.extract_ok h
  subst hsol
  refine le_trans (Plan.extracted_le inv best.feas hs ?_) (best.best z hz.1 hcov)
  intro s
  unfold nodeCapex
  split
  · rename_i y hy; exact hn s y hy
  · exact le_refl 0

/-- **C177.** No network that meets the rules, does without the adversarial links and can be built within
the budget brings the demand sites together more than the routing found in the coverage phase. -/
theorem C177_most_served (ops : List Op) (p : OptParams) (adv : Arc → Bool) (x : Vars)
    (ok : (Plan.mk (run {} ops) p).setupErr = none)
    (best : (Plan.mk (run {} ops) p).CoverageBest adv x) :
    let P : Plan := ⟨run {} ops, p⟩
    ∀ z, P.SiteFeasible adv z → planCost P (buildAll P z) ≤ p.budget →
      (P.demands.map (arriving P z.flow)).sum ≤ (P.demands.map (arriving P x.flow)).sum := by
  intro P z hz hb
  have inv : Topology.Inv P.t := Inv.empty.run ops
  have hzc : P.CostConstraint 1 z := by
    intro _
    rw [← Plan.objective_eq inv hz] at hb
    exact hb
  have key := best.best z hz hzc
  obtain ⟨-, b1, -⟩ := C39_flow_bookkeeping ops p adv x ok best.feas
  obtain ⟨-, b2, -⟩ := C39_flow_bookkeeping ops p adv z ok hz
  change (P.demands.map (arriving P x.flow)).sum = totalDemand P - totalShortage P x at b1
  change (P.demands.map (arriving P z.flow)).sum = totalDemand P - totalShortage P z at b2
  rw [b1, b2]
  change totalShortage P x ≤ totalShortage P z at key
  linarith

/-! ## Examples -/

def optDemo : Plan := ⟨run {} planDemo2, planDemoParams⟩

theorem optDemo_ok : optDemo.setupErr = none := by decide +kernel

theorem optDemo_obj (z : Vars) (hz : optDemo.SiteFeasible (fun _ => false) z) :
    optDemo.costObjective z = 70 * z.site "D" + 3 * z.site "E" + 8 * z.site "C" := by
  unfold Plan.costObjective Plan.extractCost
  rw [show (optDemo.t.sites.keys.filter fun s => !optDemo.isExisting s) = ["D", "E", "C"] by decide +kernel]
  have s1 : optDemo.sectorSum 1 z ⟨"D", 0, 0, .dn⟩ = z.site "D" :=
    Plan.sectorSum_one hz.sectorSite (show optDemo.t.sectors.get? ⟨"D", 0, 0, .dn⟩ = some _ from rfl)
  have s2 : optDemo.sectorSum 1 z ⟨"D", 0, 1, .dn⟩ = z.site "D" :=
    Plan.sectorSum_one hz.sectorSite (show optDemo.t.sectors.get? ⟨"D", 0, 1, .dn⟩ = some _ from rfl)
  have s3 : optDemo.sectorSum 1 z ⟨"C", 0, 0, .cn⟩ = z.site "C" :=
    Plan.sectorSum_one hz.sectorSite (show optDemo.t.sectors.get? ⟨"C", 0, 0, .cn⟩ = some _ from rfl)
  simp only [List.map_cons, List.map_nil, List.sum_cons, List.sum_nil,
    show optDemo.siteCost "D" = 20 by decide +kernel, show optDemo.siteCost "E" = 3 by decide +kernel,
    show optDemo.siteCost "C" = 3 by decide +kernel,
    show optDemo.sectorsAt "D" = [⟨"D", 0, 0, .dn⟩, ⟨"D", 0, 1, .dn⟩] by decide +kernel,
    show optDemo.sectorsAt "E" = [] by decide +kernel,
    show optDemo.sectorsAt "C" = [⟨"C", 0, 0, .cn⟩] by decide +kernel,
    show optDemo.sectorCost ⟨"D", 0, 0, .dn⟩ = 50 by decide +kernel,
    show optDemo.sectorCost ⟨"D", 0, 1, .dn⟩ = 0 by decide +kernel,
    show optDemo.sectorCost ⟨"C", 0, 0, .cn⟩ = 5 by decide +kernel, s1, s2, s3]
  ring

/-- What reaches the demand site passes `C` and `D`. -/
theorem optDemo_flow (z : Vars) (hz : optDemo.SiteFeasible (fun _ => false) z) :
    3/2 - z.shortage (.demand "q" 0) ≤ 3/2 * z.site "C" ∧
    3/2 - z.shortage (.demand "q" 0) ≤ 3/2 * z.site "D" := by
  have b1 := hz.flowBalance (.demand "q" 0) (by decide +kernel) (by decide +kernel)
  have b2 := hz.flowBalance (.site "C") (by decide +kernel) (by decide +kernel)
  have f1 := (hz.flowSite (.site "C") (by decide +kernel)).2 (by decide +kernel)
  have f2 := (hz.flowSite (.site "D") (by decide +kernel)).2 (by decide +kernel)
  have n1 := hz.bounds.flow (.site "D", .site "P") (by decide +kernel)
  unfold Plan.inFlow Plan.outFlow Plan.balanceRhs at b1 b2
  unfold Plan.outFlow at f1 f2
  rw [show optDemo.incoming (.demand "q" 0) = [(.site "C", .demand "q" 0)] by decide +kernel,
    show optDemo.outgoing (.demand "q" 0) = [] by decide +kernel] at b1
  rw [show optDemo.incoming (.site "C") = [(.site "D", .site "C")] by decide +kernel,
    show optDemo.outgoing (.site "C") = [(.site "C", .demand "q" 0)] by decide +kernel] at b2
  rw [show optDemo.outgoing (.site "C") = [(.site "C", .demand "q" 0)] by decide +kernel,
    show optDemo.maxThroughput = 3/2 by decide +kernel] at f1
  rw [show optDemo.outgoing (.site "D") = [(.site "D", .site "P"), (.site "D", .site "C")] by decide +kernel,
    show optDemo.maxThroughput = 3/2 by decide +kernel] at f2
  dsimp only at b1
  rw [show optDemo.demandAt (.demand "q" 0) = 3/2 by decide +kernel] at b1
  simp [Plan.siteVar] at b1 b2 f1 f2
  constructor <;> linarith

/-- The hypotheses of C176 hold of the demo network: two thirds of the demand cannot be served for less
than 78, the price of `D` and `C`. -/
example :
    optDemo.setupErr = none ∧ optDemo.CostBest planDemoVars ∧
    optDemo.extract planDemoVars planDemoVars.flow none =
      .ok (some (optDemo.extracted planDemoVars planDemoVars.flow, 78)) ∧
    (∀ ty, 0 ≤ planDemoParams.costs.of ty) ∧
    (∀ y ∈ (run {} planDemo2).sites.vals, 0 ≤ y.device.nodeCapex) ∧
    Serves optDemo (fun _ => false) planDemoVars (2/3) := by
  have cov : optDemo.Coverage none planDemoVars := by
    intro _
    decide +kernel
  refine ⟨optDemo_ok, ⟨planDemo2_feasible, cov, ?_⟩, ?_, ?_, by decide +kernel, planDemo2_feasible,
    C86_coverage_met planDemo2 planDemoParams _ planDemoVars optDemo_ok planDemo2_feasible cov⟩
  · intro z hz hc
    have h1 := hc (by decide +kernel)
    dsimp only at h1
    rw [show optDemo.demands = [.demand "q" 0] by decide +kernel,
      show optDemo.p.coverage = 2/3 from rfl] at h1
    simp only [List.map_cons, List.map_nil, List.sum_cons, List.sum_nil,
      show optDemo.demandAt (.demand "q" 0) = 3/2 by decide +kernel] at h1
    obtain ⟨h2, h3⟩ := optDemo_flow z hz
    rw [optDemo_obj _ planDemo2_feasible, optDemo_obj z hz,
      show planDemoVars.site "D" = 1 by decide +kernel, show planDemoVars.site "E" = 0 by decide +kernel,
      show planDemoVars.site "C" = 1 by decide +kernel]
    have hD := hz.bounds.site "D" (by decide +kernel)
    have hE := hz.bounds.site "E" (by decide +kernel)
    have hC := hz.bounds.site "C" (by decide +kernel)
    rcases hD with hD | hD
    · rw [hD] at h3; linarith
    rcases hC with hC | hC
    · rw [hC] at h2; linarith
    rcases hE with hE | hE <;> linarith
  · unfold Plan.extract
    rw [if_neg (by decide +kernel), if_neg (by decide +kernel), if_neg (by decide +kernel)]
    show Except.ok (some (_, _)) = Except.ok (some (_, _))
    congr 3
    decide +kernel
  · intro ty; cases ty <;> decide +kernel

/-- All of the demand is delivered. -/
def fullVars : Vars := { planDemoVars with
  flow := fun e => if e = (.site "D", .site "P") then 0 else 3/2
  tdm := fun e _ => if e = (.site "P", .site "D") then 3/8 else if e = (.site "D", .site "C") then 3/4 else 0
  shortage := fun _ => 0 }

/-- The hypotheses of C177 hold of the demo network: the budget of 85 admits to serve all of the demand. -/
example : optDemo.setupErr = none ∧ optDemo.CoverageBest (fun _ => false) fullVars ∧
    optDemo.SiteFeasible (fun _ => false) planDemoVars ∧
    planCost optDemo (buildAll optDemo planDemoVars) ≤ optDemo.p.budget ∧
    (optDemo.demands.map (arriving optDemo planDemoVars.flow)).sum = 1 ∧
    (optDemo.demands.map (arriving optDemo fullVars.flow)).sum = 3/2 := by
  refine ⟨optDemo_ok, ⟨Plan.Check.sound (by decide +kernel), by unfold Plan.CostConstraint; decide +kernel, ?_⟩,
    planDemo2_feasible, by decide +kernel, by decide +kernel, by decide +kernel⟩
  intro z hz _
  have e : optDemo.coverageObjective fullVars = 0 := by decide +kernel
  rw [e]
  unfold Plan.coverageObjective
  apply List.sum_nonneg
  intro q hq
  obtain ⟨l, hl, rfl⟩ := List.mem_map.1 hq
  exact (hz.bounds.shortage l hl).1

end Verif
