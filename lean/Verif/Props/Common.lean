import Verif.Model.Common
import Verif.Props.Optimum

/-! # C179, C180: what is optimised with `maximize_common_bandwidth` -/

namespace Verif
open Topology Spec

/-! ## Specification -/

/-- Each of the demand sites in `conn` receives at least `q`. -/
def Spec.AllGet (P : Plan) (conn : List Loc) (x : Vars) (q : ℚ) : Prop := ∀ l ∈ conn, q ≤ arriving P x.flow l

/-- `q` is the smallest demand in `conn`. -/
def Spec.SmallestDemand (P : Plan) (conn : List Loc) (q : ℚ) : Prop :=
  (∃ l ∈ conn, asked P l = q) ∧ ∀ l ∈ conn, q ≤ asked P l

/-! ## Lemmas -/

theorem exists_least (f : Loc → ℚ) : ∀ (conn : List Loc), conn ≠ [] → ∃ l ∈ conn, ∀ l' ∈ conn, f l ≤ f l'
  | [], h => absurd rfl h
  | [a], _ => ⟨a, by simp, by simp⟩
  | a :: b :: r, _ => by
    obtain ⟨l, hl, h⟩ := exists_least f (b :: r) (by simp)
    rcases le_total (f a) (f l) with c | c
    · refine ⟨a, by simp, fun l' h' => ?_⟩
      rcases List.mem_cons.1 h' with rfl | h'
      · exact le_refl _
      · exact le_trans c (h l' h')
    · refine ⟨l, List.mem_cons_of_mem _ hl, fun l' h' => ?_⟩
      rcases List.mem_cons.1 h' with rfl | h'
      · exact c
      · exact h l' h'

theorem commonBandwidth_iff (ops : List Op) (p : OptParams) {adv : Arc → Bool} {z : Vars} {conn : List Loc} {q : ℚ}
    (ok : (Plan.mk (run {} ops) p).setupErr = none) (hz : (Plan.mk (run {} ops) p).SiteFeasible adv z)
    (hconn : ∀ l ∈ conn, l ∈ (Plan.mk (run {} ops) p).demands) :
    (Plan.mk (run {} ops) p).CommonBandwidth conn q z ↔ 0 ≤ q ∧ AllGet ⟨run {} ops, p⟩ conn z q := by
  have inv : Topology.Inv (Plan.mk (run {} ops) p).t := Inv.empty.run ops
  have harr : ∀ l ∈ conn, arriving ⟨run {} ops, p⟩ z.flow l = _ := fun l hl =>
    Plan.arriving_demand inv (Plan.ready ok) hz.bounds.shortage hz.flowBalance (hconn l hl)
  constructor
  · intro h
    refine ⟨h.1, fun l hl => ?_⟩
    rw [harr l hl]
    exact h.2.2 l (Plan.mem_locations.2 (Or.inr (Or.inr (hconn l hl)))) hl
  · rintro ⟨h0, h⟩
    refine ⟨h0, fun l hl => ?_, fun l _ hl => ?_⟩
    · have h1 := h l hl
      rw [harr l hl] at h1
      have h2 := (hz.bounds.shortage l (hconn l hl)).1
      linarith
    · rw [← harr l hl]; exact h l hl

/-! ## Theorems -/

/-- **C179.** In the coverage phase with common bandwidth the worst served connectable demand site is
served as well as the budget admits: if some network that meets the rules, does without the adversarial links
and can be built within the budget brings every connectable demand site at least `q`, then so does the routing
found. -/
theorem C179_fairest (ops : List Op) (p : OptParams) (adv : Arc → Bool) (conn : List Loc) (x : Vars) (b : ℚ)
    (ok : (Plan.mk (run {} ops) p).setupErr = none) (hconn : ∀ l ∈ conn, l ∈ (Plan.mk (run {} ops) p).demands)
    (best : (Plan.mk (run {} ops) p).CommonBest adv conn x b) :
    let P : Plan := ⟨run {} ops, p⟩
    ∀ z q, P.SiteFeasible adv z → planCost P (buildAll P z) ≤ p.budget → AllGet P conn z q → AllGet P conn x q := by
  intro P z q hz hb hq
  have inv : Topology.Inv P.t := Inv.empty.run ops
  have hx := (commonBandwidth_iff ops p ok best.feas hconn).1 best.common
  by_cases h0 : 0 ≤ q
  · have hzc : P.CostConstraint 1 z := by
      intro _
      rw [← Plan.objective_eq inv hz] at hb
      exact hb
    have := best.best z q hz hzc ((commonBandwidth_iff ops p ok hz hconn).2 ⟨h0, hq⟩)
    intro l hl
    have := hx.2 l hl
    linarith
  · intro l hl
    have := hx.2 l hl
    have := hx.1
    linarith

/-- **C179**, the common bandwidth: it is what the worst served connectable demand site receives. -/
theorem C179_common_bandwidth (ops : List Op) (p : OptParams) (adv : Arc → Bool) (conn : List Loc) (x : Vars) (b : ℚ)
    (ok : (Plan.mk (run {} ops) p).setupErr = none) (hconn : ∀ l ∈ conn, l ∈ (Plan.mk (run {} ops) p).demands)
    (ne : conn ≠ []) (best : (Plan.mk (run {} ops) p).CommonBest adv conn x b) :
    let P : Plan := ⟨run {} ops, p⟩
    (∃ l ∈ conn, arriving P x.flow l = b) ∧ AllGet P conn x b := by
  intro P
  have hx := (commonBandwidth_iff ops p ok best.feas hconn).1 best.common
  obtain ⟨l, hl, hmin⟩ := exists_least (arriving P x.flow) conn ne
  have h1 := hx.2 l hl
  have h2 := best.best x (arriving P x.flow l) best.feas best.cost
    ((commonBandwidth_iff ops p ok best.feas hconn).2 ⟨le_trans hx.1 h1, hmin⟩)
  exact ⟨⟨l, hl, le_antisymm (by linarith) h1⟩, hx.2⟩

/-- **C180.** In the cost phase with common bandwidth, every connectable demand site gets the required
share of the smallest demand, and no network that does so can be built for less. -/
theorem C180_cheapest (ops : List Op) (p : OptParams) (conn : List Loc) (x : Vars) (flow : Arc → ℚ)
    (common : Option ℚ) (sol : Solution) (cost m : ℚ) (ok : (Plan.mk (run {} ops) p).setupErr = none)
    (hconn : ∀ l ∈ conn, l ∈ (Plan.mk (run {} ops) p).demands) (hm : SmallestDemand ⟨run {} ops, p⟩ conn m)
    (best : (Plan.mk (run {} ops) p).CommonCostBest conn x)
    (h : (Plan.mk (run {} ops) p).extract x flow common = .ok (some (sol, cost)))
    (hs : ∀ ty, 0 ≤ p.costs.of ty)
    (hn : ∀ s y, (run {} ops).sites.get? s = some y → 0 ≤ y.device.nodeCapex) :
    let P : Plan := ⟨run {} ops, p⟩
    cost = planCost P sol ∧ P.SiteFeasible (fun _ => false) x ∧ AllGet P conn x (p.coverage * m) ∧
    ∀ z, P.SiteFeasible (fun _ => false) z → AllGet P conn z (p.coverage * m) →
      planCost P sol ≤ planCost P (buildAll P z) := by
  intro P
  have inv : Topology.Inv P.t := Inv.empty.run ops
  have hc := (C44_cost ops p _ x flow common sol cost best.feas h).1
  obtain ⟨⟨l0, hl0, rfl⟩, hmin⟩ := hm
  refine ⟨hc, best.feas,
    C86_common_coverage_met ops p _ x ok best.feas conn hconn best.cover l0 hl0 hmin, fun z hz hq => ?_⟩
  have hcov : P.Coverage (some conn) z := by
    intro _ m hm l _ hl
    obtain ⟨-, hm2⟩ := (pyMin_iff _ _).1 hm
    have hloc : ∀ l ∈ conn, l ∈ P.locations := fun l hl => Plan.mem_locations.2 (Or.inr (Or.inr (hconn l hl)))
    have e : m = asked P l0 := by
      obtain ⟨hm1, -⟩ := (pyMin_iff _ _).1 hm
      obtain ⟨l', hl', rfl⟩ := List.mem_map.1 hm1
      have h' : l' ∈ conn := by simpa using (List.mem_filter.1 hl').2
      apply le_antisymm
      · have := hm2 (P.demandAt l0) (List.mem_map.2 ⟨l0, List.mem_filter.2 ⟨hloc l0 hl0, by simpa using hl0⟩, rfl⟩)
        rw [Plan.asked_eq (P := P) (hconn l0 hl0)]; exact this
      · have := hmin l' h'
        rwa [Plan.asked_eq (P := P) (hconn l' h')] at this
    rw [← Plan.arriving_demand inv (Plan.ready ok) hz.bounds.shortage hz.flowBalance (hconn l hl), e]
    exact hq l hl
  rw [← hc, (Plan.extract_ok h).2, ← Plan.objective_eq inv hz]
  obtain ⟨hsol, -⟩ := Plan.extract_ok h
  subst hsol
  refine le_trans (Plan.extracted_le inv best.feas hs ?_) (best.best z hz hcov)
  intro s
  unfold nodeCapex
  split
  · rename_i y hy; exact hn s y hy
  · exact le_refl 0

/-- **C181**, partial: with common bandwidth the coverage constraint can be stated if some demand site is
connectable. Missing: the case that there are demand sites and none is connectable. -/
theorem C181_coverage_built_partial (P : Plan) (conn : List Loc) (hconn : ∀ l ∈ conn, l ∈ P.demands)
    (ne : conn ≠ []) : P.coverageBuild conn = .ok () := by
  unfold Plan.coverageBuild
  split
  · rfl
  split
  · rfl
  · rename_i h
    rw [pyMin_none, List.map_eq_nil_iff, List.filter_eq_nil_iff] at h
    obtain ⟨l, hl⟩ := List.exists_mem_of_ne_nil _ ne
    exact absurd (by simpa using hl) (h l (Plan.mem_locations.2 (Or.inr (Or.inr (hconn l hl)))))

/-- The case that is missing: whenever there is demand and none of it is connectable, the cost phase with
common bandwidth fails with an exception of Python, not with a missing plan. -/
theorem C181_no_connectable_violation (P : Plan) (ne : P.demands ≠ []) :
    P.coverageBuild [] = .error "ValueError" := by
  unfold Plan.coverageBuild
  rw [if_neg ne]
  have : P.locations.filter ([] : List Loc).contains = [] := by simp
  rw [this]
  rfl

/-! ## Examples -/

theorem optDemo_conn : ∀ l ∈ [Loc.demand "q" 0], l ∈ optDemo.demands := by decide +kernel

/-- The hypotheses of C179 hold of the demo network, with a common bandwidth of 3/2. -/
example : optDemo.setupErr = none ∧ (∀ l ∈ [Loc.demand "q" 0], l ∈ optDemo.demands) ∧
    optDemo.CommonBest (fun _ => false) [.demand "q" 0] fullVars (3/2) ∧
    optDemo.SiteFeasible (fun _ => false) planDemoVars ∧
    planCost optDemo (buildAll optDemo planDemoVars) ≤ optDemo.p.budget ∧
    AllGet optDemo [.demand "q" 0] planDemoVars 1 ∧ ¬ AllGet optDemo [.demand "q" 0] planDemoVars (3/2) := by
  have hf : optDemo.SiteFeasible (fun _ => false) fullVars := Plan.Check.sound (by decide +kernel)
  have hc := commonBandwidth_iff planDemo2 planDemoParams (q := 3/2) optDemo_ok hf optDemo_conn
  refine ⟨optDemo_ok, optDemo_conn, ⟨hf, by unfold Plan.CostConstraint; decide +kernel,
    hc.2 ⟨by norm_num, by unfold AllGet; decide +kernel⟩, ?_⟩,
    planDemo2_feasible, by decide +kernel, by unfold AllGet; decide +kernel, by unfold AllGet; decide +kernel⟩
  intro z c _ _ h
  have := h.2.1 (.demand "q" 0) (by decide +kernel)
  rw [show optDemo.demandAt (.demand "q" 0) = 3/2 by decide +kernel] at this
  linarith

/-- The hypotheses of C180 hold of the demo network. -/
example : optDemo.setupErr = none ∧ (∀ l ∈ [Loc.demand "q" 0], l ∈ optDemo.demands) ∧
    SmallestDemand optDemo [.demand "q" 0] (3/2) ∧
    optDemo.CommonCostBest [.demand "q" 0] planDemoVars ∧
    optDemo.extract planDemoVars planDemoVars.flow (some 1) =
      .ok (some (optDemo.extracted planDemoVars planDemoVars.flow, 78)) ∧
    (∀ ty, 0 ≤ planDemoParams.costs.of ty) ∧ ∀ y ∈ (run {} planDemo2).sites.vals, 0 ≤ y.device.nodeCapex := by
  have e : pyMin ((optDemo.locations.filter [Loc.demand "q" 0].contains).map optDemo.demandAt) = some (3/2) := by
    decide +kernel
  refine ⟨optDemo_ok, optDemo_conn, by unfold SmallestDemand; decide +kernel, ⟨planDemo2_feasible, ?_, ?_⟩, ?_, ?_,
    by decide +kernel⟩
  · intro _ m hm
    rw [e] at hm
    injection hm with hm
    subst hm
    decide +kernel
  · intro z hz hcov
    have h1 := hcov (by decide +kernel) (3/2) e (.demand "q" 0) (by decide +kernel) (by decide +kernel)
    rw [show optDemo.demandAt (.demand "q" 0) = 3/2 by decide +kernel, show optDemo.p.coverage = 2/3 from rfl] at h1
    obtain ⟨h2, h3⟩ := optDemo_flow z hz
    rw [optDemo_obj _ planDemo2_feasible, optDemo_obj z hz,
      show planDemoVars.site "D" = 1 by decide +kernel, show planDemoVars.site "E" = 0 by decide +kernel,
      show planDemoVars.site "C" = 1 by decide +kernel]
    have hD := hz.bounds.site "D" (by decide +kernel)
    have hE := hz.bounds.site "E" (by decide +kernel)
    have hC := hz.bounds.site "C" (by decide +kernel)
    rcases hD with hD | hD
    · rw [hD] at h3; linarith
    rcases hC with hC | hC
    · rw [hC] at h2; linarith
    rcases hE with hE | hE <;> linarith
  · unfold Plan.extract
    rw [if_neg (by decide +kernel), if_neg (by decide +kernel), if_neg (by decide +kernel)]
    show Except.ok (some (_, _)) = Except.ok (some (_, _))
    congr 3
    decide +kernel
  · intro ty; cases ty <;> decide +kernel

/-- The hypotheses of C181 hold of the demo network. -/
example : (∀ l ∈ [Loc.demand "q" 0], l ∈ optDemo.demands) ∧ optDemo.coverageBuild [.demand "q" 0] = .ok () ∧
    optDemo.demands ≠ [] :=
  ⟨optDemo_conn, C181_coverage_built_partial _ _ optDemo_conn (by simp), by decide +kernel⟩

end Verif
