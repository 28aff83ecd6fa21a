import Verif.Props.Pipeline2
import Verif.Props.Adversarial

/-! # C175: the coverage step of a planning run spends at most the budget -/

namespace Verif
open Topology Spec

/-- `link in self.adversarial_links`, `site_optimization.py:178-182`. -/
def advOf (L : List GEdge) : Arc → Bool
  | (.site a, .site b) => L.contains (.site a, .site b)
  | _ => false

/-- **C175, in part.** After the coverage step the proposed CAPEX is at most the larger of the budget and
what it was before. The step changes the plan only if something was left of the budget, and then to the
plan of the solver for the configured share of failing links: it carries no flow over them. If something
was left and the solver found a plan with flow, that plan is applied.
Missing: sectors still open on EXISTING sites, see `C85_existing_site_violation`. -/
theorem C175_budget_kept_partial (ops : List Op) (O : Outside) (p : RunParams) (t' : Topology)
    (hleg : p.legacy = true) (hs : ∀ ty, 0 ≤ p.costs.of ty)
    (hn : ∀ s y, (run {} ops).sites.get? s = some y → 0 ≤ y.device.nodeCapex)
    (hex : ∀ k d s, (run {} ops).sectors.get? k = some d → (run {} ops).sites.get? d.site = some s →
      s.status = .existing → d.status ≠ .candidate ∧ d.status ≠ .proposed)
    (hO : ∀ L f, (O.coverage ⟨run {} ops, p.toOptParams⟩ L).found = some f →
      (Plan.mk (run {} ops) p.toOptParams).SiteFeasible (advOf L) f.vars ∧
      (Plan.mk (run {} ops) p.toOptParams).CostConstraint 1 f.vars)
    (h : secondStep O p (run {} ops) = some (t', none)) :
    let t := run {} ops
    let P : Plan := ⟨t, p.toOptParams⟩
    (t'.computeCapex p.costs).2 ≤ max p.budget (t.computeCapex p.costs).2 ∧
    (t' ≠ t → (t.computeCapex p.costs).2 < p.budget ∧
      ∃ L f sol cost, t.adversarialLinks (O.edgeCost t) p.ratio = .ok L ∧ (O.coverage P L).found = some f ∧
        P.extract f.vars f.flow f.common = .ok (some (sol, cost)) ∧ updateWithSolution sol t = some (t', none) ∧
        ∀ a b, (Loc.site a, Loc.site b) ∈ P.arcs → (GNode.site a, GNode.site b) ∈ L →
          f.vars.flow (.site a, .site b) = 0) ∧
    (∀ L f sol cost, (t.computeCapex p.costs).2 < p.budget → 0 < p.budget →
      t.adversarialLinks (O.edgeCost t) p.ratio = .ok L → (O.coverage P L).found = some f →
      P.extract f.vars f.flow f.common = .ok (some (sol, cost)) → updateWithSolution sol t = some (t', none)) := by
  dsimp only
  unfold secondStep at h
  rw [hleg, if_pos rfl] at h
  unfold coverageStep at h
  by_cases hb : p.budget - ((run {} ops).computeCapex p.costs).2 ≤ 0
  · rw [if_pos hb] at h
    simp only [Option.some.injEq, Prod.mk.injEq, and_true] at h
    subst h
    exact ⟨le_max_right _ _, fun c => absurd rfl c, fun L f sol cost hlt => by linarith⟩
  rw [if_neg hb] at h
  have hb' : ((run {} ops).computeCapex p.costs).2 < p.budget := by
    push Not at hb; linarith
  split at h
  · simp at h
  rename_i L hL
  dsimp only at h
  split at h
  · simp at h
  rename_i hset
  split at h
  · rename_i hz
    simp only [Option.some.injEq, Prod.mk.injEq, and_true] at h
    subst h
    exact ⟨le_max_right _ _, fun c => absurd rfl c, fun L f sol cost _ hpos => absurd hpos (not_lt.2 hz)⟩
  rename_i hz
  split at h
  · rename_i hf
    simp only [Option.some.injEq, Prod.mk.injEq, and_true] at h
    subst h
    refine ⟨le_max_right _ _, fun c => absurd rfl c, fun L' f sol cost _ _ hL' hf' => ?_⟩
    rw [hL] at hL'
    injection hL' with e
    subst e
    rw [hf] at hf'
    cases hf'
  rename_i f hf
  split at h
  · simp at h
  · rename_i he
    simp only [Option.some.injEq, Prod.mk.injEq, and_true] at h
    subst h
    refine ⟨le_max_right _ _, fun c => absurd rfl c, fun L' f' sol cost _ _ hL' hf' he' => ?_⟩
    rw [hL] at hL'
    injection hL' with e
    subst e
    rw [hf] at hf'
    injection hf' with e
    subst e
    rw [he] at he'
    cases he'
  · rename_i sol cost he
    have hu : updateWithSolution sol (run {} ops) = some (t', none) := by
      rw [Option.map_eq_some_iff] at h
      obtain ⟨⟨a, e⟩, ha, hb⟩ := h
      simp only [Out.phase, Prod.mk.injEq, Option.map_eq_none_iff] at hb
      rw [ha, hb.1, hb.2]
    obtain ⟨feas, hc⟩ := hO L f hf
    have c1 := C85_reported_capex_partial ops p.toOptParams (advOf L) f.vars f.flow f.common sol cost t' feas he hu hs
      hn hex
    have c2 := (C44_cost ops p.toOptParams (advOf L) f.vars f.flow f.common sol cost feas he).2 hc
      (le_of_lt (not_le.1 hz)) hs hn
    refine ⟨le_trans c1 (le_trans c2 (le_max_left _ _)), fun _ => ⟨hb', L, f, sol, cost, hL, hf, he, hu, ?_⟩, ?_⟩
    · intro a b hab hm
      exact feas.adversarial _ hab (by unfold advOf; simpa using hm)
    · intro L' f' sol' cost' _ _ hL' hf' he'
      rw [hL] at hL'
      injection hL' with e
      subst e
      rw [hf] at hf'
      injection hf' with e
      subst e
      rw [he] at he'
      injection he' with e
      injection e with e
      injection e with e1 e2
      subst e1
      exact hu

/-- The solver answers with the demo plan. -/
def coverOut : Outside := { runDemoOut with
  coverage := fun _ L => if L = [] then ⟨some ⟨planDemoVars, planDemoVars.flow, none⟩, false⟩ else ⟨none, false⟩ }

def coverParams : RunParams := { planDemoParams with legacy := true }

def coverResult : Topology := ((secondStep coverOut coverParams (run {} planDemo2)).getD ({}, none)).1

/-- The hypotheses hold of the second demo: the budget of 85 admits the plan for 78. -/
example :
    coverParams.legacy = true ∧ (∀ ty, 0 ≤ coverParams.costs.of ty) ∧
    (∀ y ∈ (run {} planDemo2).sites.vals, 0 ≤ y.device.nodeCapex) ∧
    (∀ e ∈ (run {} planDemo2).sectors,
        ((run {} planDemo2).sites.get? e.2.site).map (·.status) = some .existing →
        e.2.status ≠ .candidate ∧ e.2.status ≠ .proposed) ∧
    (run {} planDemo2).adversarialLinks (coverOut.edgeCost (run {} planDemo2)) coverParams.ratio = .ok [] ∧
    (∀ L f, (coverOut.coverage ⟨run {} planDemo2, coverParams.toOptParams⟩ L).found = some f →
      (Plan.mk (run {} planDemo2) coverParams.toOptParams).SiteFeasible (advOf L) f.vars ∧
      (Plan.mk (run {} planDemo2) coverParams.toOptParams).CostConstraint 1 f.vars) ∧
    secondStep coverOut coverParams (run {} planDemo2) = some (coverResult, none) ∧
    coverParams.budget = 85 ∧ (coverResult.computeCapex coverParams.costs).2 = 78 := by
  refine ⟨rfl, ?_, by decide +kernel, by decide +kernel, by decide +kernel, ?_, by decide +kernel, rfl,
    by decide +kernel⟩
  · intro ty; cases ty <;> decide +kernel
  · intro L f hf
    change (if L = [] then (⟨some ⟨planDemoVars, planDemoVars.flow, none⟩, false⟩ : Answer (Found Vars))
      else ⟨none, false⟩).found = some f at hf
    split at hf
    · rename_i e
      subst e
      cases hf
      exact ⟨Plan.Check.sound (by decide +kernel), by unfold Plan.CostConstraint; decide +kernel⟩
    · cases hf

end Verif
