import Verif.Props.Optimum
import Verif.Props.Pipeline3

/-! # C176 for the cost step of a run -/

namespace Verif
open Topology Spec

/-- **C176**, for a run: the plan applied by the cost step is the cheapest for the coverage it settles for,
which is at least one half, and no plan came out for the higher coverages. -/
theorem C176_step (ops : List Op) (O : Outside) (p : OptParams) (t' : Topology)
    (hO : ∀ c f, (O.cost (problem (run {} ops) p c)).found = some f → (problem (run {} ops) p c).CostBest f.vars)
    (hs : ∀ ty, 0 ≤ p.costs.of ty)
    (hn : ∀ s y, (run {} ops).sites.get? s = some y → 0 ≤ y.device.nodeCapex)
    (h : costStep O p (run {} ops) = some (t', none)) :
    ∃ (k : Nat) (sol : Solution), k ≤ 5 ∧ updateWithSolution sol (run {} ops) = some (t', none) ∧
      (∀ j < k, NoPlan O (run {} ops) p (1 - j / 10)) ∧
      let P := problem (run {} ops) p (1 - k / 10)
      ∀ z, Serves P (fun _ => false) z (1 - k / 10) → planCost P sol ≤ planCost P (buildAll P z) := by
  obtain ⟨hset, -⟩ := costStep_ok h
  obtain ⟨k, f, sol, cost, hk, h1, h2, h3, -, h4⟩ := C157_highest_coverage O p _ t' h
  refine ⟨k, sol, hk, h3, h4, ?_⟩
  exact (C176_cheapest ops { p with coverage := 1 - k / 10 } f.vars f.flow f.common sol cost hset (hO _ _ h1) h2
    hs hn).2.2

/-- The solver finds the cheapest plan for 60 % and nothing for more. -/
def cheapOut : Outside := { runDemoOut with
  cost := fun P => if P.p.coverage = 6/10 then ⟨some ⟨planDemoVars, planDemoVars.flow, none⟩, false⟩ else ⟨none, false⟩ }

/-- The hypotheses hold of the demo: the run settles for 60 %, and no plan for that is cheaper than 78. -/
example :
    (∀ c f, (cheapOut.cost (problem (run {} planDemo2) planDemoParams c)).found = some f →
      (problem (run {} planDemo2) planDemoParams c).CostBest f.vars) ∧
    (∀ ty, 0 ≤ planDemoParams.costs.of ty) ∧ (∀ y ∈ (run {} planDemo2).sites.vals, 0 ≤ y.device.nodeCapex) ∧
    ∃ t', costStep cheapOut planDemoParams (run {} planDemo2) = some (t', none) ∧
      t'.siteStatus "C" = some .proposed ∧ t'.siteStatus "E" = some .candidate := by
  refine ⟨?_, ?_, by decide +kernel, ((costStep cheapOut planDemoParams (run {} planDemo2)).getD ({}, none)).1,
    by decide +kernel, by decide +kernel, by decide +kernel⟩
  · intro c f hf
    change (if c = 6/10 then (⟨some ⟨planDemoVars, planDemoVars.flow, none⟩, false⟩ : Answer (Found Vars))
      else ⟨none, false⟩).found = some f at hf
    split at hf
    · rename_i hc
      cases hf
      subst hc
      refine ⟨Plan.SiteFeasible.coverage (c := 2/3) planDemo2_feasible, runDemo_coverage _ (by norm_num), ?_⟩
      intro z hz hcov
      have hz' : optDemo.SiteFeasible (fun _ => false) z := Plan.SiteFeasible.coverage (c := 6/10) hz
      have h1 := hcov (by decide +kernel)
      dsimp only at h1
      rw [show (problem (run {} planDemo2) planDemoParams (6/10)).demands = [.demand "q" 0] by decide +kernel,
        show (problem (run {} planDemo2) planDemoParams (6/10)).p.coverage = 6/10 from rfl] at h1
      simp only [List.map_cons, List.map_nil, List.sum_cons, List.sum_nil,
        show (problem (run {} planDemo2) planDemoParams (6/10)).demandAt (.demand "q" 0) = 3/2 by decide +kernel] at h1
      obtain ⟨h2, h3⟩ := optDemo_flow z hz'
      show optDemo.costObjective _ ≤ optDemo.costObjective _
      rw [optDemo_obj _ planDemo2_feasible, optDemo_obj z hz',
        show planDemoVars.site "D" = 1 by decide +kernel, show planDemoVars.site "E" = 0 by decide +kernel,
        show planDemoVars.site "C" = 1 by decide +kernel]
      have hD := hz'.bounds.site "D" (by decide +kernel)
      have hE := hz'.bounds.site "E" (by decide +kernel)
      have hC := hz'.bounds.site "C" (by decide +kernel)
      rcases hD with hD | hD
      · rw [hD] at h3; linarith
      rcases hC with hC | hC
      · rw [hC] at h2; linarith
      rcases hE with hE | hE <;> linarith
    · cases hf
  · intro ty; cases ty <;> decide +kernel

end Verif
