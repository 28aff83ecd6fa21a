import Verif.Props.Pipeline2

/-!
# Examples for C156–C160 and violations of C159
-/

namespace Verif
open Topology
open Spec

/-- A run on the demo network succeeds (C156, C160): `D` and `C` are proposed and connected, `E` is withdrawn. -/
example : ∃ t', optimize runDemoOut runDemoParams (run {} planDemo2) = some (t', none) ∧
    t'.siteStatus "C" = some .proposed ∧ t'.siteStatus "E" = some .candidate ∧
    (t'.links.get? ⟨"D", "C"⟩).map (·.status) = some .proposed ∧
    (∃ k x, (run {} planDemo2).sectors.get? k = some x ∧ x.site = "C") :=
  ⟨((optimize runDemoOut runDemoParams (run {} planDemo2)).getD ({}, none)).1, by decide +kernel, by decide +kernel,
    by decide +kernel, by decide +kernel, ⟨⟨"C", 0, 0, .cn⟩, _, rfl, rfl⟩⟩

/-- The demo network with a PROPOSED POP. -/
def extraPopDemo : List Op := planDemo.map fun o => match o with
  | .addSite s d => .addSite (if s.id = "P" then { s with status := .proposed } else s) d
  | o => o

/-- The solver chooses all sites when asked for POPs. -/
def extraPopOut : Outside := { runDemoOut with
  pops := fun _ => ⟨some ⟨{ planDemoVars with site := fun _ => 1 }, planDemoVars.flow, none⟩, false⟩ }

/-- A POP is put on `D` if one more is asked for (the first step of the run of C156). -/
example : ((popStep extraPopOut { runDemoParams with extraPops := 1 } (run {} extraPopDemo).sort).map fun r =>
      (r.2, (r.1.sites.get? "PD").map (·.siteType), (r.1.links.get? ⟨"PD", "C"⟩).isSome)) = some (none, some .pop, true) ∧
    (run {} extraPopDemo).sites.get? "PD" = none :=
  ⟨by decide +kernel, by decide +kernel⟩

theorem runDemo_coverage (c : ℚ) (h : c ≤ 2/3) : (problem (run {} planDemo2) planDemoParams c).Coverage none planDemoVars := by
  intro _
  have e1 : ((problem (run {} planDemo2) planDemoParams c).demands.map planDemoVars.shortage).sum = 1/2 := by
    change ((problem (run {} planDemo2) planDemoParams 0).demands.map planDemoVars.shortage).sum = 1/2
    decide +kernel
  have e2 : ((problem (run {} planDemo2) planDemoParams c).demands.map (problem (run {} planDemo2) planDemoParams c).demandAt).sum = 3/2 := by
    change ((problem (run {} planDemo2) planDemoParams 0).demands.map (problem (run {} planDemo2) planDemoParams 0).demandAt).sum = 3/2
    decide +kernel
  dsimp only
  rw [e1, e2]
  change (1/2 : ℚ) ≤ (1 - c) * (3/2)
  linarith

/-- The demo run settles for 60 % (C157). -/
example : (∀ c f, (runDemoOut.cost (problem (run {} planDemo2) planDemoParams c)).found = some f →
      (problem (run {} planDemo2) planDemoParams c).SiteFeasible (fun _ => false) f.vars ∧
      (problem (run {} planDemo2) planDemoParams c).Coverage none f.vars) ∧
    (∃ t', costStep runDemoOut planDemoParams (run {} planDemo2) = some (t', none) ∧
      t'.siteStatus "C" = some .proposed) ∧
    (runDemoOut.cost (problem (run {} planDemo2) planDemoParams (7/10))).found.isNone = true := by
  refine ⟨?_, ⟨((costStep runDemoOut planDemoParams (run {} planDemo2)).getD ({}, none)).1, by decide +kernel,
    by decide +kernel⟩, by decide +kernel⟩
  intro c f hf
  change (if c ≤ 2/3 then (⟨some ⟨planDemoVars, planDemoVars.flow, none⟩, false⟩ : Answer (Found Vars))
    else ⟨none, false⟩).found = some f at hf
  split at hf
  · rename_i hc
    cases hf
    refine ⟨?_, runDemo_coverage c hc⟩
    have := planDemo2_feasible
    exact Plan.SiteFeasible.coverage (c := 2/3) this
  · cases hf

/-- The demo network with the link to `C` ruled out. -/
def cutDemo : List Op := planDemo2.map fun o => match o with
  | .addLink l => .addLink (if l.rx = "C" then { l with status := .unavailable } else l)
  | o => o

/-- A solver that finds nothing. -/
def noneOut : Outside := { runDemoOut with cost := fun _ => ⟨none, false⟩ }

/-- The hypotheses of C158 hold of it: the solver is right to find nothing. -/
example : ((Plan.mk (run {} cutDemo) planDemoParams).maxThroughput / 2 ≤
      (run {} cutDemo).maxPopCapacity planDemoParams.popCapacity StatusType.reachable) ∧
    costStep noneOut planDemoParams (run {} cutDemo) = some (run {} cutDemo, some .costInfeasible) ∧
    ¬ ∃ x, (problem (run {} cutDemo) planDemoParams (1/2)).SiteFeasible (fun _ => false) x ∧
      (problem (run {} cutDemo) planDemoParams (1/2)).Coverage none x := by
  refine ⟨by decide +kernel, by decide +kernel, ?_⟩
  rintro ⟨x, fx, cx⟩
  have a1 : x.flow (.site "D", .site "C") = 0 := fx.inactiveFlow _ (by decide +kernel) (by decide +kernel)
  have a2 := fx.flowBalance (.site "C") (by decide +kernel) (by decide +kernel)
  have a3 := fx.flowBalance (.demand "q" 0) (by decide +kernel) (by decide +kernel)
  have a4 := cx (by decide +kernel)
  simp only [Plan.inFlow, Plan.outFlow] at a2 a3
  rw [show (problem (run {} cutDemo) planDemoParams (1/2)).incoming (.site "C") = [(.site "D", .site "C")] by decide +kernel,
    show (problem (run {} cutDemo) planDemoParams (1/2)).outgoing (.site "C") = [(.site "C", .demand "q" 0)] by decide +kernel] at a2
  rw [show (problem (run {} cutDemo) planDemoParams (1/2)).incoming (.demand "q" 0) = [(.site "C", .demand "q" 0)] by decide +kernel,
    show (problem (run {} cutDemo) planDemoParams (1/2)).outgoing (.demand "q" 0) = [] by decide +kernel] at a3
  dsimp only at a4
  rw [show (problem (run {} cutDemo) planDemoParams (1/2)).demands = [.demand "q" 0] by decide +kernel] at a4
  simp only [Plan.balanceRhs, List.map_cons, List.map_nil, List.sum_cons, List.sum_nil] at a2 a3 a4
  rw [show (problem (run {} cutDemo) planDemoParams (1/2)).demandAt (.demand "q" 0) = 3/2 by decide +kernel] at a3 a4
  change _ ≤ (1 - (1/2 : ℚ)) * _ at a4
  linarith

/-- **C159 (violation)**: the demand the message compares with is not divided by the oversubscription factor: here the POPs
can carry all of the demand planned for, yet the run ends with "insufficient number of POPs". -/
theorem C159_oversubscription_violation : ∃ (ops : List Op) (O : Outside) (p : OptParams),
    costStep O p (run {} ops) = some (run {} ops, some .fewPops) ∧
    totalDemand ⟨run {} ops, p⟩ ≤ (run {} ops).maxPopCapacity p.popCapacity StatusType.reachable :=
  ⟨cutDemo, noneOut, { planDemoParams with popCapacity := 1, oversubscription := 4 }, by decide +kernel, by decide +kernel⟩

/-- The demo network where the demand site stands for ten sites. -/
def tenDemo : List Op := planDemo2.map fun o => match o with
  | .addDemandSite d => .addDemandSite { d with numSites := 10 }
  | o => o

/-- **C159 (violation)**: nor is it multiplied with the number of sites a demand site stands for: here the POPs cannot carry
half of the demand planned for, no problem was even given to the solver, yet the run ends with the generic message. -/
theorem C159_num_sites_violation : ∃ (ops : List Op) (O : Outside) (p : OptParams),
    costStep O p (run {} ops) = some (run {} ops, some .costInfeasible) ∧
    (run {} ops).maxPopCapacity p.popCapacity StatusType.reachable < totalDemand ⟨run {} ops, p⟩ * (1/2) :=
  ⟨tenDemo, noneOut, { planDemoParams with popCapacity := 2 }, by decide +kernel, by decide +kernel⟩

/-- The hypotheses of `C159_few_pops_partial` hold of the demo network with a POP of capacity one. -/
example : costStep noneOut { planDemoParams with popCapacity := 1, oversubscription := 1 } (run {} planDemo2) =
      some (run {} planDemo2, some .fewPops) ∧
    (∀ d ∈ (run {} planDemo2).demandSites.vals, d.numSites = 1) ∧
    (∀ l ∈ (run {} planDemo2).links.vals, 0 ≤ l.capacity) ∧
    (∀ d ∈ (run {} planDemo2).demandSites.vals, ∀ s ∈ d.connected, ∀ y ∈ (run {} planDemo2).sites.get? s, y.siteType ≠ .pop) ∧
    (∀ l ∈ (run {} planDemo2).links.vals, SectorsInPlace (run {} planDemo2) l) ∧
    (∀ e ∈ (run {} planDemo2).sites, e.2.siteType = .pop → e.2.status ≠ .unavailable ∧ e.2.status ≠ .unreachable) := by
  refine ⟨by decide +kernel, by decide +kernel, by decide +kernel, by decide +kernel, ?_, by decide +kernel⟩
  have h : ∀ l ∈ (run {} planDemo2).links.vals, ∀ q ∈ l.sectors,
      ((run {} planDemo2).sectors.get? q.1).any (fun d => d.site == l.tx) = true ∧
      ((run {} planDemo2).sectors.get? q.2).any (fun d => d.site == l.rx) = true := by decide +kernel
  intro l hl a b hs
  obtain ⟨h1, h2⟩ := h l hl (a, b) hs
  simp only [Option.any_eq_true, beq_iff_eq] at h1 h2
  exact ⟨h1, h2⟩

end Verif
