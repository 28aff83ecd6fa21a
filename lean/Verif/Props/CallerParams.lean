import Verif.Model.CallerParams
import Verif.Lemmas.Via3
import Verif.Props.Pipeline3
import Verif.Props.ExtraPops

/-! # C189: what a planning run leaves in the parameters of the caller -/

namespace Verif
open Topology

/-! ## Lemmas -/

theorem popFlags_kept {p : RunParams} {t : Topology} (f : Flags)
    (h : p.extraPops = 0 ∨ ∃ P, Plan.popProposal t p.toOptParams = some (.ok P)) : popFlags p t f = f := by
  unfold popFlags
  split
  · rfl
  · rename_i c
    rcases h with h | ⟨P, h⟩
    · exact absurd h c
    · unfold Plan.popProposal at h
      split
      · rename_i a ha
        rw [ha] at h
        simp only [Option.map_some, Option.some.injEq] at h
        dsimp only
        split
        · rename_i e he
          rw [he] at h
          simp at h
        · rfl
      · rfl

theorem popStep_posed {O : Outside} {p : RunParams} {t t' : Topology} (h : popStep O p t = some (t', none)) :
    p.extraPops = 0 ∨ ∃ P, Plan.popProposal t p.toOptParams = some (.ok P) := by
  unfold popStep at h
  split at h
  · rename_i c
    exact .inl c
  · right
    cases c : Plan.popProposal t p.toOptParams with
    | none => rw [c] at h; simp at h
    | some r =>
      cases r with
      | error e => rw [c] at h; simp at h
      | ok P => exact ⟨P, rfl⟩

/-! ## Theorems -/

/-- **C189.** After a run that ends with a plan, `always_active_pops` and `maximize_common_bandwidth` are as the caller
set them, and polarities are not ignored. -/
theorem C189_planned (ops : List Op) (O : Outside) (p : RunParams) (common : Bool) (t' : Topology)
    (h : optimize O p (run {} ops) = some (t', none)) :
    optimizeLeaves O p common (run {} ops) = some ⟨false, p.alwaysActivePops, common⟩ := by
  obtain ⟨t1, t2, t3, t4, t5, ph⟩ := phases h
  unfold optimizeLeaves
  rw [popFlags_kept _ (popStep_posed ph.pops)]
  dsimp only
  rw [ph.pops, Option.bind_some]
  dsimp only
  rw [ph.mark, Option.bind_some]
  dsimp only
  have hc : costStep O ({ p with ignorePolarities := false } : RunParams).toOptParams t2 = some (t3, none) := ph.cost
  rw [hc, Option.bind_some]
  dsimp only
  have h2 := ph.second
  unfold redFlags
  unfold secondStep redundancyStep at h2
  dsimp only at h2 ⊢
  split
  · rfl
  · rename_i hl
    rw [if_neg hl] at h2
    split
    · rfl
    · rename_i lv hlv
      rw [hlv] at h2
      dsimp only at h2
      split
      · rfl
      · rename_i edges he
        rw [he] at h2
        dsimp only at h2
        split
        · rename_i e hs
          unfold Plan.redErr at h2
          rw [hs] at h2
          simp at h2
        · rfl

/-- **C189**, partial: if the problem of the extra POPs is not asked for or is set up without exception, and without the
redundancy step, the two parameters are kept however the run ends. Missing: runs that are given up while
the problem of the extra POPs or of the redundancy step is set up. -/
theorem C189_given_up_partial (ops : List Op) (O : Outside) (p : RunParams) (common : Bool) (f : Flags)
    (hp : p.extraPops = 0 ∨ ∃ P, Plan.popProposal (run {} ops).sort p.toOptParams = some (.ok P))
    (hr : p.legacy = true ∨ p.level = none)
    (h : optimizeLeaves O p common (run {} ops) = some f) :
    f.alwaysActivePops = p.alwaysActivePops ∧ f.common = common := by
  have hred : ∀ t g, redFlags O { p with ignorePolarities := false } t g = g := by
    intro t g
    unfold redFlags
    rcases hr with c | c
    · rw [if_pos (by simpa using c)]
    · split
      · rfl
      · dsimp only
        rw [c]
  unfold optimizeLeaves at h
  rw [popFlags_kept _ hp] at h
  dsimp only at h
  rw [Option.bind_eq_some_iff] at h
  obtain ⟨⟨t1, e1⟩, -, h⟩ := h
  cases e1 with
  | some e =>
    simp only [Option.some.injEq] at h
    subst h
    exact ⟨rfl, rfl⟩
  | none =>
    dsimp only at h
    rw [Option.bind_eq_some_iff] at h
    obtain ⟨⟨t2, e2⟩, -, h⟩ := h
    cases e2 with
    | some e =>
      simp only [Option.some.injEq] at h
      subst h
      exact ⟨rfl, rfl⟩
    | none =>
      dsimp only at h
      rw [Option.bind_eq_some_iff] at h
      obtain ⟨⟨t3, e3⟩, -, h⟩ := h
      cases e3 with
      | some e =>
        simp only [Option.some.injEq] at h
        subst h
        exact ⟨rfl, rfl⟩
      | none =>
        simp only [hred, Option.some.injEq] at h
        subst h
        exact ⟨rfl, rfl⟩

/-! ## Examples and violation -/

/-- The hypotheses of `C189_planned` hold of the demo run. -/
example : ∃ t', optimize runDemoOut runDemoParams (run {} planDemo2) = some (t', none) ∧
    runDemoParams.alwaysActivePops = true ∧
    optimizeLeaves runDemoOut runDemoParams true (run {} planDemo2) = some ⟨false, true, true⟩ :=
  ⟨((optimize runDemoOut runDemoParams (run {} planDemo2)).getD ({}, none)).1, by decide +kernel, by decide +kernel,
    by decide +kernel⟩

/-- The hypotheses of `C189_given_up_partial` hold of a run given up for want of a cost-minimal plan. -/
example : runDemoParams.extraPops = 0 ∧ (runDemoParams.legacy = true ∨ runDemoParams.level = none) ∧
    ((optimize noneOut runDemoParams (run {} planDemo2)).map (·.2)) = some (some .costInfeasible) ∧
    optimizeLeaves noneOut runDemoParams true (run {} planDemo2) = some ⟨false, true, true⟩ :=
  ⟨by decide +kernel, by decide +kernel, by decide +kernel, by decide +kernel⟩

/-- So do those of a run that asks for an extra POP. -/
example : popRunParams.extraPops = 1 ∧ (popRunParams.legacy = true ∨ popRunParams.level = none) ∧
    ∃ P, Plan.popProposal (run {} (extraDemo .candidate [])).sort popRunParams.toOptParams = some (.ok P) :=
  ⟨by decide +kernel, by decide +kernel, popRunPlan, popRun_plan⟩

/-- A POP and a DN at the same place, with demand at the DN. -/
def dnDemand : List Op := [
  .addSite { id := "P", siteType := .pop, status := .proposed } false,
  .addSite { id := "D", siteType := .dn, status := .candidate } false,
  .addSector { site := "P", node := 0, pos := 0 },
  .addSector { site := "D", node := 0, pos := 0 },
  .addLink { tx := "P", rx := "D", capacity := 1, distance := 10,
             sectors := some (⟨"P", 0, 0, .dn⟩, ⟨"D", 0, 0, .dn⟩) },
  .addLink { tx := "D", rx := "P", capacity := 1, distance := 10,
             sectors := some (⟨"D", 0, 0, .dn⟩, ⟨"P", 0, 0, .dn⟩) },
  .addDemandSite { id := "q", connected := ["D"], demand := some (1/2) }]

/-- **C189, violated.** A run with an extra POP is given up while the problem of the extra POPs is set up, as
the only DN is at the place of a POP; afterwards the caller's parameters say to ignore polarities, to leave POPs out and not
to maximise the common bandwidth, though they said the opposite. The same input is no obstacle to a
run without extra POPs. -/
theorem C189_given_up_violation : ∃ (ops : List Op) (O : Outside) (p : RunParams),
    p.ignorePolarities = false ∧ p.alwaysActivePops = true ∧ p.extraPops = 1 ∧
    ((optimize O p (run {} ops)).map (·.2)) = some (some (.raised .optimizer)) ∧
    optimizeLeaves O p true (run {} ops) = some ⟨true, false, false⟩ ∧
    (Plan.mk (run {} ops) p.toOptParams).setupErr = none :=
  ⟨dnDemand, runDemoOut, { runDemoParams with extraPops := 1 }, by decide +kernel, by decide +kernel, by decide +kernel,
    by decide +kernel, by decide +kernel, by decide +kernel⟩

end Verif
