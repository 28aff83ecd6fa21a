import Verif.Props.RedSolve
import Verif.Props.RedPool2
import Verif.Props.Pipeline2
import Verif.Props.Create2

/-! # C174: the redundancy step of a planning run gives what the level promises -/

namespace Verif
open Topology Spec

/-! ## Specification -/

/-- The network has two different POPs in use. -/
def SeveralPops (t : Topology) : Prop :=
  ∃ a b x y, a ≠ b ∧ t.sites.get? a = some x ∧ t.sites.get? b = some y ∧
    x.siteType = .pop ∧ y.siteType = .pop ∧
    (x.status = .proposed ∨ x.status = .existing) ∧ (y.status = .proposed ∨ y.status = .existing)

/-- What is asked for, as commented at `topology_optimization.py:389-419`: each planned DN is to
receive `sink` units of flow, where a POP passes at most `pop`, another DN at most `dn` and a link
one unit. -/
def AskedFor (lv : RedLevel) (t : Topology) (r : RedParams) : Prop :=
  (lv = .low → r = ⟨2, 2, 2⟩) ∧
  (lv = .medium → (SeveralPops t → r = ⟨1, 1, 2⟩) ∧ (¬ SeveralPops t → r = ⟨2, 1, 2⟩)) ∧
  (lv = .high → (SeveralPops t → r = ⟨2, 1, 4⟩) ∧ (¬ SeveralPops t → r = ⟨3, 1, 3⟩))

/-- What a level promises for the DN `d`: LOW that it survives the failure of any link; MEDIUM of
any link or DN, and of any POP if there are several; HIGH of a POP and a DN, or of three DNs, if there are
several POPs, and of any two DNs otherwise. -/
def Promise (lv : RedLevel) (t t' : Topology) (d : SiteId) : Prop :=
  (∀ a b, Survives t' [] [(a, b)] d) ∧
  (lv ≠ .low → ∀ s ≠ d, SeveralPops t ∨ ¬ IsPop t s → Survives t' [s] [] d) ∧
  (lv = .high → ∀ s₁ s₂, s₁ ≠ d → s₂ ≠ d → ¬ IsPop t s₂ →
    SeveralPops t ∨ ¬ IsPop t s₁ → Survives t' [s₁, s₂] [] d) ∧
  (lv = .high → SeveralPops t → ∀ s₁ s₂ s₃, s₁ ≠ d → s₂ ≠ d → s₃ ≠ d →
    ¬ IsPop t s₁ → ¬ IsPop t s₂ → ¬ IsPop t s₃ → Survives t' [s₁, s₂, s₃] [] d)

/-- A DN in use. -/
def PlannedDn (t : Topology) (d : SiteId) : Prop :=
  ∃ y, t.sites.get? d = some y ∧ y.siteType = .dn ∧ (y.status = .proposed ∨ y.status = .existing)

/-! ## Lemmas -/

namespace RedStep

theorem several_iff (ops : List Op) {t : Topology} (ht : t = run {} ops) :
    1 < (t.sites.vals.filter fun s => s.siteType == .pop && s.status.active).length ↔ SeveralPops t := by
  have inv : Topology.Inv t := ht ▸ Inv.empty.run ops
  have nds : t.sites.vals.Nodup := by rw [ht]; exact (sites_nodup ops).of_map _
  have act : ∀ st : StatusType, st.active = true ↔ st = .proposed ∨ st = .existing := by
    intro st; cases st <;> decide
  have mem : ∀ x, x ∈ t.sites.vals.filter (fun s => s.siteType == .pop && s.status.active) ↔
      x ∈ t.sites.vals ∧ x.siteType = .pop ∧ (x.status = .proposed ∨ x.status = .existing) := by
    intro x
    rw [List.mem_filter, Bool.and_eq_true, beq_iff_eq, act]
  have get : ∀ x ∈ t.sites.vals, t.sites.get? x.id = some x := by
    intro x hx
    obtain ⟨k, hk⟩ := (dict_mem_vals inv.nd_sites).1 hx
    rw [inv.site_id k x hk]
    exact hk
  constructor
  · intro h
    have nd : (t.sites.vals.filter fun s => s.siteType == .pop && s.status.active).Nodup :=
      nds.filter _
    generalize hL : t.sites.vals.filter (fun s => s.siteType == .pop && s.status.active) = L at *
    match L, h with
    | x :: y :: L, _ =>
      have hx := (mem x).1 (by simp)
      have hy := (mem y).1 (by simp)
      refine ⟨x.id, y.id, x, y, ?_, get x hx.1, get y hy.1, hx.2.1, hy.2.1, hx.2.2, hy.2.2⟩
      intro e
      have : x = y := by
        have := get x hx.1
        rw [e, get y hy.1] at this
        exact (Option.some.inj this).symm
      subst this
      simp at nd
  · rintro ⟨a, b, x, y, hab, hx, hy, h1, h2, h3, h4⟩
    have mx := (mem x).2 ⟨(dict_mem_vals inv.nd_sites).2 ⟨_, hx⟩, h1, h3⟩
    have my := (mem y).2 ⟨(dict_mem_vals inv.nd_sites).2 ⟨_, hy⟩, h2, h4⟩
    have hne : x ≠ y := by
      rintro rfl
      exact hab ((inv.site_id a x hx).symm.trans (inv.site_id b x hy))
    generalize t.sites.vals.filter (fun s => s.siteType == .pop && s.status.active) = L at mx my
    match L, mx, my with
    | [z], mx, my =>
      rw [List.mem_singleton] at mx my
      exact absurd (mx.trans my.symm) hne
    | _ :: _ :: _, _, _ => simp

end RedStep

open RedStep

/-! ## Theorem -/

/-- **C174.** If the redundancy step of a run changes the plan, then by the answer the solver gave to the
problem asked for, and every planned DN for which that answer has no shortage is as safe as the
level promises. The only assumption on the solver is that its answer meets the constraints. -/
theorem C174_promise (ops : List Op) (O : Outside) (p : RunParams) (lv : RedLevel) (t' : Topology)
    (hl : p.level = some lv) (hleg : p.legacy = false) (ends : SectorsAtEnds (run {} ops))
    (hO : ∀ r pool x, (O.redundancy ⟨run {} ops, p.toOptParams⟩ r pool).found = some x →
      (Plan.mk (run {} ops) p.toOptParams).RedFeasible r (some pool) x)
    (h : secondStep O p (run {} ops) = some (t', none)) :
    ∃ r pool, AskedFor lv (run {} ops) r ∧
      (∃ edges, (run {} ops).heurPool O.maxFlow (O.pairs (run {} ops)) 4 2 = .ok edges ∧
        pool = (run {} ops).redPool edges) ∧
      ((O.redundancy ⟨run {} ops, p.toOptParams⟩ r pool).found = none → t' = run {} ops) ∧
      ∀ x, (O.redundancy ⟨run {} ops, p.toOptParams⟩ r pool).found = some x →
        ∀ d, PlannedDn (run {} ops) d → x.shortage d = 0 → Promise lv (run {} ops) t' d := by
  unfold secondStep at h
  rw [hleg, if_neg (by simp)] at h
  unfold redundancyStep at h
  rw [hl] at h
  dsimp only at h
  generalize hn : ((run {} ops).sites.vals.filter fun s => s.siteType == .pop && s.status.active).length = n at h
  have sev : 1 < n ↔ SeveralPops (run {} ops) := by rw [← hn]; exact several_iff ops rfl
  split at h
  · simp at h
  rename_i edges he
  split at h
  · simp at h
  rename_i ok
  refine ⟨RedParams.of lv n, (run {} ops).redPool edges, ?_, ⟨edges, he, rfl⟩, ?_, ?_⟩
  · refine ⟨?_, ?_, ?_⟩
    · rintro rfl; rfl
    · rintro rfl
      exact ⟨fun c => if_pos (sev.2 c), fun c => if_neg (fun q => c (sev.1 q))⟩
    · rintro rfl
      exact ⟨fun c => if_pos (sev.2 c), fun c => if_neg (fun q => c (sev.1 q))⟩
  · intro hf
    rw [hf] at h
    simp only [Option.some.injEq, Prod.mk.injEq] at h
    exact h.1.symm
  · rintro x hx d ⟨y, hy, hdn, hact⟩ hsh
    rw [hx] at h
    dsimp only at h
    have hu : updateWithSolution ((Plan.mk (run {} ops) p.toOptParams).redSolution
        (some ((run {} ops).redPool edges)) x) (run {} ops) = some (t', none) := by
      rw [Option.map_eq_some_iff] at h
      obtain ⟨⟨a, e⟩, ha, hb⟩ := h
      simp only [Out.phase, Prod.mk.injEq, Option.map_eq_none_iff] at hb
      rw [ha, hb.1, hb.2]
    have key := C47_levels ops p.toOptParams lv n (some ((run {} ops).redPool edges)) x t' ok ends
      (hO _ _ x hx) hu d y hy hdn hact hsh
    unfold Promise
    rw [← sev]
    exact key

/-- **C160**: the coverage step leaves the plan as it is if the budget is spent. -/
theorem C160_budget_spent (O : Outside) (p : RunParams) (t t' : Topology) (r : Option Halt)
    (hleg : p.legacy = true) (hb : p.budget ≤ (t.computeCapex p.costs).2)
    (h : secondStep O p t = some (t', r)) : t' = t ∧ r = none := by
  unfold secondStep at h
  rw [hleg, if_pos rfl] at h
  unfold coverageStep at h
  rw [if_pos (by linarith)] at h
  simp only [Option.some.injEq, Prod.mk.injEq] at h
  exact ⟨h.1.symm, h.2.symm⟩

/-! ## Example -/

/-- With a budget of what the plan costs already, nothing is added (C160). -/
example : let p : RunParams := { redDemoParams with
      legacy := true
      budget := ((run {} redDemo).computeCapex redDemoParams.costs).2 }
    p.legacy = true ∧ p.budget ≤ ((run {} redDemo).computeCapex p.costs).2 ∧
    ∃ t' r, secondStep runDemoOut p (run {} redDemo) = some (t', r) := by
  refine ⟨rfl, le_refl _, run {} redDemo, none, ?_⟩
  unfold secondStep coverageStep
  rw [if_pos rfl, if_pos (by exact le_of_eq (sub_self _))]

/-- The pool the heuristic finds in the demo network. -/
def redStepPool : List (SiteId × SiteId) := (run {} redDemo).redPool [("P", "D"), ("Q", "E"), ("E", "D")]

def redStepOut : Outside := { runDemoOut with
  maxFlow := redDemoFlow
  redundancy := fun _ r pool => if r = ⟨1, 1, 2⟩ ∧ pool = redStepPool then ⟨some redDemoVars, false⟩ else ⟨none, false⟩ }

def redStepParams : RunParams := { redDemoParams with level := some .medium }

def redStepResult : Topology := ((secondStep redStepOut redStepParams (run {} redDemo)).getD ({}, none)).1

/-- The hypotheses hold of the demo network if the solver is asked for two paths over the pool of the
heuristic; `E` is added and `D` survives the loss of either POP. -/
example : redStepParams.level = some .medium ∧ redStepParams.legacy = false ∧ SectorsAtEnds (run {} redDemo) ∧
    (∀ r pool x, (redStepOut.redundancy ⟨run {} redDemo, redStepParams.toOptParams⟩ r pool).found = some x →
      (Plan.mk (run {} redDemo) redStepParams.toOptParams).RedFeasible r (some pool) x) ∧
    secondStep redStepOut redStepParams (run {} redDemo) = some (redStepResult, none) ∧
    redStepResult.siteStatus "E" = some .proposed ∧ redStepResult.siteStatus "A" = some .candidate := by
  refine ⟨rfl, rfl, ?_, ?_, by decide +kernel, by decide +kernel, by decide +kernel⟩
  case refine_2 =>
    intro r pool x hx
    change (if r = ⟨1, 1, 2⟩ ∧ pool = redStepPool then (⟨some redDemoVars, false⟩ : Answer RVars)
      else ⟨none, false⟩).found = some x at hx
    split at hx
    · rename_i e
      obtain ⟨rfl, rfl⟩ := e
      cases hx
      exact Plan.RedCheck.sound (by decide +kernel)
    · cases hx
  have h : ∀ l ∈ (run {} redDemo).links.vals, ∀ q ∈ l.sectors,
      (∃ d ∈ (run {} redDemo).sectors.get? q.1, d.site = l.tx) ∧
      ∃ d ∈ (run {} redDemo).sectors.get? q.2, d.site = l.rx := by
    decide +kernel
  intro l hl a b hab
  exact h l hl (a, b) hab

end Verif
