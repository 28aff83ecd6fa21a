import Verif.Model.Redundancy
import Verif.Lemmas.IlpCheck

/-! # A finite check of the redundancy constraints and a small network, for concrete examples -/

namespace Verif
open Topology

namespace Plan

/-- The constraints of `RedFeasible` written over finite lists. -/
def RedCheck (P : Plan) (r : RedParams) (restr : Option (List (SiteId × SiteId))) (x : RVars) : Prop :=
  (∀ s ∈ P.t.sites.keys, P.redSite restr (.site s) = true → x.site s = 0 ∨ x.site s = 1) ∧
  (P.p.ignorePolarities = false → ∀ s ∈ P.t.sites.keys, P.redSite restr (.site s) = true →
    P.isDist (.site s) = true → x.odd s = 0 ∨ x.odd s = 1) ∧
  (∀ d ∈ P.redDns, ∀ e ∈ P.redArcs restr, 0 ≤ x.flow d e ∧
    x.flow d e ≤ if e.1 = .source ∨ e.2 = .source then (r.pop : ℚ) else 1) ∧
  (∀ d ∈ P.redDns, 0 ≤ x.shortage d ∧ x.shortage d ≤ r.sink) ∧
  (∀ s ∈ P.t.sites.keys, P.redSite restr (.site s) = true →
    if P.isActive s = true then x.site s = 1
    else if P.isInactive s = true then x.site s = 0
    else if P.isPop (.site s) = true then x.site s = 0
    else True) ∧
  (∀ e ∈ P.redArcs restr, P.inactiveArc e = true → ∀ d ∈ P.redDns, x.flow d e = 0) ∧
  (∀ locs ∈ P.t.colocated.vals,
    ((locs.filter fun s => P.isDist (.site s) && P.redSite restr (.site s)).map x.site).sum ≤ 1) ∧
  (∀ l ∈ P.locations, P.redSite restr l = true → ∀ d ∈ P.redDns, P.redIn restr l ≠ [] →
    ((P.redIn restr l).map (x.flow d)).sum ≤ P.redCap r d l *
      match l with
      | .site s => x.site s
      | _ => 1) ∧
  (∀ l ∈ P.locations, P.redSite restr l = true → ∀ d ∈ P.redDns,
    (P.redIn restr l ≠ [] ∨ P.redOut restr l ≠ []) →
    if l = .source then x.shortage d - r.sink ≤
      ((P.redIn restr l).map (x.flow d)).sum - ((P.redOut restr l).map (x.flow d)).sum
    else if l = .site d then r.sink - x.shortage d ≤
      ((P.redIn restr l).map (x.flow d)).sum - ((P.redOut restr l).map (x.flow d)).sum
    else ((P.redIn restr l).map (x.flow d)).sum - ((P.redOut restr l).map (x.flow d)).sum = 0) ∧
  (P.p.ignorePolarities = false → ∀ q ∈ (P.redArcs restr).filterMap ends,
    P.isWired (.site q.1, .site q.2) = false →
    if P.inputActive (.site q.1, .site q.2) = true then x.odd q.1 = 1 - x.odd q.2
    else ∀ d ∈ P.redDns, x.flow d (.site q.1, .site q.2) ≤ x.odd q.1 + x.odd q.2 ∧
      x.flow d (.site q.1, .site q.2) ≤ 2 - x.odd q.1 - x.odd q.2)

instance (P : Plan) (r : RedParams) (restr : Option (List (SiteId × SiteId))) (x : RVars) :
    Decidable (P.RedCheck r restr x) := by
  unfold RedCheck
  repeat' apply +allowSynthFailures instDecidableAnd
  all_goals infer_instance

theorem RedCheck.sound {P : Plan} {r : RedParams} {restr : Option (List (SiteId × SiteId))} {x : RVars}
    (h : P.RedCheck r restr x) : P.RedFeasible r restr x := by
  obtain ⟨h1, h2, h3, h4, h5, h6, h7, h8, h9, h10⟩ := h
  exact ⟨h1, h2, h3, h4, h5, h6, h7, h8, h9,
    fun hi a b hm => h10 hi (a, b) (List.mem_filterMap.2 ⟨_, hm, rfl⟩)⟩

end Plan

/-- Two POPs `P` and `Q`; DN `D` planned with its link to `P`, serving the CN `C`; `E` is a
candidate DN between `Q` and `D`, `A` another one. -/
def redDemo : List Op := [
  .addSite { id := "P", siteType := .pop, status := .existing } false,
  .addSite { id := "Q", siteType := .pop, status := .existing, lat := 1 } false,
  .addSite { id := "D", siteType := .dn, status := .proposed, lat := 2, device := { nodeCapex := 50 } } false,
  .addSite { id := "E", siteType := .dn, status := .candidate, lat := 3, device := { nodeCapex := 50 } } false,
  .addSite { id := "A", siteType := .dn, status := .candidate, lat := 4, device := { nodeCapex := 50 } } false,
  .addSite { id := "C", siteType := .cn, status := .proposed, lat := 5, device := { nodeCapex := 5 } } false,
  .addSector { site := "P", node := 0, pos := 0, status := .existing },
  .addSector { site := "Q", node := 0, pos := 0, status := .existing },
  .addSector { site := "D", node := 0, pos := 0, status := .proposed },
  .addSector { site := "E", node := 0, pos := 0, status := .candidate },
  .addSector { site := "A", node := 0, pos := 0, status := .candidate },
  .addSector { site := "C", node := 0, pos := 0, typ := .cn, status := .proposed },
  .addLink { tx := "P", rx := "D", capacity := 4, status := .proposed,
             sectors := some (⟨"P", 0, 0, .dn⟩, ⟨"D", 0, 0, .dn⟩) },
  .addLink { tx := "D", rx := "P", capacity := 4, status := .proposed,
             sectors := some (⟨"D", 0, 0, .dn⟩, ⟨"P", 0, 0, .dn⟩) },
  .addLink { tx := "Q", rx := "E", capacity := 4, status := .candidate,
             sectors := some (⟨"Q", 0, 0, .dn⟩, ⟨"E", 0, 0, .dn⟩) },
  .addLink { tx := "E", rx := "Q", capacity := 4, status := .candidate,
             sectors := some (⟨"E", 0, 0, .dn⟩, ⟨"Q", 0, 0, .dn⟩) },
  .addLink { tx := "E", rx := "D", capacity := 4, status := .candidate,
             sectors := some (⟨"E", 0, 0, .dn⟩, ⟨"D", 0, 0, .dn⟩) },
  .addLink { tx := "D", rx := "E", capacity := 4, status := .candidate,
             sectors := some (⟨"D", 0, 0, .dn⟩, ⟨"E", 0, 0, .dn⟩) },
  .addLink { tx := "P", rx := "A", capacity := 4, status := .candidate,
             sectors := some (⟨"P", 0, 0, .dn⟩, ⟨"A", 0, 0, .dn⟩) },
  .addLink { tx := "A", rx := "P", capacity := 4, status := .candidate,
             sectors := some (⟨"A", 0, 0, .dn⟩, ⟨"P", 0, 0, .dn⟩) },
  .addLink { tx := "D", rx := "C", capacity := 2, status := .proposed,
             sectors := some (⟨"D", 0, 0, .dn⟩, ⟨"C", 0, 0, .cn⟩) },
  .addDemandSite { id := "q", connected := ["C"], demand := some 1 }]

def redDemoParams : OptParams where
  popCapacity := 10
  costs := ⟨7, 20, 3⟩

/-- The two paths P-D and Q-E-D. -/
def redDemoVars : RVars where
  site s := if s = "A" then 0 else 1
  odd s := if s = "P" ∨ s = "E" then 1 else 0
  flow _ e := if e = (.source, .site "P") ∨ e = (.site "P", .site "D") ∨ e = (.source, .site "Q") ∨
    e = (.site "Q", .site "E") ∨ e = (.site "E", .site "D") then 1 else 0
  shortage _ := 0

def redDemoResult : Topology :=
  ((Topology.updateWithSolution (Plan.redSolution ⟨Topology.run {} redDemo, redDemoParams⟩ none redDemoVars)
    (Topology.run {} redDemo)).getD ({}, none)).1

theorem redDemo_feasible : (Plan.mk (Topology.run {} redDemo) redDemoParams).RedFeasible
    (RedParams.of .medium 2) none redDemoVars :=
  Plan.RedCheck.sound (by decide +kernel)

end Verif
