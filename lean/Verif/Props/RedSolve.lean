import Verif.Model.RedSolve
import Verif.Lemmas.RedCheck
import Verif.Props.Redundancy
import Mathlib.Tactic.Linarith
import Mathlib.Tactic.FieldSimp

/-! # C173: the redundancy phase protects as much as possible, then spends as little as possible -/

namespace Verif
open Topology

/-! ## Specification -/

/-- Price of a site with all its sectors. -/
def sitePrice (P : Plan) (s : SiteId) : ℚ := P.siteCost s + ((P.sectorsAt s).map P.sectorCost).sum

/-- The sites that have to be built and paid for: selected, not existing, with a usable link. -/
def newSites (P : Plan) (restr : Option (List (SiteId × SiteId))) (x : RVars) : List SiteId :=
  P.t.sites.keys.filter fun s => P.redSite restr (.site s) && !P.isExisting s && decide (x.site s = 1)

/-- What a plan costs. -/
def newPrice (P : Plan) (restr : Option (List (SiteId × SiteId))) (x : RVars) : ℚ :=
  ((newSites P restr x).map (sitePrice P)).sum

/-- `x` leaves the DNs no worse protected than `y` does. -/
def ProtectsAs (P : Plan) (x y : RVars) : Prop := ∀ d ∈ P.redDns, x.shortage d ≤ y.shortage d

/-- Every planned DN has the full redundancy. -/
def FullyProtects (P : Plan) (x : RVars) : Prop := ∀ d ∈ P.redDns, x.shortage d = 0

/-! ## Lemmas -/

namespace RedSolve
open Plan

theorem sum_mul_const {α : Type} (L : List α) (f : α → ℚ) (c : ℚ) :
    (L.map fun a => f a * c).sum = (L.map f).sum * c := by
  induction L with
  | nil => simp
  | cons a L ih => rw [List.map_cons, List.sum_cons, ih, List.map_cons, List.sum_cons, add_mul]

theorem sum_const_mul {α : Type} (L : List α) (f : α → ℚ) (c : ℚ) :
    (L.map fun a => c * f a).sum = c * (L.map f).sum := by
  induction L with
  | nil => simp
  | cons a L ih => rw [List.map_cons, List.sum_cons, ih, List.map_cons, List.sum_cons, mul_add]

theorem sum_nonneg' {α : Type} (L : List α) (f : α → ℚ) (h : ∀ a ∈ L, 0 ≤ f a) : 0 ≤ (L.map f).sum :=
  List.sum_nonneg (by
    intro q hq
    obtain ⟨a, ha, rfl⟩ := List.mem_map.1 hq
    exact h a ha)

/-- The objective is the price of the sites to be built. -/
theorem redObj_eq {P : Plan} {r : RedParams} {restr : Option (List (SiteId × SiteId))} {x : RVars}
    (feas : P.RedFeasible r restr x) : P.redObj restr x = newPrice P restr x := by
  unfold redObj newPrice newSites
  have key : ∀ L : List SiteId, (∀ s ∈ L, s ∈ P.t.sites.keys) →
      ((L.filter fun s => P.redSite restr (.site s) && !P.isExisting s).map fun s =>
        P.siteCost s * x.site s + ((P.sectorsAt s).map fun k => P.sectorCost k * x.site s).sum).sum =
      ((L.filter fun s => P.redSite restr (.site s) && !P.isExisting s && decide (x.site s = 1)).map
        (sitePrice P)).sum := by
    intro L
    induction L with
    | nil => intro _; rfl
    | cons s L ih =>
      intro hL
      have ih := ih (fun s hs => hL s (List.mem_cons_of_mem _ hs))
      rw [List.filter_cons, List.filter_cons]
      by_cases h : (P.redSite restr (.site s) && !P.isExisting s) = true
      · rw [if_pos h, List.map_cons, List.sum_cons, ih, sum_mul_const]
        have hr : P.redSite restr (.site s) = true := by
          rw [Bool.and_eq_true] at h; exact h.1
        rcases feas.site s (hL s List.mem_cons_self) hr with h0 | h1
        · rw [if_neg (by rw [h0]; simp), h0]; ring
        · rw [if_pos (by rw [h, h1]; simp), List.map_cons, List.sum_cons, h1]
          unfold sitePrice; ring
      · rw [if_neg h, if_neg (by intro c; rw [Bool.and_eq_true] at c; exact h c.1), ih]
  exact key _ (fun _ h => h)

/-- The factor by which the flow for `d` is reduced. -/
def factor (r : RedParams) (z : RVars) (s : SiteId → ℚ) (d : SiteId) : ℚ :=
  if (r.sink : ℚ) - z.shortage d = 0 then 0 else (r.sink - s d) / (r.sink - z.shortage d)

/-- The plan `z` with the worse protection `s`. -/
def worsen (r : RedParams) (z : RVars) (s : SiteId → ℚ) : RVars where
  site := z.site
  odd := z.odd
  flow d e := factor r z s d * z.flow d e
  shortage := s

theorem worsen_feasible {P : Plan} {r : RedParams} {restr : Option (List (SiteId × SiteId))} {z : RVars}
    (feas : P.RedFeasible r restr z) {s : SiteId → ℚ}
    (hs : ∀ d ∈ P.redDns, z.shortage d ≤ s d ∧ s d ≤ r.sink) :
    P.RedFeasible r restr (worsen r z s) := by
  have c0 : ∀ d ∈ P.redDns, 0 ≤ factor r z s d := by
    intro d hd
    unfold factor
    split
    · exact le_refl _
    · exact div_nonneg (by linarith [(hs d hd).2]) (by linarith [(hs d hd).1, (hs d hd).2])
  have c1 : ∀ d ∈ P.redDns, factor r z s d ≤ 1 := by
    intro d hd
    unfold factor
    split
    · norm_num
    · rename_i h
      have h1 : (0 : ℚ) < r.sink - z.shortage d :=
        lt_of_le_of_ne (by linarith [(hs d hd).1, (hs d hd).2]) (Ne.symm h)
      rw [div_le_one h1]
      linarith [(hs d hd).1]
  have ce : ∀ d ∈ P.redDns, factor r z s d * (r.sink - z.shortage d) = r.sink - s d := by
    intro d hd
    unfold factor
    split
    · rename_i h
      linarith [(hs d hd).1, (hs d hd).2]
    · rename_i h
      exact div_mul_cancel₀ _ h
  have shrink : ∀ d ∈ P.redDns, ∀ q : ℚ, 0 ≤ q → factor r z s d * q ≤ q := by
    intro d hd q hq
    have := mul_le_mul_of_nonneg_right (c1 d hd) hq
    linarith
  refine ⟨feas.site, feas.odd, ?_, ?_, feas.decided, ?_, feas.colocated, ?_, ?_, ?_⟩
  · intro d hd e he
    obtain ⟨h1, h2⟩ := feas.flow d hd e he
    exact ⟨mul_nonneg (c0 d hd) h1, le_trans (shrink d hd _ h1) h2⟩
  · intro d hd
    exact ⟨le_trans (feas.shortage d hd).1 (hs d hd).1, (hs d hd).2⟩
  · intro e he hi d hd
    show factor r z s d * z.flow d e = 0
    rw [feas.inactive e he hi d hd, mul_zero]
  · intro l hl hr d hd hne
    have := feas.flowSite l hl hr d hd hne
    show ((P.redIn restr l).map fun e => factor r z s d * z.flow d e).sum ≤ _
    rw [sum_const_mul]
    exact le_trans (shrink d hd _ (sum_nonneg' _ _ fun e he =>
      (feas.flow d hd e (mem_redIn.1 he).1).1)) this
  · intro l hl hr d hd hne
    have := feas.balance l hl hr d hd hne
    dsimp only at this ⊢
    show if l = .source then s d - r.sink ≤ _ else if l = .site d then r.sink - s d ≤ _ else _
    have e1 : ((P.redIn restr l).map ((worsen r z s).flow d)).sum =
        factor r z s d * ((P.redIn restr l).map (z.flow d)).sum := sum_const_mul _ _ _
    have e2 : ((P.redOut restr l).map ((worsen r z s).flow d)).sum =
        factor r z s d * ((P.redOut restr l).map (z.flow d)).sum := sum_const_mul _ _ _
    rw [e1, e2, ← mul_sub]
    split
    · rename_i h
      rw [if_pos h] at this
      have h1 := mul_le_mul_of_nonneg_left this (c0 d hd)
      have h2 := ce d hd
      linarith
    · rename_i h
      rw [if_neg h] at this
      split
      · rename_i h3
        rw [if_pos h3] at this
        have h1 := mul_le_mul_of_nonneg_left this (c0 d hd)
        have h2 := ce d hd
        linarith
      · rename_i h3
        rw [if_neg h3] at this
        rw [this, mul_zero]
  · intro hp a b he hw
    have := feas.polarity hp a b he hw
    show if _ then z.odd a = 1 - z.odd b else _
    split
    · rename_i h
      rw [if_pos h] at this
      exact this
    · rename_i h
      rw [if_neg h] at this
      intro d hd
      have h0 := (feas.flow d hd _ he).1
      exact ⟨le_trans (shrink d hd _ h0) (this d hd).1, le_trans (shrink d hd _ h0) (this d hd).2⟩

theorem sum_zero {L : List SiteId} {f : SiteId → ℚ} (h0 : ∀ d ∈ L, 0 ≤ f d) (h : (L.map f).sum ≤ 0) :
    ∀ d ∈ L, f d = 0 := by
  induction L with
  | nil => intro d hd; cases hd
  | cons a L ih =>
    rw [List.map_cons, List.sum_cons] at h
    have h1 := h0 a List.mem_cons_self
    have h2 := sum_nonneg' L f (fun d hd => h0 d (List.mem_cons_of_mem _ hd))
    intro d hd
    rcases List.mem_cons.1 hd with rfl | hd
    · linarith
    · exact ih (fun d hd => h0 d (List.mem_cons_of_mem _ hd)) (by linarith) d hd

end RedSolve

open Plan

/-! ## Theorems -/

/-- **C173, in part.** The plan returned by the redundancy phase has the least possible total
shortage of redundancy, and it is the cheapest of all plans that protect every planned DN at least as
well as it does. The second solve cannot fail once the first has succeeded.
Missing: that it is the cheapest of all plans with the least total shortage, see
`C173_distribution_violation`. -/
theorem C173_cheapest_partial (P : Plan) (r : RedParams) (restr : Option (List (SiteId × SiteId)))
    (x : RVars) :
    (P.RedFirst r restr x → ∃ y, P.RedSecondFeasible r restr x y) ∧
    ∀ y, P.RedSolved r restr x y →
      P.RedFeasible r restr y ∧
      (∀ z, P.RedFeasible r restr z →
        (P.redDns.map y.shortage).sum ≤ (P.redDns.map z.shortage).sum) ∧
      ∀ z, P.RedFeasible r restr z → ProtectsAs P z y → newPrice P restr y ≤ newPrice P restr z := by
  refine ⟨fun h => ⟨x, h.feas, fun _ _ => rfl⟩, fun y h => ?_⟩
  refine ⟨h.feas.1, fun z hz => ?_, fun z hz hp => ?_⟩
  · have := h.first.best z hz
    unfold redTotal at this
    rwa [List.map_congr_left (fun d hd => h.feas.2 d hd)]
  · have hw : P.RedFeasible r restr (RedSolve.worsen r z x.shortage) :=
      RedSolve.worsen_feasible hz fun d hd =>
        ⟨(h.feas.2 d hd) ▸ hp d hd, (h.first.feas.shortage d hd).2⟩
    have := h.best _ ⟨hw, fun _ _ => rfl⟩
    rw [RedSolve.redObj_eq h.feas.1, RedSolve.redObj_eq hw] at this
    exact this

/-- **C173, where full redundancy can be had.** If some plan gives every planned DN the full redundancy, the
returned plan does so too, and no plan that does is cheaper. -/
theorem C173_full (P : Plan) (r : RedParams) (restr : Option (List (SiteId × SiteId))) (x y w : RVars)
    (h : P.RedSolved r restr x y) (hw : P.RedFeasible r restr w) (full : FullyProtects P w) :
    FullyProtects P y ∧
    ∀ z, P.RedFeasible r restr z → FullyProtects P z → newPrice P restr y ≤ newPrice P restr z := by
  obtain ⟨hy, hmin, hc⟩ := (C173_cheapest_partial P r restr x).2 y h
  have h0 : (P.redDns.map w.shortage).sum = 0 := by
    rw [List.map_congr_left (g := fun _ => (0 : ℚ)) (fun d hd => full d hd)]
    simp
  have fy : FullyProtects P y :=
    RedSolve.sum_zero (fun d hd => (hy.shortage d hd).1) (by rw [← h0]; exact hmin w hw)
  exact ⟨fy, fun z hz fz => hc z hz fun d hd => by rw [fz d hd, fy d hd]⟩

/-! ## Two DNs of which only one can be protected -/

/-- POPs `P` and `Q`; DNs `D` and `F` planned with links to `P`; at one location either `E` or
`G` can be built, `E` between `Q` and `D`, `G` between `Q` and `F`; `G` is dearer. -/
def splitDemo : List Op :=
  let sec (a b : SiteId) : Option (SectorId × SectorId) := some (⟨a, 0, 0, .dn⟩, ⟨b, 0, 0, .dn⟩)
  [
  .addSite { id := "P", siteType := .pop, status := .existing } false,
  .addSite { id := "Q", siteType := .pop, status := .existing, lat := 1 } false,
  .addSite { id := "D", siteType := .dn, status := .proposed, lat := 2, device := { nodeCapex := 50 } } false,
  .addSite { id := "F", siteType := .dn, status := .proposed, lat := 3, device := { nodeCapex := 50 } } false,
  .addSite { id := "E", siteType := .dn, status := .candidate, lat := 4, device := { nodeCapex := 50 } } false,
  .addSite { id := "G", siteType := .dn, status := .candidate, lat := 4, device := { nodeCapex := 900 } } false,
  .addSector { site := "P", node := 0, pos := 0, status := .existing },
  .addSector { site := "Q", node := 0, pos := 0, status := .existing },
  .addSector { site := "D", node := 0, pos := 0, status := .proposed },
  .addSector { site := "F", node := 0, pos := 0, status := .proposed },
  .addSector { site := "E", node := 0, pos := 0, status := .candidate },
  .addSector { site := "G", node := 0, pos := 0, status := .candidate },
  .addLink { tx := "P", rx := "D", capacity := 4, status := .proposed, sectors := sec "P" "D" },
  .addLink { tx := "D", rx := "P", capacity := 4, status := .proposed, sectors := sec "D" "P" },
  .addLink { tx := "P", rx := "F", capacity := 4, status := .proposed, sectors := sec "P" "F" },
  .addLink { tx := "F", rx := "P", capacity := 4, status := .proposed, sectors := sec "F" "P" },
  .addLink { tx := "Q", rx := "E", capacity := 4, status := .candidate, sectors := sec "Q" "E" },
  .addLink { tx := "E", rx := "Q", capacity := 4, status := .candidate, sectors := sec "E" "Q" },
  .addLink { tx := "E", rx := "D", capacity := 4, status := .candidate, sectors := sec "E" "D" },
  .addLink { tx := "D", rx := "E", capacity := 4, status := .candidate, sectors := sec "D" "E" },
  .addLink { tx := "Q", rx := "G", capacity := 4, status := .candidate, sectors := sec "Q" "G" },
  .addLink { tx := "G", rx := "Q", capacity := 4, status := .candidate, sectors := sec "G" "Q" },
  .addLink { tx := "G", rx := "F", capacity := 4, status := .candidate, sectors := sec "G" "F" },
  .addLink { tx := "F", rx := "G", capacity := 4, status := .candidate, sectors := sec "F" "G" },
  .addDemandSite { id := "q", connected := ["D"], demand := some 1 }]

def splitPlan : Plan := ⟨run {} splitDemo, redDemoParams⟩

/-- Build `n` (`E` or `G`) and give `d` (`D` or `F`) a second path over it. -/
def splitVars (n d : SiteId) : RVars where
  site s := if s = "E" ∨ s = "G" then (if s = n then 1 else 0) else 1
  odd s := if s = "P" ∨ s = "E" ∨ s = "G" then 1 else 0
  flow k e := if e = (.source, .site "P") ∨ e = (.site "P", .site k) ∨
    (k = d ∧ (e = (.source, .site "Q") ∨ e = (.site "Q", .site n) ∨ e = (.site n, .site d))) then 1 else 0
  shortage k := if k = d then 0 else 1

theorem split_feasible : splitPlan.RedFeasible (RedParams.of .medium 2) none (splitVars "E" "D") ∧
    splitPlan.RedFeasible (RedParams.of .medium 2) none (splitVars "G" "F") :=
  ⟨RedCheck.sound (by decide +kernel), RedCheck.sound (by decide +kernel)⟩

/-- A DN without the extra site lacks one unit of redundancy. -/
theorem split_bound {z : RVars} (hz : splitPlan.RedFeasible (RedParams.of .medium 2) none z) :
    1 - z.site "E" ≤ z.shortage "D" ∧ 1 - z.site "G" ≤ z.shortage "F" ∧ z.site "E" + z.site "G" ≤ 1 := by
  have col := hz.colocated ["E", "G"] (by decide +kernel)
  rw [show (["E", "G"].filter fun s => splitPlan.isDist (.site s) && splitPlan.redSite none (.site s)) =
    ["E", "G"] by decide +kernel] at col
  have hcol : z.site "E" + z.site "G" ≤ 1 := by simpa using col
  have fl := fun d hd e he => hz.flow d hd e he
  have D : "D" ∈ splitPlan.redDns := by decide +kernel
  have F : "F" ∈ splitPlan.redDns := by decide +kernel
  refine ⟨?_, ?_, hcol⟩
  · have b1 := hz.balance (.site "D") (by decide +kernel) (by decide +kernel) "D" D (by decide +kernel)
    have b2 := hz.balance (.site "E") (by decide +kernel) (by decide +kernel) "D" D (by decide +kernel)
    have b3 := hz.flowSite (.site "E") (by decide +kernel) (by decide +kernel) "D" D (by decide +kernel)
    rw [show splitPlan.redCap (RedParams.of .medium 2) "D" (.site "E") = 1 by decide +kernel,
      show splitPlan.redIn none (.site "E") = [(.site "Q", .site "E"), (.site "D", .site "E")] by
        decide +kernel] at b3
    rw [show splitPlan.redIn none (.site "E") = [(.site "Q", .site "E"), (.site "D", .site "E")] by
        decide +kernel,
      show splitPlan.redOut none (.site "E") = [(.site "E", .site "Q"), (.site "E", .site "D")] by
        decide +kernel] at b2
    rw [show splitPlan.redIn none (.site "D") = [(.site "P", .site "D"), (.site "E", .site "D")] by
        decide +kernel,
      show splitPlan.redOut none (.site "D") = [(.site "D", .site "P"), (.site "D", .site "E")] by
        decide +kernel] at b1
    have f1 := fl "D" D (.site "P", .site "D") (by decide +kernel)
    have f2 := fl "D" D (.site "D", .site "P") (by decide +kernel)
    have f3 := fl "D" D (.site "D", .site "E") (by decide +kernel)
    have f4 := fl "D" D (.site "E", .site "Q") (by decide +kernel)
    simp [RedParams.of] at b1 b2 b3 f1 f2 f3 f4
    linarith [f1.2, f2.1, f3.1, f4.1]
  · have b1 := hz.balance (.site "F") (by decide +kernel) (by decide +kernel) "F" F (by decide +kernel)
    have b2 := hz.balance (.site "G") (by decide +kernel) (by decide +kernel) "F" F (by decide +kernel)
    have b3 := hz.flowSite (.site "G") (by decide +kernel) (by decide +kernel) "F" F (by decide +kernel)
    rw [show splitPlan.redCap (RedParams.of .medium 2) "F" (.site "G") = 1 by decide +kernel,
      show splitPlan.redIn none (.site "G") = [(.site "Q", .site "G"), (.site "F", .site "G")] by
        decide +kernel] at b3
    rw [show splitPlan.redIn none (.site "G") = [(.site "Q", .site "G"), (.site "F", .site "G")] by
        decide +kernel,
      show splitPlan.redOut none (.site "G") = [(.site "G", .site "Q"), (.site "G", .site "F")] by
        decide +kernel] at b2
    rw [show splitPlan.redIn none (.site "F") = [(.site "P", .site "F"), (.site "G", .site "F")] by
        decide +kernel,
      show splitPlan.redOut none (.site "F") = [(.site "F", .site "P"), (.site "F", .site "G")] by
        decide +kernel] at b1
    have f1 := fl "F" F (.site "P", .site "F") (by decide +kernel)
    have f2 := fl "F" F (.site "F", .site "P") (by decide +kernel)
    have f3 := fl "F" F (.site "F", .site "G") (by decide +kernel)
    have f4 := fl "F" F (.site "G", .site "Q") (by decide +kernel)
    simp [RedParams.of] at b1 b2 b3 f1 f2 f3 f4
    linarith [f1.2, f2.1, f3.1, f4.1]

theorem split_total (z : RVars) : splitPlan.redTotal z = z.shortage "D" + z.shortage "F" := by
  unfold redTotal
  rw [show splitPlan.redDns = ["D", "F"] by decide +kernel]
  simp

theorem split_first {n d : SiteId} (h : n = "E" ∧ d = "D" ∨ n = "G" ∧ d = "F") :
    splitPlan.RedFirst (RedParams.of .medium 2) none (splitVars n d) := by
  refine ⟨?_, fun z hz => ?_⟩
  · rcases h with ⟨rfl, rfl⟩ | ⟨rfl, rfl⟩
    · exact split_feasible.1
    · exact split_feasible.2
  · obtain ⟨h1, h2, h3⟩ := split_bound hz
    rw [split_total, split_total]
    have : (splitVars n d).shortage "D" + (splitVars n d).shortage "F" = 1 := by
      rcases h with ⟨rfl, rfl⟩ | ⟨rfl, rfl⟩ <;> decide +kernel
    rw [this]
    linarith

theorem split_obj (z : RVars) : splitPlan.redObj none z =
    70 * z.site "D" + 70 * z.site "F" + 70 * z.site "E" + 920 * z.site "G" := by
  unfold redObj
  rw [show (splitPlan.t.sites.keys.filter fun s => splitPlan.redSite none (.site s) &&
    !splitPlan.isExisting s) = ["D", "F", "E", "G"] by decide +kernel]
  have h1 : ∀ s ∈ ["D", "F", "E", "G"], splitPlan.siteCost s = 20 := by decide +kernel
  have h2 : ∀ s ∈ ["D", "F", "E", "G"], splitPlan.sectorsAt s = [⟨s, 0, 0, .dn⟩] := by decide +kernel
  have h3 : splitPlan.sectorCost ⟨"D", 0, 0, .dn⟩ = 50 := by decide +kernel
  have h4 : splitPlan.sectorCost ⟨"F", 0, 0, .dn⟩ = 50 := by decide +kernel
  have h5 : splitPlan.sectorCost ⟨"E", 0, 0, .dn⟩ = 50 := by decide +kernel
  have h6 : splitPlan.sectorCost ⟨"G", 0, 0, .dn⟩ = 900 := by decide +kernel
  simp only [List.map_cons, List.map_nil, List.sum_cons, List.sum_nil,
    h1 "D" (by decide), h1 "F" (by decide), h1 "E" (by decide), h1 "G" (by decide),
    h2 "D" (by decide), h2 "F" (by decide), h2 "E" (by decide), h2 "G" (by decide), h3, h4, h5, h6]
  ring

set_option maxRecDepth 8000 in
theorem split_solved : splitPlan.RedSolved (RedParams.of .medium 2) none (splitVars "G" "F") (splitVars "G" "F") := by
  refine ⟨split_first (.inr ⟨rfl, rfl⟩), ⟨split_feasible.2, fun _ _ => rfl⟩, fun z hz => ?_⟩
  obtain ⟨h1, h2, h3⟩ := split_bound hz.1
  have hD : z.site "D" = 1 := by
    have a : splitPlan.isActive "D" = true := by decide +kernel
    have := hz.1.decided "D" (by decide +kernel) (by decide +kernel)
    simp only [a, if_true] at this
    exact this
  have hF : z.site "F" = 1 := by
    have a : splitPlan.isActive "F" = true := by decide +kernel
    have := hz.1.decided "F" (by decide +kernel) (by decide +kernel)
    simp only [a, if_true] at this
    exact this
  have hs := hz.2 "F" (by decide +kernel)
  rw [show (splitVars "G" "F").shortage "F" = 0 by decide +kernel] at hs
  have hE := hz.1.site "E" (by decide +kernel) (by decide +kernel)
  rw [split_obj, split_obj, hD, hF,
    show (splitVars "G" "F").site "D" = 1 by decide +kernel, show (splitVars "G" "F").site "F" = 1 by decide +kernel,
    show (splitVars "G" "F").site "E" = 0 by decide +kernel, show (splitVars "G" "F").site "G" = 1 by decide +kernel]
  rcases hE with hE | hE <;> linarith

/-- The hypotheses of `C173_cheapest_partial` hold of the network with `G` built. -/
example : splitPlan.RedSolved (RedParams.of .medium 2) none (splitVars "G" "F") (splitVars "G" "F") ∧
    newPrice splitPlan none (splitVars "G" "F") = 1060 ∧
    ProtectsAs splitPlan (splitVars "G" "F") (splitVars "G" "F") :=
  ⟨split_solved, by decide +kernel, fun _ _ => le_refl _⟩

/-- **C173, violation.** The second solve cannot move shortage from one DN to another: a plan with the
same, least, total shortage may cost less than half. -/
theorem C173_distribution_violation :
    ∃ (ops : List Op) (p : OptParams) (r : RedParams) (x y z : RVars),
      (Plan.mk (run {} ops) p).redErr none = none ∧
      (Plan.mk (run {} ops) p).RedSolved r none x y ∧
      (Plan.mk (run {} ops) p).RedFeasible r none z ∧
      ((Plan.mk (run {} ops) p).redDns.map z.shortage).sum =
        ((Plan.mk (run {} ops) p).redDns.map y.shortage).sum ∧
      2 * newPrice (Plan.mk (run {} ops) p) none z < newPrice (Plan.mk (run {} ops) p) none y :=
  ⟨splitDemo, redDemoParams, RedParams.of .medium 2, splitVars "G" "F", splitVars "G" "F", splitVars "E" "D",
    by decide +kernel, split_solved, split_feasible.1, by decide +kernel, by decide +kernel⟩

/-! ## A network that can be protected in full -/

def redDemoPlan : Plan := ⟨run {} redDemo, redDemoParams⟩

theorem redDemo_first : redDemoPlan.RedFirst (RedParams.of .medium 2) none redDemoVars := by
  refine ⟨redDemo_feasible, fun z hz => ?_⟩
  have : redDemoPlan.redTotal redDemoVars = 0 := by decide +kernel
  rw [this]
  exact RedSolve.sum_nonneg' _ _ fun d hd => (hz.shortage d hd).1

theorem redDemo_bound {z : RVars} (hz : redDemoPlan.RedFeasible (RedParams.of .medium 2) none z) :
    1 - z.site "E" ≤ z.shortage "D" := by
  have D : "D" ∈ redDemoPlan.redDns := by decide +kernel
  have b1 := hz.balance (.site "D") (by decide +kernel) (by decide +kernel) "D" D (by decide +kernel)
  have b2 := hz.balance (.site "E") (by decide +kernel) (by decide +kernel) "D" D (by decide +kernel)
  have b3 := hz.flowSite (.site "E") (by decide +kernel) (by decide +kernel) "D" D (by decide +kernel)
  rw [show redDemoPlan.redCap (RedParams.of .medium 2) "D" (.site "E") = 1 by decide +kernel,
    show redDemoPlan.redIn none (.site "E") = [(.site "Q", .site "E"), (.site "D", .site "E")] by
      decide +kernel] at b3
  rw [show redDemoPlan.redIn none (.site "E") = [(.site "Q", .site "E"), (.site "D", .site "E")] by
      decide +kernel,
    show redDemoPlan.redOut none (.site "E") = [(.site "E", .site "Q"), (.site "E", .site "D")] by
      decide +kernel] at b2
  rw [show redDemoPlan.redIn none (.site "D") = [(.site "P", .site "D"), (.site "E", .site "D")] by
      decide +kernel,
    show redDemoPlan.redOut none (.site "D") = [(.site "D", .site "P"), (.site "D", .site "E")] by
      decide +kernel] at b1
  have f1 := hz.flow "D" D (.site "P", .site "D") (by decide +kernel)
  have f2 := hz.flow "D" D (.site "D", .site "P") (by decide +kernel)
  have f3 := hz.flow "D" D (.site "D", .site "E") (by decide +kernel)
  have f4 := hz.flow "D" D (.site "E", .site "Q") (by decide +kernel)
  simp [RedParams.of] at b1 b2 b3 f1 f2 f3 f4
  linarith [f1.2, f2.1, f3.1, f4.1]

theorem redDemo_obj (z : RVars) : redDemoPlan.redObj none z =
    70 * z.site "D" + 70 * z.site "E" + 70 * z.site "A" := by
  unfold redObj
  rw [show (redDemoPlan.t.sites.keys.filter fun s => redDemoPlan.redSite none (.site s) &&
    !redDemoPlan.isExisting s) = ["D", "E", "A"] by decide +kernel]
  have h1 : ∀ s ∈ ["D", "E", "A"], redDemoPlan.siteCost s = 20 := by decide +kernel
  have h2 : ∀ s ∈ ["D", "E", "A"], redDemoPlan.sectorsAt s = [⟨s, 0, 0, .dn⟩] := by decide +kernel
  have h3 : ∀ s ∈ ["D", "E", "A"], redDemoPlan.sectorCost ⟨s, 0, 0, .dn⟩ = 50 := by decide +kernel
  simp only [List.map_cons, List.map_nil, List.sum_cons, List.sum_nil,
    h1 "D" (by decide), h1 "E" (by decide), h1 "A" (by decide),
    h2 "D" (by decide), h2 "E" (by decide), h2 "A" (by decide),
    h3 "D" (by decide), h3 "E" (by decide), h3 "A" (by decide)]
  ring

/-- The hypotheses of `C173_full` hold of the demo network: `E` is built, `A` is not. -/
example : redDemoPlan.RedSolved (RedParams.of .medium 2) none redDemoVars redDemoVars ∧
    redDemoPlan.RedFeasible (RedParams.of .medium 2) none redDemoVars ∧
    FullyProtects redDemoPlan redDemoVars ∧ newSites redDemoPlan none redDemoVars = ["D", "E"] ∧
    newPrice redDemoPlan none redDemoVars = 140 := by
  refine ⟨⟨redDemo_first, ⟨redDemo_feasible, fun _ _ => rfl⟩, fun z hz => ?_⟩, redDemo_feasible,
    fun _ _ => rfl, by decide +kernel, by decide +kernel⟩
  have h1 := redDemo_bound hz.1
  have hD : z.site "D" = 1 := by
    have := hz.1.decided "D" (by decide +kernel) (by decide +kernel)
    rw [if_pos (show redDemoPlan.isActive "D" = true by decide +kernel)] at this
    exact this
  have hs : z.shortage "D" = 0 := hz.2 "D" (by decide +kernel)
  have hA := hz.1.site "A" (by decide +kernel) (by decide +kernel)
  rw [redDemo_obj, redDemo_obj, hD,
    show redDemoVars.site "D" = 1 by decide +kernel, show redDemoVars.site "E" = 1 by decide +kernel,
    show redDemoVars.site "A" = 0 by decide +kernel]
  rcases hA with hA | hA <;> linarith

end Verif
