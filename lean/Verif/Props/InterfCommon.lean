import Verif.Model.InterfCommon
import Verif.Props.Common
import Verif.Props.InterfBest

/-! # C188: the interference phase with `maximize_common_bandwidth` -/

namespace Verif
open Topology Spec

/-! ## Lemmas -/

namespace Plan
variable {P : Plan} {I : Interf} {x : IVars}

theorem interf_common_iff (inv : P.t.Inv) (r : P.Ready) {conn : List Loc} {q : ℚ} (hz : P.InterfFeasible I x)
    (hconn : ∀ l ∈ conn, l ∈ P.demands) :
    P.CommonBandwidth conn q x.toVars ↔ 0 ≤ q ∧ AllGet P conn x.toVars q := by
  have harr : ∀ l ∈ conn, arriving P x.flow l = _ := fun l hl =>
    arriving_demand inv r hz.bounds.shortage hz.flowBalance (hconn l hl)
  constructor
  · intro h
    refine ⟨h.1, fun l hl => ?_⟩
    rw [harr l hl]
    exact h.2.2 l (mem_locations.2 (Or.inr (Or.inr (hconn l hl)))) hl
  · rintro ⟨h0, h⟩
    refine ⟨h0, fun l hl => ?_, fun l _ hl => ?_⟩
    · have h1 := h l hl
      rw [harr l hl] at h1
      have h2 := (hz.bounds.shortage l (hconn l hl)).1
      linarith
    · rw [← harr l hl]; exact h l hl

theorem common_le (inv : P.t.Inv) (r : P.Ready) {D : ℚ} (hD : Longest P.t D) {conn : List Loc} {b q : ℚ}
    (hconn : ∀ l ∈ conn, l ∈ P.demands) (best : P.InterfCommonBest I conn x b) {z : IVars}
    (hz : P.InterfFeasible I z) (h0 : 0 ≤ q) (hq : AllGet P conn z.toVars q) :
    totalDemand P * (P.demands.length : ℚ) * (q - b) ≤ bonuses P D x - bonuses P D z := by
  have h := best.best z q hz ((interf_common_iff inv r hz hconn).2 ⟨h0, hq⟩)
  unfold interfCommonObjective at h
  rw [weightedLinks_eq inv hD best.feas.active, weightedLinks_eq inv hD hz.active] at h
  have e : P.maxThroughput = totalDemand P := demands_sum inv.nd_demand
  rw [e] at h
  linarith

theorem bonus_bounds {D : ℚ} (hD : Longest P.t D) (h0 : ∀ l ∈ P.t.links.vals, 0 ≤ l.distance) :
    ∀ l ∈ P.t.links.vals, 0 ≤ bonus D l ∧ bonus D l ≤ 2 := by
  have hD0 : 0 ≤ D := by
    obtain ⟨⟨l, hl, rfl⟩, -⟩ := hD
    exact h0 l hl
  intro l hl
  unfold bonus
  split
  · norm_num
  · rename_i c
    have hpos : 0 < D := lt_of_le_of_ne hD0 (Ne.symm c)
    have a := h0 l hl
    have b := hD.2 l hl
    have c1 : 0 ≤ l.distance / D := div_nonneg a hD0
    have c2 : l.distance / D ≤ 1 := by rw [div_le_one hpos]; exact b
    constructor <;> linarith

theorem bonuses_le {D : ℚ} (hD : Longest P.t D) (h0 : ∀ l ∈ P.t.links.vals, 0 ≤ l.distance) :
    bonuses P D x ≤ 2 * ((chosen P x).length : ℚ) := by
  have := List.sum_le_card_nsmul ((chosen P x).map (bonus D)) 2 (by
    intro q hq
    obtain ⟨l, hl, rfl⟩ := List.mem_map.1 hq
    exact (bonus_bounds hD h0 l (List.mem_filter.1 hl).1).2)
  rw [List.length_map, nsmul_eq_mul] at this
  unfold bonuses
  linarith

theorem bonuses_nonneg {D : ℚ} (hD : Longest P.t D) (h0 : ∀ l ∈ P.t.links.vals, 0 ≤ l.distance) :
    0 ≤ bonuses P D x := by
  apply List.sum_nonneg
  intro q hq
  obtain ⟨l, hl, rfl⟩ := List.mem_map.1 hq
  exact (bonus_bounds hD h0 l (List.mem_filter.1 hl).1).1

theorem demand_le_total (inv : P.t.Inv) (feas : P.InterfFeasible I x) {l : Loc} (hl : l ∈ P.demands) :
    P.demandAt l ≤ totalDemand P := by
  rw [← demands_sum (P := P) inv.nd_demand]
  apply List.single_le_sum
  · intro q hq
    obtain ⟨l', hl', rfl⟩ := List.mem_map.1 hq
    have := feas.bounds.shortage l' hl'
    linarith
  · exact List.mem_map.2 ⟨l, hl, rfl⟩

end Plan

/-! ## Theorems -/

/-- **C188, reported bandwidth.** If the interference phase ends with a common bandwidth, it is positive and
it is what the worst served connectable demand site receives. -/
theorem C188_common_bandwidth (ops : List Op) (p : OptParams) (I : Interf) (conn : List Loc) (x : IVars) (b : ℚ)
    (ok : (Plan.mk (run {} ops) p).setupErr = none) (hconn : ∀ l ∈ conn, l ∈ (Plan.mk (run {} ops) p).demands)
    (solved : (Plan.mk (run {} ops) p).InterfSolved I conn x (some b)) :
    let P : Plan := ⟨run {} ops, p⟩
    0 < b ∧ (∃ l ∈ conn, arriving P x.flow l = b) ∧ AllGet P conn x.toVars b := by
  intro P
  have inv : Topology.Inv P.t := Inv.empty.run ops
  cases solved with
  | kept ne best hb =>
    have hx := (Plan.interf_common_iff (P := P) inv (Plan.ready ok) best.feas hconn).1 best.common
    have hpos : 0 < b := lt_of_le_of_ne hx.1 (Ne.symm hb)
    refine ⟨hpos, ?_, hx.2⟩
    obtain ⟨l, hl, hmin⟩ := exists_least (arriving P x.flow) conn ne
    have h1 := hx.2 l hl
    have h2 := best.best x (arriving P x.flow l) best.feas
      ((Plan.interf_common_iff (P := P) inv (Plan.ready ok) best.feas hconn).2 ⟨le_trans hx.1 h1, hmin⟩)
    refine ⟨l, hl, le_antisymm ?_ h1⟩
    have hd : b ≤ P.demandAt l := best.common.2.1 l hl
    have ht := Plan.demand_le_total (P := P) inv best.feas (hconn l hl)
    have hn : 0 < (P.demands.length : ℚ) := by
      have := List.length_pos_of_mem (hconn l hl)
      exact_mod_cast this
    have e : P.maxThroughput = totalDemand P := Plan.demands_sum inv.nd_demand
    unfold Plan.interfCommonObjective at h2
    change P.maxThroughput * (-b * (P.demands.length : ℚ)) - _ ≤
      P.maxThroughput * (-arriving P x.flow l * (P.demands.length : ℚ)) - _ at h2
    rw [e] at h2
    have hc : 0 < totalDemand P * (P.demands.length : ℚ) := mul_pos (by linarith) hn
    by_contra hlt
    rw [not_le] at hlt
    have := mul_lt_mul_of_pos_left hlt hc
    linarith

/-- **C188, preference.** Of the networks that bring every connectable demand site at least the common
bandwidth, none has more or shorter links than the one found, as measured by the bonus. -/
theorem C188_shorter_links (ops : List Op) (p : OptParams) (I : Interf) (conn : List Loc) (x : IVars) (b D : ℚ)
    (ok : (Plan.mk (run {} ops) p).setupErr = none) (hconn : ∀ l ∈ conn, l ∈ (Plan.mk (run {} ops) p).demands)
    (hD : Longest (run {} ops) D) (solved : (Plan.mk (run {} ops) p).InterfSolved I conn x (some b)) :
    let P : Plan := ⟨run {} ops, p⟩
    ∀ z, P.InterfFeasible I z → AllGet P conn z.toVars b → bonuses P D z ≤ bonuses P D x := by
  intro P z hz h
  have inv : Topology.Inv P.t := Inv.empty.run ops
  cases solved with
  | kept ne best hb =>
    have := Plan.common_le (P := P) inv (Plan.ready ok) hD hconn best hz best.common.1 h
    rw [sub_self, mul_zero] at this
    linarith

/-- **C188, partial.** If another network with the same sites brings every connectable demand site at least `q`, then
`q` exceeds the common bandwidth (0 if there is none) by at most twice the number of radio links over the product
of the total demand and the number of demand sites. Missing: that no network brings all of them more; this is
false, see `C188_no_bandwidth_violation`. -/
theorem C188_fairest_partial (ops : List Op) (p : OptParams) (I : Interf) (conn : List Loc) (x : IVars)
    (b : Option ℚ) (D : ℚ)
    (ok : (Plan.mk (run {} ops) p).setupErr = none) (hconn : ∀ l ∈ conn, l ∈ (Plan.mk (run {} ops) p).demands)
    (ne : conn ≠ []) (hD : Longest (run {} ops) D) (h0 : ∀ l ∈ (run {} ops).links.vals, 0 ≤ l.distance)
    (solved : (Plan.mk (run {} ops) p).InterfSolved I conn x b) :
    let P : Plan := ⟨run {} ops, p⟩
    ∀ z q, P.InterfFeasible I z → AllGet P conn z.toVars q →
      totalDemand P * (P.demands.length : ℚ) * (q - b.getD 0) ≤
        2 * (((run {} ops).links.vals.filter (fun l => Radio l)).length : ℚ) := by
  intro P z q hz hq
  have inv : Topology.Inv P.t := Inv.empty.run ops
  have key : ∀ {y : IVars} {c : ℚ}, P.InterfCommonBest I conn y c →
      totalDemand P * (P.demands.length : ℚ) * (q - c) ≤
        2 * (((run {} ops).links.vals.filter (fun l => Radio l)).length : ℚ) := by
    intro y c best
    have hlen : ((chosen P y).length : ℚ) ≤ (((run {} ops).links.vals.filter (fun l => Radio l)).length : ℚ) := by
      have : chosen P y = ((run {} ops).links.vals.filter (fun l => Radio l)).filter
          (fun l => y.active (arcOf l) = 1) := by
        unfold chosen
        rw [List.filter_filter]
        apply List.filter_congr
        intro l _
        by_cases h1 : Radio l <;> by_cases h2 : y.active (arcOf l) = 1 <;> simp [h1, h2]
      rw [this]
      exact_mod_cast List.length_filter_le _ _
    have hn : 0 ≤ totalDemand P * (P.demands.length : ℚ) :=
      mul_nonneg (Plan.demand_nonneg (P := P) inv hz) (Nat.cast_nonneg _)
    by_cases hq0 : 0 ≤ q
    · have h1 := Plan.common_le (P := P) inv (Plan.ready ok) hD hconn best hz hq0 hq
      have h2 := Plan.bonuses_le (P := P) (x := y) hD h0
      have h3 := Plan.bonuses_nonneg (P := P) (x := z) hD h0
      linarith
    · have h1 := best.common.1
      have h2 : totalDemand P * (P.demands.length : ℚ) * (q - c) ≤ 0 :=
        mul_nonpos_of_nonneg_of_nonpos hn (by linarith)
      have h3 : (0 : ℚ) ≤ (((run {} ops).links.vals.filter (fun l => Radio l)).length : ℚ) := Nat.cast_nonneg _
      linarith
  cases solved with
  | kept _ best _ => exact key best
  | again _ best _ => exact key best
  | nothing h => exact absurd h ne

/-- **C188, without a common bandwidth.** If some demand site is connectable and the phase ends without
a common bandwidth, then of the networks that serve at least as much in total none has more or shorter links than
the one found, as measured by the bonus. -/
theorem C188_total_instead (ops : List Op) (p : OptParams) (I : Interf) (conn : List Loc) (x : IVars) (D : ℚ)
    (ok : (Plan.mk (run {} ops) p).setupErr = none) (ne : conn ≠ []) (hD : Longest (run {} ops) D)
    (solved : (Plan.mk (run {} ops) p).InterfSolved I conn x none) :
    let P : Plan := ⟨run {} ops, p⟩
    ∀ z, P.InterfFeasible I z → received P x ≤ received P z → bonuses P D z ≤ bonuses P D x := by
  cases solved with
  | again _ _ best => exact C183_shorter_links ops p I x D ok hD best
  | nothing h => exact absurd h ne

/-! ## Example and violation -/

/-- The common bandwidth of the demo network is what its near POP can deliver. -/
theorem nearFar_common : nearFarPlan.InterfSolved nearFarIn [.demand "q" 0] (fromPop "P" (1/10)) (some (1/10)) := by
  have inv : Topology.Inv nearFarPlan.t := Inv.empty.run nearFar
  have hc : ∀ l ∈ [Loc.demand "q" 0], l ∈ nearFarPlan.demands := by decide +kernel
  have hr : nearFarPlan.Ready := Plan.ready (by decide +kernel)
  refine .kept (by simp) ⟨nearFar_near, (Plan.interf_common_iff inv hr nearFar_near hc).2
    ⟨by norm_num, by unfold AllGet; decide +kernel⟩, fun z c hz hcz => ?_⟩ (by norm_num)
  obtain ⟨h1, h2, h3, h4⟩ := nearFar_cases z hz
  have h5 := hcz.2.2 (.demand "q" 0) (by decide +kernel) (by decide +kernel)
  have h6 := hcz.2.1 (.demand "q" 0) (by decide +kernel)
  rw [show nearFarPlan.demandAt (.demand "q" 0) = 1/2 by decide +kernel] at h5 h6
  rw [show nearFarPlan.interfCommonObjective (1/10) (fromPop "P" (1/10)) = -39/20 by decide +kernel]
  unfold Plan.interfObjective at h1
  unfold Plan.interfCommonObjective
  rw [show nearFarPlan.maxThroughput = 1/2 by decide +kernel,
    show nearFarPlan.demands = [.demand "q" 0] by decide +kernel] at h1 ⊢
  simp only [List.map_cons, List.map_nil, List.sum_cons, List.sum_nil, List.length_cons, List.length_nil] at h1 ⊢
  have a := hz.active (.site "P", .site "C") (by decide +kernel) (by decide +kernel)
  have b := hz.active (.site "Q", .site "C") (by decide +kernel) (by decide +kernel)
  push_cast
  rcases a with a | a <;> rcases b with b | b <;> rw [a, b] at h1 h2 h3 <;> linarith

/-- The hypotheses of the theorems about a common bandwidth hold of the example. -/
example : nearFarPlan.setupErr = none ∧ (∀ l ∈ [Loc.demand "q" 0], l ∈ nearFarPlan.demands) ∧
    Longest (run {} nearFar) 100 ∧ (∀ l ∈ (run {} nearFar).links.vals, 0 ≤ l.distance) ∧
    nearFarPlan.InterfSolved nearFarIn [.demand "q" 0] (fromPop "P" (1/10)) (some (1/10)) ∧
    nearFarPlan.InterfFeasible nearFarIn (fromPop "Q" (1/2)) ∧
    AllGet nearFarPlan [.demand "q" 0] (fromPop "Q" (1/2)).toVars (1/2) :=
  ⟨by decide +kernel, by decide +kernel, by unfold Longest; decide +kernel, by decide +kernel, nearFar_common,
    nearFar_far, by unfold AllGet; decide +kernel⟩

/-- A CN `C` that hears a far POP `Q`, and a near DN `P` that no POP reaches. -/
def deadEnd : List Op := [
  .addSite { id := "P", siteType := .dn, status := .proposed } false,
  .addSite { id := "Q", siteType := .pop, status := .proposed, lat := 1 } false,
  .addSite { id := "C", siteType := .cn, status := .proposed, lat := 2 } false,
  .addSector { site := "P", node := 0, pos := 0 },
  .addSector { site := "Q", node := 0, pos := 0 },
  .addSector { site := "C", node := 0, pos := 0, typ := .cn },
  .addLink { tx := "P", rx := "C", capacity := 1, distance := 10,
             sectors := some (⟨"P", 0, 0, .dn⟩, ⟨"C", 0, 0, .cn⟩) },
  .addLink { tx := "Q", rx := "C", capacity := 1, distance := 100,
             sectors := some (⟨"Q", 0, 0, .dn⟩, ⟨"C", 0, 0, .cn⟩) },
  .addDemandSite { id := "q", connected := ["C"], demand := some (1/2) }]

def deadEndPlan : Plan := ⟨run {} deadEnd, nearFarParams⟩

theorem deadEnd_near : deadEndPlan.InterfFeasible nearFarIn (fromPop "P" 0) :=
  Plan.ICheck.sound (by decide +kernel)

theorem deadEnd_far : deadEndPlan.InterfFeasible nearFarIn (fromPop "Q" (1/2)) :=
  Plan.ICheck.sound (by decide +kernel)

theorem deadEnd_cases (z : IVars) (hz : deadEndPlan.InterfFeasible nearFarIn z) :
    deadEndPlan.weightedLinks z =
      19/10 * z.active (.site "P", .site "C") + z.active (.site "Q", .site "C") ∧
    1/2 - z.shortage (.demand "q" 0) ≤ z.active (.site "Q", .site "C") ∧
    z.active (.site "P", .site "C") + z.active (.site "Q", .site "C") ≤ 1 ∧
    0 ≤ z.shortage (.demand "q" 0) ∧ z.shortage (.demand "q" 0) ≤ 1/2 := by
  have hs := hz.bounds.shortage (.demand "q" 0) (by decide +kernel)
  rw [show deadEndPlan.demandAt (.demand "q" 0) = 1/2 by decide +kernel] at hs
  refine ⟨?_, ?_, ?_, hs.1, hs.2⟩
  · unfold Plan.weightedLinks
    rw [show deadEndPlan.arcs.filter deadEndPlan.hasActive = [(.site "P", .site "C"), (.site "Q", .site "C")] by
        decide +kernel]
    simp only [List.map_cons, List.map_nil, List.sum_cons, List.sum_nil,
      show deadEndPlan.linkWeight (.site "P", .site "C") = 19/10 by decide +kernel,
      show deadEndPlan.linkWeight (.site "Q", .site "C") = 1 by decide +kernel]
    ring
  · have b1 := hz.flowBalance (.demand "q" 0) (by decide +kernel) (by decide +kernel)
    have b2 := hz.flowBalance (.site "C") (by decide +kernel) (by decide +kernel)
    have b3 := hz.flowBalance (.site "P") (by decide +kernel) (by decide +kernel)
    have f2 := hz.flowLink (.site "Q", .site "C") (by decide +kernel) (by decide +kernel)
    unfold Plan.inFlow Plan.outFlow Plan.balanceRhs at b1 b2 b3
    rw [show deadEndPlan.incoming (.demand "q" 0) = [(.site "C", .demand "q" 0)] by decide +kernel,
      show deadEndPlan.outgoing (.demand "q" 0) = [] by decide +kernel] at b1
    rw [show deadEndPlan.incoming (.site "C") = [(.site "P", .site "C"), (.site "Q", .site "C")] by decide +kernel,
      show deadEndPlan.outgoing (.site "C") = [(.site "C", .demand "q" 0)] by decide +kernel] at b2
    rw [show deadEndPlan.incoming (.site "P") = [] by decide +kernel,
      show deadEndPlan.outgoing (.site "P") = [(.site "P", .site "C")] by decide +kernel] at b3
    rw [show deadEndPlan.cap (.site "Q", .site "C") = 1 by decide +kernel] at f2
    dsimp only at b1
    rw [show deadEndPlan.demandAt (.demand "q" 0) = 1/2 by decide +kernel] at b1
    simp at b1 b2 b3
    linarith
  · have := hz.cnLinks "C" (by decide +kernel) (by decide +kernel)
    rw [show (deadEndPlan.incoming (.site "C")).filter deadEndPlan.hasActive =
      [(.site "P", .site "C"), (.site "Q", .site "C")] by decide +kernel] at this
    simpa using this

theorem deadEnd_common (z : IVars) (c : ℚ) (hz : deadEndPlan.InterfFeasible nearFarIn z)
    (hc : deadEndPlan.CommonBandwidth [.demand "q" 0] c z.toVars) :
    deadEndPlan.interfCommonObjective 0 (fromPop "P" 0) ≤ deadEndPlan.interfCommonObjective c z ∧
    (deadEndPlan.interfCommonObjective c z ≤ deadEndPlan.interfCommonObjective 0 (fromPop "P" 0) → c = 0) := by
  obtain ⟨h1, h2, h3, h4, h4'⟩ := deadEnd_cases z hz
  have h5 := hc.2.2 (.demand "q" 0) (by decide +kernel) (by decide +kernel)
  have h0 := hc.1
  rw [show deadEndPlan.demandAt (.demand "q" 0) = 1/2 by decide +kernel] at h5
  rw [show deadEndPlan.interfCommonObjective 0 (fromPop "P" 0) = -19/10 by decide +kernel]
  unfold Plan.interfCommonObjective
  rw [h1, show deadEndPlan.maxThroughput = 1/2 by decide +kernel,
    show deadEndPlan.demands = [.demand "q" 0] by decide +kernel]
  simp only [List.length_cons, List.length_nil]
  push_cast
  have a := hz.active (.site "P", .site "C") (by decide +kernel) (by decide +kernel)
  have b := hz.active (.site "Q", .site "C") (by decide +kernel) (by decide +kernel)
  rcases a with a | a <;> rcases b with b | b <;> rw [b] at h2 <;> rw [a, b] at h3 ⊢ <;>
    refine ⟨by linarith, fun h => ?_⟩ <;> linarith

theorem deadEnd_objective (z : IVars) (hz : deadEndPlan.InterfFeasible nearFarIn z) :
    deadEndPlan.interfObjective (fromPop "P" 0) ≤ deadEndPlan.interfObjective z ∧
    (deadEndPlan.interfObjective z ≤ deadEndPlan.interfObjective (fromPop "P" 0) →
      z.shortage (.demand "q" 0) = 1/2) := by
  obtain ⟨h1, h2, h3, h4, h4'⟩ := deadEnd_cases z hz
  rw [show deadEndPlan.interfObjective (fromPop "P" 0) = -33/20 by decide +kernel]
  unfold Plan.interfObjective
  rw [h1, show deadEndPlan.maxThroughput = 1/2 by decide +kernel,
    show deadEndPlan.demands = [.demand "q" 0] by decide +kernel]
  simp only [List.map_cons, List.map_nil, List.sum_cons, List.sum_nil]
  have a := hz.active (.site "P", .site "C") (by decide +kernel) (by decide +kernel)
  have b := hz.active (.site "Q", .site "C") (by decide +kernel) (by decide +kernel)
  rcases a with a | a <;> rcases b with b | b <;> rw [b] at h2 <;> rw [a, b] at h3 ⊢ <;>
    refine ⟨by linarith, fun h => ?_⟩ <;> linarith

theorem deadEnd_solved : deadEndPlan.InterfSolved nearFarIn [.demand "q" 0] (fromPop "P" 0) none := by
  have inv : Topology.Inv deadEndPlan.t := Inv.empty.run deadEnd
  refine .again (y := fromPop "P" 0) (by simp) ⟨deadEnd_near,
    (Plan.interf_common_iff inv (Plan.ready (by decide +kernel)) deadEnd_near (by decide +kernel)).2
      ⟨le_refl 0, by unfold AllGet; decide +kernel⟩, fun z c hz hc => (deadEnd_common z c hz hc).1⟩
    ⟨deadEnd_near, fun z hz => (deadEnd_objective z hz).1⟩

/-- The hypotheses of `C188_total_instead` hold of the example, in which the network could serve all demand. -/
example : deadEndPlan.setupErr = none ∧ [Loc.demand "q" 0] ≠ [] ∧ Longest (run {} deadEnd) 100 ∧
    deadEndPlan.InterfSolved nearFarIn [.demand "q" 0] (fromPop "P" 0) none ∧
    bonuses deadEndPlan 100 (fromPop "P" 0) = 19/10 :=
  ⟨by decide +kernel, by simp, by unfold Longest; decide +kernel, deadEnd_solved, by decide +kernel⟩

/-- **C188, violated.** All of the demand could be served, and the interference phase always ends without
a common bandwidth and with a network that serves nothing, for the sake of a shorter link from a DN that no POP
reaches. -/
theorem C188_no_bandwidth_violation : ∃ (ops : List Op) (p : OptParams) (I : Interf) (conn : List Loc) (z : IVars),
    let P : Plan := ⟨run {} ops, p⟩
    P.setupErr = none ∧ conn = P.demands ∧ P.InterfFeasible I z ∧ (∀ l ∈ conn, arriving P z.flow l = asked P l) ∧
    received P z = totalDemand P ∧ 0 < totalDemand P ∧
    (∃ x b, P.InterfSolved I conn x b) ∧ ∀ x b, P.InterfSolved I conn x b → b = none ∧ received P x = 0 := by
  refine ⟨deadEnd, nearFarParams, nearFarIn, [.demand "q" 0], fromPop "Q" (1/2), by decide +kernel,
    by decide +kernel, deadEnd_far, by decide +kernel, by decide +kernel, by decide +kernel, ⟨_, _, deadEnd_solved⟩,
    fun x b h => ?_⟩
  have inv : Topology.Inv deadEndPlan.t := Inv.empty.run deadEnd
  have hc0 : deadEndPlan.CommonBandwidth [.demand "q" 0] 0 (fromPop "P" 0).toVars :=
    (Plan.interf_common_iff inv (Plan.ready (by decide +kernel)) deadEnd_near (by decide +kernel)).2
      ⟨le_refl 0, by unfold AllGet; decide +kernel⟩
  cases h with
  | kept _ best hb =>
    have h1 := best.best _ 0 deadEnd_near hc0
    exact absurd ((deadEnd_common x _ best.feas best.common).2 h1) hb
  | again _ _ best =>
    refine ⟨rfl, ?_⟩
    have h1 := (deadEnd_objective x best.feas).2 (best.best _ deadEnd_near)
    have e := Plan.received_eq (P := deadEndPlan) inv (Plan.ready (by decide +kernel)) best.feas
    change received deadEndPlan x = 0
    rw [e, show deadEndPlan.demands = [.demand "q" 0] by decide +kernel,
      show totalDemand deadEndPlan = 1/2 by decide +kernel]
    simp [h1]
  | nothing h => simp at h

end Verif
