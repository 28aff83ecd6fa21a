import Verif.Model.InterfBest
import Verif.Props.Interf
import Verif.Props.Phases
import Verif.Lemmas.Rf
import Mathlib.Tactic.Linarith
import Mathlib.Tactic.FieldSimp

/-! # C183: what the interference phase serves, and which links it prefers -/

namespace Verif
open Topology Spec

/-! ## Specification -/

/-- `D` is the length of the longest link. -/
def Spec.Longest (t : Topology) (D : ℚ) : Prop :=
  (∃ l ∈ t.links.vals, l.distance = D) ∧ ∀ l ∈ t.links.vals, l.distance ≤ D

/-- The bonus for a link: 1 for the longest, near 2 for a very short one. -/
def Spec.bonus (D : ℚ) (l : Link) : ℚ := if D = 0 then 1 else 2 - l.distance / D

/-- The bonus of all the chosen links. -/
def Spec.bonuses (P : Plan) (D : ℚ) (x : IVars) : ℚ := ((chosen P x).map (bonus D)).sum

/-- What the demand sites together receive. -/
def Spec.received (P : Plan) (x : IVars) : ℚ := (P.demands.map (arriving P x.flow)).sum

/-! ## Lemmas -/

namespace Plan
variable {P : Plan} {I : Interf} {x : IVars}

theorem bin_sum_weight {α : Type} (f w : α → ℚ) : ∀ L : List α, (∀ a ∈ L, f a = 0 ∨ f a = 1) →
    (L.map fun a => w a * f a).sum = ((L.filter (fun a => f a = 1)).map w).sum
  | [], _ => by simp
  | a :: L, h => by
    have ih := bin_sum_weight f w L (fun l hl => h l (List.mem_cons_of_mem _ hl))
    rcases h a (by simp) with e | e
    · have : ¬ f a = 1 := by rw [e]; norm_num
      rw [List.map_cons, List.sum_cons, ih, List.filter_cons_of_neg (by simpa using this), e]
      ring
    · rw [List.map_cons, List.sum_cons, ih, List.filter_cons_of_pos (by simpa using e), e,
        List.map_cons, List.sum_cons]
      ring

theorem weightedLinks_eq (inv : P.t.Inv) {D : ℚ} (hD : Longest P.t D)
    (h01 : ∀ e ∈ P.arcs, P.hasActive e = true → x.active e = 0 ∨ x.active e = 1) :
    P.weightedLinks x = bonuses P D x := by
  have hmax : P.maxDistance = D := by
    unfold maxDistance
    have : pyMax (P.t.links.vals.map (·.distance)) = some D := by
      rw [pyMax_iff]
      obtain ⟨⟨l, hl, rfl⟩, h⟩ := hD
      exact ⟨List.mem_map.2 ⟨l, hl, rfl⟩, fun b hb => by
        obtain ⟨l', h', rfl⟩ := List.mem_map.1 hb
        exact h l' h'⟩
    rw [this]
    rfl
  have hp := arcs_perm inv (P := P) (fun _ => true)
  simp only [Bool.and_true, and_true] at hp
  unfold weightedLinks bonuses
  rw [(hp.map _).sum_eq, List.map_map]
  rw [show ((fun e => P.linkWeight e * x.active e) ∘ arcOf) =
    (fun l => P.linkWeight (arcOf l) * x.active (arcOf l)) from rfl]
  rw [bin_sum_weight (fun l => x.active (arcOf l)) (fun l => P.linkWeight (arcOf l))]
  · unfold chosen
    rw [List.filter_filter]
    congr 1
    rw [show (P.t.links.vals.filter fun l => decide (x.active (arcOf l) = 1) && decide (Radio l)) =
      P.t.links.vals.filter fun l => decide (Radio l ∧ x.active (arcOf l) = 1) from by
        apply List.filter_congr
        intro l _
        by_cases h1 : Radio l <;> by_cases h2 : x.active (arcOf l) = 1 <;> simp [h1, h2]]
    apply List.map_congr_left
    intro l hl
    obtain ⟨h1, h2⟩ := List.mem_filter.1 hl
    have h2 := (of_decide_eq_true h2).1
    unfold linkWeight bonus
    rw [linkOf_arcOf inv h1, hmax]
    dsimp only
    have hs : l.sectors.isNone = false := by
      have := h2.2.2
      cases h : l.sectors <;> simp_all
    rw [hs, Bool.false_or]
    by_cases c : D = 0
    · simp [c]
    · simp only [c, decide_false, if_false, Bool.false_eq_true]
      field_simp
      ring
  · intro l hl
    obtain ⟨h1, h2⟩ := List.mem_filter.1 hl
    exact h01 _ (arcOf_mem h1) ((hasActive_arcOf inv h1).2 (of_decide_eq_true h2))

theorem sum_map_sub' {α : Type} (f g h : α → ℚ) : ∀ L : List α, (∀ a ∈ L, f a = g a - h a) →
    (L.map f).sum = (L.map g).sum - (L.map h).sum
  | [], _ => by simp
  | a :: L, e => by
    have ih := sum_map_sub' f g h L (fun l hl => e l (List.mem_cons_of_mem _ hl))
    simp only [List.map_cons, List.sum_cons]
    rw [ih, e a (by simp)]
    ring

theorem received_eq (inv : P.t.Inv) (r : P.Ready) (feas : P.InterfFeasible I x) :
    received P x = totalDemand P - (P.demands.map x.shortage).sum := by
  unfold received
  rw [← demands_sum (P := P) inv.nd_demand]
  apply sum_map_sub'
  intro l hl
  exact arriving_demand inv r feas.bounds.shortage feas.flowBalance hl

theorem demand_nonneg (inv : P.t.Inv) (feas : P.InterfFeasible I x) : 0 ≤ totalDemand P := by
  rw [← demands_sum (P := P) inv.nd_demand]
  apply List.sum_nonneg
  intro q hq
  obtain ⟨l, hl, rfl⟩ := List.mem_map.1 hq
  have := feas.bounds.shortage l hl
  linarith

theorem best_le (inv : P.t.Inv) (r : P.Ready) {D : ℚ} (hD : Longest P.t D) (best : P.InterfBest I x)
    {z : IVars} (hz : P.InterfFeasible I z) :
    totalDemand P * (received P z - received P x) ≤ bonuses P D x - bonuses P D z := by
  have h := best.best z hz
  unfold interfObjective at h
  rw [weightedLinks_eq inv hD best.feas.active, weightedLinks_eq inv hD hz.active] at h
  rw [received_eq inv r hz, received_eq inv r best.feas]
  have e : P.maxThroughput = totalDemand P := demands_sum inv.nd_demand
  rw [e] at h
  linarith

end Plan

/-! ## Theorems -/

/-- **C183, preference.** Of the networks that serve at least as much, none has more or shorter links than
the one found in the interference phase, as measured by the bonus. -/
theorem C183_shorter_links (ops : List Op) (p : OptParams) (I : Interf) (x : IVars) (D : ℚ)
    (ok : (Plan.mk (run {} ops) p).setupErr = none) (hD : Longest (run {} ops) D)
    (best : (Plan.mk (run {} ops) p).InterfBest I x) :
    let P : Plan := ⟨run {} ops, p⟩
    ∀ z, P.InterfFeasible I z → received P x ≤ received P z → bonuses P D z ≤ bonuses P D x := by
  intro P z hz h
  have inv : Topology.Inv P.t := Inv.empty.run ops
  have h1 := Plan.best_le (P := P) inv (Plan.ready ok) hD best hz
  have h2 := mul_nonneg (Plan.demand_nonneg (P := P) inv best.feas) (sub_nonneg.2 h)
  linarith

/-- **C183, partial.** What another network with the same sites could deliver more, times the total demand, is
at most twice the number of chosen links. Missing: that nothing more could be delivered; this is false, see
`C183_less_served_violation`. -/
theorem C183_most_served_partial (ops : List Op) (p : OptParams) (I : Interf) (x : IVars) (D : ℚ)
    (ok : (Plan.mk (run {} ops) p).setupErr = none) (hD : Longest (run {} ops) D)
    (h0 : ∀ l ∈ (run {} ops).links.vals, 0 ≤ l.distance)
    (best : (Plan.mk (run {} ops) p).InterfBest I x) :
    let P : Plan := ⟨run {} ops, p⟩
    ∀ z, P.InterfFeasible I z → totalDemand P * (received P z - received P x) ≤ 2 * ((chosen P x).length : ℚ) := by
  intro P z hz
  have inv : Topology.Inv P.t := Inv.empty.run ops
  have h1 := Plan.best_le (P := P) inv (Plan.ready ok) hD best hz
  have hD0 : 0 ≤ D := by
    obtain ⟨⟨l, hl, rfl⟩, -⟩ := hD
    exact h0 l hl
  have hb : ∀ l ∈ P.t.links.vals, 0 ≤ bonus D l ∧ bonus D l ≤ 2 := by
    intro l hl
    unfold bonus
    split
    · norm_num
    · rename_i c
      have hpos : 0 < D := lt_of_le_of_ne hD0 (Ne.symm c)
      have a := h0 l hl
      have b := hD.2 l hl
      have c1 : 0 ≤ l.distance / D := div_nonneg a hD0
      have c2 : l.distance / D ≤ 1 := by rw [div_le_one hpos]; exact b
      constructor <;> linarith
  have hx : bonuses P D x ≤ 2 * ((chosen P x).length : ℚ) := by
    have := List.sum_le_card_nsmul ((chosen P x).map (bonus D)) 2 (by
      intro q hq
      obtain ⟨l, hl, rfl⟩ := List.mem_map.1 hq
      exact (hb l (List.mem_filter.1 hl).1).2)
    rw [List.length_map, nsmul_eq_mul] at this
    unfold bonuses
    linarith
  have hz0 : 0 ≤ bonuses P D z := by
    apply List.sum_nonneg
    intro q hq
    obtain ⟨l, hl, rfl⟩ := List.mem_map.1 hq
    exact (hb l (List.mem_filter.1 hl).1).1
  linarith

/-! ## Example and violation -/

/-- A CN `C` that hears a near POP `P` over a weak link and a far POP `Q` over a strong one. -/
def nearFar : List Op := [
  .addSite { id := "P", siteType := .pop, status := .proposed } false,
  .addSite { id := "Q", siteType := .pop, status := .proposed, lat := 1 } false,
  .addSite { id := "C", siteType := .cn, status := .proposed, lat := 2 } false,
  .addSector { site := "P", node := 0, pos := 0 },
  .addSector { site := "Q", node := 0, pos := 0 },
  .addSector { site := "C", node := 0, pos := 0, typ := .cn },
  .addLink { tx := "P", rx := "C", capacity := 1/10, distance := 10,
             sectors := some (⟨"P", 0, 0, .dn⟩, ⟨"C", 0, 0, .cn⟩) },
  .addLink { tx := "Q", rx := "C", capacity := 1, distance := 100,
             sectors := some (⟨"Q", 0, 0, .dn⟩, ⟨"C", 0, 0, .cn⟩) },
  .addDemandSite { id := "q", connected := ["C"], demand := some (1/2) }]

def nearFarIn : Interf where
  rsl := fun _ => 1
  noise := fun _ => 1/8
  mcs := fun _ => [(1/4, 1)]

def nearFarParams : OptParams where
  popCapacity := 10
  oversubscription := 1
  costs := ⟨7, 20, 3⟩

def nearFarPlan : Plan := ⟨run {} nearFar, nearFarParams⟩

/-- Only the link from `a` carries traffic, `f`. -/
def fromPop (a : SiteId) (f : ℚ) : IVars where
  site _ := 1
  sector _ _ := 1
  flow e := if e = (.source, .site a) ∨ e = (.site a, .site "C") ∨ e = (.site "C", .demand "q" 0) then f else 0
  tdm e _ := if e = (.site a, .site "C") then 1 else 0
  odd _ := 0
  shortage _ := 1/2 - f
  active e := if e = (.site a, .site "C") then 1 else 0
  deploy _ _ := 0
  cls _ _ i := if i = 0 then 1 else 0
  pol _ _ _ := 0

theorem nearFar_near : nearFarPlan.InterfFeasible nearFarIn (fromPop "P" (1/10)) :=
  Plan.ICheck.sound (by decide +kernel)

theorem nearFar_far : nearFarPlan.InterfFeasible nearFarIn (fromPop "Q" (1/2)) :=
  Plan.ICheck.sound (by decide +kernel)

/-- Either nothing is received, or only from one of the two. -/
theorem nearFar_cases (z : IVars) (hz : nearFarPlan.InterfFeasible nearFarIn z) :
    nearFarPlan.interfObjective z = 1/2 * z.shortage (.demand "q" 0) -
      (19/10 * z.active (.site "P", .site "C") + z.active (.site "Q", .site "C")) ∧
    1/2 - z.shortage (.demand "q" 0) ≤
      1/10 * z.active (.site "P", .site "C") + z.active (.site "Q", .site "C") ∧
    z.active (.site "P", .site "C") + z.active (.site "Q", .site "C") ≤ 1 ∧
    0 ≤ z.shortage (.demand "q" 0) := by
  refine ⟨?_, ?_, ?_, (hz.bounds.shortage _ (by decide +kernel)).1⟩
  · unfold Plan.interfObjective Plan.weightedLinks
    rw [show nearFarPlan.maxThroughput = 1/2 by decide +kernel,
      show nearFarPlan.demands = [.demand "q" 0] by decide +kernel,
      show nearFarPlan.arcs.filter nearFarPlan.hasActive = [(.site "P", .site "C"), (.site "Q", .site "C")] by
        decide +kernel]
    simp only [List.map_cons, List.map_nil, List.sum_cons, List.sum_nil,
      show nearFarPlan.linkWeight (.site "P", .site "C") = 19/10 by decide +kernel,
      show nearFarPlan.linkWeight (.site "Q", .site "C") = 1 by decide +kernel]
    ring
  · have b1 := hz.flowBalance (.demand "q" 0) (by decide +kernel) (by decide +kernel)
    have b2 := hz.flowBalance (.site "C") (by decide +kernel) (by decide +kernel)
    have f1 := hz.flowLink (.site "P", .site "C") (by decide +kernel) (by decide +kernel)
    have f2 := hz.flowLink (.site "Q", .site "C") (by decide +kernel) (by decide +kernel)
    unfold Plan.inFlow Plan.outFlow Plan.balanceRhs at b1 b2
    rw [show nearFarPlan.incoming (.demand "q" 0) = [(.site "C", .demand "q" 0)] by decide +kernel,
      show nearFarPlan.outgoing (.demand "q" 0) = [] by decide +kernel] at b1
    rw [show nearFarPlan.incoming (.site "C") = [(.site "P", .site "C"), (.site "Q", .site "C")] by decide +kernel,
      show nearFarPlan.outgoing (.site "C") = [(.site "C", .demand "q" 0)] by decide +kernel] at b2
    rw [show nearFarPlan.cap (.site "P", .site "C") = 1/10 by decide +kernel] at f1
    rw [show nearFarPlan.cap (.site "Q", .site "C") = 1 by decide +kernel] at f2
    dsimp only at b1
    rw [show nearFarPlan.demandAt (.demand "q" 0) = 1/2 by decide +kernel] at b1
    simp at b1 b2
    linarith
  · have := hz.cnLinks "C" (by decide +kernel) (by decide +kernel)
    rw [show (nearFarPlan.incoming (.site "C")).filter nearFarPlan.hasActive =
      [(.site "P", .site "C"), (.site "Q", .site "C")] by decide +kernel] at this
    simpa using this

theorem nearFar_best : nearFarPlan.InterfBest nearFarIn (fromPop "P" (1/10)) := by
  refine ⟨nearFar_near, fun z hz => ?_⟩
  obtain ⟨h1, h2, h3, h4⟩ := nearFar_cases z hz
  rw [h1, show nearFarPlan.interfObjective (fromPop "P" (1/10)) = -17/10 by decide +kernel]
  have a := hz.active (.site "P", .site "C") (by decide +kernel) (by decide +kernel)
  have b := hz.active (.site "Q", .site "C") (by decide +kernel) (by decide +kernel)
  rcases a with a | a <;> rcases b with b | b <;> rw [a, b] at h2 h3 ⊢ <;> linarith

/-- The hypotheses of the theorems hold of the example. -/
example : nearFarPlan.setupErr = none ∧ Longest (run {} nearFar) 100 ∧
    (∀ l ∈ (run {} nearFar).links.vals, 0 ≤ l.distance) ∧ nearFarPlan.InterfBest nearFarIn (fromPop "P" (1/10)) ∧
    bonuses nearFarPlan 100 (fromPop "P" (1/10)) = 19/10 ∧ (chosen nearFarPlan (fromPop "P" (1/10))).length = 1 :=
  ⟨by decide +kernel, by unfold Longest; decide +kernel, by decide +kernel, nearFar_best, by decide +kernel,
    by decide +kernel⟩

/-- **C183, violated.** All of the demand could be served, and every best network of the interference phase
serves a fifth of it, for the sake of a shorter link. -/
theorem C183_less_served_violation : ∃ (ops : List Op) (p : OptParams) (I : Interf) (z : IVars),
    let P : Plan := ⟨run {} ops, p⟩
    P.setupErr = none ∧ P.InterfFeasible I z ∧ received P z = totalDemand P ∧
    (∃ x, P.InterfBest I x) ∧ ∀ x, P.InterfBest I x → received P x ≤ totalDemand P / 5 := by
  refine ⟨nearFar, nearFarParams, nearFarIn, fromPop "Q" (1/2), by decide +kernel, nearFar_far, by decide +kernel,
    ⟨_, nearFar_best⟩, fun x hx => ?_⟩
  have inv : Topology.Inv nearFarPlan.t := Inv.empty.run nearFar
  have e := Plan.received_eq (P := nearFarPlan) inv (Plan.ready (by decide +kernel)) hx.feas
  change received nearFarPlan x ≤ totalDemand nearFarPlan / 5
  rw [e, show nearFarPlan.demands = [.demand "q" 0] by decide +kernel,
    show totalDemand nearFarPlan = 1/2 by decide +kernel]
  have hb : nearFarPlan.interfObjective x ≤ _ := hx.best _ nearFar_near
  change _ ≤ nearFarPlan.interfObjective _ at hb
  obtain ⟨h1, h2, h3, h4⟩ := nearFar_cases x hx.feas
  rw [h1, show nearFarPlan.interfObjective (fromPop "P" (1/10)) = -17/10 by decide +kernel] at hb
  have a := hx.feas.active (.site "P", .site "C") (by decide +kernel) (by decide +kernel)
  have b := hx.feas.active (.site "Q", .site "C") (by decide +kernel) (by decide +kernel)
  simp only [List.map_cons, List.map_nil, List.sum_cons, List.sum_nil]
  rcases a with a | a <;> rcases b with b | b <;> rw [a, b] at h2 h3 hb <;> linarith

end Verif
