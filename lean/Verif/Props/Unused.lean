import Verif.Props.InterfBest

/-!
# Links a plan does not use never rule it out in the interference phase

`create_exact_capacity_constraints`, `interference_optimization.py:880-1062`, bounds the inverse
SINR of every link whether or not it is used. The bound of the class without throughput is raised
so that a link without traffic meets it at any level of interference.
-/

namespace Verif
namespace Plan

/-- The plan sends nothing over the link and gives it no time. -/
def Spec.Unused (I : Interf) (x : IVars) (e : Arc) : Prop :=
  x.flow e = 0 ∧ ∀ c < I.channels, x.tdm e c = 0

/-- Two plans differ at most in the SNR classes of links that are not used. -/
structure Spec.SamePlan (I : Interf) (x y : IVars) : Prop where
  vars : y.toVars = x.toVars
  active : y.active = x.active
  deploy : y.deploy = x.deploy
  pol : y.pol = x.pol
  cls : ∀ e, ¬ Spec.Unused I x e → y.cls e = x.cls e

/-- Other radio levels that agree for the links in use: their own signal, the noise of their
receiver, and what their receiver gets from any site. -/
structure Spec.AgreeOnUsed (P : Plan) (I : Interf) (x : IVars) (rsl interf : Arc → ℚ)
    (noise : SiteId → ℚ) : Prop where
  pos : ∀ e, 0 ≤ rsl e ∧ 0 ≤ interf e
  used : ∀ a b, (Loc.site a, Loc.site b) ∈ P.arcs → ¬ Spec.Unused I x (.site a, .site b) →
    rsl (.site a, .site b) = I.rsl (.site a, .site b) ∧ noise b = I.noise b ∧
    ∀ k, interf (k, .site b) = I.rslInterf (k, .site b)

open Spec

theorem zeroRow_lt (I : Interf) (b : SiteId) : zeroRow I b < (classes I b).length := by
  unfold zeroRow
  rw [List.findIdx_lt_length]
  unfold classes
  split
  · rename_i h
    simpa using h
  · exact ⟨(0, 0), by simp, by simp⟩

theorem zeroRow_cap (I : Interf) (b : SiteId) :
    (((classes I b)[zeroRow I b]?).map (·.2)).getD 0 = 0 := by
  have h := zeroRow_lt I b
  rw [List.getElem?_eq_getElem h]
  unfold zeroRow at h ⊢
  have := List.findIdx_getElem (w := h)
  exact beq_iff_eq.1 this

theorem sum_indicator (m z : Nat) (hz : z < m) (g : Nat → ℚ) :
    ((List.range m).map fun i => g i * (if i = z then (1 : ℚ) else 0)).sum = g z := by
  induction m with
  | zero => omega
  | succ m ih =>
    rw [List.range_succ, List.map_append, List.sum_append]
    by_cases h : z = m
    · subst h
      have : ((List.range z).map fun i => g i * (if i = z then (1 : ℚ) else 0)).sum = 0 := by
        apply List.sum_eq_zero
        intro q hq
        obtain ⟨i, hi, rfl⟩ := List.mem_map.1 hq
        have := List.mem_range.1 hi
        rw [if_neg (by omega), mul_zero]
      rw [this]; simp
    · rw [ih (by omega)]
      have : ¬ m = z := fun e => h e.symm
      simp [this]

theorem interfExpr_le {P : Plan} {I : Interf} {x : IVars} (hb : P.Bounds I.channels x.toVars)
    {a b : SiteId} {k2 : SectorId} (hp : P.PolarityProduct I x a b k2)
    (hq : ∀ e, 0 ≤ I.rslInterf e) {c : Nat} (hc : c < I.channels) :
    P.interfExpr I x a b k2 c ≤ P.maxNeighbor I x a b k2 := by
  unfold interfExpr maxNeighbor
  apply List.sum_le_sum
  intro f hf
  have hf' := hf
  unfold interferers at hf'
  simp only [List.mem_flatMap, List.mem_filter] at hf'
  obtain ⟨e, ⟨_, hpe⟩, hfo, ho⟩ := hf'
  have hm := mem_outgoing.1 hfo
  unfold interfOut at ho
  simp only [Bool.and_eq_true, beq_iff_eq] at ho
  obtain ⟨⟨o1, _⟩, o3⟩ := ho
  have key : (if P.p.ignorePolarities then x.tdm f c else x.pol a f c) ≤ 1 := by
    cases hi : P.p.ignorePolarities with
    | true =>
      unfold hasActive at o1
      simp only [Bool.and_eq_true] at o1
      simpa using (hb.tdm f hm.1 o1.1.1 c hc).2
    | false =>
      obtain ⟨f1, f2⟩ := f
      have h1 : f1 = e.1 := hm.2
      unfold interfPath at hpe
      simp only [Bool.and_eq_true] at hpe
      have h3 := hpe.1.2
      rw [← h1] at h3
      cases f1 with
      | site k =>
        cases f2 with
        | site l => simpa using (hp hi k l hf c hc).2.1
        | source => simp at o3
        | demand _ _ => simp at o3
      | source => simp at h3
      | demand _ _ => simp at h3
  calc _ ≤ I.rslInterf (f.1, .site b) * 1 := mul_le_mul_of_nonneg_left key (hq _)
    _ = _ := mul_one _

/-- C193. Whatever interference, noise or signal the links a plan does not use are met with, the
plan stays feasible: only the classes of these links change, and none of them gets a class with
throughput. -/
theorem C193_unused_never_restrict (P : Plan) (I : Interf) (x : IVars) (feas : P.InterfFeasible I x)
    (rsl interf : Arc → ℚ) (noise : SiteId → ℚ) (agree : AgreeOnUsed P I x rsl interf noise) :
    ∃ y, P.InterfFeasible { I with rsl := rsl, rslInterf := interf, noise := noise } y ∧
      SamePlan I x y ∧
      ∀ a b, Unused I x (.site a, .site b) → ∀ c i r, (I.mcs b)[i]? = some r → r.2 ≠ 0 →
        y.cls (.site a, .site b) c i = 0 := by
  classical
  let z : Arc → Nat := fun e => match e.2 with
    | .site b => zeroRow I b
    | _ => 0
  let cls : Arc → Nat → Nat → ℚ := fun e c i =>
    if Unused I x e then (if i = z e then 1 else 0) else x.cls e c i
  let y : IVars := { x with cls := cls }
  have hexact : P.ExactCapacity { I with rsl := rsl, rslInterf := interf, noise := noise } y := by
    intro a b hab hact ha hb k2 hk2
    obtain ⟨p1, p2, p3, p4⟩ := feas.exact a b hab hact ha hb k2 hk2
    by_cases hu : Unused I x (.site a, .site b)
    · have hcls : ∀ c i, y.cls (.site a, .site b) c i = if i = zeroRow I b then 1 else 0 := by
        intro c i
        change (if Unused I x (.site a, .site b) then _ else _) = _
        rw [if_pos hu]
      have hz := zeroRow_lt I b
      refine ⟨p1, ?_, ?_, ?_⟩
      · intro c hc
        refine ⟨?_, ?_, ?_, ?_⟩
        · intro i _
          rw [hcls]
          split
          · exact Or.inr rfl
          · exact Or.inl rfl
        · simp only [hcls]
          change _ ≤ ((List.range (classes I b).length).map _).sum
          rw [sum_indicator (classes I b).length (zeroRow I b) hz]
          unfold threshold
          change _ ≤ (if zeroRow I b = zeroRow I b then _ else _)
          rw [if_pos rfl]
          unfold perRsl
          dsimp only
          have hle := interfExpr_le (P := P) (I := { I with rsl := rsl, rslInterf := interf, noise := noise })
            (x := y) feas.bounds (a := a) (b := b) (k2 := k2) p1 (fun e => (agree.pos e).2) (c := c) hc
          split
          · exact le_rfl
          · apply div_le_div_of_nonneg_right _ (agree.pos _).1
            linarith
        · simp only [hcls]
          have := sum_indicator (classes I b).length (zeroRow I b) hz (fun _ => 1)
          simp only [one_mul] at this
          exact this.le
        · intro _
          have e1 : y.tdm (.site a, .site b) c = 0 := hu.2 c hc
          have e2 : y.cls (.site a, .site b) c (zeroRow I b) = 1 := by rw [hcls, if_pos rfl]
          change _ ≤ 1 - y.cls (.site a, .site b) c (zeroRow I b)
          rw [e1, e2]; norm_num
      · intro _
        change _ ≤ ((List.range I.channels).map fun c => y.cls (.site a, .site b) c (zeroRow I b)).sum
        simp only [hcls, if_true]
        simp
      · have e1 : y.flow (.site a, .site b) = 0 := hu.1
        rw [e1]
        apply List.sum_nonneg
        intro q hq
        obtain ⟨i, _, rfl⟩ := List.mem_map.1 hq
        apply List.sum_nonneg
        intro q hq
        obtain ⟨c, _, rfl⟩ := List.mem_map.1 hq
        rw [hcls]
        by_cases hi : i = zeroRow I b
        · rw [if_pos hi, hi]
          change 0 ≤ (((classes I b)[zeroRow I b]?).map (·.2)).getD 0 * 1
          rw [zeroRow_cap]; simp
        · rw [if_neg hi, mul_zero]
    · have hcls : ∀ c i, y.cls (.site a, .site b) c i = x.cls (.site a, .site b) c i := by
        intro c i
        change (if Unused I x (.site a, .site b) then _ else _) = _
        rw [if_neg hu]
      obtain ⟨u1, u2, u3⟩ := agree.used a b hab hu
      have e1 : ∀ c, P.interfExpr { I with rsl := rsl, rslInterf := interf, noise := noise } y a b k2 c =
          P.interfExpr I x a b k2 c := by
        intro c
        unfold interfExpr
        change ((P.interferers I x.toVars a b k2).map fun f => interf (f.1, .site b) * _).sum = _
        simp only [u3]
        rfl
      have e2 : P.maxNeighbor { I with rsl := rsl, rslInterf := interf, noise := noise } y a b k2 =
          P.maxNeighbor I x a b k2 := by
        unfold maxNeighbor
        change ((P.interferers I x.toVars a b k2).map fun f => interf (f.1, .site b)).sum = _
        simp only [u3]
      have e3 : ∀ q, perRsl { I with rsl := rsl, rslInterf := interf, noise := noise } (.site a, .site b) q =
          perRsl I (.site a, .site b) q := by
        intro q
        unfold perRsl
        dsimp only
        simp only [u1]
      have e4 : ∀ i, P.threshold { I with rsl := rsl, rslInterf := interf, noise := noise } y a b k2 i =
          P.threshold I x a b k2 i := by
        intro i
        unfold threshold
        rw [e2, e3]
        dsimp only
        rw [u2]
        rfl
      refine ⟨p1, ?_, ?_, ?_⟩
      · intro c hc
        obtain ⟨q1, q2, q3, q4⟩ := p2 c hc
        simp only [hcls, e1, e3, e4, u2]
        exact ⟨q1, q2, q3, q4⟩
      · simp only [hcls]
        exact p3
      · simp only [hcls]
        exact p4
  refine ⟨y, ?_, ⟨rfl, rfl, rfl, rfl, ?_⟩, ?_⟩
  · exact { bounds := feas.bounds, site := feas.site, sector := feas.sector, active := feas.active
            tdmFlow := feas.tdmFlow, tdmLink := feas.tdmLink, flowBalance := feas.flowBalance
            popLoad := feas.popLoad, flowLink := feas.flowLink, symmetric := feas.symmetric
            tdmSector := feas.tdmSector, sectorSite := feas.sectorSite, sameNode := feas.sameNode
            sectorChannel := feas.sectorChannel, sectorLink := feas.sectorLink, cnLinks := feas.cnLinks
            polarity := feas.polarity, decided := feas.decided, fixedPolarity := feas.fixedPolarity
            inactiveFlow := feas.inactiveFlow, multiPoint := feas.multiPoint
            deployment := feas.deployment, angle := feas.angle, exact := hexact }
  · intro e he
    funext c i
    change (if Unused I x e then _ else _) = _
    rw [if_neg he]
  · intro a b hu c i r hr h0
    change (if Unused I x (.site a, .site b) then (if i = zeroRow I b then (1 : ℚ) else 0) else _) = 0
    rw [if_pos hu, if_neg]
    intro hi
    have hz := zeroRow_cap I b
    rw [← hi] at hz
    have : (classes I b)[i]? = some r := by
      unfold classes
      split
      · exact hr
      · rw [List.getElem?_append_left (by
          by_contra hlt
          rw [List.getElem?_eq_none (by omega)] at hr
          cases hr)]
        exact hr
    rw [this] at hz
    exact h0 (by simpa using hz)

/-- A plan that serves the demand from the near POP meets the hypotheses if the signal of the far POP
is a million times weaker than assumed. -/
example : nearFarPlan.InterfFeasible nearFarIn (fromPop "P" (1/10)) ∧
    Unused nearFarIn (fromPop "P" (1/10)) (.site "Q", .site "C") ∧
    AgreeOnUsed nearFarPlan nearFarIn (fromPop "P" (1/10))
      (fun e => if e = (.site "Q", .site "C") then 1/1000000 else 1) (fun _ => 0) (fun _ => 1/8) := by
  have hu : Unused nearFarIn (fromPop "P" (1/10)) (.site "Q", .site "C") :=
    ⟨by decide +kernel, fun c _ => by
      change (if (Loc.site "Q", Loc.site "C") = (Loc.site "P", Loc.site "C") then (1 : ℚ) else 0) = 0
      rw [if_neg (by decide)]⟩
  refine ⟨nearFar_near, hu, ⟨fun e => ⟨?_, le_rfl⟩, fun a b _ h => ⟨?_, rfl, fun _ => rfl⟩⟩⟩
  · split <;> norm_num
  · rw [if_neg]
    · rfl
    · intro e
      exact h (e ▸ hu)

end Plan
end Verif
