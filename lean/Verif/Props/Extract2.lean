import Verif.Props.Extract

/-! # C44: the cost of an extracted plan -/

namespace Verif
open Topology Spec

namespace Plan
variable {P : Plan} {x : Vars} {flow : Arc → ℚ}

/-- The entry is the first of its node in dictionary order. -/
def isFirst (P : Plan) (e : SectorId × Sector) : Bool :=
  (P.t.sectors.find? fun e' => e'.2.site = e.2.site ∧ e'.2.node = e.2.node).any
    fun e' => e'.1 == e.1

theorem sectorCost_of (nd : P.t.sectors.NodupKeys) {e : SectorId × Sector} (he : e ∈ P.t.sectors) :
    P.sectorCost e.1 = if P.isFirst e then P.t.nodeCapex e.2.site else 0 := by
  unfold sectorCost isFirst
  rw [(Dict.mem_iff_get? nd e.1 e.2).1 he]
  dsimp only
  cases h : P.t.sectors.find? fun e' => e'.2.site = e.2.site ∧ e'.2.node = e.2.node with
  | none => simp
  | some q => simp

theorem exists_first (nd : P.t.sectors.NodupKeys) {e : SectorId × Sector} (he : e ∈ P.t.sectors) :
    ∃ f ∈ P.t.sectors, P.isFirst f = true ∧ f.2.site = e.2.site ∧ f.2.node = e.2.node := by
  cases h : P.t.sectors.find? fun e' => e'.2.site = e.2.site ∧ e'.2.node = e.2.node with
  | none =>
    rw [List.find?_eq_none] at h
    have := h e he
    simp at this
  | some f =>
    have h1 := List.find?_some h
    have h2 := List.mem_of_find?_eq_some h
    simp only [decide_eq_true_eq] at h1
    refine ⟨f, h2, ?_, h1.1, h1.2⟩
    unfold isFirst
    rw [h1.1, h1.2, h]
    simp

theorem first_unique (nd : P.t.sectors.NodupKeys) {e f : SectorId × Sector} (he : e ∈ P.t.sectors)
    (hf : f ∈ P.t.sectors) (h1 : P.isFirst e = true) (h2 : P.isFirst f = true)
    (hs : e.2.site = f.2.site) (hn : e.2.node = f.2.node) : e = f := by
  unfold isFirst at h1 h2
  rw [hs, hn] at h1
  rw [Option.any_eq_true] at h1 h2
  obtain ⟨q, hq, e1⟩ := h1
  obtain ⟨q', hq', e2⟩ := h2
  rw [hq] at hq'
  injection hq' with hq'
  subst hq'
  rw [beq_iff_eq] at e1 e2
  have h3 := (Dict.mem_iff_get? nd e.1 e.2).1 he
  have h4 := (Dict.mem_iff_get? nd f.1 f.2).1 hf
  rw [← e1, e2, h4] at h3
  injection h3 with h3
  exact Prod.ext (e1.symm.trans e2) h3.symm

theorem isExisting_iff {s : SiteId} :
    P.isExisting s = true ↔ (P.t.sites.get? s).map (·.status) = some .existing := by
  unfold isExisting statusOf siteStatus; simp

/-- `_extract_cost` on 0/1 decisions that treat the sectors of a node alike. -/
theorem extractCost_eq (inv : P.t.Inv) (sol : Solution)
    (h01 : ∀ s, sol.site s = 0 ∨ sol.site s = 1)
    (hk01 : ∀ k d, P.t.sectors.get? k = some d → sol.sector k = 0 ∨ sol.sector k = 1)
    (hnode : ∀ k k' d d', P.t.sectors.get? k = some d → P.t.sectors.get? k' = some d' →
      d.site = d'.site → d.node = d'.node → sol.sector k = sol.sector k') :
    P.extractCost (fun s => (sol.site s : ℚ)) (fun k => (sol.sector k : ℚ)) = planCost P sol := by
  unfold extractCost planCost
  rw [List.sum_map_add]
  congr 1
  · -- sites
    have e1 : P.t.sites.keys.filter (fun s => !P.isExisting s) =
        (P.t.sites.filter (fun e => !P.isExisting e.1)).map (·.1) := by
      unfold Dict.keys
      rw [List.filter_map]; rfl
    rw [e1, List.map_map, sum_filter_ite, sum_filter_ite]
    congr 1
    apply List.map_congr_left
    rintro ⟨i, s⟩ he
    have hg := (Dict.mem_iff_get? inv.nd_sites i s).1 he
    have hx : P.isExisting i = true ↔ s.status = .existing := by
      rw [isExisting_iff, hg]; simp
    have hc : P.siteCost i = P.p.costs.of s.siteType := by
      unfold siteCost; rw [hg]
    simp only [Function.comp, hc, Bool.not_eq_true', Bool.eq_false_iff, ne_eq, hx,
      decide_eq_true_eq]
    rcases h01 i with h | h <;> by_cases c : s.status = .existing <;> simp [h, c]
  · -- sectors
    set L := P.t.sectors.filter (fun e => !P.isExisting e.2.site) with hL
    have e2 : ((P.t.sites.keys.filter fun s => !P.isExisting s).map fun s =>
        ((P.sectorsAt s).map fun k => P.sectorCost k * (sol.sector k : ℚ)).sum) =
        ((P.t.sites.keys.filter fun s => !P.isExisting s).map fun s =>
          ((L.filter fun e => e.2.site = s).map
            fun e => P.sectorCost e.1 * (sol.sector e.1 : ℚ)).sum) := by
      apply List.map_congr_left
      intro s hs
      rw [List.mem_filter] at hs
      unfold sectorsAt
      rw [List.map_map]
      congr 1
      have : L.filter (fun e => e.2.site = s) = P.t.sectors.filter (fun e => e.2.site = s) := by
        rw [hL, List.filter_filter]
        apply List.filter_congr
        intro e _
        by_cases c : e.2.site = s
        · subst c; simp [hs.2]
        · simp [c]
      rw [this]
      rfl
    have hsub : ∀ e ∈ L, e ∈ P.t.sectors ∧ P.isExisting e.2.site = false := by
      intro e he
      rw [hL, List.mem_filter] at he
      exact ⟨he.1, by simpa using he.2⟩
    rw [e2, ← sum_partition L (fun e => e.2.site) _ _ (inv.nd_sites.filter _)]
    · have e3 : L.map (fun e => P.sectorCost e.1 * (sol.sector e.1 : ℚ)) =
          L.map (fun e => if (P.isFirst e && decide (sol.sector e.1 = 1)) = true
            then P.t.nodeCapex e.2.site else 0) := by
        apply List.map_congr_left
        rintro ⟨k, d⟩ he
        have hm := (hsub _ he).1
        have hg := (Dict.mem_iff_get? inv.nd_sectors k d).1 hm
        rw [sectorCost_of inv.nd_sectors hm]
        rcases hk01 k d hg with h | h <;> cases P.isFirst (k, d) <;> simp [h]
      rw [e3, ← sum_filter_ite]
      have e4 : (L.filter (fun e => P.isFirst e && decide (sol.sector e.1 = 1))).map
            (fun e => P.t.nodeCapex e.2.site) =
          ((L.filter (fun e => P.isFirst e && decide (sol.sector e.1 = 1))).map
            (fun e => (e.2.site, e.2.node))).map (fun q => P.t.nodeCapex q.1) := by
        rw [List.map_map]; rfl
      rw [e4]
      apply sum_perm
      · have hnd : (L.filter (fun e => P.isFirst e && decide (sol.sector e.1 = 1))).Nodup := by
          apply List.Nodup.filter
          rw [hL]
          apply List.Nodup.filter
          exact List.Nodup.of_map _ inv.nd_sectors
        rw [List.nodup_map_iff_inj_on hnd]
        intro e he f hf hef
        simp only [Prod.mk.injEq] at hef
        rw [List.mem_filter, Bool.and_eq_true] at he hf
        exact first_unique inv.nd_sectors (hsub _ he.1).1 (hsub _ hf.1).1 he.2.1 hf.2.1 hef.1 hef.2
      · unfold newNodes; exact List.nodup_dedup _
      · intro q
        unfold newNodes
        rw [List.mem_dedup, List.mem_map, List.mem_map]
        constructor
        · rintro ⟨e, he, rfl⟩
          rw [List.mem_filter, Bool.and_eq_true, decide_eq_true_eq] at he
          obtain ⟨h1, h2⟩ := hsub _ he.1
          refine ⟨e, List.mem_filter.2 ⟨h1, ?_⟩, rfl⟩
          rw [decide_eq_true_eq]
          refine ⟨he.2.2, ?_⟩
          intro c; rw [← isExisting_iff] at c; rw [c] at h2; cases h2
        · rintro ⟨e, he, rfl⟩
          rw [List.mem_filter, decide_eq_true_eq] at he
          obtain ⟨f, hf, hff, hfs, hfn⟩ := exists_first inv.nd_sectors he.1
          have hge := (Dict.mem_iff_get? inv.nd_sectors e.1 e.2).1 he.1
          have hgf := (Dict.mem_iff_get? inv.nd_sectors f.1 f.2).1 hf
          refine ⟨f, ?_, by rw [hfs, hfn]⟩
          rw [List.mem_filter, Bool.and_eq_true, decide_eq_true_eq]
          refine ⟨?_, hff, ?_⟩
          · rw [hL, List.mem_filter]
            refine ⟨hf, ?_⟩
            rw [Bool.not_eq_true', Bool.eq_false_iff, ne_eq, isExisting_iff, hfs]
            exact he.2.2
          · rw [hnode f.1 e.1 f.2 e.2 hgf hge hfs hfn]; exact he.2.1
    · intro e he
      obtain ⟨h1, h2⟩ := hsub _ he
      obtain ⟨y, hy⟩ := inv.sector_site e.1 e.2 ((Dict.mem_iff_get? inv.nd_sectors e.1 e.2).1 h1)
      exact List.mem_filter.2 ⟨(Dict.mem_keys_iff _ _).2 ⟨y, hy⟩, by simp [h2]⟩

theorem extracted_site_cases (s : SiteId) :
    (P.extracted x flow).site s = 0 ∨
      ((P.extracted x flow).site s = 1 ∧ bin (x.site s) = 1) := by
  show P.ifUsed x flow s _ = 0 ∨ (P.ifUsed x flow s _ = 1 ∧ _)
  unfold ifUsed
  split
  · exact siteDec_cases s
  · exact Or.inl rfl

theorem extracted_sector_cases {k : SectorId} {d : Sector} (hk : P.t.sectors.get? k = some d) :
    (P.extracted x flow).sector k = 0 ∨
      ((P.extracted x flow).sector k = 1 ∧ bin (x.site d.site) = 1) := by
  rw [final_sector hk]
  split
  · exact siteDec_cases d.site
  · exact Or.inl rfl

theorem bin_one {q : ℚ} (h : q = 0 ∨ q = 1) (hb : bin q = 1) : q = 1 := by
  rcases h with h | h
  · rw [h] at hb; unfold bin eps at hb; norm_num at hb
  · exact h

theorem cost_le (inv : P.t.Inv) {adv : Arc → Bool} (feas : P.SiteFeasible adv x)
    (hc : P.CostConstraint 1 x) (hb : 0 ≤ P.p.budget)
    (hs : ∀ ty, 0 ≤ P.p.costs.of ty) (hn : ∀ s, 0 ≤ P.t.nodeCapex s) :
    P.extractCost (fun s => ((P.extracted x flow).site s : ℚ))
      (fun k => ((P.extracted x flow).sector k : ℚ)) ≤ P.p.budget := by
  by_cases h0 : P.t.sites.keys.filter (fun s => !P.isExisting s) = []
  · unfold extractCost; rw [h0]; simpa using hb
  refine le_trans ?_ (hc h0)
  unfold extractCost
  apply List.sum_le_sum
  intro s hs'
  rw [List.mem_filter] at hs'
  have hx := feas.bounds.site s hs'.1
  have h1 : 0 ≤ P.siteCost s := by
    unfold siteCost; split
    · exact hs _
    · exact le_refl 0
  apply add_le_add
  · apply mul_le_mul_of_nonneg_left _ h1
    dsimp only
    rcases extracted_site_cases (P := P) (x := x) (flow := flow) s with h | ⟨h, hb⟩ <;> rw [h]
    · rcases hx with h | h <;> rw [h] <;> norm_num
    · rw [bin_one hx hb]; norm_num
  · apply List.sum_le_sum
    intro k hk
    unfold sectorsAt at hk
    rw [List.mem_map] at hk
    obtain ⟨⟨k', d⟩, hm, rfl⟩ := hk
    rw [List.mem_filter, decide_eq_true_eq] at hm
    have hg := (Dict.mem_iff_get? inv.nd_sectors k' d).1 hm.1
    have hds : d.site = s := hm.2
    have h2 : 0 ≤ P.sectorCost k' := by
      rw [sectorCost_of inv.nd_sectors hm.1]; split
      · exact hn _
      · exact le_refl 0
    apply mul_le_mul_of_nonneg_left _ h2
    have h3 : P.sectorSum 1 x k' = x.sector k' 0 := by
      unfold sectorSum hasSector
      rw [hg]
      cases d.typ <;> simp
    dsimp only
    rw [h3, feas.sectorSite k' d hg, hds]
    rcases extracted_sector_cases (P := P) (x := x) (flow := flow) hg with h | ⟨h, hb⟩ <;> rw [h]
    · rcases hx with h | h <;> rw [h] <;> norm_num
    · rw [hds] at hb; rw [bin_one hx hb]; norm_num

end Plan

/-- **C44.** The cost reported with an extracted plan is the cost of building what
the plan selects (`planCost`), and in the coverage phase, where the cost
constraint is part of the model, it is at most the budget. -/
theorem C44_cost (ops : List Op) (p : OptParams) (adv : Arc → Bool) (x : Vars)
    (flow : Arc → ℚ) (common : Option ℚ) (sol : Solution) (cost : ℚ)
    (feas : (Plan.mk (run {} ops) p).SiteFeasible adv x)
    (h : (Plan.mk (run {} ops) p).extract x flow common = .ok (some (sol, cost))) :
    cost = planCost ⟨run {} ops, p⟩ sol ∧
    ((Plan.mk (run {} ops) p).CostConstraint 1 x → 0 ≤ p.budget → (∀ ty, 0 ≤ p.costs.of ty) →
      (∀ s y, (run {} ops).sites.get? s = some y → 0 ≤ y.device.nodeCapex) → cost ≤ p.budget) := by
  have inv : Topology.Inv (Plan.mk (run {} ops) p).t := Inv.empty.run ops
  obtain ⟨hsol, hcost⟩ := Plan.extract_ok h
  subst hsol
  constructor
  · rw [hcost]
    refine Plan.extractCost_eq inv _ ?_ ?_ ?_
    · intro s
      rcases Plan.extracted_site_cases (P := ⟨run {} ops, p⟩) (x := x) (flow := flow) s with h | h
      · exact Or.inl h
      · exact Or.inr h.1
    · intro k d hk
      rcases Plan.extracted_sector_cases (x := x) (flow := flow) hk with h | h
      · exact Or.inl h
      · exact Or.inr h.1
    · exact (Plan.consistent inv feas).2.2.1
  · intro hc hb hs hn
    rw [hcost]
    refine Plan.cost_le inv feas hc hb hs ?_
    intro s
    unfold nodeCapex
    split
    · rename_i y hy; exact hn s y hy
    · exact le_refl 0

/-- The demo plan costs 20 + 50 for `D` and 3 + 5 for `C`; `P` is EXISTING. -/
example :
    let P : Plan := ⟨run {} planDemo, planDemoParams⟩
    P.SiteFeasible (fun _ => false) planDemoVars ∧ P.CostConstraint 1 planDemoVars ∧
    planCost P (P.extracted planDemoVars planDemoVars.flow) = 78 ∧ P.p.budget = 85 :=
  ⟨planDemo_feasible, by
    show _ → _
    decide +kernel, by decide +kernel, rfl⟩

end Verif
