import Verif.Props.Apply
import Verif.Props.Extract3
import Verif.Props.Capex
import Mathlib.Algebra.Order.BigOperators.Group.Finset

/-! # C84, C85: applying an extracted plan and what it then costs -/

namespace Verif
namespace Topology
open Spec

/-- `t'` has no PROPOSED site or sector that `t` does not have. -/
structure Shrinks (t t' : Topology) : Prop where
  sites : ∀ i v', t'.sites.get? i = some v' → ∃ v, t.sites.get? i = some v ∧
    v'.siteType = v.siteType ∧ v'.device = v.device ∧ (v'.status = .proposed → v.status = .proposed)
  sectors : ∀ i v', t'.sectors.get? i = some v' → ∃ v, t.sectors.get? i = some v ∧
    v'.site = v.site ∧ v'.node = v.node ∧ (v'.status = .proposed → v.status = .proposed)

theorem Shrinks.refl (t : Topology) : Shrinks t t :=
  ⟨fun _ v h => ⟨v, h, rfl, rfl, id⟩, fun _ v h => ⟨v, h, rfl, rfl, id⟩⟩

theorem Shrinks.trans {a b c : Topology} (h1 : Shrinks a b) (h2 : Shrinks b c) : Shrinks a c := by
  constructor
  · intro i v h
    obtain ⟨w, hw, e1, e2, e3⟩ := h2.sites i v h
    obtain ⟨u, hu, f1, f2, f3⟩ := h1.sites i w hw
    exact ⟨u, hu, e1.trans f1, e2.trans f2, f3 ∘ e3⟩
  · intro i v h
    obtain ⟨w, hw, e1, e2, e3⟩ := h2.sectors i v h
    obtain ⟨u, hu, f1, f2, f3⟩ := h1.sectors i w hw
    exact ⟨u, hu, e1.trans f1, e2.trans f2, f3 ∘ e3⟩

theorem shrinks_site (t : Topology) (i : SiteId) : Shrinks t (t.setSiteStatus i .candidate).1 := by
  unfold setSiteStatus
  split
  · exact Shrinks.refl t
  split
  · refine ⟨?_, (Shrinks.refl t).sectors⟩
    intro j v' h
    dsimp only at h
    rw [Dict.get?_modify] at h
    split at h
    · cases hg : t.sites.get? j with
      | none => rw [hg] at h; cases h
      | some v =>
        rw [hg] at h; injection h with h; subst h
        exact ⟨v, rfl, rfl, rfl, fun h => by cases h⟩
    · exact ⟨v', h, rfl, rfl, id⟩
  · exact Shrinks.refl t

theorem shrinks_sector (t : Topology) (i : SectorId) :
    Shrinks t (t.setSectorStatus i .candidate).1 := by
  have key : Shrinks t { t with sectors := t.sectors.modify i (fun s => { s with status := .candidate }) } := by
    refine ⟨(Shrinks.refl t).sites, ?_⟩
    intro j v' h
    dsimp only at h
    rw [Dict.get?_modify] at h
    split at h
    · cases hg : t.sectors.get? j with
      | none => rw [hg] at h; cases h
      | some v =>
        rw [hg] at h; injection h with h; subst h
        exact ⟨v, rfl, rfl, rfl, fun h => by cases h⟩
    · exact ⟨v', h, rfl, rfl, id⟩
  unfold setSectorStatus
  repeat' split
  all_goals first | exact Shrinks.refl t | exact key

theorem shrinks_link (t : Topology) (i : LinkId) :
    Shrinks t (t.setLinkStatus i .candidate).1 := by
  unfold setLinkStatus
  repeat' split
  all_goals exact ⟨(Shrinks.refl t).sites, (Shrinks.refl t).sectors⟩

theorem shrinks_removeDisconnected {t : Topology} {o : Out}
    (ho : removeDisconnected t = some o) : Shrinks t o.1 := by
  unfold removeDisconnected at ho
  rw [Option.map_eq_some_iff] at ho
  obtain ⟨hc, _, rfl⟩ := ho
  have hsec : ∀ (u : Topology) a, Shrinks t u → Shrinks t (withdrawSector hc u a).1 := by
    intro u a h
    unfold withdrawSector
    split
    · exact h
    split
    · exact h
    rename_i x _ _
    have h0 : Shrinks t (u.withdrawSite x.site).1 := by
      unfold withdrawSite
      split
      · exact h
      split
      · exact h.trans (shrinks_site _ _)
      · exact h
    generalize u.withdrawSite x.site = o at *
    obtain ⟨t1, e⟩ := o
    cases e with
    | some e => exact h0
    | none =>
      simp only
      split
      · exact Shrinks.trans h0 (shrinks_sector _ _)
      · exact h0
  have hl : ∀ (u : Topology) a, Shrinks t u → Shrinks t (withdrawLink u a).1 := by
    intro u a h
    unfold withdrawLink
    split
    · exact h
    split
    · exact h.trans (shrinks_link _ _)
    · exact h
  have h1 := foldOut_inv (P := Shrinks t) hsec t.sectors.keys t (Shrinks.refl t)
  generalize foldOut (withdrawSector hc) t t.sectors.keys = o at *
  obtain ⟨t1, e⟩ := o
  cases e with
  | some e => exact h1
  | none => exact foldOut_inv hl _ _ h1

/-! ## What `compute_capex` reports is at most the cost of the PROPOSED objects -/

theorem capexSector_bound (t : Topology) (hn : ∀ s, 0 ≤ t.nodeCapex s) (L : List Sector)
    (st0 : CapexState) (F : Finset (SiteId × Nat)) (hF : ∀ q ∈ F, q ∈ st0.seen)
    (h0 : st0.proposed ≤ ∑ q ∈ F, t.nodeCapex q.1) :
    (L.foldl t.capexSector st0).proposed ≤
      ∑ q ∈ F ∪ ((L.filter (fun x => x.status = .proposed)).map fun x => (x.site, x.node)).toFinset,
        t.nodeCapex q.1 := by
  classical
  induction L generalizing st0 F with
  | nil => simpa using h0
  | cons x L ih =>
    rw [List.foldl_cons]
    by_cases c : (x.site, x.node) ∈ st0.seen
    · have e : t.capexSector st0 x = st0 := by simp [capexSector, c]
      rw [e]
      refine (ih st0 F hF h0).trans ?_
      refine Finset.sum_le_sum_of_subset_of_nonneg ?_ (fun q _ _ => hn q.1)
      refine Finset.union_subset_union_right ?_
      intro q hq
      simp only [List.mem_toFinset, List.mem_map, List.mem_filter, List.mem_cons] at hq ⊢
      obtain ⟨y, ⟨h1, h2⟩, h3⟩ := hq
      exact ⟨y, ⟨Or.inr h1, h2⟩, h3⟩
    · have hseen : (t.capexSector st0 x).seen = (x.site, x.node) :: st0.seen := by
        unfold capexSector; rw [if_neg c]; cases x.status <;> rfl
      by_cases hp : x.status = .proposed
      · have e : (t.capexSector st0 x).proposed = st0.proposed + t.nodeCapex x.site := by
          unfold capexSector; rw [if_neg c]; rw [hp]
        have := ih (t.capexSector st0 x) (insert (x.site, x.node) F) ?_ ?_
        · refine this.trans (le_of_eq ?_)
          congr 1
          rw [List.filter_cons, if_pos (by simpa using hp)]
          simp only [List.map_cons, List.toFinset_cons, Finset.union_insert, Finset.insert_union]
        · intro q hq
          rw [hseen]
          rcases Finset.mem_insert.1 hq with h | h
          · rw [h]; simp
          · exact List.mem_cons_of_mem _ (hF q h)
        · rw [Finset.sum_insert (fun h => c (hF _ h)), e]
          linarith
      · have e : (t.capexSector st0 x).proposed = st0.proposed := by
          unfold capexSector; rw [if_neg c]; cases hs : x.status <;> simp_all
        have := ih (t.capexSector st0 x) F (fun q hq => by
          rw [hseen]; exact List.mem_cons_of_mem _ (hF q hq)) (by rw [e]; exact h0)
        rw [List.filter_cons, if_neg (by simpa using hp)]
        exact this

theorem computeCapex_le (t : Topology) (c : SiteCosts) (hn : ∀ s, 0 ≤ t.nodeCapex s) :
    (t.computeCapex c).2 ≤ costOf t c .proposed := by
  have h := capexSector_bound t hn t.sectors.vals {} ∅ (by simp) (by simp)
  obtain ⟨k1, _⟩ := capexSite_fold c t.sites.vals (t.sectors.vals.foldl t.capexSector {})
  unfold computeCapex costOf nodesWith
  dsimp only
  rw [k1]
  simp only [← nodeCapex_eq]
  rw [Finset.empty_union] at h
  exact add_le_add_left h _

end Topology
end Verif

namespace Verif

theorem Dict.filtered_sum_le {κ ν : Type} [DecidableEq κ] {d d' : Dict κ ν} (hd : d.NodupKeys)
    (hd' : d'.NodupKeys) (q q' : κ × ν → Bool) (f : ν → ℚ) (hf : ∀ v, 0 ≤ f v)
    (h : ∀ k v', d'.get? k = some v' → q' (k, v') = true →
      ∃ v, d.get? k = some v ∧ q (k, v) = true ∧ f v = f v') :
    ((d'.filter q').map fun e => f e.2).sum ≤ ((d.filter q).map fun e => f e.2).sum := by
  classical
  let F : κ → ℚ := fun k => ((d.get? k).map f).getD 0
  have hF : ∀ k, 0 ≤ F k := by
    intro k
    simp only [F]
    cases d.get? k with
    | none => exact le_refl _
    | some v => exact hf v
  have e1 : ((d'.filter q').map fun e => f e.2) = ((d'.filter q').map (·.1)).map F := by
    rw [List.map_map]
    apply List.map_congr_left
    rintro ⟨k, v'⟩ he
    rw [List.mem_filter] at he
    obtain ⟨v, h1, _, h3⟩ := h k v' ((Dict.mem_iff_get? hd' k v').1 he.1) he.2
    simp only [Function.comp, F, h1, Option.map_some, Option.getD_some]
    exact h3.symm
  have e2 : ((d.filter q).map fun e => f e.2) = ((d.filter q).map (·.1)).map F := by
    rw [List.map_map]
    apply List.map_congr_left
    rintro ⟨k, v⟩ he
    rw [List.mem_filter] at he
    simp only [Function.comp, F, (Dict.mem_iff_get? hd k v).1 he.1, Option.map_some, Option.getD_some]
  have n1 : ((d'.filter q').map (·.1)).Nodup :=
    List.Nodup.sublist (List.Sublist.map _ List.filter_sublist) hd'
  have n2 : ((d.filter q).map (·.1)).Nodup :=
    List.Nodup.sublist (List.Sublist.map _ List.filter_sublist) hd
  rw [e1, e2, ← List.sum_toFinset F n1, ← List.sum_toFinset F n2]
  refine Finset.sum_le_sum_of_subset_of_nonneg ?_ (fun k _ _ => hF k)
  intro k hk
  rw [List.mem_toFinset, List.mem_map] at hk ⊢
  obtain ⟨⟨k', v'⟩, he, rfl⟩ := hk
  rw [List.mem_filter] at he
  obtain ⟨v, h1, h2, _⟩ := h k' v' ((Dict.mem_iff_get? hd' k' v').1 he.1) he.2
  exact ⟨(k', v), List.mem_filter.2 ⟨(Dict.mem_iff_get? hd k' v).2 h1, h2⟩, rfl⟩

open Topology Spec

/-- Objects whose status the plan may change are not attached to a site that has
been ruled out (UNAVAILABLE or UNREACHABLE). -/
def Spec.NothingOpenOnRuledOut (t : Topology) : Prop :=
  (∀ k d s, t.sectors.get? k = some d → t.sites.get? d.site = some s →
    s.status = .unavailable ∨ s.status = .unreachable →
    d.status ≠ .candidate ∧ d.status ≠ .proposed) ∧
  (∀ i l s, t.links.get? i = some l → t.sites.get? l.tx = some s ∨ t.sites.get? l.rx = some s →
    s.status = .unavailable ∨ s.status = .unreachable →
    l.status ≠ .candidate ∧ l.status ≠ .proposed)

theorem calm_of {t : Topology} (inv : t.Inv) (h : NothingOpenOnRuledOut t) : Calm t := by
  have key : ∀ {st : StatusType}, ¬ (st = .unavailable ∨ st = .unreachable) → st.inactive = false := by
    intro st; cases st <;> simp [StatusType.inactive]
  constructor
  · intro k d hd ho
    obtain ⟨s, hs⟩ := inv.sector_site k d hd
    refine ⟨s, hs, key fun c => ?_⟩
    obtain ⟨h1, h2⟩ := h.1 k d s hd hs c
    rcases (open_iff _).1 ho with h' | h'
    · exact h1 h'
    · exact h2 h'
  · intro i l hl ho
    obtain ⟨a, ha⟩ := inv.link_tx i l hl
    obtain ⟨b, hb⟩ := inv.link_rx i l hl
    refine ⟨⟨a, ha, key fun c => ?_⟩, ⟨b, hb, key fun c => ?_⟩⟩
    · obtain ⟨h1, h2⟩ := h.2 i l a hl (Or.inl ha) c
      rcases (open_iff _).1 ho with h' | h'
      · exact h1 h'
      · exact h2 h'
    · obtain ⟨h1, h2⟩ := h.2 i l b hl (Or.inr hb) c
      rcases (open_iff _).1 ho with h' | h'
      · exact h1 h'
      · exact h2 h'

/-- **C84.** Writing an extracted plan back into the topology it was computed for
raises no exception, provided no CANDIDATE or PROPOSED sector or link is
attached to a site that has been ruled out. -/
theorem C84_apply_never_fails (ops : List Op) (p : OptParams) (adv : Arc → Bool) (x : Vars)
    (flow : Arc → ℚ) (common : Option ℚ) (sol : Solution) (cost : ℚ)
    (feas : (Plan.mk (run {} ops) p).SiteFeasible adv x)
    (h : (Plan.mk (run {} ops) p).extract x flow common = .ok (some (sol, cost)))
    (hno : NothingOpenOnRuledOut (run {} ops)) :
    ∃ t', updateWithSolution sol (run {} ops) = some (t', none) := by
  have inv : Topology.Inv (Plan.mk (run {} ops) p).t := Inv.empty.run ops
  obtain ⟨c1, c2, _, c4⟩ := C45_consistent ops p adv x flow common sol cost feas h
  have calm := calm_of inv hno
  obtain ⟨t1, h1, k1⟩ := apply_total calm (fun s => (c4 s).1) (fun k d hk hs => (c2 k d hk hs).1)
    (sol := sol) (fun i l hl hs => by
      have hm : l ∈ (run {} ops).links.vals := List.mem_map.2 ⟨(i, l), Dict.mem_of_get? _ hl, rfl⟩
      have hid : l.id = i := (inv.link_id i l hl).symm
      obtain ⟨h1, h2, _⟩ := c1 l hm (by rw [hid]; exact hs)
      exact ⟨h1, h2⟩)
  have inv1 : Topology.Inv t1 := by
    have := inv_applySolution sol inv
    rw [h1] at this; exact this
  obtain ⟨t2, h2, _⟩ := remove_total inv1 (calm.mono k1)
  refine ⟨t2, ?_⟩
  unfold updateWithSolution
  rw [h1]
  exact h2

theorem nodeCapex_of {t : Topology} {i : SiteId} {s : Site} (h : t.sites.get? i = some s) :
    t.nodeCapex i = s.device.nodeCapex := by unfold nodeCapex; rw [h]

/-- **C85, `_partial`.** Full statement (false of the code): after applying an
extracted plan, the proposed CAPEX reported for the topology is at most the
cost of the plan (hence at most the budget). Proved when no CANDIDATE or
PROPOSED sector is on an EXISTING site; missing: new sectors of existing
sites, which the plan does not pay for, see `C85_existing_site_violation`. -/
theorem C85_reported_capex_partial (ops : List Op) (p : OptParams) (adv : Arc → Bool) (x : Vars)
    (flow : Arc → ℚ) (common : Option ℚ) (sol : Solution) (cost : ℚ) (t' : Topology)
    (feas : (Plan.mk (run {} ops) p).SiteFeasible adv x)
    (h : (Plan.mk (run {} ops) p).extract x flow common = .ok (some (sol, cost)))
    (ha : updateWithSolution sol (run {} ops) = some (t', none))
    (hs : ∀ ty, 0 ≤ p.costs.of ty)
    (hn : ∀ s y, (run {} ops).sites.get? s = some y → 0 ≤ y.device.nodeCapex)
    (hex : ∀ k d s, (run {} ops).sectors.get? k = some d → (run {} ops).sites.get? d.site = some s →
      s.status = .existing → d.status ≠ .candidate ∧ d.status ≠ .proposed) :
    (t'.computeCapex p.costs).2 ≤ cost := by
  classical
  have inv : Topology.Inv (run {} ops) := Inv.empty.run ops
  rw [(C44_cost ops p adv x flow common sol cost feas h).1]
  unfold updateWithSolution at ha
  rcases hap : applySolution sol (run {} ops) with ⟨t1, e⟩
  have inv1 := inv_applySolution sol inv
  rw [hap] at ha inv1
  cases e with
  | some e => simp at ha
  | none =>
  change removeDisconnected t1 = some (t', none) at ha
  have inv' : Topology.Inv t' := inv_removeDisconnected inv1 ha
  have shr : Shrinks t1 t' := shrinks_removeDisconnected ha
  obtain ⟨a1, a2, _, _⟩ := C12_proposed_iff_decided sol _ _ hap
  -- sites of the result come from sites of the input
  have hsite : ∀ i v', t'.sites.get? i = some v' → ∃ v, (run {} ops).sites.get? i = some v ∧
      v'.siteType = v.siteType ∧ v'.device = v.device ∧
      (v'.status = .proposed → sol.site i = 1 ∧ v.status ≠ .existing) := by
    intro i v' hv'
    obtain ⟨w, hw, e1, e2, e3⟩ := shr.sites i v' hv'
    rw [a1] at hw
    cases hv : (run {} ops).sites.get? i with
    | none => rw [hv] at hw; cases hw
    | some v =>
      rw [hv] at hw; injection hw with hw; subst hw
      refine ⟨v, rfl, e1, e2, fun hp => ?_⟩
      have := e3 hp
      dsimp only at this
      unfold afterDecision at this
      split at this
      · rename_i ho
        constructor
        · by_contra hc; rw [if_neg hc] at this; cases this
        · intro hx; rw [hx] at ho; simp at ho
      · rename_i ho; exact absurd (Or.inr this) ho
  have hsector : ∀ i v', t'.sectors.get? i = some v' → ∃ v, (run {} ops).sectors.get? i = some v ∧
      v'.site = v.site ∧ v'.node = v.node ∧ (v'.status = .proposed → sol.sector i = 1 ∧
        (v.status = .candidate ∨ v.status = .proposed)) := by
    intro i v' hv'
    obtain ⟨w, hw, e1, e2, e3⟩ := shr.sectors i v' hv'
    rw [a2] at hw
    cases hv : (run {} ops).sectors.get? i with
    | none => rw [hv] at hw; cases hw
    | some v =>
      rw [hv] at hw; injection hw with hw; subst hw
      refine ⟨v, rfl, e1, e2, fun hp => ?_⟩
      have := e3 hp
      dsimp only at this
      unfold afterDecision at this
      split at this
      · rename_i ho
        refine ⟨?_, ho⟩
        by_contra hc; rw [if_neg hc] at this; cases this
      · rename_i ho; exact absurd (Or.inr this) ho
  have hcap : ∀ s, 0 ≤ (run {} ops).nodeCapex s := by
    intro s
    unfold nodeCapex
    split
    · rename_i y hy; exact hn s y hy
    · exact le_refl _
  have hcapeq : ∀ s v', t'.sites.get? s = some v' → t'.nodeCapex s = (run {} ops).nodeCapex s := by
    intro s v' hv'
    obtain ⟨v, hv, _, e, _⟩ := hsite s v' hv'
    rw [nodeCapex_of hv', nodeCapex_of hv, e]
  have hcap' : ∀ s, 0 ≤ t'.nodeCapex s := by
    intro s
    cases hv' : t'.sites.get? s with
    | none => unfold nodeCapex; rw [hv']
    | some v' => rw [hcapeq s v' hv']; exact hcap s
  refine (computeCapex_le t' p.costs hcap').trans ?_
  unfold costOf planCost
  rw [add_comm]
  refine add_le_add ?_ ?_
  · have hm : ((t'.sites.vals.filter (fun s => s.status = .proposed)).map
        (fun s => p.costs.of s.siteType)) =
        ((t'.sites.filter (fun e => decide (e.2.status = .proposed))).map
          fun e => p.costs.of e.2.siteType) := by
      unfold Dict.vals
      rw [List.filter_map, List.map_map]
      rfl
    rw [hm]
    refine Dict.filtered_sum_le inv.nd_sites inv'.nd_sites _ _ (fun s => p.costs.of s.siteType)
      (fun v => hs _) ?_
    intro k v' hv' hq
    obtain ⟨v, hv, e1, _, e3⟩ := hsite k v' hv'
    refine ⟨v, hv, ?_, by rw [e1]⟩
    simpa using e3 (by simpa using hq)
  · simp only [← nodeCapex_eq]
    have hsub : ∀ q ∈ nodesWith t' .proposed, q ∈ newNodes ⟨run {} ops, p⟩ sol ∧
        t'.nodeCapex q.1 = (run {} ops).nodeCapex q.1 := by
      intro q hq
      unfold nodesWith at hq
      simp only [List.mem_toFinset, List.mem_map, List.mem_filter, decide_eq_true_eq] at hq
      obtain ⟨v', ⟨hv', hp⟩, rfl⟩ := hq
      obtain ⟨⟨i, w⟩, hi, rfl⟩ := List.mem_map.1 hv'
      have hi := (Dict.mem_iff_get? inv'.nd_sectors _ _).1 hi
      obtain ⟨v, hv, e1, e2, e3⟩ := hsector i w hi
      obtain ⟨s', hs'⟩ := inv'.sector_site i w hi
      obtain ⟨s, hs2, _⟩ := hsite _ _ hs'
      refine ⟨?_, hcapeq _ _ hs'⟩
      unfold newNodes
      rw [List.mem_dedup, List.mem_map]
      refine ⟨(i, v), ?_, by rw [e1, e2]⟩
      rw [List.mem_filter]
      refine ⟨Dict.mem_of_get? _ hv, ?_⟩
      obtain ⟨k1, k2⟩ := e3 hp
      simp only [k1, decide_eq_true_eq, true_and]
      intro hc
      rw [e1] at hs2
      rw [hs2] at hc
      have := hex i v s hv hs2 (by simpa using hc)
      rcases k2 with k2 | k2
      · exact this.1 k2
      · exact this.2 k2
    rw [Finset.sum_congr rfl (fun q hq => (hsub q hq).2)]
    have hnd : (newNodes ⟨run {} ops, p⟩ sol).Nodup := List.nodup_dedup _
    rw [← List.sum_toFinset (fun q : SiteId × Nat => (run {} ops).nodeCapex q.1) hnd]
    refine Finset.sum_le_sum_of_subset_of_nonneg ?_ (fun q _ _ => hcap q.1)
    intro q hq
    exact List.mem_toFinset.2 (hsub q hq).1

/-- The demo network with the sector of the EXISTING POP marked EXISTING as well. -/
def planDemo2 : List Op := planDemo.map fun o => match o with
  | .addSector s => .addSector (if s.site = "P" then { s with status := .existing } else s)
  | o => o

theorem planDemo2_feasible :
    (Plan.mk (run {} planDemo2) planDemoParams).SiteFeasible (fun _ => false) planDemoVars :=
  Plan.Check.sound (by decide +kernel)

/-- The hypotheses of C84 and C85 hold of the second demo: a plan is extracted and
applied, and the reported proposed CAPEX is its cost, 78. -/
example :
    let P : Plan := ⟨run {} planDemo2, planDemoParams⟩
    P.SiteFeasible (fun _ => false) planDemoVars ∧ NothingOpenOnRuledOut P.t ∧
    ∃ sol t', P.extract planDemoVars planDemoVars.flow none = .ok (some (sol, 78)) ∧
      updateWithSolution sol P.t = some (t', none) ∧
      (∀ k d s, P.t.sectors.get? k = some d → P.t.sites.get? d.site = some s →
        s.status = .existing → d.status ≠ .candidate ∧ d.status ≠ .proposed) ∧
      (t'.computeCapex planDemoParams.costs).2 = 78 := by
  refine ⟨planDemo2_feasible, ⟨?_, ?_⟩,
    Plan.extracted ⟨run {} planDemo2, planDemoParams⟩ planDemoVars planDemoVars.flow,
    (updateWithSolution (Plan.extracted ⟨run {} planDemo2, planDemoParams⟩ planDemoVars planDemoVars.flow)
      (run {} planDemo2)).getD ({}, none) |>.1, ?_, by decide +kernel, ?_, by decide +kernel⟩
  · have h : ∀ e ∈ (run {} planDemo2).sites, e.2.status ≠ .unavailable ∧ e.2.status ≠ .unreachable := by
      decide +kernel
    intro k d s _ hs hc
    have := h _ (Dict.mem_of_get? _ hs)
    rcases hc with hc | hc
    · exact absurd hc this.1
    · exact absurd hc this.2
  · have h : ∀ e ∈ (run {} planDemo2).sites, e.2.status ≠ .unavailable ∧ e.2.status ≠ .unreachable := by
      decide +kernel
    intro k d s _ hs hc
    rcases hs with hs | hs
    all_goals
      have := h _ (Dict.mem_of_get? _ hs)
      rcases hc with hc | hc
      · exact absurd hc this.1
      · exact absurd hc this.2
  · unfold Plan.extract
    rw [if_neg (by decide +kernel), if_neg (by decide +kernel), if_neg (by decide +kernel)]
    show Except.ok (some (_, _)) = Except.ok (some (_, _))
    congr 3
    decide +kernel
  · have h : ∀ e ∈ (run {} planDemo2).sectors,
        ((run {} planDemo2).sites.get? e.2.site).map (·.status) = some .existing →
        e.2.status ≠ .candidate ∧ e.2.status ≠ .proposed := by decide +kernel
    intro k d s hk hs hc
    refine h _ (Dict.mem_of_get? _ hk) ?_
    change ((run {} planDemo2).sites.get? d.site).map (·.status) = some .existing
    change (run {} planDemo2).sites.get? d.site = some s at hs
    rw [hs, Option.map_some, hc]

/-- Applying the plan of the demo, whose cost 78 is within the budget of 85, gives
a topology for which a proposed CAPEX of 178 is reported: the CANDIDATE sector
of the EXISTING POP becomes PROPOSED and its node is charged. -/
theorem C85_existing_site_violation :
    ∃ (ops : List Op) (p : OptParams) (x : Vars) (sol : Solution) (t' : Topology),
      (Plan.mk (run {} ops) p).setupErr = none ∧
      (Plan.mk (run {} ops) p).SiteFeasible (fun _ => false) x ∧
      (Plan.mk (run {} ops) p).CostConstraint 1 x ∧
      (Plan.mk (run {} ops) p).extract x x.flow none = .ok (some (sol, 78)) ∧
      updateWithSolution sol (run {} ops) = some (t', none) ∧
      p.budget = 85 ∧ (t'.computeCapex p.costs).2 = 178 := by
  refine ⟨planDemo, planDemoParams, planDemoVars,
    Plan.extracted ⟨run {} planDemo, planDemoParams⟩ planDemoVars planDemoVars.flow,
    (updateWithSolution (Plan.extracted ⟨run {} planDemo, planDemoParams⟩ planDemoVars planDemoVars.flow)
      (run {} planDemo)).getD ({}, none) |>.1, planDemo_ok, planDemo_feasible,
      by unfold Plan.CostConstraint; decide +kernel, ?_, ?_, rfl, ?_⟩
  · unfold Plan.extract
    rw [if_neg (by decide +kernel), if_neg (by decide +kernel), if_neg (by decide +kernel)]
    show Except.ok (some (_, _)) = Except.ok (some (_, _))
    congr 3
    decide +kernel
  · decide +kernel
  · decide +kernel

end Verif
