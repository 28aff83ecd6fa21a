import Verif.Model.Phases
import Verif.Props.Ilp3
import Verif.Props.Extract3
import Verif.Props.PopCapacity

/-! # C50: giving up before solving -/

namespace Verif
open Topology Spec

namespace Plan
variable {P : Plan}

theorem mem_popIds_iff (nd : P.t.sites.NodupKeys) {p : SiteId} :
    p ∈ P.t.popIds (fun _ => true) ↔ ∃ s, P.t.sites.get? p = some s ∧ s.siteType = .pop := by
  rw [mem_allPopIds _ nd]
  simp only [Option.map_eq_some_iff]

theorem popIds_nodup (nd : P.t.sites.NodupKeys) : (P.t.popIds (fun _ => true)).Nodup := by
  unfold popIds
  exact nd.sublist (List.Sublist.map _ List.filter_sublist)

/-- What leaves the source goes to the POPs. -/
theorem outFlow_source (nd : P.t.sites.NodupKeys) (f : Arc → ℚ) :
    P.outFlow f .source =
      ((P.t.popIds (fun _ => true)).map (fun p => f (.source, .site p))).sum := by
  have : (P.t.popIds (fun _ => true)).map (fun p => f (.source, .site p)) =
      ((P.t.popIds (fun _ => true)).map (fun p => ((Loc.source, Loc.site p) : Arc))).map f := by
    rw [List.map_map]; rfl
  rw [this]
  unfold outFlow
  apply sum_perm
  · exact arcs_nodup.filter _
  · exact (List.nodup_map_iff (fun _ _ e => by injection e with _ e; injection e)).2
      (popIds_nodup nd)
  · rintro ⟨a, b⟩
    simp only [mem_outgoing, List.mem_map, mem_popIds_iff nd]
    constructor
    · rintro ⟨h, rfl⟩
      rcases mem_arcs.1 h with ⟨s, x, h1, h2, h3⟩ | ⟨_, _, _, _, _, _, _, h⟩ | ⟨l, _, h⟩
      · injection h3 with _ h3
        exact ⟨s, ⟨x, (Dict.mem_iff_get? nd _ _).1 h1, h2⟩, by rw [h3]⟩
      · simp at h
      · simp at h
    · rintro ⟨p, ⟨s, h1, h2⟩, h3⟩
      injection h3 with h3 h4
      subst h3 h4
      exact ⟨mem_arcs.2 (Or.inl ⟨p, s, Dict.mem_of_get? _ h1, h2, rfl⟩), rfl⟩

/-- What leaves a site without demand goes over its links. -/
theorem outFlow_site (inv : P.t.Inv) (f : Arc → ℚ) {p : SiteId}
    (hno : ∀ d ∈ P.t.demandSites.vals, p ∉ d.connected) :
    P.outFlow f (.site p) =
      ((P.t.links.vals.filter (fun l => l.tx = p)).map (fun l => f (arcOf l))).sum := by
  have : (P.t.links.vals.filter (fun l => l.tx = p)).map (fun l => f (arcOf l)) =
      ((P.t.links.vals.filter (fun l => l.tx = p)).map arcOf).map f := by
    rw [List.map_map]; rfl
  rw [this]
  unfold outFlow
  apply sum_perm
  · exact arcs_nodup.filter _
  · rw [List.nodup_map_iff_inj_on ((link_vals_nodup inv).filter _)]
    intro a ha b hb e
    exact arcOf_inj inv (List.mem_filter.1 ha).1 (List.mem_filter.1 hb).1 e
  · rintro ⟨a, b⟩
    simp only [mem_outgoing, List.mem_map, List.mem_filter, decide_eq_true_eq]
    constructor
    · rintro ⟨h, rfl⟩
      rcases mem_arcs.1 h with ⟨s, x, h1, h2, h3⟩ | ⟨id, d, k, s, h1, _, h3, h⟩ | ⟨l, hl, h⟩
      · simp at h3
      · injection h with h4 _
        injection h4 with h4
        subst h4
        exact absurd h3 (hno d (List.mem_map.2 ⟨_, h1, rfl⟩))
      · injection h with h4 h5
        injection h4 with h4
        exact ⟨l, ⟨hl, h4.symm⟩, by unfold arcOf; rw [h4, h5]⟩
    · rintro ⟨l, ⟨hl, rfl⟩, h⟩
      refine ⟨h ▸ arcOf_mem hl, ?_⟩
      unfold arcOf at h
      injection h with h _
      exact h.symm

end Plan

/-- **C50 (partial).** If the cost phase gives up because of POP capacity, no plan
satisfies the constraints and the coverage target. Missing: demand sites connected
directly to a POP, UNAVAILABLE or UNREACHABLE POPs with `always_active_pops`, links
out of POPs whose sectors belong to other sites, and `maximize_common_bandwidth`;
for the first two and the last see the violations below. -/
theorem C50_early_exit_partial (ops : List Op) (p : OptParams) (adv : Arc → Bool)
    (ok : (Plan.mk (run {} ops) p).setupErr = none) (h0 : 0 ≤ p.popCapacity)
    (hc : ∀ l ∈ (run {} ops).links.vals, 0 ≤ l.capacity)
    (hdem : ∀ d ∈ (run {} ops).demandSites.vals, ∀ s ∈ d.connected, ∀ y,
      (run {} ops).sites.get? s = some y → y.siteType ≠ .pop)
    (hsec : ∀ l ∈ (run {} ops).links.vals, ∀ y, (run {} ops).sites.get? l.tx = some y →
      y.siteType = .pop → SectorsInPlace (run {} ops) l)
    (hpop : p.alwaysActivePops = true → ∀ s y, (run {} ops).sites.get? s = some y →
      y.siteType = .pop → y.status ≠ .unavailable ∧ y.status ≠ .unreachable)
    (exit : (Plan.mk (run {} ops) p).minCostExit = true) :
    ¬ ∃ x, (Plan.mk (run {} ops) p).SiteFeasible adv x ∧
      (Plan.mk (run {} ops) p).Coverage none x := by
  rintro ⟨x, feas, hcov⟩
  let P : Plan := ⟨run {} ops, p⟩
  have inv : P.t.Inv := Inv.empty.run ops
  obtain ⟨b1, _, _, b4⟩ := C39_flow_bookkeeping ops p adv x ok feas
  obtain ⟨cap, wired, time, idle⟩ := C41_capacity_and_time ops p adv x ok feas
  have hpopd : ∀ s y, P.t.sites.get? s = some y → y.siteType = .pop →
      ∀ d ∈ P.t.demandSites.vals, s ∉ d.connected :=
    fun s y h1 h2 d hd hs => hdem d hd s hs y h1 h2
  let isP : SiteId → Prop := fun s => ∃ y, P.t.sites.get? s = some y ∧ y.siteType = .pop
  classical
  let flow : Link → ℚ := fun l => if isP l.tx then x.flow (arcOf l) else 0
  let share : Link → ℚ := fun l => if isP l.tx ∧ l.isWireless = true then x.tdm (arcOf l) 0 else 0
  have hpl : ∀ l, l ∈ popLinks P.t ↔ l ∈ P.t.links.vals ∧ isP l.tx := by
    intro l
    unfold popLinks
    simp only [List.mem_filter, decide_eq_true_eq, Option.map_eq_some_iff, isP]
  have lim : FlowLimits P.t P.p.popCapacity StatusType.reachable flow share := by
    refine ⟨?_, ?_, ?_, ?_, ?_, ?_⟩
    · intro l hl hu
      by_contra c
      have hip : isP l.tx := by by_contra h; exact c (if_neg h)
      have hf : x.flow (arcOf l) ≠ 0 := by simpa only [flow, if_pos hip] using c
      apply hu
      have hina : P.inactiveArc (arcOf l) = false := by
        rw [Bool.eq_false_iff]
        intro h
        exact hf (feas.inactiveFlow _ (Plan.arcOf_mem hl) h)
      unfold Plan.inactiveArc at hina
      rw [Plan.linkOf_arcOf inv hl] at hina
      simp only [Option.any_some, Bool.or_eq_false_iff, Bool.and_eq_false_iff] at hina
      have hend : ∀ s y, P.t.sites.get? s = some y → (l.tx = s ∨ l.rx = s) →
          StatusType.reachable y.status = true := by
        intro s y hy hs
        by_contra h
        have hst : y.status = .unavailable ∨ y.status = .unreachable := by
          cases e : y.status <;> rw [e] at h <;> simp [StatusType.reachable] at h ⊢
        have hz := (C51_decided_sites_partial ops p adv x feas s y hy).1 hst (by
          rintro ⟨h1, h2⟩
          have := hpop h1 s y hy h2
          rcases hst with h | h
          · exact this.1 h
          · exact this.2 h)
        refine hf (idle s ((Dict.mem_keys_iff _ _).2 ⟨y, hy⟩) hz _ (Plan.arcOf_mem hl) ?_)
        unfold arcOf
        rcases hs with h | h
        · left; rw [h]
        · right; rw [h]
      obtain ⟨id, hid⟩ : ∃ id, P.t.links.get? id = some l := by
        obtain ⟨⟨id, l'⟩, h1, rfl⟩ := List.mem_map.1 hl
        exact ⟨id, (Dict.mem_iff_get? inv.nd_links _ _).1 h1⟩
      obtain ⟨y1, hy1⟩ := inv.link_tx _ _ hid
      obtain ⟨y2, hy2⟩ := inv.link_rx _ _ hid
      refine ⟨?_, ⟨y1, hy1, hend _ y1 hy1 (Or.inl rfl)⟩, ⟨y2, hy2, hend _ y2 hy2 (Or.inr rfl)⟩, ?_⟩
      · have := hina.1
        cases e : l.status <;> rw [e] at this <;> simp [StatusType.inactive] at this <;>
          simp [StatusType.reachable]
      · intro hw
        rcases hina.2 with h | h
        · rw [hw] at h; cases h
        · cases e : l.sectors with
          | none => rw [e] at h; cases h
          | some _ => rfl
    · intro l hl
      simp only [share]
      split
      · rename_i h
        exact (cap l hl h.2).2.1
      · exact le_refl 0
    · intro l hl hw
      simp only [flow]
      split
      · exact wired l hl hw
      · exact hc l hl
    · intro l hl hw
      by_cases h : isP l.tx
      · simp only [flow, share, if_pos h, if_pos (show isP l.tx ∧ l.isWireless = true from ⟨h, hw⟩)]
        have := (cap l hl hw).1
        rw [mul_comm] at this
        exact this
      · simp only [flow, share, if_neg h]
        rw [if_neg (fun a => h a.1)]
        simp
    · intro k
      by_cases hk : ∃ l ∈ P.t.links.vals, isP l.tx ∧ l.isWireless = true ∧
          l.sectors.map Prod.fst = some k
      · obtain ⟨l, hl, ⟨y, hy1, hy2⟩, hw, hls⟩ := hk
        have place : ∀ l ∈ P.t.links.vals, isP l.tx → l.sectors.map Prod.fst = some k →
            ∃ d, P.t.sectors.get? k = some d ∧ d.site = l.tx := by
          rintro l hl ⟨y, hy1, hy2⟩ hls
          cases e : l.sectors with
          | none => rw [e] at hls; cases hls
          | some ab =>
            obtain ⟨a, b⟩ := ab
            rw [e] at hls
            simp only [Option.map_some, Option.some.injEq] at hls
            subst hls
            exact (hsec l hl y hy1 hy2 _ _ e).1
        obtain ⟨d, hd1, hd2⟩ := place l hl ⟨y, hy1, hy2⟩ hls
        obtain ⟨t1, _, t3⟩ := time k d hd1
        have hle : x.site d.site ≤ 1 := by rcases t3 with h | h <;> rw [h]; norm_num
        refine le_trans ?_ (t1.trans hle)
        unfold sentBy
        rw [sum_filter_ite, sum_filter_ite]
        apply List.sum_le_sum
        intro m hm
        by_cases c1 : m.isWireless = true ∧ m.sectors.map Prod.fst = some k
        · by_cases c2 : isP m.tx
          · obtain ⟨d', e1, e2⟩ := place m hm c2 c1.2
            rw [hd1] at e1
            injection e1 with e1
            subst e1
            rw [if_pos (by simpa using c1), if_pos (by rw [decide_eq_true_eq]; exact ⟨e2.symm, c1.1, c1.2⟩)]
            simp only [share, if_pos (show isP m.tx ∧ m.isWireless = true from ⟨c2, c1.1⟩), le_refl]
          · have : share m = 0 := if_neg (fun a => c2 a.1)
            rw [this]
            simp only [ite_self]
            split
            · rename_i h
              simp only [decide_eq_true_eq] at h
              exact (cap m hm c1.1).2.1
            · exact le_refl 0
        · rw [if_neg (by simpa using c1)]
          split
          · rename_i h
            simp only [decide_eq_true_eq] at h
            exact absurd h.2 c1
          · exact le_refl 0
      · have : ((run {} ops).links.vals.filter (fun l => l.isWireless = true ∧
            l.sectors.map Prod.fst = some k)).map share =
            ((run {} ops).links.vals.filter (fun l => l.isWireless = true ∧
            l.sectors.map Prod.fst = some k)).map (fun _ => 0) := by
          apply List.map_congr_left
          intro l hl
          obtain ⟨h1, h2⟩ := List.mem_filter.1 hl
          simp only [decide_eq_true_eq] at h2
          exact if_neg (fun a => hk ⟨l, h1, a.1, h2.1, h2.2⟩)
        rw [this]
        simp
    · intro q
      by_cases hq : isP q
      · obtain ⟨y, hy1, hy2⟩ := hq
        have e : (P.t.links.vals.filter (fun l => l.tx = q)).map flow =
            (P.t.links.vals.filter (fun l => l.tx = q)).map (fun l => x.flow (arcOf l)) := by
          apply List.map_congr_left
          intro l hl
          have : l.tx = q := by simpa using (List.mem_filter.1 hl).2
          exact if_pos ⟨y, this ▸ hy1, hy2⟩
        show ((P.t.links.vals.filter (fun l => l.tx = q)).map flow).sum ≤ _
        rw [e, ← Plan.outFlow_site inv x.flow (hpopd q y hy1 hy2)]
        by_cases co : P.outgoing (.site q) = []
        · rw [Plan.outFlow_nil co]; exact h0
        · refine feas.popLoad q ((Dict.mem_keys_iff _ _).2 ⟨y, hy1⟩) ?_ co
          unfold Plan.isPop
          rw [Plan.siteType?_of hy1, hy2]; rfl
      · have : (P.t.links.vals.filter (fun l => l.tx = q)).map flow =
            (P.t.links.vals.filter (fun l => l.tx = q)).map (fun _ => 0) := by
          apply List.map_congr_left
          intro l hl
          have : l.tx = q := by simpa using (List.mem_filter.1 hl).2
          exact if_neg (this ▸ hq)
        show ((P.t.links.vals.filter (fun l => l.tx = q)).map flow).sum ≤ _
        rw [this]
        simpa using h0
  have hb := C15_pop_capacity_bound ops P.p.popCapacity StatusType.reachable flow share hc lim
  have hsum : ((popLinks P.t).map flow).sum =
      ((P.t.popIds (fun _ => true)).map (fun q => P.outFlow x.flow (.site q))).sum := by
    rw [sum_partition (popLinks P.t) (fun l => l.tx) flow _ (Plan.popIds_nodup inv.nd_sites) (by
      intro l hl
      exact (Plan.mem_popIds_iff inv.nd_sites).2 ((hpl l).1 hl).2)]
    congr 1
    apply List.map_congr_left
    intro q hq
    obtain ⟨y, hy1, hy2⟩ := (Plan.mem_popIds_iff inv.nd_sites).1 hq
    rw [Plan.outFlow_site inv x.flow (hpopd q y hy1 hy2)]
    have e : (popLinks P.t).filter (fun l => l.tx = q) =
        P.t.links.vals.filter (fun l => l.tx = q) := by
      unfold popLinks
      rw [List.filter_filter]
      apply List.filter_congr
      intro l _
      by_cases c : l.tx = q
      · subst c; simp [hy1, hy2]
      · simp [c]
    rw [e]
    congr 1
    apply List.map_congr_left
    intro l hl
    have : l.tx = q := by simpa using (List.mem_filter.1 hl).2
    exact if_pos ⟨y, this ▸ hy1, hy2⟩
  have hsrc : leaving P x.flow .source ≤
      ((P.t.popIds (fun _ => true)).map (fun q => P.outFlow x.flow (.site q))).sum := by
    show P.outFlow x.flow .source ≤ _
    rw [Plan.outFlow_source inv.nd_sites]
    apply List.sum_le_sum
    intro q hq
    obtain ⟨y, hy1, hy2⟩ := (Plan.mem_popIds_iff inv.nd_sites).1 hq
    have ha : (Loc.source, Loc.site q) ∈ P.arcs :=
      Plan.mem_arcs.2 (Or.inl ⟨q, y, Dict.mem_of_get? _ hy1, hy2, rfl⟩)
    have h1 := Plan.flow_le_inFlow feas.bounds.flow ha
    have h2 := b4 q ((Dict.mem_keys_iff _ _).2 ⟨y, hy1⟩)
    change P.inFlow x.flow (.site q) = P.outFlow x.flow (.site q) at h2
    rw [← h2]; exact h1
  have htot : (P.demands.map P.demandAt).sum = totalDemand P := Plan.demands_sum inv.nd_demand
  have hsh : totalShortage P x ≤ (1 - p.coverage) * totalDemand P := by
    by_cases c : P.demands = []
    · rw [← htot]; unfold totalShortage; rw [c]; simp
    · have := hcov c
      rw [← htot]; exact this
  have hex : P.t.maxPopCapacity P.p.popCapacity StatusType.reachable <
      P.maxThroughput * P.p.coverage := by
    unfold Plan.minCostExit at exit
    exact of_decide_eq_true exit
  have hmt : P.maxThroughput = totalDemand P := htot
  rw [hmt] at hex
  change leaving P x.flow .source = totalDemand P - totalShortage P x at b1
  change ((popLinks P.t).map flow).sum ≤ P.t.maxPopCapacity P.p.popCapacity StatusType.reachable at hb
  have : P.p.coverage = p.coverage := rfl
  rw [this] at hex
  linarith [mul_comm (totalDemand P) p.coverage, hsum]

/-- The demo network with a thin link out of the POP. -/
def thinDemo : List Op := planDemo.map fun o => match o with
  | .addLink l => .addLink (if l.tx = "P" then { l with capacity := 1/2 } else l)
  | o => o

/-- The hypotheses of `C50_early_exit_partial` hold on the demo network with a thin
link out of the POP: 1/2 can leave it, 1 is to be covered. -/
example :
    let P : Plan := ⟨run {} thinDemo, planDemoParams⟩
    P.setupErr = none ∧ P.minCostExit = true ∧
    (∀ l ∈ P.t.links.vals, 0 ≤ l.capacity) ∧ P.t.links.vals.length = 3 ∧
    (∀ d ∈ P.t.demandSites.vals, ∀ s ∈ d.connected,
      (P.t.sites.get? s).any (fun y => y.siteType == .pop) = false) ∧
    (∀ l ∈ P.t.links.vals, l.tx = "P" → l.sectors.any (fun q =>
      (P.t.sectors.get? q.1).any (fun d => d.site == l.tx) &&
      (P.t.sectors.get? q.2).any (fun d => d.site == l.rx)) = true) ∧
    P.t.popIds (fun _ => true) = ["P"] ∧
    (∃ y, P.t.sites.get? "P" = some y ∧ y.status = .existing) ∧
    P.t.maxPopCapacity 10 StatusType.reachable = 1/2 ∧ P.maxThroughput * P.p.coverage = 1 := by
  intro P
  exact ⟨by decide +kernel, by decide +kernel, by decide +kernel, by decide +kernel,
    by decide +kernel, by decide +kernel, by decide +kernel, ⟨_, rfl, rfl⟩, by decide +kernel,
    by decide +kernel⟩

/-- A POP with a demand site attached to it. -/
def directDemo : List Op := [
  .addSite { id := "P", siteType := .pop, status := .existing } false,
  .addDemandSite { id := "a", connected := ["P"], demand := some 1 }]

/-- **C50 (violation).** The cost phase gives up although the POP serves its demand
site directly and a plan without shortage exists. -/
theorem C50_direct_demand_violation :
    let P : Plan := ⟨run {} directDemo, { popCapacity := 10, costs := ⟨0, 0, 0⟩ }⟩
    P.setupErr = none ∧ P.minCostExit = true ∧
    ∃ x, P.SiteFeasible (fun _ => false) x ∧ P.Coverage none x ∧ totalShortage P x = 0 := by
  intro P
  exact ⟨by decide +kernel, by decide +kernel,
    ⟨fun _ => 1, fun _ _ => 1, fun _ => 1, fun _ _ => 0, fun _ => 0, fun _ => 0⟩,
    Plan.Check.sound (by decide +kernel), by unfold Plan.Coverage; decide +kernel, by decide +kernel⟩

/-- An UNAVAILABLE POP with a radio link to a CN that has a demand site. -/
def offPopDemo : List Op := [
  .addSite { id := "U", siteType := .pop, status := .unavailable } false,
  .addSite { id := "C", siteType := .cn, status := .candidate, lat := 1 } false,
  .addSector { site := "U", node := 0, pos := 0 },
  .addSector { site := "C", node := 0, pos := 0, typ := .cn },
  .addLink { tx := "U", rx := "C", capacity := 5,
             sectors := some (⟨"U", 0, 0, .dn⟩, ⟨"C", 0, 0, .cn⟩) },
  .addDemandSite { id := "a", connected := ["C"], demand := some 1 }]

/-- **C50 (violation).** The cost phase does not count the capacity of an UNAVAILABLE
POP, but the constraints let it serve the demand when POPs are always active. -/
theorem C50_unavailable_pop_violation :
    let P : Plan := ⟨run {} offPopDemo, { popCapacity := 10, costs := ⟨0, 0, 0⟩ }⟩
    P.setupErr = none ∧ P.minCostExit = true ∧
    ∃ x, P.SiteFeasible (fun _ => false) x ∧ P.Coverage none x ∧ totalShortage P x = 0 := by
  intro P
  exact ⟨by decide +kernel, by decide +kernel,
    ⟨fun _ => 1, fun _ _ => 1, fun _ => 1, fun _ _ => 1/5, fun _ => 0, fun _ => 0⟩,
    Plan.Check.sound (by decide +kernel), by unfold Plan.Coverage; decide +kernel, by decide +kernel⟩

/-- Two demand sites, one asking for much more than the other, behind a cable of
capacity 2. -/
def unevenDemo : List Op := [
  .addSite { id := "P", siteType := .pop, status := .existing } false,
  .addSite { id := "D", siteType := .dn, status := .candidate, lat := 1 } false,
  .addLink { tx := "P", rx := "D", capacity := 2, isWireless := false },
  .addLink { tx := "D", rx := "P", capacity := 2, isWireless := false },
  .addDemandSite { id := "a", connected := ["D"], demand := some 1 },
  .addDemandSite { id := "b", connected := ["D"], demand := some 10 }]

/-- **C50 (violation).** With `maximize_common_bandwidth` the coverage target is a
fraction of the smallest demand at every demand site, but the cost phase gives up
when that fraction of the total demand does not fit. Here full coverage is feasible. -/
theorem C50_common_bandwidth_violation :
    let P : Plan := ⟨run {} unevenDemo, { popCapacity := 10, costs := ⟨0, 0, 0⟩ }⟩
    P.setupErr = none ∧ P.minCostExit = true ∧
    ∃ x, P.SiteFeasible (fun _ => false) x ∧
      P.Coverage (some [.demand "a" 0, .demand "b" 0]) x ∧
      arriving P x.flow (.demand "a" 0) = 1 ∧ arriving P x.flow (.demand "b" 0) = 1 := by
  intro P
  refine ⟨by decide +kernel, by decide +kernel,
    ⟨fun _ => 1, fun _ _ => 1, fun e => if e.1 = .source ∨ e = (.site "P", .site "D") then 2
      else if e.2 = .site "P" then 0 else 1,
      fun _ _ => 0, fun _ => 0, fun l => if l = .demand "b" 0 then 9 else 0⟩,
    Plan.Check.sound (by decide +kernel), ?_, by decide +kernel, by decide +kernel⟩
  intro _
  dsimp only
  intro m hm
  have e : pyMin ((P.locations.filter [Loc.demand "a" 0, Loc.demand "b" 0].contains).map
    P.demandAt) = some 1 := by decide +kernel
  rw [e] at hm
  injection hm with hm
  subst hm
  decide +kernel

namespace Plan
variable {P : Plan}

theorem asked_eq {l : Loc} (hl : l ∈ P.demands) : asked P l = P.demandAt l := by
  obtain ⟨id, d, k, _, _, rfl⟩ := mem_demands.1 hl
  unfold asked demandAt
  dsimp only
  cases P.t.demandSites.get? id with
  | none => simp
  | some d => rfl

theorem arriving_demand (inv : P.t.Inv) (r : P.Ready) {x : Vars}
    (hsh : ∀ l ∈ P.demands, 0 ≤ x.shortage l ∧ x.shortage l ≤ P.demandAt l)
    (hb : P.FlowBalance x) {l : Loc} (hl : l ∈ P.demands) :
    arriving P x.flow l = P.demandAt l - x.shortage l := by
  have := balance_all inv.nd_sites inv.nd_demand r hsh hb l (mem_locations.2 (Or.inr (Or.inr hl)))
  obtain ⟨i, d, k, _, _, rfl⟩ := mem_demands.1 hl
  rw [outFlow_nil outgoing_demand] at this
  simp only [balanceRhs, sub_zero] at this
  exact this

end Plan

/-- **C86.** In every feasible plan of the cost phase the demand sites together
receive at least the coverage fraction of the total demand. -/
theorem C86_coverage_met (ops : List Op) (p : OptParams) (adv : Arc → Bool) (x : Vars)
    (ok : (Plan.mk (run {} ops) p).setupErr = none)
    (feas : (Plan.mk (run {} ops) p).SiteFeasible adv x)
    (cov : (Plan.mk (run {} ops) p).Coverage none x) :
    let P : Plan := ⟨run {} ops, p⟩
    p.coverage * totalDemand P ≤ (P.demands.map (arriving P x.flow)).sum := by
  intro P
  have inv : P.t.Inv := Inv.empty.run ops
  obtain ⟨_, b2, _, _⟩ := C39_flow_bookkeeping ops p adv x ok feas
  have htot : (P.demands.map P.demandAt).sum = totalDemand P := Plan.demands_sum inv.nd_demand
  have hsh : totalShortage P x ≤ (1 - p.coverage) * totalDemand P := by
    by_cases c : P.demands = []
    · rw [← htot]; unfold totalShortage; rw [c]; simp
    · have := cov c
      rw [← htot]; exact this
  change (P.demands.map (arriving P x.flow)).sum = totalDemand P - totalShortage P x at b2
  rw [b2]
  linarith

/-- **C86**, with `maximize_common_bandwidth`: every connectable demand location
receives at least the coverage fraction of what the least demanding one asks for. -/
theorem C86_common_coverage_met (ops : List Op) (p : OptParams) (adv : Arc → Bool) (x : Vars)
    (ok : (Plan.mk (run {} ops) p).setupErr = none)
    (feas : (Plan.mk (run {} ops) p).SiteFeasible adv x) (conn : List Loc)
    (hconn : ∀ l ∈ conn, l ∈ (Plan.mk (run {} ops) p).demands)
    (cov : (Plan.mk (run {} ops) p).Coverage (some conn) x) :
    let P : Plan := ⟨run {} ops, p⟩
    ∀ l0 ∈ conn, (∀ l ∈ conn, asked P l0 ≤ asked P l) →
      ∀ l ∈ conn, p.coverage * asked P l0 ≤ arriving P x.flow l := by
  intro P l0 h0 hmin l hl
  have inv : P.t.Inv := Inv.empty.run ops
  have hne : P.demands ≠ [] := List.ne_nil_of_mem (hconn l hl)
  have hloc : ∀ l ∈ conn, l ∈ P.locations := fun l hl =>
    Plan.mem_locations.2 (Or.inr (Or.inr (hconn l hl)))
  have hm : pyMin ((P.locations.filter conn.contains).map P.demandAt) = some (asked P l0) := by
    rw [pyMin_iff]
    constructor
    · exact List.mem_map.2 ⟨l0, List.mem_filter.2 ⟨hloc l0 h0, by simpa using h0⟩,
        (Plan.asked_eq (hconn l0 h0)).symm⟩
    · intro b hb
      obtain ⟨l', h', rfl⟩ := List.mem_map.1 hb
      have h'' : l' ∈ conn := by simpa using (List.mem_filter.1 h').2
      rw [← Plan.asked_eq (hconn l' h'')]
      exact hmin l' h''
  have := cov hne _ hm l (hloc l hl) hl
  rw [Plan.arriving_demand inv (Plan.ready ok) feas.bounds.shortage feas.flowBalance (hconn l hl)]
  exact this

/-- The demo plan covers 2/3 of the demand of 3/2. -/
example :
    let P : Plan := ⟨run {} planDemo, planDemoParams⟩
    P.setupErr = none ∧ P.SiteFeasible (fun _ => false) planDemoVars ∧
    P.Coverage none planDemoVars ∧ P.Coverage (some [.demand "q" 0]) planDemoVars ∧
    (P.demands.map (arriving P planDemoVars.flow)).sum = 1 ∧ P.p.coverage * totalDemand P = 1 :=
  ⟨planDemo_ok, planDemo_feasible, by unfold Plan.Coverage; decide +kernel, by
    intro _ m hm
    have e : pyMin (((Plan.mk (run {} planDemo) planDemoParams).locations.filter
      [Loc.demand "q" 0].contains).map (Plan.mk (run {} planDemo) planDemoParams).demandAt) =
      some (3/2) := by decide +kernel
    rw [e] at hm
    injection hm with hm
    subst hm
    decide +kernel, by decide +kernel, by decide +kernel⟩

end Verif
