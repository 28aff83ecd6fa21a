import Verif.Model.MaxFlow
import Verif.Props.Ilp2
import Verif.Props.Phases

/-! # C49, C88: the routing shown in the report -/

namespace Verif
open Topology Spec

namespace Plan
variable {P : Plan} {conn : List Loc} {b : ℚ} {x : Vars}

/-- A location that absorbs flow is reachable from the source over links that
carry flow, if no other location than the source creates flow. -/
theorem reach_of_net (hs : P.t.sites.NodupKeys) (hd : P.t.demandSites.NodupKeys) (r : P.Ready)
    {f : Arc → ℚ} (hf : ∀ e ∈ P.arcs, 0 ≤ f e)
    (hn : ∀ v ∈ P.locations, v ≠ .source → 0 ≤ P.inFlow f v - P.outFlow f v)
    {l : Loc} (hl : l ∈ P.locations) (hpos : 0 < P.inFlow f l - P.outFlow f l) :
    Relation.ReflTransGen (Carries P f) .source l := by
  classical
  by_contra c
  have nd := locations_nodup hs hd
  let U : Loc → Prop := fun v => ¬ Relation.ReflTransGen (Carries P f) .source v
  have hc := cut_sum r nd f U
  have hle : (P.arcs.map (fun e => (if U e.2 then f e else 0) -
      (if U e.1 then f e else 0))).sum ≤ 0 := by
    apply sum_le_zero
    intro e he
    have h0 := hf e he
    by_cases c2 : U e.2
    · by_cases c1 : U e.1
      · simp [c1, c2]
      · have hr : Relation.ReflTransGen (Carries P f) .source e.1 := by
          by_contra h; exact c1 h
        have : ¬ 0 < f e := fun hp => c2 (hr.tail ⟨he, hp⟩)
        simp only [c2, c1, if_true, if_false]
        linarith
    · simp only [c2, if_false]
      split <;> linarith
  have hge : 0 < ((P.locations.filter (fun v => U v)).map
      (fun v => P.inFlow f v - P.outFlow f v)).sum := by
    refine lt_of_lt_of_le hpos ?_
    apply List.single_le_sum
    · intro y hy
      obtain ⟨v, hv, rfl⟩ := List.mem_map.1 hy
      rw [List.mem_filter] at hv
      refine hn v hv.1 ?_
      rintro rfl
      exact absurd Relation.ReflTransGen.refl (by simpa [U] using hv.2)
    · exact List.mem_map.2 ⟨l, List.mem_filter.2 ⟨hl, by simpa [U] using c⟩, rfl⟩
  rw [hc] at hge
  linarith

theorem isActive_iff {s : SiteId} :
    P.isActive s = true ↔ ∃ y, P.t.sites.get? s = some y ∧ y.status.active = true := by
  unfold isActive statusOf siteStatus
  cases P.t.sites.get? s <;> simp

theorem routeSite_cases (s : SiteId) : P.routeSite s = 0 ∨ P.routeSite s = 1 := by
  unfold routeSite; split <;> simp

theorem routeSector_le (k : SectorId) : P.routeSector k ≤ 1 := by
  unfold routeSector; split <;> norm_num

theorem routeSector_nonneg (k : SectorId) : 0 ≤ P.routeSector k := by
  unfold routeSector; split <;> norm_num

theorem routeCap_arcOf (inv : P.t.Inv) {l : Link} (hl : l ∈ P.t.links.vals) :
    P.routeCap (arcOf l) = if l.isRedundant then 0 else l.capacity := by
  unfold routeCap
  rw [linkOf_arcOf inv hl]

theorem route_site (feas : P.RouteFeasible conn b x) (s : SiteId) (hs : s ∈ P.t.sites.keys) :
    P.inFlow x.flow (.site s) = P.outFlow x.flow (.site s) := by
  by_cases c : P.incoming (.site s) ≠ [] ∨ P.outgoing (.site s) ≠ []
  · have := feas.balance (.site s) (mem_locations.2 (Or.inr (Or.inl ⟨s, hs, rfl⟩))) c
    dsimp only at this
    linarith
  · simp only [ne_eq, not_or, not_not] at c
    rw [inFlow_nil c.1, outFlow_nil c.2]

theorem route_demand (feas : P.RouteFeasible conn b x) {id : DemandId} {d : DemandSite} {k : Nat}
    (hd : P.t.demandSites.get? id = some d) (hk : k < d.numSites) (hc : d.connected ≠ []) :
    P.inFlow x.flow (.demand id k) = if Loc.demand id k ∈ conn then b else 0 := by
  have hl : Loc.demand id k ∈ P.demands :=
    mem_demands.2 ⟨id, d, k, Dict.mem_of_get? _ hd, hk, rfl⟩
  have := feas.balance _ (mem_locations.2 (Or.inr (Or.inr hl))) (Or.inl (by
    intro h
    obtain ⟨s, hs⟩ := List.exists_mem_of_ne_nil _ hc
    have : (Loc.site s, Loc.demand id k) ∈ P.incoming (.demand id k) := mem_incoming.2
      ⟨mem_arcs.2 (Or.inr (Or.inl ⟨id, d, k, s, Dict.mem_of_get? _ hd, hk, hs, rfl⟩)), rfl⟩
    rw [h] at this
    cases this))
  dsimp only at this
  rw [outFlow_nil outgoing_demand, sub_zero] at this
  exact this

end Plan

/-- **C88.** Every feasible routing of the report respects the network: each
demand location that counts as connected receives exactly the common bandwidth
and no other receives anything; sites pass on what they receive; a POP sends at
most its capacity; only PROPOSED/EXISTING, not redundant links between
PROPOSED/EXISTING sites carry anything, a radio link at most its capacity times
its time share, a cable at most its capacity; and the shares of the links a sector
sends on, or hears, sum to at most 1. -/
theorem C88_routing_respects_network (ops : List Op) (p : OptParams) (conn : List Loc) (b : ℚ)
    (x : Vars) (ok : (Plan.mk (run {} ops) p).setupErr = none)
    (feas : (Plan.mk (run {} ops) p).RouteFeasible conn b x) :
    let P : Plan := ⟨run {} ops, p⟩
    (∀ id d k, P.t.demandSites.get? id = some d → k < d.numSites → d.connected ≠ [] →
      arriving P x.flow (.demand id k) = if Loc.demand id k ∈ conn then b else 0) ∧
    (∀ s ∈ P.t.sites.keys, arriving P x.flow (.site s) = leaving P x.flow (.site s)) ∧
    (∀ s y, P.t.sites.get? s = some y → y.siteType = .pop → 0 ≤ p.popCapacity →
      leaving P x.flow (.site s) ≤ p.popCapacity) ∧
    (∀ l ∈ P.t.links.vals, 0 ≤ x.flow (arcOf l) ∧
      (0 ≤ l.capacity → l.isWireless = true → x.flow (arcOf l) ≤ l.capacity * x.tdm (arcOf l) 0 ∧
        0 ≤ x.tdm (arcOf l) 0 ∧ x.tdm (arcOf l) 0 ≤ 1) ∧
      (0 ≤ l.capacity → l.isWireless = false → x.flow (arcOf l) ≤ l.capacity)) ∧
    (∀ l ∈ P.t.links.vals, 0 < x.flow (arcOf l) →
      l.isRedundant = false ∧ l.status.active = true ∧
      (∃ y, P.t.sites.get? l.tx = some y ∧ y.status.active = true) ∧
      (∃ y, P.t.sites.get? l.rx = some y ∧ y.status.active = true)) ∧
    (∀ k d, P.t.sectors.get? k = some d →
      ((sentBy P d.site k).map (fun l => x.tdm (arcOf l) 0)).sum ≤ 1 ∧
      ((heardBy P d.site k).map (fun l => x.tdm (arcOf l) 0)).sum ≤ 1) := by
  intro P
  have inv : P.t.Inv := Inv.empty.run ops
  have r := Plan.ready ok
  have zero_of : ∀ l ∈ P.t.links.vals, l.isRedundant = true → x.flow (arcOf l) = 0 := by
    intro l hl hr
    have ha := Plan.arcOf_mem hl
    have h := feas.tdmFlow _ ha
    rw [Plan.routeCap_arcOf inv hl, if_pos hr] at h
    have h0 := feas.flow _ ha
    split at h
    · simp only [zero_mul] at h; linarith
    · have := h.trans (min_le_left _ _); linarith
  refine ⟨fun id d k h1 h2 h3 => Plan.route_demand feas h1 h2 h3, Plan.route_site feas, ?_, ?_, ?_, ?_⟩
  · intro s y hy ht h0
    by_cases co : P.outgoing (.site s) = []
    · change P.outFlow x.flow (.site s) ≤ _
      rw [Plan.outFlow_nil co]; exact h0
    · refine feas.popLoad s ((Dict.mem_keys_iff _ _).2 ⟨y, hy⟩) ?_ co
      unfold Plan.isPop
      rw [Plan.siteType?_of hy, ht]; rfl
  · intro l hl
    have ha := Plan.arcOf_mem hl
    refine ⟨feas.flow _ ha, ?_, ?_⟩
    · intro hc hw
      have ht := (Plan.hasTdm_arcOf inv hl).trans hw
      have hb := feas.tdm _ ha ht
      refine ⟨?_, hb⟩
      by_cases hr : l.isRedundant = true
      · rw [zero_of l hl hr]; exact mul_nonneg hc hb.1
      · have h := feas.tdmFlow _ ha
        rw [if_pos ⟨ht, by omega⟩, Plan.routeCap_arcOf inv hl, if_neg hr] at h
        simpa [Plan.tdmSum] using h
    · intro hc hw
      have ht := (Plan.hasTdm_arcOf inv hl).trans hw
      by_cases hr : l.isRedundant = true
      · rw [zero_of l hl hr]; exact hc
      · have h := feas.tdmFlow _ ha
        rw [if_neg (by rw [ht]; simp), Plan.routeCap_arcOf inv hl, if_neg hr] at h
        exact h.trans (min_le_left _ _)
  · intro l hl hp
    have ha := Plan.arcOf_mem hl
    have hin : P.routeInactive (arcOf l) = false := by
      rw [Bool.eq_false_iff]
      intro h
      rw [feas.inactive _ ha h] at hp
      exact lt_irrefl _ hp
    unfold Plan.routeInactive Plan.inactiveArc at hin
    rw [Plan.linkOf_arcOf inv hl] at hin
    simp only [Option.any_some, Bool.or_eq_false_iff] at hin
    have hend : ∀ s, (arcOf l).1 = .site s ∨ (arcOf l).2 = .site s → s ∈ P.t.sites.keys →
        ∃ y, P.t.sites.get? s = some y ∧ y.status.active = true := by
      intro s h hk
      have := Plan.selected_of_flow r (fun s hs => by
        rw [feas.site s hs]; exact Plan.routeSite_cases s) feas.flow feas.flowSite ha hp h
      rw [feas.site s hk] at this
      apply Plan.isActive_iff.1
      by_contra c
      unfold Plan.routeSite at this
      rw [if_neg c] at this
      norm_num at this
    obtain ⟨id, hid⟩ : ∃ id, P.t.links.get? id = some l := by
      obtain ⟨⟨id, l'⟩, h1, rfl⟩ := List.mem_map.1 hl
      exact ⟨id, (Dict.mem_iff_get? inv.nd_links _ _).1 h1⟩
    obtain ⟨y1, hy1⟩ := inv.link_tx _ _ hid
    obtain ⟨y2, hy2⟩ := inv.link_rx _ _ hid
    refine ⟨?_, ?_, hend _ (Or.inl rfl) ((Dict.mem_keys_iff _ _).2 ⟨y1, hy1⟩),
      hend _ (Or.inr rfl) ((Dict.mem_keys_iff _ _).2 ⟨y2, hy2⟩)⟩
    · rw [Bool.eq_false_iff]
      intro h
      rw [zero_of l hl h] at hp
      exact lt_irrefl _ hp
    · obtain ⟨⟨h1, _⟩, h2⟩ := hin
      cases e : l.status <;> rw [e] at h1 h2 <;>
        first | rfl | exact absurd h1 (by decide) | exact absurd h2 (by decide)
  · intro k d hk
    obtain ⟨y, hy⟩ := inv.sector_site k d hk
    have hs : d.site ∈ P.t.sites.keys := (Dict.mem_keys_iff _ _).2 ⟨y, hy⟩
    have hh : P.hasSector 1 k 0 = true := by
      unfold Plan.hasSector
      rw [hk]
      simp
    obtain ⟨h1, h2⟩ := feas.tdmSector k d hk hs 0 (by omega) hh
    rw [feas.sector k ((Dict.mem_keys_iff _ _).2 ⟨d, hk⟩), Plan.txArcs_sum inv] at h1
    rw [feas.sector k ((Dict.mem_keys_iff _ _).2 ⟨d, hk⟩), Plan.rxArcs_sum inv] at h2
    constructor
    · by_cases c : P.txArcs d.site k = []
      · rw [Plan.sentBy_nil_of inv c]; simp
      · exact (h1 c).trans (Plan.routeSector_le k)
    · by_cases c : P.rxArcs d.site k = []
      · rw [Plan.heardBy_nil_of inv c]; simp
      · exact (h2 c).trans (Plan.routeSector_le k)

/-- **C88**, path form: if the common bandwidth is positive, every connected demand
location with a demand link is joined to a POP by a path of links that all carry
flow. -/
theorem C88_routing_path (ops : List Op) (p : OptParams) (conn : List Loc) (b : ℚ)
    (x : Vars) (ok : (Plan.mk (run {} ops) p).setupErr = none)
    (feas : (Plan.mk (run {} ops) p).RouteFeasible conn b x) (hb : 0 < b)
    (id : DemandId) (d : DemandSite) (k : Nat) (hd : (run {} ops).demandSites.get? id = some d)
    (hk : k < d.numSites) (hc : d.connected ≠ []) (hl : Loc.demand id k ∈ conn) :
    ∃ path, ServingPath ⟨run {} ops, p⟩ x.flow path (.demand id k) := by
  have inv := Inv.empty.run ops
  have r := Plan.ready ok
  generalize hP : (Plan.mk (run {} ops) p) = P at *
  have hi : Inv P.t := by rw [← hP]; exact inv
  have hd' : P.t.demandSites.get? id = some d := by rw [← hP]; exact hd
  have hin := Plan.route_demand feas hd' hk hc
  rw [if_pos hl] at hin
  refine Plan.path_to_demand hi.nd_sites (Plan.reach_of_net hi.nd_sites hi.nd_demand r feas.flow ?_
    (Plan.mem_locations.2 (Or.inr (Or.inr (Plan.mem_demands.2
      ⟨id, d, k, Dict.mem_of_get? _ hd', hk, rfl⟩)))) ?_)
  · intro v hv hne
    rcases Plan.mem_locations.1 hv with h | ⟨s, hs, rfl⟩ | h
    · exact absurd h hne
    · rw [Plan.route_site feas s hs]; simp
    · obtain ⟨i, e, j, _, _, rfl⟩ := Plan.mem_demands.1 h
      rw [Plan.outFlow_nil Plan.outgoing_demand, sub_zero]
      apply List.sum_nonneg
      intro y hy
      obtain ⟨a, ha, rfl⟩ := List.mem_map.1 hy
      exact feas.flow a (Plan.mem_incoming.1 ha).1
  · rw [hin, Plan.outFlow_nil Plan.outgoing_demand, sub_zero]; exact hb

/-- **C49 (violation), for every topology.** In every feasible routing, a radio link
whose transmitting or receiving sector is EXISTING carries nothing. -/
theorem C49_existing_sector_violation (ops : List Op) (p : OptParams) (conn : List Loc) (b : ℚ)
    (x : Vars) (feas : (Plan.mk (run {} ops) p).RouteFeasible conn b x)
    (l : Link) (hl : l ∈ (run {} ops).links.vals) (hw : l.isWireless = true)
    (k k' : SectorId) (hs : l.sectors = some (k, k'))
    (h : (∃ d, (run {} ops).sectors.get? k = some d ∧ d.site = l.tx ∧ d.status = .existing) ∨
      (∃ d, (run {} ops).sectors.get? k' = some d ∧ d.site = l.rx ∧ d.status = .existing)) :
    x.flow (arcOf l) = 0 := by
  let P : Plan := ⟨run {} ops, p⟩
  have inv : P.t.Inv := Inv.empty.run ops
  have ha : arcOf l ∈ P.arcs := Plan.arcOf_mem hl
  have ht : P.hasTdm (arcOf l) = true := (Plan.hasTdm_arcOf inv hl).trans hw
  have h0 := feas.tdm _ ha ht
  have key : x.tdm (arcOf l) 0 ≤ 0 := by
    have gen : ∀ q d, P.t.sectors.get? q = some d → d.status = .existing →
        (d.site = l.tx ∧ q = k ∨ d.site = l.rx ∧ q = k') → x.tdm (arcOf l) 0 ≤ 0 := by
      intro q d hq hst hcase
      obtain ⟨y, hy⟩ := inv.sector_site q d hq
      have hh : P.hasSector 1 q 0 = true := by
        unfold Plan.hasSector; rw [hq]; simp
      obtain ⟨h1, h2⟩ := feas.tdmSector q d hq ((Dict.mem_keys_iff _ _).2 ⟨y, hy⟩) 0 (by omega) hh
      have hz : x.sector q 0 = 0 := by
        rw [feas.sector q ((Dict.mem_keys_iff _ _).2 ⟨d, hq⟩)]
        unfold Plan.routeSector
        rw [hq, Option.any_some, hst]; rfl
      have nn : ∀ M : List Arc, (∀ e ∈ M, e ∈ P.arcs ∧ P.hasTdm e = true) → arcOf l ∈ M →
          x.tdm (arcOf l) 0 ≤ (M.map (fun e => x.tdm e 0)).sum := by
        intro M hM hm
        apply List.single_le_sum
        · intro y hy
          obtain ⟨e, he, rfl⟩ := List.mem_map.1 hy
          exact (feas.tdm e (hM e he).1 (hM e he).2).1
        · exact List.mem_map.2 ⟨_, hm, rfl⟩
      have hlk := Plan.linkOf_arcOf inv hl
      rcases hcase with ⟨hsite, rfl⟩ | ⟨hsite, rfl⟩
      · have hm : arcOf l ∈ P.txArcs d.site q := by
          unfold Plan.txArcs
          rw [List.mem_filter, Plan.mem_outgoing]
          refine ⟨⟨ha, by rw [hsite]; rfl⟩, ?_⟩
          unfold Plan.txSector
          rw [hlk, ht]; simp [hs]
        have := nn _ (by
          intro e he
          unfold Plan.txArcs at he
          rw [List.mem_filter, Plan.mem_outgoing, Bool.and_eq_true] at he
          exact ⟨he.1.1, he.2.2⟩) hm
        have h3 := h1 (List.ne_nil_of_mem hm)
        rw [hz] at h3
        exact this.trans h3
      · have hm : arcOf l ∈ P.rxArcs d.site q := by
          unfold Plan.rxArcs
          rw [List.mem_filter, Plan.mem_incoming]
          refine ⟨⟨ha, by rw [hsite]; rfl⟩, ?_⟩
          unfold Plan.rxSector
          rw [hlk, ht]; simp [hs]
        have := nn _ (by
          intro e he
          unfold Plan.rxArcs at he
          rw [List.mem_filter, Plan.mem_incoming, Bool.and_eq_true] at he
          exact ⟨he.1.1, he.2.2⟩) hm
        have h3 := h2 (List.ne_nil_of_mem hm)
        rw [hz] at h3
        exact this.trans h3
    rcases h with ⟨d, h1, h2, h3⟩ | ⟨d, h1, h2, h3⟩
    · exact gen k d h1 h3 (Or.inl ⟨h2, rfl⟩)
    · exact gen k' d h1 h3 (Or.inr ⟨h2, rfl⟩)
  have hz : x.tdm (arcOf l) 0 = 0 := le_antisymm key h0.1
  have hf := feas.tdmFlow _ ha
  rw [if_pos ⟨ht, by omega⟩] at hf
  have : Plan.tdmSum 1 x (arcOf l) = 0 := by simp [Plan.tdmSum, hz]
  rw [this, mul_zero] at hf
  exact le_antisymm hf (feas.flow _ ha)

/-- A routing of the active network: `flow` on the links of the planning graph,
`share` the time share of the radio links. -/
structure Spec.ActiveRouting (P : Plan) (conn : List Loc) (b : ℚ) (flow : Arc → ℚ)
    (share : Link → ℚ) : Prop where
  nonneg : ∀ e ∈ P.arcs, 0 ≤ flow e
  share01 : ∀ l ∈ P.t.links.vals, 0 ≤ share l ∧ share l ≤ 1
  radio : ∀ l ∈ P.t.links.vals, l.isWireless = true → flow (arcOf l) ≤ l.capacity * share l
  cable : ∀ l ∈ P.t.links.vals, l.isWireless = false → flow (arcOf l) ≤ l.capacity
  used : ∀ l ∈ P.t.links.vals, flow (arcOf l) ≠ 0 →
    l.isRedundant = false ∧ l.status.active = true ∧ (l.isWireless = true → l.sectors.isSome = true)
  sites : ∀ e ∈ P.arcs, flow e ≠ 0 → ∀ s, (e.1 = .site s ∨ e.2 = .site s) →
    ∃ y, P.t.sites.get? s = some y ∧ y.status.active = true
  sends : ∀ k d, P.t.sectors.get? k = some d → ((sentBy P d.site k).map share).sum ≤ 1
  hears : ∀ k d, P.t.sectors.get? k = some d → ((heardBy P d.site k).map share).sum ≤ 1
  pop : ∀ s y, P.t.sites.get? s = some y → y.siteType = .pop →
    leaving P flow (.site s) ≤ P.p.popCapacity
  /-- No location handles more than all POPs can inject. -/
  total : ∀ e ∈ P.arcs,
    arriving P flow e.2 ≤ ((P.t.popIds (fun _ => true)).length : ℚ) * P.p.popCapacity ∧
    leaving P flow e.1 ≤ ((P.t.popIds (fun _ => true)).length : ℚ) * P.p.popCapacity
  /-- The planner's links to demand sites have the capacity of the best link. -/
  last : ∀ s i k, (Loc.site s, Loc.demand i k) ∈ P.arcs → flow (.site s, .demand i k) ≤ P.maxLinkCap
  bandwidth : 0 ≤ b
  demand : ∀ l ∈ P.demands, arriving P flow l = if l ∈ conn then b else 0
  relay : ∀ s ∈ P.t.sites.keys, arriving P flow (.site s) = leaving P flow (.site s)

namespace Plan
variable {P : Plan}

theorem cap_mem {e : Arc} (he : e ∈ P.arcs) :
    (e, P.cap e) ∈ P.sourceArcs ++ P.demandArcs ++ P.linkArcs := by
  obtain ⟨v, hv⟩ := (Dict.mem_keys_iff _ _).1 he
  unfold cap
  rw [hv, Option.getD_some]
  obtain ⟨pre, post, h, _⟩ := (Dict.get?_ofList _ _ _).1 hv
  rw [h]; simp

theorem cap_source {l : Loc} (he : (Loc.source, l) ∈ P.arcs) :
    P.cap (.source, l) = P.p.popCapacity := by
  have h := cap_mem he
  simp only [List.mem_append] at h
  rcases h with (h | h) | h
  · obtain ⟨a, _, h⟩ := List.mem_map.1 h
    injection h with _ h; exact h.symm
  · obtain ⟨a, _, h⟩ := List.mem_flatMap.1 h
    obtain ⟨b, _, h⟩ := List.mem_map.1 h
    simp at h
  · obtain ⟨a, _, h⟩ := List.mem_map.1 h
    simp at h

theorem cap_demand {l : Loc} {i : DemandId} {k : Nat} (he : (l, Loc.demand i k) ∈ P.arcs) :
    P.cap (l, .demand i k) = P.maxLinkCap := by
  have h := cap_mem he
  simp only [List.mem_append] at h
  rcases h with (h | h) | h
  · obtain ⟨a, _, h⟩ := List.mem_map.1 h
    simp at h
  · obtain ⟨a, _, h⟩ := List.mem_flatMap.1 h
    obtain ⟨b, _, h⟩ := List.mem_map.1 h
    injection h with _ h; exact h.symm
  · obtain ⟨a, _, h⟩ := List.mem_map.1 h
    simp at h

/-- The assignment that follows a routing. -/
def routeVars (P : Plan) (flow : Arc → ℚ) (share : Link → ℚ) : Vars where
  site := P.routeSite
  sector k _ := P.routeSector k
  flow := flow
  tdm e _ := ((P.linkOf e).map share).getD 0
  odd _ := 0
  shortage _ := 0

end Plan

/-- **C49 (partial).** Every routing of the active network that gives air time only
to PROPOSED sectors satisfies the constraints of the report, so the best common
bandwidth is not underestimated. Missing: EXISTING sectors, which get none
(`C49_existing_sector_violation`). -/
theorem C49_proposed_sectors_partial (ops : List Op) (p : OptParams) (conn : List Loc) (b : ℚ)
    (flow : Arc → ℚ) (share : Link → ℚ)
    (h : ActiveRouting ⟨run {} ops, p⟩ conn b flow share)
    (hprop : ∀ l ∈ (run {} ops).links.vals, share l ≠ 0 → ∀ k k', l.sectors = some (k, k') →
      ∀ d, ((run {} ops).sectors.get? k = some d ∨ (run {} ops).sectors.get? k' = some d) →
        d.status = .proposed) :
    (Plan.mk (run {} ops) p).RouteFeasible conn b ((Plan.mk (run {} ops) p).routeVars flow share) := by
  have inv0 := Inv.empty.run ops
  generalize hP : (Plan.mk (run {} ops) p) = P at *
  have hPt : P.t = run {} ops := by rw [← hP]
  rw [← hPt] at inv0 hprop
  have inv := inv0
  clear inv0
  have arc3 : ∀ e ∈ P.arcs, (∃ s, e = (.source, .site s)) ∨ (∃ s i k, e = (.site s, .demand i k)) ∨
      ∃ l ∈ P.t.links.vals, e = arcOf l := by
    intro e he
    rcases Plan.mem_arcs.1 he with ⟨s, _, _, _, h⟩ | ⟨i, _, k, s, _, _, _, h⟩ | ⟨l, hl, h⟩
    · exact Or.inl ⟨s, h⟩
    · exact Or.inr (Or.inl ⟨s, i, k, h⟩)
    · exact Or.inr (Or.inr ⟨l, hl, h⟩)
  have tdmL : ∀ l ∈ P.t.links.vals, ∀ c, (P.routeVars flow share).tdm (arcOf l) c = share l := by
    intro l hl c
    show ((P.linkOf (arcOf l)).map share).getD 0 = share l
    rw [Plan.linkOf_arcOf inv hl]; rfl
  have le_m : ∀ e ∈ P.arcs, flow e ≤ P.routeMax := fun e he =>
    (Plan.flow_le_outFlow h.nonneg he).trans (h.total e he).2
  refine ⟨fun _ _ => rfl, fun _ _ => rfl, h.nonneg, ?_, ?_, ?_, ?_, ?_, ?_, h.bandwidth, ?_⟩
  · intro e he ht
    rcases arc3 e he with ⟨s, rfl⟩ | ⟨s, i, k, rfl⟩ | ⟨l, hl, rfl⟩
    · simp [Plan.hasTdm, Plan.real] at ht
    · simp [Plan.hasTdm, Plan.real] at ht
    · rw [tdmL l hl]; exact h.share01 l hl
  · intro k d hk _ c hc _
    obtain rfl : c = 0 := by omega
    have z : ∀ L : List Link, (∀ l ∈ L, share l = 0) → (L.map share).sum = 0 := by
      intro L hL
      apply List.sum_eq_zero
      intro y hy
      obtain ⟨l, hl, rfl⟩ := List.mem_map.1 hy
      exact hL l hl
    have conv : ∀ L : List Link, (∀ l ∈ L, l ∈ P.t.links.vals) →
        L.map (fun l => (P.routeVars flow share).tdm (arcOf l) 0) = L.map share := by
      intro L hL
      apply List.map_congr_left
      intro l hl
      exact tdmL l (hL l hl) 0
    have hsec : (P.routeVars flow share).sector k 0 = P.routeSector k := rfl
    rw [hsec]
    constructor
    · intro _
      rw [Plan.txArcs_sum inv d.site k (fun e => (P.routeVars flow share).tdm e 0),
        conv (sentBy P d.site k) (fun l hl => (List.mem_filter.1 hl).1)]
      by_cases c : d.status = .proposed
      · have : P.routeSector k = 1 := by unfold Plan.routeSector; rw [hk]; simp [c]
        rw [this]; exact h.sends k d hk
      · rw [z]
        · exact Plan.routeSector_nonneg k
        · intro l hl
          obtain ⟨h1, h2⟩ := List.mem_filter.1 hl
          simp only [decide_eq_true_eq] at h2
          by_contra hne
          cases e : l.sectors with
          | none => rw [e] at h2; simp at h2
          | some ab =>
            rw [e] at h2
            simp only [Option.map_some, Option.some.injEq] at h2
            exact c (hprop l h1 hne ab.1 ab.2 e d (Or.inl (by rw [h2.2.2]; exact hk)))
    · intro _
      rw [Plan.rxArcs_sum inv d.site k (fun e => (P.routeVars flow share).tdm e 0),
        conv (heardBy P d.site k) (fun l hl => (List.mem_filter.1 hl).1)]
      by_cases c : d.status = .proposed
      · have : P.routeSector k = 1 := by unfold Plan.routeSector; rw [hk]; simp [c]
        rw [this]; exact h.hears k d hk
      · rw [z]
        · exact Plan.routeSector_nonneg k
        · intro l hl
          obtain ⟨h1, h2⟩ := List.mem_filter.1 hl
          simp only [decide_eq_true_eq] at h2
          by_contra hne
          cases e : l.sectors with
          | none => rw [e] at h2; simp at h2
          | some ab =>
            rw [e] at h2
            simp only [Option.map_some, Option.some.injEq] at h2
            exact c (hprop l h1 hne ab.1 ab.2 e d (Or.inr (by rw [h2.2.2]; exact hk)))
  · intro e he
    rcases arc3 e he with ⟨s, rfl⟩ | ⟨s, i, k, rfl⟩ | ⟨l, hl, rfl⟩
    · rw [if_neg (by simp [Plan.hasTdm, Plan.real])]
      refine le_min ?_ (le_m _ he)
      have : P.routeCap (.source, .site s) = P.p.popCapacity := by
        unfold Plan.routeCap; exact Plan.cap_source he
      rw [this]
      obtain ⟨y, hy, hpop⟩ : ∃ y, P.t.sites.get? s = some y ∧ y.siteType = .pop := by
        rcases Plan.mem_arcs.1 he with ⟨s', y, hy, hp, h⟩ | ⟨i, _, k, s', _, _, _, h⟩ | ⟨l, hl, h⟩
        · injection h with _ h; injection h with h; subst h
          exact ⟨y, (Dict.mem_iff_get? inv.nd_sites _ _).1 hy, hp⟩
        · cases h
        · cases h
      have h1 : flow (.source, .site s) ≤ P.inFlow flow (.site s) := Plan.flow_le_inFlow h.nonneg he
      have h2 := h.relay s ((Dict.mem_keys_iff _ _).2 ⟨y, hy⟩)
      exact (h1.trans (le_of_eq h2)).trans (h.pop s y hy hpop)
    · rw [if_neg (by simp [Plan.hasTdm, Plan.real])]
      refine le_min ?_ (le_m _ he)
      have : P.routeCap (.site s, .demand i k) = P.maxLinkCap := by
        unfold Plan.routeCap; exact Plan.cap_demand he
      rw [this]; exact h.last s i k he
    · rw [Plan.hasTdm_arcOf inv hl, Plan.routeCap_arcOf inv hl]
      by_cases hz : flow (arcOf l) = 0
      · have hm := le_m _ he
        by_cases hw : l.isWireless = true
        · rw [if_pos ⟨hw, by omega⟩]
          show flow (arcOf l) ≤ _
          have ht : Plan.tdmSum 1 (P.routeVars flow share) (arcOf l) = share l := by
            simp [Plan.tdmSum, tdmL l hl]
          rw [ht]
          by_cases hr : l.isRedundant = true
          · rw [if_pos hr, hz]; simp
          · rw [if_neg hr]; exact h.radio l hl hw
        · rw [if_neg (fun a => hw a.1)]
          show flow (arcOf l) ≤ _
          refine le_min ?_ hm
          by_cases hr : l.isRedundant = true
          · rw [if_pos hr, hz]
          · rw [if_neg hr]; exact h.cable l hl (Bool.eq_false_iff.2 hw)
      · obtain ⟨hr, _, _⟩ := h.used l hl hz
        have hr' : ¬ l.isRedundant = true := by rw [hr]; simp
        by_cases hw : l.isWireless = true
        · rw [if_pos ⟨hw, by omega⟩]
          have ht : Plan.tdmSum 1 (P.routeVars flow share) (arcOf l) = share l := by
            simp [Plan.tdmSum, tdmL l hl]
          rw [ht, if_neg hr']; exact h.radio l hl hw
        · rw [if_neg (fun a => hw a.1), if_neg hr']
          exact le_min (h.cable l hl (Bool.eq_false_iff.2 hw)) (le_m _ he)
  · intro v hv
    have key : ∀ L : List Arc, (∀ e ∈ L, e ∈ P.arcs ∧ (e.1 = v ∨ e.2 = v)) →
        (L.map flow).sum ≤ P.routeMax → (L.map flow).sum ≤ P.routeMax * Plan.siteVar (P.routeVars flow share) v := by
      intro L hL hm
      cases v with
      | source => simpa [Plan.siteVar] using hm
      | demand i k => simpa [Plan.siteVar] using hm
      | site s =>
        show _ ≤ P.routeMax * P.routeSite s
        unfold Plan.routeSite
        by_cases c : P.isActive s = true
        · rw [if_pos c, mul_one]; exact hm
        · rw [if_neg c, mul_zero]
          apply le_of_eq
          apply List.sum_eq_zero
          intro y hy
          obtain ⟨e, he, rfl⟩ := List.mem_map.1 hy
          by_contra hne
          exact c (Plan.isActive_iff.2 (h.sites e (hL e he).1 hne s (hL e he).2))
    refine ⟨fun hne => key _ ?_ ?_, fun hne => key _ ?_ ?_⟩
    · intro e he
      exact ⟨(Plan.mem_incoming.1 he).1, Or.inr (Plan.mem_incoming.1 he).2⟩
    · obtain ⟨e, he⟩ := List.exists_mem_of_ne_nil _ hne
      have := (h.total e (Plan.mem_incoming.1 he).1).1
      rw [(Plan.mem_incoming.1 he).2] at this
      exact this
    · intro e he
      exact ⟨(Plan.mem_outgoing.1 he).1, Or.inl (Plan.mem_outgoing.1 he).2⟩
    · obtain ⟨e, he⟩ := List.exists_mem_of_ne_nil _ hne
      have := (h.total e (Plan.mem_outgoing.1 he).1).2
      rw [(Plan.mem_outgoing.1 he).2] at this
      exact this
  · intro e he hin
    show flow e = 0
    rcases arc3 e he with ⟨s, rfl⟩ | ⟨s, i, k, rfl⟩ | ⟨l, hl, rfl⟩
    · simp [Plan.routeInactive, Plan.inactiveArc, Plan.linkOf] at hin
    · simp [Plan.routeInactive, Plan.inactiveArc, Plan.linkOf] at hin
    · by_contra hne
      obtain ⟨_, h2, h3⟩ := h.used l hl hne
      unfold Plan.routeInactive Plan.inactiveArc at hin
      rw [Plan.linkOf_arcOf inv hl] at hin
      simp only [Option.any_some, Bool.or_eq_true, Bool.and_eq_true] at hin
      rcases hin with (hin | ⟨hw, hin⟩) | hin
      · cases e : l.status <;> rw [e] at hin h2 <;>
          first | exact absurd hin (by decide) | exact absurd h2 (by decide)
      · have := h3 hw
        cases e : l.sectors <;> rw [e] at hin this <;>
          first | exact absurd this (by decide) | exact absurd hin (by simp)
      · rw [beq_iff_eq] at hin
        rw [hin] at h2; cases h2
  · intro s hs hp _
    obtain ⟨y, hy⟩ := (Dict.mem_keys_iff _ _).1 hs
    refine h.pop s y hy ?_
    unfold Plan.isPop at hp
    rw [Plan.siteType?_of hy] at hp
    simpa using hp
  · intro v hv _
    rcases Plan.mem_locations.1 hv with rfl | ⟨s, hs, rfl⟩ | hd
    · dsimp only
      rw [Plan.inFlow_nil Plan.incoming_source]
      have : 0 ≤ P.outFlow flow .source := by
        apply List.sum_nonneg
        intro y hy
        obtain ⟨e, he, rfl⟩ := List.mem_map.1 hy
        exact h.nonneg e (Plan.mem_outgoing.1 he).1
      show 0 - P.outFlow flow .source ≤ 0
      linarith
    · have := h.relay s hs
      change P.inFlow flow (.site s) = P.outFlow flow (.site s) at this
      show P.inFlow flow (.site s) - P.outFlow flow (.site s) = 0
      linarith
    · have := h.demand v hd
      obtain ⟨i, d, k, _, _, rfl⟩ := Plan.mem_demands.1 hd
      show P.inFlow flow (.demand i k) - P.outFlow flow (.demand i k) = _
      rw [Plan.outFlow_nil Plan.outgoing_demand, sub_zero]
      exact this

/-- A POP, a CN with two demand sites and a radio link of capacity 5; the sectors
have the given status. -/
def routeDemo (st : StatusType) : List Op := [
  .addSite { id := "P", siteType := .pop, status := .existing } false,
  .addSite { id := "C", siteType := .cn, status := .proposed, lat := 1 } false,
  .addSector { site := "P", node := 0, pos := 0, status := st },
  .addSector { site := "C", node := 0, pos := 0, typ := .cn, status := st },
  .addLink { tx := "P", rx := "C", capacity := 5, status := .proposed,
             sectors := some (⟨"P", 0, 0, .dn⟩, ⟨"C", 0, 0, .cn⟩) },
  .addDemandSite { id := "a", connected := ["C"], demand := some 1 },
  .addDemandSite { id := "b", connected := ["C"], demand := some 10 }]

/-- The routing that gives 2 to each demand site. -/
def routeDemoFlow (e : Arc) : ℚ :=
  if e.2 = .demand "a" 0 ∨ e.2 = .demand "b" 0 then 2 else 4

/-- A site of the topology is active. -/
def activeAt (P : Plan) (l : Loc) : Bool :=
  match l with
  | .site s => (P.t.sites.get? s).any fun y => y.status.active
  | _ => true

theorem routeDemo_active (st : StatusType) (hst : st = .proposed ∨ st = .existing) :
    ActiveRouting ⟨run {} (routeDemo st), { popCapacity := 10, costs := ⟨0, 0, 0⟩ }⟩
      [.demand "a" 0, .demand "b" 0] 2 routeDemoFlow (fun _ => 4/5) := by
  have key : ∀ st, (st = .proposed ∨ st = .existing) →
      let P : Plan := ⟨run {} (routeDemo st), { popCapacity := 10, costs := ⟨0, 0, 0⟩ }⟩
      (∀ e ∈ P.arcs, activeAt P e.1 = true ∧ activeAt P e.2 = true) ∧
      (∀ kd ∈ P.t.sectors, ((sentBy P kd.2.site kd.1).map (fun _ => (4/5 : ℚ))).sum ≤ 1 ∧
        ((heardBy P kd.2.site kd.1).map (fun _ => (4/5 : ℚ))).sum ≤ 1) ∧
      (∀ sy ∈ P.t.sites, sy.2.siteType = .pop → leaving P routeDemoFlow (.site sy.1) ≤ P.p.popCapacity) ∧
      (∀ e ∈ P.arcs, (e.2 = .demand "a" 0 ∨ e.2 = .demand "b" 0 ∨ e.1 = .source ∨ e.2 = .site "C") ∧
        (e.2 = .demand "a" 0 ∨ e.2 = .demand "b" 0 → routeDemoFlow e ≤ P.maxLinkCap)) ∧
      (∀ l ∈ P.t.links.vals, l.isWireless = true ∧ routeDemoFlow (arcOf l) ≤ l.capacity * (4/5) ∧
        l.isRedundant = false ∧ l.status.active = true ∧ l.sectors.isSome = true) ∧
      (∀ e ∈ P.arcs, 0 ≤ routeDemoFlow e) ∧
      (∀ e ∈ P.arcs,
        arriving P routeDemoFlow e.2 ≤ ((P.t.popIds (fun _ => true)).length : ℚ) * P.p.popCapacity ∧
        leaving P routeDemoFlow e.1 ≤ ((P.t.popIds (fun _ => true)).length : ℚ) * P.p.popCapacity) ∧
      (∀ l ∈ P.demands, arriving P routeDemoFlow l =
        if l ∈ [Loc.demand "a" 0, Loc.demand "b" 0] then 2 else 0) ∧
      (∀ s ∈ P.t.sites.keys, arriving P routeDemoFlow (.site s) = leaving P routeDemoFlow (.site s)) := by
    intro st h
    rcases h with rfl | rfl <;>
      exact ⟨by decide +kernel, by decide +kernel, by decide +kernel, by decide +kernel,
        by decide +kernel, by decide +kernel, by decide +kernel, by decide +kernel, by decide +kernel⟩
  obtain ⟨h1, h2, h3, h4, h5, h6, h7, h8, h9⟩ := key st hst
  have inv := Inv.empty.run (routeDemo st)
  refine ⟨h6, fun _ _ => by norm_num, fun l hl _ => (h5 l hl).2.1, ?_, ?_, ?_,
    fun k d h => (h2 (k, d) (Dict.mem_of_get? _ h)).1, fun k d h => (h2 (k, d) (Dict.mem_of_get? _ h)).2,
    fun s y h ht => h3 (s, y) (Dict.mem_of_get? _ h) ht, h7, ?_, by norm_num, h8, h9⟩
  · intro l hl h
    rw [(h5 l hl).1] at h; cases h
  · intro l hl _
    exact ⟨(h5 l hl).2.2.1, (h5 l hl).2.2.2.1, fun _ => (h5 l hl).2.2.2.2⟩
  · intro e he _ s hs
    have : activeAt ⟨run {} (routeDemo st), { popCapacity := 10, costs := ⟨0, 0, 0⟩ }⟩ (.site s) = true := by
      rcases hs with hs | hs <;> rw [← hs]
      · exact (h1 e he).1
      · exact (h1 e he).2
    obtain ⟨a, b⟩ := (Option.any_eq_true_iff_get _ _).1 this
    exact ⟨_, (Option.some_get a).symm, b⟩
  · intro s i k he
    obtain ⟨h, h'⟩ := h4 _ he
    apply h'
    rcases h with h | h | h | h
    · exact Or.inl h
    · exact Or.inr h
    · cases h
    · cases h

/-- The demo network with PROPOSED sectors meets the hypotheses of
`C49_proposed_sectors_partial`, hence those of C88, with positive bandwidth. -/
theorem routeDemo_feasible :
    (Plan.mk (run {} (routeDemo .proposed)) { popCapacity := 10, costs := ⟨0, 0, 0⟩ }).RouteFeasible
      [.demand "a" 0, .demand "b" 0] 2
      ((Plan.mk (run {} (routeDemo .proposed)) { popCapacity := 10, costs := ⟨0, 0, 0⟩ }).routeVars
        routeDemoFlow (fun _ => 4/5)) := by
  refine C49_proposed_sectors_partial _ _ _ _ _ _ (routeDemo_active _ (Or.inl rfl)) ?_
  intro l _ _ k k' _ d hd
  have h : ∀ kd ∈ (run {} (routeDemo .proposed)).sectors, kd.2.status = .proposed := by decide +kernel
  rcases hd with hd | hd
  · exact h _ (Dict.mem_of_get? _ hd)
  · exact h _ (Dict.mem_of_get? _ hd)

example : (Plan.mk (run {} (routeDemo .proposed))
    { popCapacity := 10, costs := ⟨0, 0, 0⟩ }).setupErr = none := by decide +kernel

/-- **C49 (violation).** With EXISTING sectors the network can give 2 to both demand
sites, but every feasible routing of the report gives them nothing. -/
theorem C49_existing_network_violation :
    let P : Plan := ⟨run {} (routeDemo .existing), { popCapacity := 10, costs := ⟨0, 0, 0⟩ }⟩
    let conn := [Loc.demand "a" 0, Loc.demand "b" 0]
    P.setupErr = none ∧ (∃ flow share, ActiveRouting P conn 2 flow share) ∧
    ∀ b x, P.RouteFeasible conn b x → b = 0 := by
  intro P conn
  refine ⟨by decide +kernel, ⟨_, _, routeDemo_active _ (Or.inr rfl)⟩, ?_⟩
  intro b x feas
  have hl : ∃ l ∈ P.t.links.vals, arcOf l = (.site "P", .site "C") ∧ l.isWireless = true ∧
      l.sectors = some (⟨"P", 0, 0, .dn⟩, ⟨"C", 0, 0, .cn⟩) ∧ l.tx = "P" := by decide +kernel
  obtain ⟨l, hl, ha, hw, hs, ht⟩ := hl
  have hsec : ∃ d, P.t.sectors.get? ⟨"P", 0, 0, .dn⟩ = some d ∧ d.site = "P" ∧ d.status = .existing :=
    ⟨_, rfl, rfl, rfl⟩
  have hz := C49_existing_sector_violation (routeDemo .existing) _ conn b x feas l hl hw _ _ hs
    (Or.inl (by rw [ht]; exact hsec))
  rw [ha] at hz
  have h1 := Plan.route_site feas "C" (by decide +kernel)
  have i1 : P.incoming (.site "C") = [(.site "P", .site "C")] := by decide +kernel
  have o1 : P.outgoing (.site "C") = [(.site "C", .demand "a" 0), (.site "C", .demand "b" 0)] := by
    decide +kernel
  have h2 := Plan.route_demand (P := P) (k := 0) feas (id := "a") rfl (by decide) (by decide)
  have i2 : P.incoming (.demand "a" 0) = [(.site "C", .demand "a" 0)] := by decide +kernel
  rw [if_pos (by decide)] at h2
  change P.inFlow x.flow (.site "C") = P.outFlow x.flow (.site "C") at h1
  unfold Plan.inFlow at h1 h2
  unfold Plan.outFlow at h1
  rw [i1, o1] at h1
  rw [i2] at h2
  simp only [List.map_cons, List.map_nil, List.sum_cons, List.sum_nil, add_zero] at h1 h2
  have n1 := feas.flow (.site "C", .demand "b" 0) (by decide +kernel)
  have := feas.buffer
  linarith

end Verif
