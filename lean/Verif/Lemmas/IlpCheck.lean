import Verif.Lemmas.Ilp

/-! # A finite check of the planning constraints, used only for concrete examples -/

namespace Verif.Plan

/-- Endpoints of an arc between sites. -/
def ends : Arc → Option (SiteId × SiteId)
  | (.site a, .site b) => some (a, b)
  | _ => none

/-- The constraints of `SiteFeasible` written over finite lists. -/
def Check (P : Plan) (adv : Arc → Bool) (x : Vars) : Prop :=
  (∀ s ∈ P.t.sites.keys, x.site s = 0 ∨ x.site s = 1) ∧
  (∀ e ∈ P.arcs, 0 ≤ x.flow e) ∧
  (∀ e ∈ P.arcs, P.hasTdm e = true → 0 ≤ x.tdm e 0 ∧ x.tdm e 0 ≤ 1) ∧
  (P.p.ignorePolarities = false →
    ∀ s ∈ P.t.sites.keys, P.isDist (.site s) = true → x.odd s = 0 ∨ x.odd s = 1) ∧
  (∀ l ∈ P.demands, 0 ≤ x.shortage l ∧ x.shortage l ≤ P.demandAt l) ∧
  (∀ e ∈ P.t.sectors, x.sector e.1 0 = x.site e.2.site) ∧
  (∀ locs ∈ P.t.colocated.vals, 1 < locs.length →
    if locs.filter P.forcedSite = [] then (locs.map x.site).sum ≤ 1
    else (locs.map x.site).sum = 1 ∧
      ((P.invalidSites (P.maxType (locs.filter P.forcedSite)) locs).map x.site).sum = 0) ∧
  (∀ e ∈ P.arcs, if P.hasTdm e = true ∧ 0 < 1 then x.flow e ≤ P.cap e * tdmSum 1 x e
    else x.flow e ≤ min (P.cap e) P.maxThroughput) ∧
  (∀ e ∈ P.t.sectors, e.2.site ∈ P.t.sites.keys → P.hasSector 1 e.1 0 = true →
      (P.txArcs e.2.site e.1 ≠ [] →
        ((P.txArcs e.2.site e.1).map fun a => x.tdm a 0).sum ≤ x.sector e.1 0) ∧
      (P.rxArcs e.2.site e.1 ≠ [] →
        ((P.rxArcs e.2.site e.1).map fun a => x.tdm a 0).sum ≤ x.sector e.1 0)) ∧
  (∀ s ∈ P.t.sites.keys, P.isPop (.site s) = true → P.outgoing (.site s) ≠ [] →
    P.outFlow x.flow (.site s) ≤ P.p.popCapacity) ∧
  (∀ l ∈ P.locations, (P.incoming l ≠ [] ∨ P.outgoing l ≠ []) →
    P.inFlow x.flow l - P.outFlow x.flow l = P.balanceRhs x l) ∧
  (∀ l ∈ P.locations, (P.incoming l ≠ [] → P.inFlow x.flow l ≤ P.maxThroughput * siteVar x l) ∧
    (P.outgoing l ≠ [] → P.outFlow x.flow l ≤ P.maxThroughput * siteVar x l)) ∧
  (∀ e ∈ P.arcs, adv e = true → x.flow e = 0) ∧
  (P.p.ignorePolarities = false → ∀ q ∈ P.arcs.filterMap ends,
    P.inputActive (.site q.1, .site q.2) = false → P.isWired (.site q.1, .site q.2) = false →
    P.isDist (.site q.1) = true → P.isDist (.site q.2) = true →
    tdmSum 1 x (.site q.1, .site q.2) ≤ x.odd q.1 + x.odd q.2 ∧
    tdmSum 1 x (.site q.1, .site q.2) ≤ 2 - x.odd q.1 - x.odd q.2) ∧
  (∀ s ∈ P.t.sites.keys,
    if (P.p.alwaysActivePops && P.isPop (.site s)) = true then
      P.isInactive s = false → P.groupSize s ≤ 1 → x.site s = 1
    else if P.isActive s = true then P.groupSize s ≤ 1 → x.site s = 1
    else P.isInactive s = true → x.site s = 0) ∧
  (P.p.ignorePolarities = false → ∀ q ∈ P.arcs.filterMap ends,
    P.inputActive (.site q.1, .site q.2) = true →
    P.isDist (.site q.1) = true → P.isDist (.site q.2) = true → x.odd q.1 = 1 - x.odd q.2) ∧
  (∀ e ∈ P.arcs, P.inactiveArc e = true → x.flow e = 0)

instance (P : Plan) (adv : Arc → Bool) (x : Vars) : Decidable (P.Check adv x) := by
  unfold Check
  repeat' apply +allowSynthFailures instDecidableAnd
  all_goals infer_instance

theorem isDist_key {P : Plan} {s : SiteId} (h : P.isDist (.site s) = true) :
    s ∈ P.t.sites.keys := by
  unfold isDist at h
  rw [Option.any_eq_true] at h
  obtain ⟨ty, h, _⟩ := h
  change (P.t.sites.get? s).map _ = _ at h
  rw [Option.map_eq_some_iff] at h
  obtain ⟨y, hy, _⟩ := h
  exact (Dict.mem_keys_iff _ _).2 ⟨y, hy⟩

theorem Check.sound {P : Plan} {adv : Arc → Bool} {x : Vars} (h : P.Check adv x) :
    P.SiteFeasible adv x := by
  obtain ⟨h1, h2, h3, h4, h5, h6, h7, h8, h9, h10, h11, h12, h13, h14, h15, h16, h17⟩ := h
  have hp : ∀ a b, (Loc.site a, Loc.site b) ∈ P.arcs → (a, b) ∈ P.arcs.filterMap ends :=
    fun a b h => List.mem_filterMap.2 ⟨_, h, rfl⟩
  exact {
    bounds := ⟨h1, h2, fun e he ht c hc => by
        obtain rfl : c = 0 := by omega
        exact h3 e he ht, fun hi s hs => h4 hi s (isDist_key hs) hs, h5⟩
    sectorSite := fun k d hk => h6 (k, d) (Dict.mem_of_get? _ hk)
    colocated := h7
    tdmFlow := h8
    tdmSector := fun k d hk hs c hc hsec => by
      obtain rfl : c = 0 := by omega
      exact h9 (k, d) (Dict.mem_of_get? _ hk) hs hsec
    popLoad := h10
    flowBalance := h11
    flowSite := h12
    adversarial := h13
    tdmPolarity := fun hi a b hm => h14 hi (a, b) (hp a b hm)
    decided := h15
    activePolarity := fun hi a b hm => h16 hi (a, b) (hp a b hm)
    inactiveFlow := h17 }

end Verif.Plan
