import Verif.Props.Ilp
import Verif.Props.Deploy

/-! # C41-C43, C51: capacities, polarities, co-located and decided sites -/

namespace Verif
open Topology Spec

namespace Plan
variable {P : Plan}

theorem linkOf_arcOf (inv : P.t.Inv) {l : Link} (hl : l ∈ P.t.links.vals) :
    P.linkOf (arcOf l) = some l := (mem_link_vals inv l).1 hl

theorem arcOf_mem {l : Link} (hl : l ∈ P.t.links.vals) : arcOf l ∈ P.arcs :=
  mem_arcs.2 (Or.inr (Or.inr ⟨l, hl, rfl⟩))

theorem arcOf_inj (inv : P.t.Inv) {a b : Link} (ha : a ∈ P.t.links.vals) (hb : b ∈ P.t.links.vals)
    (e : arcOf a = arcOf b) : a = b := by
  have h1 := linkOf_arcOf inv ha
  rw [e, linkOf_arcOf inv hb] at h1
  injection h1 with h1; exact h1.symm

theorem link_vals_nodup (inv : P.t.Inv) : P.t.links.vals.Nodup := by
  have h := inv.nd_links
  unfold Dict.NodupKeys Dict.keys at h
  unfold Dict.vals
  rw [List.nodup_map_iff_inj_on (List.Nodup.of_map _ h)]
  rintro ⟨i, a⟩ hi ⟨j, b⟩ hj e
  dsimp only at e
  subst e
  have h1 := inv.link_id i a ((Dict.mem_iff_get? inv.nd_links _ _).1 hi)
  have h2 := inv.link_id j a ((Dict.mem_iff_get? inv.nd_links _ _).1 hj)
  rw [h1, h2]

theorem cap_arcOf (inv : P.t.Inv) {l : Link} (hl : l ∈ P.t.links.vals) :
    P.cap (arcOf l) = l.capacity := by
  obtain ⟨v, hv⟩ := (Dict.mem_keys_iff _ _).1 (arcOf_mem hl)
  unfold cap
  rw [hv, Option.getD_some]
  unfold caps at hv
  obtain ⟨pre, post, e, hn⟩ := (Dict.get?_ofList _ _ _).1 hv
  have hm : (arcOf l, v) ∈ P.sourceArcs ++ P.demandArcs ++ P.linkArcs := by rw [e]; simp
  simp only [List.mem_append] at hm
  rcases hm with (hm | hm) | hm
  · unfold sourceArcs at hm
    obtain ⟨a, _, h⟩ := List.mem_map.1 hm
    simp [arcOf] at h
  · unfold demandArcs at hm
    obtain ⟨a, _, h⟩ := List.mem_flatMap.1 hm
    obtain ⟨b, _, h⟩ := List.mem_map.1 h
    simp [arcOf] at h
  · unfold linkArcs at hm
    obtain ⟨a, ha, h⟩ := List.mem_map.1 hm
    injection h with h1 h2
    rw [← h2, arcOf_inj inv ha hl h1]

theorem hasTdm_arcOf (inv : P.t.Inv) {l : Link} (hl : l ∈ P.t.links.vals) :
    P.hasTdm (arcOf l) = l.isWireless := by
  have := linkOf_arcOf inv hl
  unfold hasTdm isWired real arcOf at *
  simp only [this, Option.any_some, Bool.true_and, Bool.not_not]

theorem sum_perm {α : Type} [DecidableEq α] {L M : List α} (hL : L.Nodup) (hM : M.Nodup)
    (h : ∀ a, a ∈ L ↔ a ∈ M) (f : α → ℚ) : (L.map f).sum = (M.map f).sum :=
  (((List.perm_ext_iff_of_nodup hL hM).2 h).map f).sum_eq

theorem mem_arcs_link {a b : SiteId} (h : (Loc.site a, Loc.site b) ∈ P.arcs) :
    ∃ l ∈ P.t.links.vals, l.tx = a ∧ l.rx = b := by
  rcases mem_arcs.1 h with ⟨_, _, _, _, h⟩ | ⟨_, _, _, _, _, _, _, h⟩ | ⟨l, hl, h⟩
  · simp at h
  · simp at h
  · injection h with h1 h2
    injection h1 with h1
    injection h2 with h2
    exact ⟨l, hl, h1.symm, h2.symm⟩

theorem txArcs_sum (inv : P.t.Inv) (s : SiteId) (k : SectorId) (f : Arc → ℚ) :
    ((P.txArcs s k).map f).sum = ((sentBy P s k).map (fun l => f (arcOf l))).sum := by
  have : (sentBy P s k).map (fun l => f (arcOf l)) = ((sentBy P s k).map arcOf).map f := by
    rw [List.map_map]; rfl
  rw [this]
  apply sum_perm
  · exact (arcs_nodup.filter _).filter _
  · unfold sentBy
    rw [List.nodup_map_iff_inj_on ((link_vals_nodup inv).filter _)]
    intro a ha b hb e
    exact arcOf_inj inv (List.mem_filter.1 ha).1 (List.mem_filter.1 hb).1 e
  · intro e
    unfold txArcs sentBy
    simp only [List.mem_filter, mem_outgoing, Bool.and_eq_true, decide_eq_true_eq, List.mem_map]
    constructor
    · rintro ⟨⟨h1, h2⟩, h3, h4⟩
      obtain ⟨a, b⟩ := e
      dsimp only at h2
      subst h2
      cases b with
      | source => simp [hasTdm, real] at h4
      | demand => simp [hasTdm, real] at h4
      | site b =>
        obtain ⟨l, hl, rfl, rfl⟩ := mem_arcs_link h1
        have hw := hasTdm_arcOf inv hl
        have hk := linkOf_arcOf inv hl
        unfold arcOf at hw hk
        refine ⟨l, ⟨hl, rfl, hw ▸ h4, ?_⟩, rfl⟩
        unfold txSector at h3
        rw [hk] at h3
        simpa using h3
    · rintro ⟨l, ⟨hl, rfl, h2, h3⟩, rfl⟩
      refine ⟨⟨arcOf_mem hl, rfl⟩, ?_, by rw [hasTdm_arcOf inv hl, h2]⟩
      unfold txSector
      rw [linkOf_arcOf inv hl]
      simpa using h3

theorem rxArcs_sum (inv : P.t.Inv) (s : SiteId) (k : SectorId) (f : Arc → ℚ) :
    ((P.rxArcs s k).map f).sum = ((heardBy P s k).map (fun l => f (arcOf l))).sum := by
  have : (heardBy P s k).map (fun l => f (arcOf l)) = ((heardBy P s k).map arcOf).map f := by
    rw [List.map_map]; rfl
  rw [this]
  apply sum_perm
  · exact (arcs_nodup.filter _).filter _
  · unfold heardBy
    rw [List.nodup_map_iff_inj_on ((link_vals_nodup inv).filter _)]
    intro a ha b hb e
    exact arcOf_inj inv (List.mem_filter.1 ha).1 (List.mem_filter.1 hb).1 e
  · intro e
    unfold rxArcs heardBy
    simp only [List.mem_filter, mem_incoming, Bool.and_eq_true, decide_eq_true_eq, List.mem_map]
    constructor
    · rintro ⟨⟨h1, h2⟩, h3, h4⟩
      obtain ⟨a, b⟩ := e
      dsimp only at h2
      subst h2
      cases a with
      | source => simp [hasTdm, real] at h4
      | demand => simp [hasTdm, real] at h4
      | site a =>
        obtain ⟨l, hl, rfl, rfl⟩ := mem_arcs_link h1
        have hw := hasTdm_arcOf inv hl
        have hk := linkOf_arcOf inv hl
        unfold arcOf at hw hk
        refine ⟨l, ⟨hl, rfl, hw ▸ h4, ?_⟩, rfl⟩
        unfold rxSector at h3
        rw [hk] at h3
        simpa using h3
    · rintro ⟨l, ⟨hl, rfl, h2, h3⟩, rfl⟩
      refine ⟨⟨arcOf_mem hl, rfl⟩, ?_, by rw [hasTdm_arcOf inv hl, h2]⟩
      unfold rxSector
      rw [linkOf_arcOf inv hl]
      simpa using h3

theorem sentBy_nil_of (inv : P.t.Inv) {s : SiteId} {k : SectorId} (h : P.txArcs s k = []) :
    sentBy P s k = [] := by
  have := txArcs_sum inv s k (fun _ => 1)
  rw [h] at this
  have h1 : ((sentBy P s k).map (fun _ => (1 : ℚ))).sum = ((sentBy P s k).length : ℚ) := by
    rw [List.map_const', List.sum_replicate]; simp
  rw [h1] at this
  simp only [List.map_nil, List.sum_nil] at this
  exact List.length_eq_zero_iff.1 (by exact_mod_cast this.symm)

theorem heardBy_nil_of (inv : P.t.Inv) {s : SiteId} {k : SectorId} (h : P.rxArcs s k = []) :
    heardBy P s k = [] := by
  have := rxArcs_sum inv s k (fun _ => 1)
  rw [h] at this
  have h1 : ((heardBy P s k).map (fun _ => (1 : ℚ))).sum = ((heardBy P s k).length : ℚ) := by
    rw [List.map_const', List.sum_replicate]; simp
  rw [h1] at this
  simp only [List.map_nil, List.sum_nil] at this
  exact List.length_eq_zero_iff.1 (by exact_mod_cast this.symm)

end Plan

/-- **C41**, cost, coverage and POP-proposal phases: a radio link carries at most
its capacity times its time share, a cable at most its capacity; the time shares
of the links a sector sends on sum to at most 1, and to 0 if its site is not
selected; likewise for the links it hears; and nothing flows on any link of a
site that is not selected. -/
theorem C41_capacity_and_time (ops : List Op) (p : OptParams) (adv : Arc → Bool) (x : Vars)
    (ok : (Plan.mk (run {} ops) p).setupErr = none)
    (feas : (Plan.mk (run {} ops) p).SiteFeasible adv x) :
    let P : Plan := ⟨run {} ops, p⟩
    (∀ l ∈ P.t.links.vals, l.isWireless = true →
      x.flow (arcOf l) ≤ l.capacity * x.tdm (arcOf l) 0 ∧
      0 ≤ x.tdm (arcOf l) 0 ∧ x.tdm (arcOf l) 0 ≤ 1) ∧
    (∀ l ∈ P.t.links.vals, l.isWireless = false → x.flow (arcOf l) ≤ l.capacity) ∧
    (∀ k d, P.t.sectors.get? k = some d →
      ((sentBy P d.site k).map (fun l => x.tdm (arcOf l) 0)).sum ≤ x.site d.site ∧
      ((heardBy P d.site k).map (fun l => x.tdm (arcOf l) 0)).sum ≤ x.site d.site ∧
      (x.site d.site = 0 ∨ x.site d.site = 1)) ∧
    (∀ s ∈ P.t.sites.keys, x.site s = 0 → ∀ e ∈ P.arcs, (e.1 = .site s ∨ e.2 = .site s) →
      x.flow e = 0) := by
  intro P
  have inv : P.t.Inv := Inv.empty.run ops
  have r := Plan.ready ok
  refine ⟨?_, ?_, ?_, ?_⟩
  · intro l hl hw
    have ha := Plan.arcOf_mem hl
    have ht := (Plan.hasTdm_arcOf inv hl).trans hw
    have h := feas.tdmFlow _ ha
    rw [if_pos ⟨ht, by omega⟩, Plan.cap_arcOf inv hl] at h
    refine ⟨?_, feas.bounds.tdm _ ha ht 0 (by omega)⟩
    simpa [Plan.tdmSum] using h
  · intro l hl hw
    have ht := (Plan.hasTdm_arcOf inv hl).trans hw
    have h := feas.tdmFlow _ (Plan.arcOf_mem hl)
    rw [if_neg (by rw [ht]; simp), Plan.cap_arcOf inv hl] at h
    exact h.trans (min_le_left _ _)
  · intro k d hk
    obtain ⟨y, hy⟩ := inv.sector_site k d hk
    have hs : d.site ∈ P.t.sites.keys := (Dict.mem_keys_iff _ _).2 ⟨y, hy⟩
    have hx := feas.bounds.site _ hs
    have h0 : 0 ≤ x.site d.site := by rcases hx with h | h <;> rw [h]; norm_num
    have hh : P.hasSector 1 k 0 = true := by
      unfold Plan.hasSector
      rw [hk]
      simp
    obtain ⟨h1, h2⟩ := feas.tdmSector k d hk hs 0 (by omega) hh
    rw [feas.sectorSite k d hk, Plan.txArcs_sum inv] at h1
    rw [feas.sectorSite k d hk, Plan.rxArcs_sum inv] at h2
    refine ⟨?_, ?_, hx⟩
    · by_cases c : P.txArcs d.site k = []
      · rw [Plan.sentBy_nil_of inv c]; simpa using h0
      · exact h1 c
    · by_cases c : P.rxArcs d.site k = []
      · rw [Plan.heardBy_nil_of inv c]; simpa using h0
      · exact h2 c
  · intro s hs h0 e he hends
    by_contra c
    have hp : 0 < x.flow e := lt_of_le_of_ne (feas.bounds.flow e he) (Ne.symm c)
    have := Plan.selected_of_flow r feas.bounds.site feas.bounds.flow feas.flowSite he hp hends
    rw [h0] at this
    norm_num at this

/-- **C41**, in terms of traffic only: the air time a sector needs for what it
sends, the sum of flow over capacity, is at most 1. -/
theorem C41_airtime (ops : List Op) (p : OptParams) (adv : Arc → Bool) (x : Vars)
    (ok : (Plan.mk (run {} ops) p).setupErr = none)
    (feas : (Plan.mk (run {} ops) p).SiteFeasible adv x) (k : SectorId) (d : Sector)
    (hk : (run {} ops).sectors.get? k = some d) :
    (((sentBy ⟨run {} ops, p⟩ d.site k).filter (fun l => l.capacity > 0)).map
      (fun l => x.flow (arcOf l) / l.capacity)).sum ≤ 1 ∧
    (((heardBy ⟨run {} ops, p⟩ d.site k).filter (fun l => l.capacity > 0)).map
      (fun l => x.flow (arcOf l) / l.capacity)).sum ≤ 1 := by
  obtain ⟨h1, _, h3, _⟩ := C41_capacity_and_time ops p adv x ok feas
  obtain ⟨g1, g2, g3⟩ := h3 k d hk
  have hle : x.site d.site ≤ 1 := by rcases g3 with h | h <;> rw [h]; norm_num
  have key : ∀ L : List Link, (∀ l ∈ L, l ∈ (run {} ops).links.vals ∧ l.isWireless = true) →
      ((L.filter (fun l => l.capacity > 0)).map (fun l => x.flow (arcOf l) / l.capacity)).sum ≤
        (L.map (fun l => x.tdm (arcOf l) 0)).sum := by
    intro L
    induction L with
    | nil => intro _; simp
    | cons a L ih =>
      intro h
      have ih := ih (fun l hl => h l (by simp [hl]))
      obtain ⟨ha, hw⟩ := h a (by simp)
      obtain ⟨f1, f2, _⟩ := h1 a ha hw
      by_cases c : a.capacity > 0
      · simp only [List.filter_cons, c, decide_true, if_true, List.map_cons, List.sum_cons]
        have : x.flow (arcOf a) / a.capacity ≤ x.tdm (arcOf a) 0 := by
          rw [div_le_iff₀ c]; linarith [mul_comm a.capacity (x.tdm (arcOf a) 0)]
        linarith
      · simp only [List.filter_cons, c, decide_false, List.map_cons, List.sum_cons]
        simp only [Bool.false_eq_true, if_false]
        linarith
  constructor
  · refine (key _ ?_).trans (g1.trans hle)
    intro l hl
    unfold sentBy at hl
    rw [List.mem_filter, decide_eq_true_eq] at hl
    exact ⟨hl.1, hl.2.2.1⟩
  · refine (key _ ?_).trans (g2.trans hle)
    intro l hl
    unfold heardBy at hl
    rw [List.mem_filter, decide_eq_true_eq] at hl
    exact ⟨hl.1, hl.2.2.1⟩

/-- **C42.** Unless polarities are ignored, a radio link between two DN/POP sites
that has a positive time share joins an odd and an even site. -/
theorem C42_opposite_polarity (ops : List Op) (p : OptParams) (adv : Arc → Bool) (x : Vars)
    (feas : (Plan.mk (run {} ops) p).SiteFeasible adv x) (hpol : p.ignorePolarities = false)
    (l : Link) (hl : l ∈ (run {} ops).links.vals) (hw : l.isWireless = true)
    (hshare : 0 < x.tdm (arcOf l) 0) (a b : Site)
    (ha : (run {} ops).sites.get? l.tx = some a) (hb : (run {} ops).sites.get? l.rx = some b)
    (hat : a.siteType ≠ .cn) (hbt : b.siteType ≠ .cn) :
    (x.odd l.tx = 1 ∧ x.odd l.rx = 0) ∨ (x.odd l.tx = 0 ∧ x.odd l.rx = 1) := by
  have inv : (Plan.mk (run {} ops) p).t.Inv := Inv.empty.run ops
  have hl' : l ∈ (Plan.mk (run {} ops) p).t.links.vals := hl
  have d1 : (Plan.mk (run {} ops) p).isDist (.site l.tx) = true := by
    unfold Plan.isDist Plan.siteType?
    dsimp only
    rw [ha]
    cases h : a.siteType <;> simp_all [SiteType.isDist]
  have d2 : (Plan.mk (run {} ops) p).isDist (.site l.rx) = true := by
    unfold Plan.isDist Plan.siteType?
    dsimp only
    rw [hb]
    cases h : b.siteType <;> simp_all [SiteType.isDist]
  have o1 := feas.bounds.odd hpol l.tx d1
  have o2 := feas.bounds.odd hpol l.rx d2
  by_cases c : (Plan.mk (run {} ops) p).inputActive (arcOf l) = true
  · have := feas.activePolarity hpol l.tx l.rx (Plan.arcOf_mem hl') c d1 d2
    rcases o2 with h | h <;> rw [h] at this
    · left; exact ⟨by linarith, h⟩
    · right; exact ⟨by linarith, h⟩
  · have hw' : (Plan.mk (run {} ops) p).isWired (arcOf l) = false := by
      have := Plan.hasTdm_arcOf inv hl'
      rw [hw] at this
      unfold Plan.hasTdm at this
      simpa [Plan.real, arcOf] using this
    obtain ⟨h1, h2⟩ := feas.tdmPolarity hpol l.tx l.rx (Plan.arcOf_mem hl') (Bool.eq_false_iff.2 c) hw' d1 d2
    have hs : Plan.tdmSum 1 x (.site l.tx, .site l.rx) = x.tdm (arcOf l) 0 := by
      simp [Plan.tdmSum, arcOf]
    rw [hs] at h1 h2
    rcases o1 with h | h <;> rcases o2 with g | g
    · rw [h, g] at h1; linarith
    · right; exact ⟨h, g⟩
    · left; exact ⟨h, g⟩
    · rw [h, g] at h2; linarith

/-- `C41_capacity_and_time`, `C41_airtime` and `C42_opposite_polarity` on the demo
network: sector 0 of `P` sends to `D` a quarter of the time. -/
example :
    let P : Plan := ⟨run {} planDemo, planDemoParams⟩
    P.setupErr = none ∧ P.SiteFeasible (fun _ => false) planDemoVars ∧
    (sentBy P "P" ⟨"P", 0, 0, .dn⟩).map (fun l => (l.rx, planDemoVars.tdm (arcOf l) 0)) =
      [("D", 1/4)] ∧
    (heardBy P "C" ⟨"C", 0, 0, .cn⟩).map (fun l => (l.tx, planDemoVars.flow (arcOf l))) =
      [("D", 1)] ∧
    planDemoVars.odd "P" = 1 ∧ planDemoVars.odd "D" = 0 :=
  ⟨planDemo_ok, planDemo_feasible, by decide +kernel, by decide +kernel, by decide +kernel,
    by decide +kernel⟩

end Verif
