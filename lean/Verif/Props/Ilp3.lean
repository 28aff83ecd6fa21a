import Verif.Props.Ilp2
import Verif.Props.Counter

/-! # C43, C51: co-located sites and sites decided by the input -/

namespace Verif
open Topology Spec

namespace Plan
variable {P : Plan}

theorem group_of (nd : P.t.sites.NodupKeys) {a : SiteId} {x : Site}
    (ha : P.t.sites.get? a = some x) :
    ∃ locs, P.t.colocated.get? x.point = some locs ∧ locs ∈ P.t.colocated.vals ∧ locs.Nodup ∧
      ∀ s, s ∈ locs ↔ ∃ y, P.t.sites.get? s = some y ∧ y.point = x.point := by
  obtain ⟨h1, h2, h3, _⟩ := group_fold (fun p : SiteId × Site => p.2.point) Prod.fst P.t.sites []
    Dict.nodupKeys_nil
  change P.t.colocated.NodupKeys at h1
  change ∀ k, (P.t.colocated.get? k).getD [] = _ at h2
  change ∀ p ∈ P.t.sites, p.2.point ∈ P.t.colocated.keys at h3
  obtain ⟨locs, hl⟩ := (Dict.mem_keys_iff _ _).1 (h3 (a, x) (Dict.mem_of_get? _ ha))
  have e := h2 x.point
  rw [hl] at e
  simp only [Option.getD_some, Dict.get?_nil, Option.getD_none, List.nil_append] at e
  refine ⟨locs, hl, List.mem_map.2 ⟨_, Dict.mem_of_get? _ hl, rfl⟩, ?_, ?_⟩
  · rw [e]
    exact List.Nodup.sublist (List.Sublist.map _ List.filter_sublist) nd
  · intro s
    rw [e, List.mem_map]
    constructor
    · rintro ⟨⟨i, y⟩, hm, rfl⟩
      rw [List.mem_filter, decide_eq_true_eq] at hm
      exact ⟨y, (Dict.mem_iff_get? nd _ _).1 hm.1, hm.2⟩
    · rintro ⟨y, hy, hp⟩
      exact ⟨(s, y), List.mem_filter.2 ⟨Dict.mem_of_get? _ hy, decide_eq_true hp⟩, rfl⟩

theorem siteType?_of {a : SiteId} {x : Site} (ha : P.t.sites.get? a = some x) :
    P.siteType? (.site a) = some x.siteType := by
  show (P.t.sites.get? a).map _ = _
  rw [ha]; rfl

theorem samePlace_iff {a b : SiteId} {x y : Site} (ha : P.t.sites.get? a = some x)
    (hb : P.t.sites.get? b = some y) : SamePlace P a b ↔ y.point = x.point := by
  unfold SamePlace Site.point
  constructor
  · rintro ⟨x', y', h1, h2, h3, h4, h5⟩
    rw [ha] at h1; rw [hb] at h2
    injection h1 with h1; injection h2 with h2
    subst h1 h2
    rw [h3, h4, h5]
  · intro h
    simp only [Prod.mk.injEq] at h
    exact ⟨x, y, ha, hb, h.1.symm, h.2.1.symm, h.2.2.symm⟩

theorem two_le_sum {α : Type} [DecidableEq α] {L : List α} {f : α → ℚ} (h0 : ∀ a ∈ L, 0 ≤ f a)
    {a b : α} (ha : a ∈ L) (hb : b ∈ L) (hab : a ≠ b) : f a + f b ≤ (L.map f).sum := by
  induction L with
  | nil => cases ha
  | cons c L ih =>
    have h0' : ∀ d ∈ L, 0 ≤ f d := fun d hd => h0 d (by simp [hd])
    have single : ∀ d ∈ L, f d ≤ (L.map f).sum := fun d hd => List.single_le_sum (by
      intro y hy; obtain ⟨e, he, rfl⟩ := List.mem_map.1 hy; exact h0' e he) _
      (List.mem_map_of_mem hd)
    simp only [List.map_cons, List.sum_cons]
    rcases List.mem_cons.1 ha with rfl | ha' <;> rcases List.mem_cons.1 hb with rfl | hb'
    · exact absurd rfl hab
    · linarith [single b hb']
    · linarith [single a ha']
    · linarith [ih h0' ha' hb', h0 c (by simp)]

theorem exists_one {α : Type} {L : List α} {f : α → ℚ} (h01 : ∀ a ∈ L, f a = 0 ∨ f a = 1)
    (hs : (L.map f).sum = 1) : ∃ a ∈ L, f a = 1 := by
  by_contra c
  have : ∀ a ∈ L, f a = 0 := fun a ha => (h01 a ha).resolve_right (fun h => c ⟨a, ha, h⟩)
  have hz : (L.map f).sum = 0 := by
    apply List.sum_eq_zero
    intro y hy; obtain ⟨b, hb, rfl⟩ := List.mem_map.1 hy; exact this b hb
  rw [hz] at hs; norm_num at hs

theorem forced_iff (s : SiteId) : P.forcedSite s = true ↔ Demanded P s := by
  unfold forcedSite Demanded isActive isPop isInactive statusOf siteStatus siteType?
  simp only [Bool.or_eq_true, or_assoc]
  apply or_congr
  · cases P.t.sites.get? s <;> simp
  · apply or_congr
    · simp only [List.any_eq_true, Bool.and_eq_true, Bool.or_eq_true, beq_iff_eq]
    · cases P.t.sites.get? s <;> simp [Bool.and_eq_true, and_assoc]

/-- One step of `maxType`. -/
theorem maxType_spec (L : List SiteId) (m0 : SiteType) :
    let m := L.foldl (fun m s => match P.siteType? (.site s) with
      | some .dn => if m = .pop then m else .dn
      | some .pop => .pop
      | _ => m) m0
    rank m0 ≤ rank m ∧ (∀ s ∈ L, ∀ ty, P.siteType? (.site s) = some ty → rank ty ≤ rank m) ∧
    (m = m0 ∨ ∃ s ∈ L, P.siteType? (.site s) = some m) := by
  induction L generalizing m0 with
  | nil => simp
  | cons a L ih =>
    intro m
    obtain ⟨h1, h2, h3⟩ := ih (match P.siteType? (.site a) with
      | some .dn => if m0 = .pop then m0 else .dn
      | some .pop => .pop
      | _ => m0)
    change rank _ ≤ rank m at h1
    change ∀ s ∈ L, ∀ ty, P.siteType? (.site s) = some ty → rank ty ≤ rank m at h2
    change m = _ ∨ ∃ s ∈ L, P.siteType? (.site s) = some m at h3
    cases ha : P.siteType? (.site a) with
    | none =>
      rw [ha] at h1 h3
      dsimp only at h1 h3
      refine ⟨h1, ?_, ?_⟩
      · intro s hs ty ht
        rcases List.mem_cons.1 hs with rfl | hs
        · rw [ha] at ht; cases ht
        · exact h2 s hs ty ht
      · rcases h3 with h | ⟨s, hs, h⟩
        · exact Or.inl h
        · exact Or.inr ⟨s, by simp [hs], h⟩
    | some ty0 =>
      rw [ha] at h1 h3
      have hm0 : rank m0 ≤ rank m ∧ rank ty0 ≤ rank m := by
        cases ty0 <;> cases m0 <;> simp [rank] at h1 ⊢ <;> omega
      refine ⟨hm0.1, ?_, ?_⟩
      · intro s hs ty ht
        rcases List.mem_cons.1 hs with rfl | hs
        · rw [ha] at ht; injection ht with ht; exact ht ▸ hm0.2
        · exact h2 s hs ty ht
      · rcases h3 with h | ⟨s, hs, h⟩
        · cases ty0 <;> cases m0 <;> simp at h <;> rw [h] at * <;>
            first | exact Or.inl rfl | exact Or.inr ⟨a, by simp, ha⟩
        · exact Or.inr ⟨s, by simp [hs], h⟩

theorem sum_zero_mem {α : Type} {L : List α} {f : α → ℚ} (h0 : ∀ a ∈ L, 0 ≤ f a)
    (hs : (L.map f).sum = 0) {a : α} (ha : a ∈ L) : f a = 0 := sum_zero_of_nonneg L f h0 hs a ha

/-- The constraint of one group, in terms of places. -/
theorem group_constraint {x : Vars} (nd : P.t.sites.NodupKeys)
    (h01 : ∀ s ∈ P.t.sites.keys, x.site s = 0 ∨ x.site s = 1) (hc : P.Colocated x)
    {a b : SiteId} (hab : a ≠ b) (hp : SamePlace P a b) :
    ¬ (x.site a = 1 ∧ x.site b = 1) ∧
    ((∃ d, SamePlace P a d ∧ Demanded P d) → ∃ c y, SamePlace P a c ∧ x.site c = 1 ∧
      P.t.sites.get? c = some y ∧
      ((Demanded P c ∧ ∀ d z, SamePlace P a d → Demanded P d → P.t.sites.get? d = some z →
          rank z.siteType ≤ rank y.siteType) ∨
       (y.siteType ≠ .cn ∧ ∀ d z, SamePlace P a d → Demanded P d → P.t.sites.get? d = some z →
          z.siteType = .cn))) := by
  obtain ⟨xa, xb, ga, gb, e1, e2, e3⟩ := hp
  obtain ⟨locs, _, hv, hnd, hmem⟩ := group_of nd ga
  have ma : a ∈ locs := (hmem a).2 ⟨xa, ga, rfl⟩
  have mb : b ∈ locs := (hmem b).2 ⟨xb, gb, by unfold Site.point; rw [e1, e2, e3]⟩
  have hlen : 1 < locs.length := by
    by_contra c
    match locs, ma, mb, c with
    | [], h, _, _ => cases h
    | [y], h1, h2, _ =>
      simp only [List.mem_singleton] at h1 h2
      exact hab (h1.trans h2.symm)
    | _ :: _ :: _, _, _, c => simp at c
  have key : ∀ s ∈ locs, x.site s = 0 ∨ x.site s = 1 := by
    intro s hs
    obtain ⟨y, hy, _⟩ := (hmem s).1 hs
    exact h01 s ((Dict.mem_keys_iff _ _).2 ⟨y, hy⟩)
  have h0 : ∀ s ∈ locs, 0 ≤ x.site s := by
    intro s hs; rcases key s hs with h | h <;> rw [h]; norm_num
  have hcc := hc locs hv hlen
  have hle : (locs.map x.site).sum ≤ 1 := by
    split at hcc
    · exact hcc
    · exact hcc.1.le
  constructor
  · rintro ⟨h1, h2⟩
    have := two_le_sum h0 ma mb hab
    rw [h1, h2] at this
    linarith
  · rintro ⟨d, hd, hdem⟩
    obtain ⟨xa', xd, g1, g2, f1, f2, f3⟩ := hd
    rw [ga] at g1; injection g1 with g1; subst g1
    have md : d ∈ locs := (hmem d).2 ⟨xd, g2, by unfold Site.point; rw [f1, f2, f3]⟩
    have hne : locs.filter P.forcedSite ≠ [] := by
      intro h
      have : d ∈ locs.filter P.forcedSite := List.mem_filter.2 ⟨md, (forced_iff d).2 hdem⟩
      rw [h] at this; cases this
    rw [if_neg hne] at hcc
    obtain ⟨hs1, hs0⟩ := hcc
    obtain ⟨c, mc, hc1⟩ := exists_one key hs1
    obtain ⟨y, hy, hyp⟩ := (hmem c).1 mc
    have hpc : SamePlace P a c := (samePlace_iff ga hy).2 hyp
    have tyc : P.siteType? (.site c) = some y.siteType := siteType?_of hy
    refine ⟨c, y, hpc, hc1, hy, ?_⟩
    -- c is not in the list of invalid sites
    have hvalid : c ∉ P.invalidSites (P.maxType (locs.filter P.forcedSite)) locs := by
      intro hi
      have := sum_zero_mem (fun s hs => h0 s (List.mem_filter.1 hs).1) hs0 hi
      rw [hc1] at this; norm_num at this
    obtain ⟨_, hm2, hm3⟩ := maxType_spec (P := P) (locs.filter P.forcedSite) .cn
    change ∀ s ∈ locs.filter P.forcedSite, ∀ ty, P.siteType? (.site s) = some ty →
      rank ty ≤ rank (P.maxType (locs.filter P.forcedSite)) at hm2
    change P.maxType (locs.filter P.forcedSite) = .cn ∨
      ∃ s ∈ locs.filter P.forcedSite, P.siteType? (.site s) =
        some (P.maxType (locs.filter P.forcedSite)) at hm3
    generalize P.maxType (locs.filter P.forcedSite) = m at *
    have hall : ∀ d z, SamePlace P a d → Demanded P d → P.t.sites.get? d = some z →
        rank z.siteType ≤ rank m := by
      intro d z h1 h2 h3
      have hpd := (samePlace_iff ga h3).1 h1
      exact hm2 d (List.mem_filter.2 ⟨(hmem d).2 ⟨z, h3, hpd⟩, (forced_iff d).2 h2⟩) z.siteType
        (siteType?_of h3)
    unfold invalidSites at hvalid
    rw [List.mem_filter, not_and] at hvalid
    have hv2 := hvalid mc
    rw [tyc] at hv2
    simp only [Option.any_some, Bool.or_eq_true, Bool.not_eq_true', Bool.and_eq_true,
      not_or, not_and, Bool.not_eq_false, beq_iff_eq, Option.some.injEq, List.contains_eq_mem,
      decide_eq_false_iff_not, not_not] at hv2
    obtain ⟨hin, hforced⟩ := hv2
    by_cases hm : y.siteType = m
    · left
      refine ⟨(forced_iff c).1 (by simpa using hforced hm), ?_⟩
      intro d z h1 h2 h3
      rw [hm]; exact hall d z h1 h2 h3
    · right
      have hmcn : m = .cn := by
        cases m
        · rfl
        · simp only [validTypes, List.mem_singleton] at hin; exact absurd hin hm
        · simp only [validTypes, List.mem_singleton] at hin; exact absurd hin hm
      refine ⟨hmcn ▸ hm, ?_⟩
      intro d z h1 h2 h3
      have := hall d z h1 h2 h3
      rw [hmcn] at this
      cases h : z.siteType <;> rw [h] at this <;> simp [rank] at this ⊢

end Plan

/-- **C43.** Of two different sites at one place (equal longitude, latitude and
altitude) at most one is selected. If the input demands a site at a place with
several sites, one of them is selected: a demanded site of the highest demanded
type, or, when only CNs are demanded there, possibly a DN or POP instead. -/
theorem C43_one_site_per_place (ops : List Op) (p : OptParams) (adv : Arc → Bool) (x : Vars)
    (feas : (Plan.mk (run {} ops) p).SiteFeasible adv x) (a b : SiteId) (hab : a ≠ b)
    (hp : SamePlace ⟨run {} ops, p⟩ a b) :
    let P : Plan := ⟨run {} ops, p⟩
    ¬ (x.site a = 1 ∧ x.site b = 1) ∧
    ((∃ d, SamePlace P a d ∧ Demanded P d) → ∃ c y, SamePlace P a c ∧ x.site c = 1 ∧
      P.t.sites.get? c = some y ∧
      ((Demanded P c ∧ ∀ d z, SamePlace P a d → Demanded P d → P.t.sites.get? d = some z →
          rank z.siteType ≤ rank y.siteType) ∨
       (y.siteType ≠ .cn ∧ ∀ d z, SamePlace P a d → Demanded P d → P.t.sites.get? d = some z →
          z.siteType = .cn))) :=
  Plan.group_constraint (Inv.empty.run ops).nd_sites feas.bounds.site feas.colocated hab hp

/-- `C43_one_site_per_place` on the demo network: the DN `D` replaces the PROPOSED
CN `E` at the same place. -/
example :
    let P : Plan := ⟨run {} planDemo, planDemoParams⟩
    P.SiteFeasible (fun _ => false) planDemoVars ∧ SamePlace P "D" "E" ∧ Demanded P "E" ∧
    planDemoVars.site "D" = 1 ∧ planDemoVars.site "E" = 0 :=
  ⟨planDemo_feasible, ⟨_, _, rfl, rfl, rfl, rfl, rfl⟩, Or.inl ⟨_, rfl, rfl⟩, by decide +kernel,
    by decide +kernel⟩

/-- **C51 (partial).** A site that is UNAVAILABLE or UNREACHABLE is not selected,
unless it is a POP and `always_active_pops` is set (then see
`C51_unavailable_pop_violation`). An EXISTING (or PROPOSED) site is selected if no
other site is at its place, or if no other demanded site is at its place and
either it is not a CN or there is no DN or POP at its place. Missing from the
claim: unavailable POPs, and EXISTING CNs that the model may replace by a DN or
POP at the same place. -/
theorem C51_decided_sites_partial (ops : List Op) (p : OptParams) (adv : Arc → Bool) (x : Vars)
    (feas : (Plan.mk (run {} ops) p).SiteFeasible adv x) (s : SiteId) (y : Site)
    (hs : (run {} ops).sites.get? s = some y) :
    let P : Plan := ⟨run {} ops, p⟩
    ((y.status = .unavailable ∨ y.status = .unreachable) →
      ¬ (p.alwaysActivePops = true ∧ y.siteType = .pop) → x.site s = 0) ∧
    ((y.status = .existing ∨ y.status = .proposed) →
      (∀ b, SamePlace P s b → b ≠ s → ¬ Demanded P b) →
      (y.siteType ≠ .cn ∨ ∀ b z, SamePlace P s b → P.t.sites.get? b = some z → z.siteType = .cn) →
      x.site s = 1) := by
  intro P
  have inv : P.t.Inv := Inv.empty.run ops
  have hs' : P.t.sites.get? s = some y := hs
  have hk : s ∈ P.t.sites.keys := (Dict.mem_keys_iff _ _).2 ⟨y, hs'⟩
  have hd := feas.decided s hk
  have hst : P.statusOf s = some y.status := by
    unfold Plan.statusOf siteStatus; rw [hs']; rfl
  have hty : P.isPop (.site s) = true ↔ y.siteType = .pop := by
    unfold Plan.isPop; rw [Plan.siteType?_of hs']; simp
  constructor
  · intro hina hnp
    have h1 : P.isInactive s = true := by
      unfold Plan.isInactive; rw [hst]; rcases hina with h | h <;> rw [h] <;> rfl
    have h2 : ¬ P.isActive s = true := by
      unfold Plan.isActive; rw [hst]; rcases hina with h | h <;> rw [h] <;> simp [StatusType.active]
    rw [if_neg (by rw [Bool.and_eq_true, hty]; exact hnp), if_neg h2] at hd
    exact hd h1
  · intro hact hother htype
    have h1 : P.isActive s = true := by
      unfold Plan.isActive; rw [hst]; rcases hact with h | h <;> rw [h] <;> rfl
    have h2 : P.isInactive s = false := by
      unfold Plan.isInactive; rw [hst]; rcases hact with h | h <;> rw [h] <;> rfl
    have hdem : Demanded P s := Or.inl ⟨y, hs', by rcases hact with h | h <;> rw [h] <;> rfl⟩
    by_cases hb : ∃ b, b ≠ s ∧ SamePlace P s b
    · obtain ⟨b, hbs, hpb⟩ := hb
      have hss : SamePlace P s s := (Plan.samePlace_iff hs' hs').2 rfl
      obtain ⟨c, z, hpc, hc1, hcz, hcase⟩ :=
        (Plan.group_constraint inv.nd_sites feas.bounds.site feas.colocated (Ne.symm hbs) hpb).2
          ⟨s, hss, hdem⟩
      by_cases hcs : c = s
      · exact hcs ▸ hc1
      · exfalso
        rcases hcase with ⟨h, _⟩ | ⟨h3, h4⟩
        · exact hother c hpc hcs h
        · rcases htype with h | h
          · exact h (h4 s y hss hdem hs')
          · exact h3 (h c z hpc hcz)
    · have hg : P.groupSize s ≤ 1 := by
        obtain ⟨locs, hl, _, hnd, hmem⟩ := Plan.group_of inv.nd_sites hs'
        unfold Plan.groupSize
        rw [hs']
        dsimp only
        rw [hl, Option.getD_some]
        by_contra c
        match locs, hnd, hmem, c with
        | [], _, _, c => simp at c
        | [_], _, _, c => simp at c
        | u :: v :: _, hnd, hmem, _ =>
          obtain ⟨yu, gu, pu⟩ := (hmem u).1 (by simp)
          obtain ⟨yv, gv, pv⟩ := (hmem v).1 (by simp)
          have hne : u ≠ v := by
            intro h; rw [h] at hnd; simp at hnd
          by_cases cu : u = s
          · exact hb ⟨v, fun h => hne (cu.trans h.symm), (Plan.samePlace_iff hs' gv).2 pv⟩
          · exact hb ⟨u, cu, (Plan.samePlace_iff hs' gu).2 pu⟩
      change (if _ then P.isInactive s = false → P.groupSize s ≤ 1 → x.site s = 1 else
        if P.isActive s = true then P.groupSize s ≤ 1 → x.site s = 1 else _) at hd
      split at hd
      · exact hd h2 hg
      · exact hd hg

/-- `C51_decided_sites_partial` on the demo network: the EXISTING POP `P` is alone
at its place and selected. -/
example :
    let P : Plan := ⟨run {} planDemo, planDemoParams⟩
    P.SiteFeasible (fun _ => false) planDemoVars ∧ P.statusOf "P" = some .existing ∧
    P.groupSize "P" = 1 ∧ planDemoVars.site "P" = 1 :=
  ⟨planDemo_feasible, by decide +kernel, by decide +kernel, by decide +kernel⟩

/-- Two POPs with a demand each; `U` is UNAVAILABLE. -/
def twoPopDemo : List Op := [
  .addSite { id := "P", siteType := .pop, status := .existing } false,
  .addSite { id := "U", siteType := .pop, status := .unavailable, lat := 1 } false,
  .addDemandSite { id := "a", connected := ["P"], demand := some 1 },
  .addDemandSite { id := "b", connected := ["U"], demand := some 1 }]

/-- **C51 (violation).** With `always_active_pops` (the default) the UNAVAILABLE POP
`U` is selected and serves a demand. -/
theorem C51_unavailable_pop_violation :
    let P : Plan := ⟨run {} twoPopDemo, { popCapacity := 10, costs := ⟨0, 0, 0⟩ }⟩
    ∃ x : Vars, P.setupErr = none ∧ P.SiteFeasible (fun _ => false) x ∧
      (∃ y, P.t.sites.get? "U" = some y ∧ y.status = .unavailable) ∧ x.site "U" = 1 ∧
      arriving P x.flow (.demand "b" 0) = 1 := by
  intro P
  exact ⟨⟨fun _ => 1, fun _ _ => 1, fun _ => 1, fun _ _ => 0, fun _ => 0, fun _ => 0⟩,
    by decide +kernel, Plan.Check.sound (by decide +kernel), ⟨_, rfl, rfl⟩, rfl,
    by decide +kernel⟩

/-- An EXISTING CN and a DN at one place. -/
def upgradeDemo : List Op := [
  .addSite { id := "P", siteType := .pop, status := .existing } false,
  .addSite { id := "C", siteType := .cn, status := .existing, lat := 1 } false,
  .addSite { id := "D", siteType := .dn, status := .candidate, lat := 1 } false,
  .addDemandSite { id := "a", connected := ["P"], demand := some 1 }]

/-- **C51 (violation).** The EXISTING CN `C` is not selected; the candidate DN at its
place is. -/
theorem C51_existing_cn_violation :
    let P : Plan := ⟨run {} upgradeDemo, { popCapacity := 10, costs := ⟨0, 0, 0⟩ }⟩
    ∃ x : Vars, P.setupErr = none ∧ P.SiteFeasible (fun _ => false) x ∧
      (∃ y, P.t.sites.get? "C" = some y ∧ y.status = .existing) ∧ x.site "C" = 0 ∧
      x.site "D" = 1 := by
  intro P
  exact ⟨⟨fun s => if s = "C" then 0 else 1, fun _ _ => 1, fun _ => 1, fun _ _ => 0, fun _ => 0,
    fun _ => 0⟩, by decide +kernel, Plan.Check.sound (by decide +kernel), ⟨_, rfl, rfl⟩, rfl, rfl⟩

end Verif
