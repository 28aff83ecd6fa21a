import Verif.Props.Ilp3
import Verif.Props.PopCapacity
import Verif.Spec.Extract

/-! # C44, C45: the plan read off the solver's answer -/

namespace Verif
open Topology Spec

namespace Plan
variable {P : Plan} {x : Vars} {flow : Arc → ℚ}

theorem bin_cases (q : ℚ) : bin q = 0 ∨ bin q = 1 := by
  unfold bin; split <;> simp

theorem siteDec_cases (s : SiteId) :
    P.siteDec x flow s = 0 ∨ (P.siteDec x flow s = 1 ∧ bin (x.site s) = 1) := by
  unfold siteDec
  split
  · rcases bin_cases (x.site s) with h | h
    · exact Or.inl h
    · exact Or.inr ⟨h, h⟩
  · split
    · exact Or.inl rfl
    · rcases bin_cases (x.site s) with h | h
      · exact Or.inl h
      · exact Or.inr ⟨h, h⟩

theorem linkSel_site {a b : SiteId} (h : P.linkSel x flow (.site a, .site b) = true) :
    P.inactiveArc (.site a, .site b) = false ∧ 0 < P.cap (.site a, .site b) ∧
    P.polOk x flow a b = true ∧ P.siteDec x flow a = 1 ∧ P.siteDec x flow b = 1 ∧
    (P.isWired (.site a, .site b) = true ∨
      (∃ k, P.txSector (.site a, .site b) = some k ∧ P.sectorDec x flow a k = 1) ∧
      ∃ k, P.rxSector (.site a, .site b) = some k ∧ P.sectorDec x flow b k = 1) := by
  unfold linkSel linkCand at h
  simp only [Bool.and_eq_true, Bool.not_eq_true', decide_eq_true_eq, beq_iff_eq,
    Bool.or_eq_true, Option.any_eq_true] at h
  obtain ⟨⟨⟨⟨⟨h1, h2⟩, h3⟩, h4⟩, h5⟩, h6⟩ := h
  refine ⟨h1, h2, h3, h4, h5, ?_⟩
  rcases h6 with h6 | ⟨⟨k, hk, e⟩, k', hk', e'⟩
  · exact Or.inl h6
  · exact Or.inr ⟨⟨k, hk, e⟩, k', hk', e'⟩

theorem sectorDec_one {s : SiteId} {k : SectorId} (h : P.sectorDec x flow s k = 1) :
    ∃ d, P.t.sectors.get? k = some d ∧ d.site = s ∧ P.siteDec x flow s = 1 := by
  unfold sectorDec at h
  split at h
  · rename_i h1
    rw [Option.any_eq_true] at h1
    obtain ⟨d, hd, e⟩ := h1
    exact ⟨d, hd, by simpa using e, h⟩
  · cases h

theorem extracted_link {l : Link} (h : (P.extracted x flow).link l.id = 1) :
    P.linkSel x flow (arcOf l) = true ∧ arcOf l ∈ P.selArcs x flow := by
  have h : (if (P.linkSel x flow (.site l.tx, .site l.rx) &&
      P.arcs.contains (.site l.tx, .site l.rx)) = true then (1 : Int) else 0) = 1 := h
  by_cases c : (P.linkSel x flow (.site l.tx, .site l.rx) &&
      P.arcs.contains (.site l.tx, .site l.rx)) = true
  · rw [Bool.and_eq_true, List.contains_eq_mem, decide_eq_true_eq] at c
    exact ⟨c.1, List.mem_filter.2 ⟨c.2, c.1⟩⟩
  · rw [if_neg c] at h; cases h

theorem siteUsed_of_arc {e : Arc} (he : e ∈ P.selArcs x flow) {s : SiteId}
    (h : e.1 = .site s ∨ e.2 = .site s) : P.siteUsed x flow s = true := by
  unfold siteUsed
  rw [Bool.or_eq_true]
  left
  rw [List.any_eq_true]
  exact ⟨e, he, by simpa using h⟩

theorem sectorUsed_of_end {e : Arc} (he : e ∈ P.selArcs x flow) {s : SiteId} {k : SectorId}
    {d : Sector} (hq : (s, k) ∈ P.sectorEnds e) (hk : P.t.sectors.get? k = some d)
    (hs : d.site = s) : P.sectorUsed x flow k = true := by
  unfold sectorUsed
  rw [hk]
  simp only [Option.any_some, List.any_eq_true, Bool.and_eq_true, beq_iff_eq]
  exact ⟨e, he, (s, k), hq, hs.symm, by simp [hk]⟩

/-- A used sector is at an end of a selected link. -/
theorem sectorUsed_site {k : SectorId} {d : Sector} (hk : P.t.sectors.get? k = some d)
    (h : P.sectorUsed x flow k = true) : P.siteUsed x flow d.site = true := by
  unfold sectorUsed at h
  rw [hk] at h
  simp only [Option.any_some, List.any_eq_true, Bool.and_eq_true, beq_iff_eq] at h
  obtain ⟨e, he, q, hq, hs, _⟩ := h
  apply siteUsed_of_arc he
  unfold sectorEnds at hq
  split at hq
  · rename_i a b
    simp only [List.mem_append, Option.mem_toList, Option.map_eq_some_iff] at hq
    rcases hq with ⟨_, _, rfl⟩ | ⟨_, _, rfl⟩
    · left; rw [← hs]
    · right; rw [← hs]
  · cases hq

theorem sectorUsed_node {k k' : SectorId} {d d' : Sector} (hk : P.t.sectors.get? k = some d)
    (hk' : P.t.sectors.get? k' = some d') (hs : d.site = d'.site) (hn : d.node = d'.node) :
    P.sectorUsed x flow k = P.sectorUsed x flow k' := by
  unfold sectorUsed
  rw [hk, hk', Option.any_some, Option.any_some, hs, hn]

theorem extract_ok {common : Option ℚ} {sol : Solution} {cost : ℚ}
    (h : P.extract x flow common = .ok (some (sol, cost))) :
    sol = P.extracted x flow ∧
    cost = P.extractCost (fun s => (sol.site s : ℚ)) (fun k => (sol.sector k : ℚ)) := by
  unfold extract at h
  split at h
  · split at h <;> cases h
  split at h
  · cases h
  split at h
  · cases h
  simp only [Except.ok.injEq, Option.some.injEq, Prod.mk.injEq] at h
  obtain ⟨h1, h2⟩ := h
  subst h1
  exact ⟨rfl, h2.symm⟩

theorem isDist_of {s : SiteId} {y : Site} (h : P.t.sites.get? s = some y) (hc : y.siteType ≠ .cn) :
    P.isDist (.site s) = true := by
  unfold isDist
  rw [siteType?_of h]
  cases ht : y.siteType <;> simp_all [SiteType.isDist]

theorem final_site {s : SiteId} (hu : P.siteUsed x flow s = true) (h1 : P.siteDec x flow s = 1) :
    (P.extracted x flow).site s = 1 := by
  show P.ifUsed x flow s _ = 1
  unfold ifUsed; rw [if_pos hu, h1]

theorem wireless_sectors {l : Link} (inv : P.t.Inv) (hl : l ∈ P.t.links.vals)
    (hw : l.isWireless = true) (h : P.linkSel x flow (arcOf l) = true) :
    ∃ a b d d', l.sectors = some (a, b) ∧ P.t.sectors.get? a = some d ∧ d.site = l.tx ∧
      P.t.sectors.get? b = some d' ∧ d'.site = l.rx ∧
      (l.tx, a) ∈ P.sectorEnds (arcOf l) ∧ (l.rx, b) ∈ P.sectorEnds (arcOf l) := by
  obtain ⟨_, _, _, _, _, h6⟩ := linkSel_site h
  have e : P.linkOf (.site l.tx, .site l.rx) = some l := linkOf_arcOf inv hl
  rcases h6 with h6 | ⟨⟨a, ha, da⟩, b, hb, db⟩
  · unfold isWired at h6
    simp only [e, Option.any_some, hw, Bool.not_true, Bool.false_eq_true] at h6
  · obtain ⟨d, hd, hds, _⟩ := sectorDec_one da
    obtain ⟨d', hd', hds', _⟩ := sectorDec_one db
    have ha' := ha
    have hb' := hb
    unfold txSector at ha
    unfold rxSector at hb
    rw [e] at ha hb
    simp only [Option.bind_some] at ha hb
    cases hs : l.sectors with
    | none => rw [hs] at ha; cases ha
    | some q =>
      rw [hs] at ha hb
      simp only [Option.map_some, Option.some.injEq] at ha hb
      refine ⟨a, b, d, d', by rw [← ha, ← hb], hd, hds, hd', hds', ?_, ?_⟩
      · show _ ∈ P.sectorEnds (.site l.tx, .site l.rx)
        unfold sectorEnds; simp [ha']
      · show _ ∈ P.sectorEnds (.site l.tx, .site l.rx)
        unfold sectorEnds; simp [hb']

theorem final_sector {k : SectorId} {d : Sector} (hk : P.t.sectors.get? k = some d) :
    (P.extracted x flow).sector k =
      if P.sectorUsed x flow k then P.siteDec x flow d.site else 0 := by
  show P.finalSector x flow k = _
  unfold finalSector; rw [hk]

theorem final_channel {k : SectorId} {d : Sector} (hk : P.t.sectors.get? k = some d)
    (h : P.siteDec x flow d.site = 1) : (P.extracted x flow).channel k = 0 := by
  show P.channelDec x flow k = _
  unfold channelDec; rw [hk]; exact if_pos h

theorem final_pol {s : SiteId} (hu : P.siteUsed x flow s = true) (h1 : P.siteDec x flow s = 1)
    (hi : P.p.ignorePolarities = false) (hd : P.isDist (.site s) = true) :
    (P.extracted x flow).odd s = bin (x.odd s) ∧
    (P.extracted x flow).even s = 1 - bin (x.odd s) ∧ P.oddDec x flow s = bin (x.odd s) := by
  have hc : ¬ (P.p.ignorePolarities || !P.isDist (.site s) || P.siteDec x flow s = 0) = true := by
    rw [hi, hd, h1]; simp
  refine ⟨?_, ?_, ?_⟩
  · show P.ifUsed x flow s (P.oddDec x flow s) = _
    unfold ifUsed oddDec; rw [if_pos hu, if_neg hc]
  · show P.ifUsed x flow s (P.evenDec x flow s) = _
    unfold ifUsed evenDec; rw [if_pos hu, if_neg hc]
  · unfold oddDec; rw [if_neg hc]

theorem consistent (inv : P.t.Inv) {adv : Arc → Bool} (feas : P.SiteFeasible adv x) :
    let sol := P.extracted x flow
    (∀ l ∈ P.t.links.vals, sol.link l.id = 1 →
      sol.site l.tx = 1 ∧ sol.site l.rx = 1 ∧ l.status.inactive = false ∧ 0 < l.capacity ∧
      (l.isWireless = true →
        (∃ a b, l.sectors = some (a, b) ∧ sol.sector a = 1 ∧ sol.sector b = 1 ∧
          sol.channel a = sol.channel b) ∧
        (P.p.ignorePolarities = false → ∀ y z, P.t.sites.get? l.tx = some y →
          P.t.sites.get? l.rx = some z → y.siteType ≠ .cn → z.siteType ≠ .cn →
          (sol.odd l.tx = 1 ∧ sol.even l.rx = 1) ∨ (sol.even l.tx = 1 ∧ sol.odd l.rx = 1)))) ∧
    (∀ k d, P.t.sectors.get? k = some d → sol.sector k = 1 →
      sol.site d.site = 1 ∧ sol.channel k = 0) ∧
    (∀ k k' d d', P.t.sectors.get? k = some d → P.t.sectors.get? k' = some d' → d.site = d'.site →
      d.node = d'.node → sol.sector k = sol.sector k') ∧
    (∀ s, ¬ (sol.odd s = 1 ∧ sol.even s = 1) ∧
      ((sol.odd s = 1 ∨ sol.even s = 1) → sol.site s = 1)) := by
  intro sol
  refine ⟨?_, ?_, ?_, ?_⟩
  · intro l hl hsel
    obtain ⟨h1, h2⟩ := extracted_link hsel
    have h1' := h1
    obtain ⟨hin, hcap, hpol, ha, hb, _⟩ := linkSel_site h1
    have ua : P.siteUsed x flow l.tx = true := siteUsed_of_arc h2 (Or.inl rfl)
    have ub : P.siteUsed x flow l.rx = true := siteUsed_of_arc h2 (Or.inr rfl)
    have e : P.linkOf (.site l.tx, .site l.rx) = some l := linkOf_arcOf inv hl
    refine ⟨final_site ua ha, final_site ub hb, ?_, ?_, ?_⟩
    · unfold inactiveArc at hin
      rw [e, Option.any_some, Bool.or_eq_false_iff] at hin
      exact hin.1
    · have := cap_arcOf inv hl
      rw [← this]; exact hcap
    · intro hw
      constructor
      · obtain ⟨a, b, d, d', hs, hka, hda, hkb, hdb, ea, eb⟩ := wireless_sectors inv hl hw h1'
        refine ⟨a, b, hs, ?_, ?_, ?_⟩
        · show (P.extracted x flow).sector a = 1
          rw [final_sector hka, if_pos (sectorUsed_of_end h2 ea hka hda), hda, ha]
        · show (P.extracted x flow).sector b = 1
          rw [final_sector hkb, if_pos (sectorUsed_of_end h2 eb hkb hdb), hdb, hb]
        · show (P.extracted x flow).channel a = (P.extracted x flow).channel b
          rw [final_channel hka (by rw [hda, ha]), final_channel hkb (by rw [hdb, hb])]
      · intro hi y z hy hz hyt hzt
        have da := isDist_of hy hyt
        have db := isDist_of hz hzt
        obtain ⟨o1, e1, p1⟩ := final_pol ua ha hi da
        obtain ⟨o2, e2, p2⟩ := final_pol ub hb hi db
        have hne : bin (x.odd l.tx) ≠ bin (x.odd l.rx) := by
          by_cases hact : P.inputActive (.site l.tx, .site l.rx) = true
          · have hp := feas.activePolarity hi l.tx l.rx (arcOf_mem hl) hact da db
            rcases feas.bounds.odd hi _ db with h | h <;> rw [h] at hp <;> rw [hp, h] <;>
              simp [bin, eps] <;> norm_num
          · unfold polOk at hpol
            have hwired : P.isWired (.site l.tx, .site l.rx) = false := by
              unfold isWired
              simp only [e, Option.any_some, hw, Bool.not_true]
            rw [hi, Bool.eq_false_iff.2 hact, hwired, da, db, p1, p2] at hpol
            simpa using hpol
        change (P.extracted x flow).odd l.tx = 1 ∧ (P.extracted x flow).even l.rx = 1 ∨
          (P.extracted x flow).even l.tx = 1 ∧ (P.extracted x flow).odd l.rx = 1
        rw [o1, e1, o2, e2]
        rcases bin_cases (x.odd l.tx) with h | h <;> rcases bin_cases (x.odd l.rx) with h' | h' <;>
          rw [h, h'] at hne ⊢ <;> simp at hne ⊢
  · intro k d hk hs
    change (P.extracted x flow).sector k = 1 at hs
    rw [final_sector hk] at hs
    split at hs
    · rename_i hu
      exact ⟨final_site (sectorUsed_site hk hu) hs, final_channel hk hs⟩
    · cases hs
  · intro k k' d d' hk hk' hs hn
    show (P.extracted x flow).sector k = (P.extracted x flow).sector k'
    rw [final_sector hk, final_sector hk', sectorUsed_node hk hk' hs hn, hs]
  · intro s
    change ¬ (P.ifUsed x flow s (P.oddDec x flow s) = 1 ∧ P.ifUsed x flow s (P.evenDec x flow s) = 1) ∧
      (P.ifUsed x flow s (P.oddDec x flow s) = 1 ∨ P.ifUsed x flow s (P.evenDec x flow s) = 1 →
        P.ifUsed x flow s (P.siteDec x flow s) = 1)
    unfold ifUsed oddDec evenDec
    split
    · split
      · simp
      · rename_i hc
        have hne : P.siteDec x flow s ≠ 0 := by
          intro h; apply hc; simp [h]
        rcases siteDec_cases (P := P) (x := x) (flow := flow) s with h | h
        · exact absurd h hne
        · refine ⟨?_, fun _ => h.1⟩
          rcases bin_cases (x.odd s) with h | h <;> rw [h] <;> simp
    · simp

end Plan

/-- **C45.** In every extracted plan:
* a selected link joins two selected sites, is not ruled out by the input, and
  has positive capacity;
* a selected wireless link runs between two selected sectors on the same
  channel, and between DN/POP sites of opposite polarity;
* a selected sector is on a selected site and has a channel, and the sectors of one
  node are selected together;
* a site has at most one polarity, and only if selected. -/
theorem C45_consistent (ops : List Op) (p : OptParams) (adv : Arc → Bool) (x : Vars)
    (flow : Arc → ℚ) (common : Option ℚ) (sol : Solution) (cost : ℚ)
    (feas : (Plan.mk (run {} ops) p).SiteFeasible adv x)
    (h : (Plan.mk (run {} ops) p).extract x flow common = .ok (some (sol, cost))) :
    let t := run {} ops
    (∀ l ∈ t.links.vals, sol.link l.id = 1 →
      sol.site l.tx = 1 ∧ sol.site l.rx = 1 ∧ l.status.inactive = false ∧ 0 < l.capacity ∧
      (l.isWireless = true →
        (∃ a b, l.sectors = some (a, b) ∧ sol.sector a = 1 ∧ sol.sector b = 1 ∧
          sol.channel a = sol.channel b) ∧
        (p.ignorePolarities = false → ∀ y z, t.sites.get? l.tx = some y →
          t.sites.get? l.rx = some z → y.siteType ≠ .cn → z.siteType ≠ .cn →
          (sol.odd l.tx = 1 ∧ sol.even l.rx = 1) ∨ (sol.even l.tx = 1 ∧ sol.odd l.rx = 1)))) ∧
    (∀ k d, t.sectors.get? k = some d → sol.sector k = 1 →
      sol.site d.site = 1 ∧ sol.channel k = 0) ∧
    (∀ k k' d d', t.sectors.get? k = some d → t.sectors.get? k' = some d' → d.site = d'.site →
      d.node = d'.node → sol.sector k = sol.sector k') ∧
    (∀ s, ¬ (sol.odd s = 1 ∧ sol.even s = 1) ∧
      ((sol.odd s = 1 ∨ sol.even s = 1) → sol.site s = 1)) := by
  intro t
  have inv : Topology.Inv (Plan.mk (run {} ops) p).t := Inv.empty.run ops
  obtain ⟨hsol, _⟩ := Plan.extract_ok h
  subst hsol
  exact Plan.consistent inv feas

/-- A plan is extracted from the demo assignment: the link P-D is selected, the
link D-P as well (it carries no flow but joins selected sites), `E` is not. -/
example :
    let P : Plan := ⟨run {} planDemo, planDemoParams⟩
    P.SiteFeasible (fun _ => false) planDemoVars ∧
    ∃ sol, P.extract planDemoVars planDemoVars.flow none = .ok (some (sol, 78)) ∧
      sol.link ⟨"P", "D"⟩ = 1 ∧ sol.link ⟨"D", "P"⟩ = 1 ∧ sol.site "E" = 0 ∧
      sol.odd "P" = 1 ∧ sol.even "D" = 1 :=
  ⟨planDemo_feasible, Plan.extracted _ planDemoVars planDemoVars.flow, by
    unfold Plan.extract
    rw [if_neg (by decide +kernel), if_neg (by decide +kernel), if_neg (by decide +kernel)]
    show Except.ok (some (_, _)) = Except.ok (some (_, _))
    congr 3
    decide +kernel, by decide +kernel, by decide +kernel, by decide +kernel, by decide +kernel,
    by decide +kernel⟩

end Verif
