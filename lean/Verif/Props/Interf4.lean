import Verif.Model.InterfExtract
import Verif.Props.Interf3
import Verif.Props.Extract2

/-! # C95–C97: the plan read off a solution of the interference phase -/

namespace Verif
open Topology Spec

namespace Plan
variable {P : Plan} {I : Interf} {x : IVars} {flow : Arc → ℚ}

theorem bin_of01 {q : ℚ} (h : q = 0 ∨ q = 1) : ((bin q : Int) : ℚ) = q ∧ (bin q = 1 ↔ q = 1) := by
  rcases h with rfl | rfl <;> constructor <;> norm_num [bin, eps]

theorem chan_sum (feas : P.InterfFeasible I x) (k : SectorId) :
    (((P.chanDecisions I.channels x.toVars k).sum : Int) : ℚ) = P.sectorSum I.channels x.toVars k := by
  unfold chanDecisions sectorSum
  have : ∀ L : List Nat, (∀ c ∈ L, c < I.channels ∧ P.hasSector I.channels k c = true) →
      (((L.map fun c => bin (x.sector k c)).sum : Int) : ℚ) = (L.map fun c => x.sector k c).sum := by
    intro L
    induction L with
    | nil => simp
    | cons c L ih =>
      intro h
      simp only [List.map_cons, List.sum_cons]
      push_cast
      rw [ih (fun d hd => h d (List.mem_cons_of_mem _ hd)),
        (bin_of01 (feas.sector k c (h c (by simp)).1 (h c (by simp)).2)).1]
  apply this
  intro c hc
  obtain ⟨h1, h2⟩ := List.mem_filter.1 hc
  exact ⟨List.mem_range.1 h1, h2⟩

theorem chan_sum_one (feas : P.InterfFeasible I x) {k : SectorId} :
    (P.chanDecisions I.channels x.toVars k).sum = 1 ↔ P.sectorSum I.channels x.toVars k = 1 := by
  rw [← chan_sum feas k]
  exact_mod_cast Iff.rfl

theorem chan_dn {k : SectorId} {d : Sector} (hd : P.t.sectors.get? k = some d) (ht : d.typ = .dn)
    {n : Nat} {v : Vars} : P.chanDecisions n v k = (List.range n).map fun c => bin (v.sector k c) := by
  unfold chanDecisions
  congr 1
  rw [List.filter_eq_self]
  intro c hc
  exact hasSector_dn hd ht (List.mem_range.1 hc)

/-- The channel read off is the one that is selected. -/
theorem dnChannel_eq (feas : P.InterfFeasible I x) {k : SectorId} {d : Sector}
    (hd : P.t.sectors.get? k = some d) (ht : d.typ = .dn)
    (h1 : P.sectorSum I.channels x.toVars k = 1) :
    ∃ c < I.channels, P.dnChannel I.channels x.toVars k = (c : Int) ∧ x.sector k c = 1 := by
  have hsum := (chan_sum_one feas).2 h1
  have h01 := fun c (hc : c < I.channels) => feas.sector k c hc (hasSector_dn hd ht hc)
  rw [sectorSum_dn hd ht] at h1
  obtain ⟨c, hc, g1, g2⟩ := one_of_sum h01 h1
  refine ⟨c, hc, ?_, g1⟩
  unfold dnChannel
  rw [if_pos hsum, chan_dn hd ht]
  congr 1
  have hlen : c < ((List.range I.channels).map fun c => bin (x.sector k c)).length := by simpa using hc
  rw [List.findIdx_eq hlen]
  constructor
  · simp [(bin_of01 (h01 c hc)).2.2 g1]
  · intro j hj
    have hjn : j < I.channels := by omega
    have := g2 j hjn (by omega)
    simp [this, bin, eps]
    norm_num

theorem iSite_one {s : SiteId} : P.iSite s = 1 ↔ P.liveSite s = true := by
  unfold iSite; split <;> simp [*]

theorem iLink_arcOf {l : Link} (hl : l ∈ P.t.links.vals) :
    (P.iExtracted I.channels x flow).link l.id = 1 ↔ P.iLinkSel x flow (arcOf l) = true := by
  have hm := arcOf_mem (P := P) hl
  unfold iExtracted
  dsimp only
  have e : (Loc.site l.id.tx, Loc.site l.id.rx) = arcOf l := rfl
  rw [e, List.contains_iff_mem.2 hm]
  cases P.iLinkSel x flow (arcOf l) <;> simp

/-- A selected radio link is a chosen one. -/
theorem iLink_chosen (inv : P.t.Inv) (feas : P.InterfFeasible I x) (hn : 0 < I.channels)
    (hf : ∀ e ∈ P.arcs, 0 ≤ flow e ∧ flow e ≤ x.flow e) {l : Link} (hl : l ∈ P.t.links.vals)
    (hw : l.isWireless = true) : P.iLinkSel x flow (arcOf l) = true ↔ l ∈ chosen P x := by
  have hm := arcOf_mem (P := P) hl
  have hwired : P.isWired (.site l.tx, .site l.rx) = false := by
    have := (hasTdm_arcOf inv hl).trans hw
    unfold hasTdm at this
    rw [Bool.and_eq_true, Bool.not_eq_true'] at this
    exact this.2
  unfold arcOf iLinkSel
  dsimp only
  rw [hwired]
  simp only [Bool.false_and, Bool.false_eq_true, if_false]
  change (if P.hasActive (arcOf l) = true then _ else !near0 (flow (arcOf l))) = true ↔ _
  by_cases ha : P.hasActive (arcOf l) = true
  · rw [if_pos ha]
    have hr := (hasActive_arcOf inv hl).1 ha
    change (bin (x.active (arcOf l)) == 1) = true ↔ _
    rw [beq_iff_eq, (bin_of01 (feas.active _ hm ha)).2]
    unfold chosen
    simp [hl, hr]
  · rw [if_neg ha]
    have hz : flow (arcOf l) = 0 := by
      by_contra hne
      have h1 := hf _ hm
      have h2 : 0 < x.flow (arcOf l) := lt_of_lt_of_le (lt_of_le_of_ne h1.1 (Ne.symm hne)) h1.2
      exact ha ((hasActive_arcOf inv hl).2 (flow_chosen inv feas hn hl hw h2).2.1)
    rw [hz]
    constructor
    · intro h
      exfalso
      revert h
      norm_num [near0, eps]
    · intro h
      exact absurd ((hasActive_arcOf inv hl).2 (of_decide_eq_true (List.mem_filter.1 h).2).1) ha

theorem iExtract_ok {n : Nat} {common : Option ℚ} {sol : Solution} {cost : ℚ}
    (h : P.iExtract n x flow common = .ok (some (sol, cost))) :
    sol = P.iExtracted n x flow ∧
    cost = P.extractCost (fun s => (sol.site s : ℚ)) (fun k => (sol.sector k : ℚ)) := by
  unfold iExtract at h
  split at h
  · cases h
  split at h
  · split at h <;> cases h
  split at h
  · cases h
  · injection h with h
    injection h with h
    injection h with h1 h2
    subst h1
    exact ⟨rfl, h2.symm⟩

/-- The only chosen link into a CN is the one that feeds it. -/
theorem cnFeeds_eq (inv : P.t.Inv) (feas : P.InterfFeasible I x) (hn : 0 < I.channels)
    (hf : ∀ e ∈ P.arcs, 0 ≤ flow e ∧ flow e ≤ x.flow e) {s : SiteId} {k : SectorId}
    (hcn : typeAt P s = some .cn) {e : Arc} (he : e ∈ P.cnFeeds x flow s k) :
    P.cnFeeds x flow s k = [e] ∧ ∃ l ∈ chosen P x, e = arcOf l ∧ l.rx = s ∧
      l.sectors.map (·.2) = some k := by
  have hmem : ∀ e ∈ P.cnFeeds x flow s k, ∃ l ∈ chosen P x, e = arcOf l ∧ l.rx = s ∧
      l.sectors.map (·.2) = some k := by
    intro e he
    obtain ⟨h1, h2⟩ := List.mem_filter.1 he
    simp only [Bool.and_eq_true, beq_iff_eq] at h2
    obtain ⟨⟨h2, h3⟩, h4⟩ := h2
    obtain ⟨h5, h6⟩ := mem_incoming.1 h1
    obtain ⟨l, hl, rfl⟩ := hasActive_link h5 h2
    have hr := (hasActive_arcOf inv hl).1 h2
    refine ⟨l, (iLink_chosen inv feas hn hf hl hr.1).1 h3, rfl, by simpa [arcOf] using h6, ?_⟩
    rw [(sectors_arcOf inv hl).2] at h4
    exact h4
  have hnd : (P.cnFeeds x flow s k).Nodup := (arcs_nodup.filter _).filter _
  have hall : ∀ a ∈ P.cnFeeds x flow s k, ∀ b ∈ P.cnFeeds x flow s k, a = b := by
    intro a ha b hb
    have one : ∀ q ∈ P.cnFeeds x flow s k, q ∈ (P.incoming (.site s)).filter P.hasActive ∧
        x.active q = 1 := by
      intro q hq
      obtain ⟨l, h1, rfl, h3, _⟩ := hmem q hq
      obtain ⟨h4, h5⟩ := List.mem_filter.1 h1
      obtain ⟨h6, h7⟩ := of_decide_eq_true h5
      refine ⟨List.mem_filter.2 ⟨mem_incoming.2 ⟨arcOf_mem h4, ?_⟩, (hasActive_arcOf inv h4).2 h6⟩, h7⟩
      rw [← h3]; rfl
    by_contra hne
    obtain ⟨a1, a2⟩ := one a ha
    obtain ⟨b1, b2⟩ := one b hb
    have hsum := feas.cnLinks s hcn (List.ne_nil_of_mem a1)
    change (((P.incoming (.site s)).filter P.hasActive).map x.active).sum ≤ 1 at hsum
    rw [bin_sum _ _ (fun e he => by
      obtain ⟨m1, m2⟩ := List.mem_filter.1 he
      exact feas.active e (mem_incoming.1 m1).1 m2)] at hsum
    have hsum : (((P.incoming (.site s)).filter P.hasActive).filter (fun e => x.active e = 1)).length ≤ 1 := by
      exact_mod_cast hsum
    have ma : a ∈ ((P.incoming (.site s)).filter P.hasActive).filter (fun e => x.active e = 1) :=
      List.mem_filter.2 ⟨a1, decide_eq_true a2⟩
    have mb : b ∈ ((P.incoming (.site s)).filter P.hasActive).filter (fun e => x.active e = 1) :=
      List.mem_filter.2 ⟨b1, decide_eq_true b2⟩
    generalize ((P.incoming (.site s)).filter P.hasActive).filter (fun e => x.active e = 1) = L at *
    match L, hsum, ma, mb with
    | [c], _, ma, mb =>
      rw [List.mem_singleton] at ma mb
      exact hne (ma.trans mb.symm)
  refine ⟨?_, hmem e he⟩
  generalize P.cnFeeds x flow s k = L at *
  match L, he, hnd, hall with
  | [c], he, _, _ => rw [List.mem_singleton] at he; rw [he]
  | c :: d :: L, he, hnd, hall =>
    exfalso
    have := hall c (by simp) d (by simp)
    rw [this] at hnd
    simp at hnd

/-- Sector and channel decisions at the ends of a chosen link. -/
theorem chosen_sectors (inv : P.t.Inv) (known : SectorsKnown P) (send : SendersDist P)
    (feas : P.InterfFeasible I x) (hn : 0 < I.channels)
    (hf : ∀ e ∈ P.arcs, 0 ≤ flow e ∧ flow e ≤ x.flow e) {l : Link} (hl : l ∈ chosen P x)
    {k1 k2 : SectorId} (hk : l.sectors = some (k1, k2)) :
    P.iSectorDec I.channels x flow k1 = 1 ∧ P.iSectorDec I.channels x flow k2 = 1 ∧
    ∃ c < I.channels, P.iChannelDec I.channels x flow k1 = (c : Int) ∧
      P.iChannelDec I.channels x flow k2 = (c : Int) ∧ x.sector k1 c = 1 := by
  obtain ⟨s1, s2, t1, t2, same⟩ := chosen_ends inv known feas hn hl hk
  obtain ⟨hl0, hl1⟩ := List.mem_filter.1 hl
  obtain ⟨hr, ha⟩ := of_decide_eq_true hl1
  obtain ⟨⟨d1, hd1, e1⟩, d2, hd2, e2⟩ := known.ends l hl0 k1 k2 hk
  have ht1 : d1.typ = .dn := by
    cases h : d1.typ with
    | dn => rfl
    | cn => exact absurd (e1 ▸ (sector_typ known hd1).1 h) (send l hl0)
  obtain ⟨c, hc, g1, g2⟩ := dnChannel_eq feas hd1 ht1 s1
  have r1 := (chan_sum_one feas).2 s1
  have r2 := (chan_sum_one feas).2 s2
  have c1 : P.iChannelDec I.channels x flow k1 = (c : Int) := by
    unfold iChannelDec
    rw [hd1]
    simp [ht1, g1]
  have a1 : P.iSectorDec I.channels x flow k1 = 1 := by
    unfold iSectorDec
    rw [hd1]
    simp [ht1, r1]
  cases ht2 : d2.typ with
  | dn =>
    have hcn : typeAt P l.rx ≠ some .cn := by
      intro h
      have := (sector_typ known hd2).2 (e2 ▸ h)
      rw [ht2] at this; cases this
    obtain ⟨c', hc', g1', g2'⟩ := dnChannel_eq feas hd2 ht2 s2
    have hcc : c' = c := by
      by_contra hne
      rw [← same hcn c' hc'] at g2'
      rw [sectorSum_dn hd1 ht1] at s1
      have := one_class (fun c hc => feas.sector k1 c hc (hasSector_dn hd1 ht1 hc)) (le_of_eq s1) hc g2
        c' hc' hne
      rw [g2'] at this; norm_num at this
    refine ⟨a1, ?_, c, hc, c1, ?_, g2⟩
    · unfold iSectorDec
      rw [hd2]
      simp [ht2, r2]
    · unfold iChannelDec
      rw [hd2]
      simp [ht2, g1', hcc]
  | cn =>
    have hcn : typeAt P d2.site = some .cn := (sector_typ known hd2).1 ht2
    have hmem : arcOf l ∈ P.cnFeeds x flow d2.site k2 := by
      refine List.mem_filter.2 ⟨mem_incoming.2 ⟨arcOf_mem hl0, by rw [e2]; rfl⟩, ?_⟩
      simp only [Bool.and_eq_true, beq_iff_eq]
      refine ⟨⟨(hasActive_arcOf inv hl0).2 hr, (iLink_chosen inv feas hn hf hl0 hr.1).2 hl⟩, ?_⟩
      rw [(sectors_arcOf inv hl0).2, hk]
      rfl
    have hfe := (cnFeeds_eq inv feas hn hf hcn hmem).1
    refine ⟨a1, ?_, c, hc, c1, ?_, g2⟩
    · unfold iSectorDec
      rw [hd2]
      simp [ht2, hfe, r2]
    · unfold iChannelDec
      rw [hd2]
      simp only [ht2, if_true, hfe, r2]
      have : P.txSector (arcOf l) = some k1 := by rw [(sectors_arcOf inv hl0).1, hk]; rfl
      simp [this, g1]

theorem used_of_link {l : Link} (hl : l ∈ P.t.links.vals)
    (hsel : P.iLinkSel x flow (arcOf l) = true) :
    arcOf l ∈ P.iSelArcs x flow ∧ P.iSiteUsed x flow l.tx = true ∧ P.iSiteUsed x flow l.rx = true := by
  have hm : arcOf l ∈ P.iSelArcs x flow := List.mem_filter.2 ⟨arcOf_mem hl, hsel⟩
  refine ⟨hm, ?_, ?_⟩ <;> unfold iSiteUsed <;> rw [Bool.or_eq_true] <;> left <;>
    rw [List.any_eq_true] <;> exact ⟨_, hm, by simp [arcOf]⟩

theorem used_sectors (inv : P.t.Inv) {l : Link} (hl : l ∈ P.t.links.vals)
    (hsel : P.iLinkSel x flow (arcOf l) = true) {k1 k2 : SectorId} (hk : l.sectors = some (k1, k2))
    {d1 d2 : Sector} (hd1 : P.t.sectors.get? k1 = some d1) (e1 : d1.site = l.tx)
    (hd2 : P.t.sectors.get? k2 = some d2) (e2 : d2.site = l.rx) :
    P.iSectorUsed x flow k1 = true ∧ P.iSectorUsed x flow k2 = true := by
  have hm := (used_of_link hl hsel).1
  obtain ⟨t1, t2⟩ := sectors_arcOf inv hl
  rw [hk] at t1 t2
  have hends : P.sectorEnds (arcOf l) = [(l.tx, k1), (l.rx, k2)] := by
    unfold arcOf at t1 t2 ⊢
    unfold sectorEnds
    dsimp only
    rw [t1, t2]
    rfl
  constructor
  · unfold iSectorUsed
    rw [hd1, Option.any_some, List.any_eq_true]
    refine ⟨_, hm, ?_⟩
    rw [hends]
    simp [e1, hd1]
  · unfold iSectorUsed
    rw [hd2, Option.any_some, List.any_eq_true]
    refine ⟨_, hm, ?_⟩
    rw [hends]
    simp [e2, hd2]

theorem iExtract_of {n : Nat} {common : Option ℚ}
    (h : (P.arcs.any (P.tdmClash n x.toVars) || near0 (P.arcs.map flow).sum ||
      (P.iSectorErr n x flow).isSome) = false) :
    ∃ cost, P.iExtract n x flow common = .ok (some (P.iExtracted n x flow, cost)) ∧
      cost = P.extractCost (fun s => ((P.iExtracted n x flow).site s : ℚ))
        (fun k => ((P.iExtracted n x flow).sector k : ℚ)) := by
  simp only [Bool.or_eq_false_iff] at h
  obtain ⟨⟨h1, h2⟩, h3⟩ := h
  refine ⟨_, ?_, rfl⟩
  unfold iExtract
  rw [h1, h2]
  cases h4 : P.iSectorErr n x flow with
  | some e => rw [h4] at h3; cases h3
  | none => rfl

/-- The sector decisions are kept for a sector in use, else cleared. -/
theorem ex_sector_pos {n : Nat} {k : SectorId}
    (h : ((P.t.sectors.get? k).any (fun d => P.iSiteUsed x flow d.site) &&
        P.iSectorUsed x flow k) = true) :
    (P.iExtracted n x flow).sector k = P.iSectorDec n x flow k ∧
    (P.iExtracted n x flow).channel k = P.iChannelDec n x flow k := ⟨if_pos h, if_pos h⟩

theorem ex_sector_neg {n : Nat} {k : SectorId}
    (h : ¬ ((P.t.sectors.get? k).any (fun d => P.iSiteUsed x flow d.site) &&
        P.iSectorUsed x flow k) = true) :
    (P.iExtracted n x flow).sector k = 0 ∧
    (P.iExtracted n x flow).channel k = -1 := ⟨if_neg h, if_neg h⟩

theorem ex_pol_pos {n : Nat} {s : SiteId}
    (h : (P.p.ignorePolarities || !P.isDist (.site s) || P.iSite s == 0 ||
      !P.iSiteUsed x flow s) = true) :
    (P.iExtracted n x flow).odd s = 0 ∧ (P.iExtracted n x flow).even s = 0 := ⟨if_pos h, if_pos h⟩

theorem ex_pol_neg {n : Nat} {s : SiteId}
    (h : ¬ (P.p.ignorePolarities || !P.isDist (.site s) || P.iSite s == 0 ||
      !P.iSiteUsed x flow s) = true) :
    (P.iExtracted n x flow).odd s = bin (x.odd s) ∧
    (P.iExtracted n x flow).even s = 1 - bin (x.odd s) := ⟨if_neg h, if_neg h⟩

end Plan

/-- **C95, `_partial`.** A plan read off a solution of the interference phase is consistent
for radio links:
* a selected radio link is not ruled out by the input, has positive capacity, joins two
  selected sites through two selected sectors on the same channel, and sites of opposite
  polarity if both are DN/POP; its reverse (if a radio link of positive capacity with
  sectors) is selected with it;
* a wired link is selected if both ends are built, otherwise only if it carries traffic;
* a selected sector is on a selected site and has one of the configured channels, a sector
  that is not selected has none;
* a selected site is built, and has a selected link or a demand site;
* a site has at most one polarity, and only if selected.
Missing: a selected wired link joins selected sites, see `C95_violation`. -/
theorem C95_consistent_partial (ops : List Op) (p : OptParams) (I : Interf) (x : IVars)
    (flow : Arc → ℚ) (common : Option ℚ) (sol : Solution) (cost : ℚ)
    (feas : (Plan.mk (run {} ops) p).InterfFeasible I x)
    (known : SectorsKnown ⟨run {} ops, p⟩) (send : SendersDist ⟨run {} ops, p⟩)
    (hn : 0 < I.channels)
    (hf : ∀ e ∈ (Plan.mk (run {} ops) p).arcs, 0 ≤ flow e ∧ flow e ≤ x.flow e)
    (h : (Plan.mk (run {} ops) p).iExtract I.channels x flow common = .ok (some (sol, cost))) :
    let P : Plan := ⟨run {} ops, p⟩
    (∀ l ∈ P.t.links.vals, l.isWireless = true → sol.link l.id = 1 →
      l.status.inactive = false ∧ 0 < l.capacity ∧ sol.site l.tx = 1 ∧ sol.site l.rx = 1 ∧
      (∃ a b, l.sectors = some (a, b) ∧ sol.sector a = 1 ∧ sol.sector b = 1 ∧
        sol.channel a = sol.channel b) ∧
      (p.ignorePolarities = false → typeAt P l.tx ≠ some .cn → typeAt P l.rx ≠ some .cn →
        (sol.odd l.tx = 1 ∧ sol.even l.rx = 1) ∨ (sol.even l.tx = 1 ∧ sol.odd l.rx = 1)) ∧
      ∀ r ∈ P.t.links.vals, Radio r → r.tx = l.rx → r.rx = l.tx → sol.link r.id = 1) ∧
    (∀ l ∈ P.t.links.vals, l.isWireless = false →
      (Live P l.tx → Live P l.rx → sol.link l.id = 1) ∧
      (sol.link l.id = 1 → (Live P l.tx ∧ Live P l.rx) ∨ 1 / 100000 < flow (arcOf l))) ∧
    (∀ k d, P.t.sectors.get? k = some d →
      (sol.sector k = 1 ∧ sol.site d.site = 1 ∧ 0 ≤ sol.channel k ∧ sol.channel k < I.channels) ∨
      (sol.sector k = 0 ∧ sol.channel k = -1)) ∧
    (∀ s, sol.site s = 1 → Live P s ∧
      ((∃ l ∈ P.t.links.vals, (l.tx = s ∨ l.rx = s) ∧ sol.link l.id = 1) ∨
        ∃ d ∈ P.t.demandSites.vals, s ∈ d.connected)) ∧
    (∀ s, ¬ (sol.odd s = 1 ∧ sol.even s = 1) ∧
      ((sol.odd s = 1 ∨ sol.even s = 1) → sol.site s = 1)) := by
  intro P
  have inv : P.t.Inv := Inv.empty.run ops
  obtain ⟨hsol, -⟩ := Plan.iExtract_ok h
  subst hsol
  have lives : ∀ s, P.iSite s = 1 ↔ Live P s := fun s =>
    Plan.iSite_one.trans (Plan.liveSite_iff inv.nd_sites s)
  have siteEq : ∀ s, Live P s → P.iSiteUsed x flow s = true →
      (P.iExtracted I.channels x flow).site s = 1 := by
    intro s h1 h2
    change (if P.iSiteUsed x flow s then P.iSite s else 0) = 1
    rw [if_pos h2]
    exact (lives s).2 h1
  refine ⟨?_, ?_, ?_, ?_, ?_⟩
  · intro l hl hw hsel
    rw [Plan.iLink_arcOf hl] at hsel
    have hch := (Plan.iLink_chosen inv feas hn hf hl hw).1 hsel
    obtain ⟨hr, ha⟩ := of_decide_eq_true (List.mem_filter.1 hch).2
    obtain ⟨u0, u1, u2⟩ := Plan.used_of_link hl hsel
    cases hk : l.sectors with
    | none => have := hr.2.2; rw [hk] at this; cases this
    | some q =>
      obtain ⟨k1, k2⟩ := q
      obtain ⟨live1, live2, _, _⟩ := C52_ends ops p I x feas known hn l hch k1 k2 hk
      obtain ⟨⟨d1, hd1, e1⟩, d2, hd2, e2⟩ := known.ends l hl k1 k2 hk
      obtain ⟨a1, a2, c, hc, c1, c2, _⟩ := Plan.chosen_sectors inv known send feas hn hf hch hk
      obtain ⟨v1, v2⟩ := Plan.used_sectors inv hl hsel hk hd1 e1 hd2 e2
      have s1 := siteEq _ live1 u1
      have s2 := siteEq _ live2 u2
      have w1 : (P.t.sectors.get? k1).any (fun d => P.iSiteUsed x flow d.site) = true := by
        rw [hd1, Option.any_some, e1]; exact u1
      have w2 : (P.t.sectors.get? k2).any (fun d => P.iSiteUsed x flow d.site) = true := by
        rw [hd2, Option.any_some, e2]; exact u2
      refine ⟨?_, hr.2.1, s1, s2, ⟨k1, k2, rfl, ?_, ?_, ?_⟩, ?_, ?_⟩
      · by_contra hin
        have hst : l.status = .unavailable ∨ l.status = .unreachable := by
          cases hs : l.status <;> simp [hs, StatusType.inactive] at hin ⊢
        exact ((C93_decided ops p I x feas l hl).2.1 hst).1 hch
      · change (if _ then P.iSectorDec I.channels x flow k1 else 0) = 1
        rw [if_pos (by rw [w1, v1]; rfl)]; exact a1
      · change (if _ then P.iSectorDec I.channels x flow k2 else 0) = 1
        rw [if_pos (by rw [w2, v2]; rfl)]; exact a2
      · change (if _ then P.iChannelDec I.channels x flow k1 else -1) =
          (if _ then P.iChannelDec I.channels x flow k2 else -1)
        rw [if_pos (by rw [w1, v1]; rfl), if_pos (by rw [w2, v2]; rfl), c1, c2]
      · intro hi h1 h2
        have hpol := (C93_decided ops p I x feas l hl).2.2 hi hch h1 h2
        obtain ⟨kt, kr⟩ := Plan.link_keys inv hl
        have hd : ∀ s, s ∈ P.t.sites.keys → typeAt P s ≠ some .cn → P.isDist (.site s) = true := by
          intro s hs h
          rw [Plan.isDist_iff]
          obtain ⟨y, hy⟩ := (Dict.mem_keys_iff _ _).1 hs
          unfold typeAt at h ⊢
          rw [hy] at h ⊢
          cases e : y.siteType <;> simp [e] at h ⊢
        have od : ∀ s, s ∈ P.t.sites.keys → typeAt P s ≠ some .cn → Live P s →
            P.iSiteUsed x flow s = true → (P.iExtracted I.channels x flow).odd s = Plan.bin (x.odd s) ∧
            (P.iExtracted I.channels x flow).even s = 1 - Plan.bin (x.odd s) := by
          intro s g1 g2 g3 g4
          have g5 := (lives s).2 g3
          have hi' : P.p.ignorePolarities = false := hi
          constructor
          · change (if _ then 0 else Plan.bin (x.odd s)) = _
            rw [hd s g1 g2, g4, g5, hi']; rfl
          · change (if _ then 0 else 1 - Plan.bin (x.odd s)) = _
            rw [hd s g1 g2, g4, g5, hi']; rfl
        obtain ⟨o1, o2⟩ := od l.tx kt h1 live1 u1
        obtain ⟨o3, o4⟩ := od l.rx kr h2 live2 u2
        rw [o1, o2, o3, o4]
        rcases feas.bounds.odd hi _ (hd _ kt h1) with q1 | q1 <;>
          rcases feas.bounds.odd hi _ (hd _ kr h2) with q2 | q2 <;>
          rw [q1, q2] at hpol ⊢ <;> revert hpol <;> norm_num [Plan.bin, Plan.eps]
      · intro r hr0 hrr e1 e2
        rw [Plan.iLink_arcOf hr0, Plan.iLink_chosen inv feas hn hf hr0 hrr.1]
        exact ((C52_limits ops p I x feas known hn).2.2 l hl r hr0 hr hrr e1 e2).1 hch
  · intro l hl hw
    rw [Plan.iLink_arcOf hl]
    have hwired : P.isWired (.site l.tx, .site l.rx) = true := by
      have h1 := (Plan.hasTdm_arcOf inv hl).trans hw
      unfold Plan.hasTdm at h1
      rw [show Plan.real (arcOf l) = true from rfl, Bool.true_and, Bool.not_eq_false'] at h1
      exact h1
    have hna : P.hasActive (.site l.tx, .site l.rx) = false := by
      rw [← Bool.not_eq_true]
      intro h1
      have := ((Plan.hasActive_arcOf inv hl).1 h1).1
      rw [hw] at this
      cases this
    unfold arcOf Plan.iLinkSel
    dsimp only
    rw [hwired, hna]
    have hc : (true && P.iSite l.tx == 1 && P.iSite l.rx == 1) = true ↔ Live P l.tx ∧ Live P l.rx := by
      rw [Bool.true_and, Bool.and_eq_true, beq_iff_eq, beq_iff_eq, lives, lives]
    by_cases hb : Live P l.tx ∧ Live P l.rx
    · rw [if_pos (hc.2 hb)]
      exact ⟨fun _ _ => rfl, fun _ => .inl hb⟩
    · rw [if_neg (fun h => hb (hc.1 h)), if_neg (by simp)]
      refine ⟨fun h1 h2 => absurd ⟨h1, h2⟩ hb, fun h1 => .inr ?_⟩
      have h0 := (hf _ (Plan.arcOf_mem hl)).1
      change 0 ≤ flow (Loc.site l.tx, Loc.site l.rx) at h0
      by_contra hc
      rw [Bool.not_eq_true', ← Bool.not_eq_true] at h1
      apply h1
      unfold Plan.near0 Plan.eps
      apply decide_eq_true
      push Not at hc
      exact ⟨by linarith, hc⟩
  · intro k d hd
    by_cases hu : ((P.t.sectors.get? k).any (fun d => P.iSiteUsed x flow d.site) &&
        P.iSectorUsed x flow k) = true
    · rw [(Plan.ex_sector_pos hu).1, (Plan.ex_sector_pos hu).2]
      have hsu : P.iSiteUsed x flow d.site = true := by
        rw [Bool.and_eq_true, hd, Option.any_some] at hu
        exact hu.1
      have h01 := Plan.sectorSum_le_one feas hd hn
      have key : d.site ∈ P.t.sites.keys := by
        obtain ⟨y, hy, _⟩ := known.typed k d hd
        exact (Dict.mem_keys_iff _ _).2 ⟨y, hy⟩
      have hlive : P.sectorSum I.channels x.toVars k = 1 → Live P d.site := by
        intro h1
        rw [← Plan.site_live inv feas key]
        have := feas.sectorSite k d hd key
        change P.sectorSum I.channels x.toVars k ≤ x.site d.site at this
        intro h0
        rw [h1, h0] at this
        norm_num at this
      have zero : P.sectorSum I.channels x.toVars k = 0 →
          (P.chanDecisions I.channels x.toVars k).sum = 0 := by
        intro h0
        have := Plan.chan_sum feas k
        rw [h0] at this
        exact_mod_cast this
      cases ht : d.typ with
      | dn =>
        have cd : P.iChannelDec I.channels x flow k = P.dnChannel I.channels x.toVars k := by
          unfold Plan.iChannelDec; rw [hd]; simp [ht]
        have sd : P.iSectorDec I.channels x flow k = (P.chanDecisions I.channels x.toVars k).sum := by
          unfold Plan.iSectorDec; rw [hd]; simp [ht]
        rcases h01 with h0 | h1
        · right
          rw [cd, sd, zero h0]
          refine ⟨rfl, ?_⟩
          unfold Plan.dnChannel
          rw [zero h0]; rfl
        · left
          obtain ⟨c, hc, g1, _⟩ := Plan.dnChannel_eq feas hd ht h1
          rw [cd, sd, (Plan.chan_sum_one feas).2 h1, g1]
          exact ⟨rfl, siteEq _ (hlive h1) hsu, by omega, by exact_mod_cast hc⟩
      | cn =>
        rcases h01 with h0 | h1
        · right
          unfold Plan.iChannelDec Plan.iSectorDec
          rw [hd]
          dsimp only
          rw [zero h0]
          simp [ht]
        · cases hfe : P.cnFeeds x flow d.site k with
          | nil =>
            right
            unfold Plan.iChannelDec Plan.iSectorDec
            rw [hd]
            dsimp only
            rw [hfe]
            simp [ht]
          | cons e L =>
            left
            have he : e ∈ P.cnFeeds x flow d.site k := by rw [hfe]; simp
            obtain ⟨_, l, hl, rfl, hlr, hls⟩ := Plan.cnFeeds_eq inv feas hn hf
              ((Plan.sector_typ known hd).1 ht) he
            cases hk : l.sectors with
            | none => rw [hk] at hls; cases hls
            | some q =>
              obtain ⟨k1, k2⟩ := q
              rw [hk] at hls
              injection hls with hls
              change k2 = k at hls
              subst hls
              obtain ⟨_, a2, c, hc, _, c2, _⟩ :=
                Plan.chosen_sectors inv known send feas hn hf hl hk
              rw [a2, c2]
              exact ⟨rfl, siteEq _ (hlive h1) hsu, by omega, by exact_mod_cast hc⟩
    · rw [(Plan.ex_sector_neg hu).1, (Plan.ex_sector_neg hu).2]
      right
      exact ⟨rfl, rfl⟩
  · intro s hs
    change (if P.iSiteUsed x flow s then P.iSite s else 0) = 1 at hs
    by_cases hu : P.iSiteUsed x flow s = true
    · rw [if_pos hu] at hs
      refine ⟨(lives s).1 hs, ?_⟩
      unfold Plan.iSiteUsed at hu
      rw [Bool.or_eq_true] at hu
      rcases hu with hu | hu
      · left
        rw [List.any_eq_true] at hu
        obtain ⟨e, he, hs'⟩ := hu
        obtain ⟨m1, m2⟩ := List.mem_filter.1 he
        rcases Plan.mem_arcs.1 m1 with ⟨_, _, _, _, rfl⟩ | ⟨_, _, _, _, _, _, _, rfl⟩ | ⟨l, hl, rfl⟩
        · simp [Plan.iLinkSel] at m2
        · simp [Plan.iLinkSel] at m2
        · refine ⟨l, hl, by simpa using hs', (Plan.iLink_arcOf hl).2 m2⟩
      · right
        rw [Bool.and_eq_true, List.any_eq_true] at hu
        obtain ⟨⟨e, he, hfd⟩, _⟩ := hu
        rcases Plan.mem_arcs.1 he with ⟨_, _, _, _, rfl⟩ | ⟨i, d, k, s', h1, h2, h3, rfl⟩ | ⟨l, hl, rfl⟩
        · simp [Plan.feedsDemand] at hfd
        · simp [Plan.feedsDemand] at hfd
          subst hfd
          exact ⟨d, List.mem_map.2 ⟨_, h1, rfl⟩, h3⟩
        · simp [Plan.feedsDemand] at hfd
    · rw [if_neg hu] at hs; cases hs
  · intro s
    by_cases hc : (P.p.ignorePolarities || !P.isDist (.site s) || P.iSite s == 0 ||
      !P.iSiteUsed x flow s) = true
    · rw [(Plan.ex_pol_pos hc).1, (Plan.ex_pol_pos hc).2]
      simp
    · rw [(Plan.ex_pol_neg hc).1, (Plan.ex_pol_neg hc).2]
      constructor
      · rintro ⟨h1, h2⟩; omega
      · intro _
        simp only [Bool.or_eq_true, not_or, Bool.not_eq_true', Bool.not_eq_false] at hc
        refine siteEq s ((lives s).1 ?_) hc.2
        have := hc.1.2
        unfold Plan.iSite at this ⊢
        split at this <;> simp_all

/-- The hypotheses of `C95_consistent_partial` on the example; all links are used but
`F → C`, and `P → D` is the only one on channel 0. -/
example : ∃ sol cost,
    (Plan.mk (run {} interfDemo) interfDemoParams).InterfFeasible interfDemoIn interfDemoVars ∧
    SectorsKnown ⟨run {} interfDemo, interfDemoParams⟩ ∧
    SendersDist ⟨run {} interfDemo, interfDemoParams⟩ ∧
    (∀ e ∈ (Plan.mk (run {} interfDemo) interfDemoParams).arcs,
      0 ≤ interfDemoVars.flow e ∧ interfDemoVars.flow e ≤ interfDemoVars.flow e) ∧
    (Plan.mk (run {} interfDemo) interfDemoParams).iExtract interfDemoIn.channels
      interfDemoVars interfDemoVars.flow none = .ok (some (sol, cost)) ∧
    sol.link ⟨"P", "D"⟩ = 1 ∧ sol.link ⟨"F", "C"⟩ = 0 ∧ sol.channel ⟨"D", 0, 0, .dn⟩ = 0 ∧
    sol.channel ⟨"C", 0, 0, .cn⟩ = 1 := by
  obtain ⟨cost, h, -⟩ := Plan.iExtract_of (P := ⟨run {} interfDemo, interfDemoParams⟩)
    (n := interfDemoIn.channels) (x := interfDemoVars) (flow := interfDemoVars.flow)
    (common := none) (by decide +kernel)
  exact ⟨_, cost, interfDemo_feasible, interfDemo_known, by unfold SendersDist; decide +kernel,
    by decide +kernel, h, by decide +kernel, by decide +kernel, by decide +kernel, by decide +kernel⟩

/-- **C95, violated.** A plan read off a feasible solution selects the wired link `Q → D`
but not its sender, the candidate POP `Q`. -/
theorem C95_violation : ∃ (ops : List Op) (p : OptParams) (I : Interf) (x : IVars)
    (sol : Solution) (cost : ℚ),
    (Plan.mk (run {} ops) p).setupErr = none ∧
    (Plan.mk (run {} ops) p).InterfFeasible I x ∧
    (Plan.mk (run {} ops) p).iExtract I.channels x x.flow none = .ok (some (sol, cost)) ∧
    (∃ l, (run {} ops).links.get? ⟨"Q", "D"⟩ = some l) ∧
    sol.link ⟨"Q", "D"⟩ = 1 ∧ sol.link ⟨"D", "Q"⟩ = 0 ∧ sol.site "Q" = 0 := by
  let v : IVars := { interfDemoVars with
      site := fun s => if s = "Q" then 0 else 1
      flow := fun e => if e = (.source, .site "P") then 1/2
        else if e = (.site "P", .site "D") then 0
        else if e = (.source, .site "Q") ∨ e = (.site "Q", .site "D") then 1
        else interfDemoVars.flow e }
  obtain ⟨cost, h, -⟩ := Plan.iExtract_of (P := ⟨run {} interfCable, interfDemoParams⟩)
    (n := interfDemoIn.channels) (x := v) (flow := v.flow)
    (common := none) (by decide +kernel)
  exact ⟨interfCable, interfDemoParams, interfDemoIn, v, _, cost, by decide +kernel,
    Plan.ICheck.sound (by decide +kernel), h,
    ⟨{ tx := "Q", rx := "D", capacity := 4, isWireless := false }, by decide +kernel⟩,
    by decide +kernel, by decide +kernel, by decide +kernel⟩

/-- **C95, violated for the two directions of a link.** If the capacity of one direction is
zero, the other one is selected alone. -/
theorem C95_directions_violation : ∃ (ops : List Op) (p : OptParams) (I : Interf) (x : IVars)
    (sol : Solution) (cost : ℚ),
    (Plan.mk (run {} ops) p).setupErr = none ∧
    (Plan.mk (run {} ops) p).InterfFeasible I x ∧
    (Plan.mk (run {} ops) p).iExtract I.channels x x.flow none = .ok (some (sol, cost)) ∧
    (∃ l, (run {} ops).links.get? ⟨"F", "P"⟩ = some l) ∧
    sol.link ⟨"P", "F"⟩ = 1 ∧ sol.link ⟨"F", "P"⟩ = 0 := by
  let l : Link := ⟨"F", "P", some (⟨"F", 0, 0, .dn⟩, ⟨"P", 0, 1, .dn⟩), true, .candidate, 0, 0, none, false⟩
  let ops : List Op := interfDemo ++ [Op.addLink l]
  obtain ⟨cost, h, -⟩ := Plan.iExtract_of (P := ⟨run {} ops, interfDemoParams⟩)
    (n := interfDemoIn.channels) (x := interfDemoVars) (flow := interfDemoVars.flow)
    (common := none) (by decide +kernel)
  exact ⟨ops, interfDemoParams, interfDemoIn, interfDemoVars, _, cost, by decide +kernel,
    Plan.ICheck.sound (by decide +kernel), h,
    ⟨l, by decide +kernel⟩, by decide +kernel, by decide +kernel⟩

end Verif
