import Verif.Lemmas.SectorLinks

/-! # C119: the statistics of the report on links and sectors -/

namespace Verif
open Spec Topology Finset

theorem channels_isSome (t : Topology) (f : Filter) (L : List Link) : ∀ d : Dict (SiteId × SiteId) Int,
    (L.foldlM (fun d l => if f l.status && l.isWireless then
      (t.linkChannel l).map (d.set l.sortedIds) else some d) d).isSome = true ↔
    ∀ l ∈ L, (f l.status && l.isWireless) = true → (t.linkChannel l).isSome = true := by
  induction L with
  | nil => intro d; simp
  | cons l L ih =>
    intro d
    rw [List.foldlM_cons]
    by_cases c : (f l.status && l.isWireless) = true
    · rw [if_pos c]
      cases h : t.linkChannel l with
      | none =>
        simp only [Option.map_none, List.mem_cons, forall_eq_or_imp]
        constructor
        · intro h'; cases h'
        · rintro ⟨h', _⟩; have := h' c; rw [h] at this; cases this
      | some v =>
        simp only [Option.map_some, List.mem_cons, forall_eq_or_imp]
        rw [show ((some (d.set l.sortedIds v)) >>= fun d => L.foldlM (fun d l => if f l.status && l.isWireless then
          (t.linkChannel l).map (d.set l.sortedIds) else some d) d) = L.foldlM (fun d l => if f l.status && l.isWireless
          then (t.linkChannel l).map (d.set l.sortedIds) else some d) (d.set l.sortedIds v) from rfl, ih]
        constructor
        · intro h'; exact ⟨fun _ => by rw [h]; rfl, h'⟩
        · rintro ⟨_, h'⟩; exact h'
    · rw [if_neg c]
      simp only [List.mem_cons, forall_eq_or_imp]
      rw [show ((some d) >>= fun d => L.foldlM (fun d l => if f l.status && l.isWireless then
        (t.linkChannel l).map (d.set l.sortedIds) else some d) d) = L.foldlM (fun d l => if f l.status && l.isWireless
        then (t.linkChannel l).map (d.set l.sortedIds) else some d) d from rfl, ih]
      constructor
      · intro h'; exact ⟨fun c' => absurd c' c, h'⟩
      · rintro ⟨_, h'⟩; exact h'

theorem mem_vals_iff {t : Topology} (inv : t.Inv) {l : Link} :
    l ∈ t.links.vals ↔ t.links.get? ⟨l.tx, l.rx⟩ = some l := by
  constructor
  · intro h
    obtain ⟨⟨i, l⟩, hi, rfl⟩ := List.mem_map.1 h
    have hg := (Dict.mem_iff_get? inv.nd_links _ _).1 hi
    exact inv.link_id _ _ hg ▸ hg
  · intro h
    exact List.mem_map.2 ⟨_, (Dict.mem_iff_get? inv.nd_links _ _).2 h, rfl⟩

theorem pop_count_pos {t : Topology} (inv : t.Inv) : t.siteCount activeFilter .pop ≠ 0 ↔ PopInUse t := by
  rw [siteCount_eq]
  unfold PopInUse
  rw [Ne, List.length_eq_zero_iff, List.filter_eq_nil_iff]
  push Not
  constructor
  · rintro ⟨⟨s, x⟩, h1, h2⟩
    simp only [Bool.and_eq_true, decide_eq_true_eq] at h2
    exact ⟨s, x, (Dict.mem_iff_get? inv.nd_sites _ _).1 h1, h2.1, (active_iff _).1 h2.2⟩
  · rintro ⟨s, x, h1, h2, h3⟩
    refine ⟨(s, x), (Dict.mem_iff_get? inv.nd_sites _ _).2 h1, ?_⟩
    simp only [Bool.and_eq_true, decide_eq_true_eq]
    exact ⟨h2, (active_iff _).2 h3⟩

/-- The links in use are such as the loops of the report require. -/
theorem links_ok_iff {t : Topology} (inv : t.Inv) :
    ((∀ f, (t.linkChannels f).isSome = true) ∧ ∀ l ∈ t.links.vals, Passes t t.dnSectors.keys l) ↔
    ∀ l, t.links.get? ⟨l.tx, l.rx⟩ = some l → InNetwork l.status → ∃ a b, l.sectors = some (a, b) ∧ GoodEnds t l a b := by
  constructor
  · rintro ⟨h1, h2⟩ l hl hs
    have hm := (mem_vals_iff inv).2 hl
    have ha := (active_iff _).2 hs
    obtain ⟨a, b, e, k1, k2⟩ := h2 l hm ha
    refine ⟨a, b, e, ?_, ?_, ?_⟩
    · intro x hw hx hc
      have := k1 ((linkType_iff hx _).2 ⟨hw, x, hx, hc⟩)
      exact ⟨(mem_dnSectors inv).1 this.1, (mem_dnSectors inv).1 this.2⟩
    · intro x hw hx hc
      exact (mem_dnSectors inv).1 (k2 ((linkType_iff hx _).2 ⟨hw, x, hx, hc⟩))
    · intro hw
      have := (channels_isSome t anyFilter t.links.vals []).1 (h1 anyFilter) l hm (by simp [anyFilter, hw])
      unfold linkChannel at this
      rw [if_pos ha, e] at this
      dsimp only at this
      cases hx : t.sectors.get? a with
      | none => rw [hx] at this; cases this
      | some x =>
        cases hy : t.sectors.get? b with
        | none => rw [hx, hy] at this; cases this
        | some y =>
          rw [hx, hy] at this
          dsimp only at this
          split at this
          · rename_i c; exact ⟨x, y, rfl, rfl, c⟩
          · cases this
  · intro h
    refine ⟨fun f => (channels_isSome t f t.links.vals []).2 fun l hl hf => ?_, fun l hl ha => ?_⟩
    · unfold linkChannel
      split
      · rename_i ha
        obtain ⟨a, b, e, g⟩ := h l ((mem_vals_iff inv).1 hl) ((active_iff _).1 ha)
        rw [e]
        simp only [Bool.and_eq_true] at hf
        obtain ⟨x, y, hx, hy, hxy⟩ := g.channel hf.2
        dsimp only
        rw [hx, hy]
        dsimp only
        rw [if_pos hxy]
        rfl
      · rfl
    · have hg := (mem_vals_iff inv).1 hl
      obtain ⟨a, b, e, g⟩ := h l hg ((active_iff _).1 ha)
      obtain ⟨x, hx⟩ := inv.link_rx _ _ hg
      refine ⟨a, b, e, fun hty => ?_, fun hty => ?_⟩
      · obtain ⟨hw, x', hx', hc⟩ := (linkType_iff hx _).1 hty
        have := g.backhaul x' hw hx' hc
        exact ⟨(mem_dnSectors inv).2 this.1, (mem_dnSectors inv).2 this.2⟩
      · obtain ⟨hw, x', hx', hc⟩ := (linkType_iff hx _).1 hty
        exact (mem_dnSectors inv).2 (g.access x' hw hx' hc)

/-- **C119, the part that holds.** The report is made, without an exception, exactly if the oversubscription is not 0,
there is a link in use if there is a flow, a POP is in use, and each link in use has sectors as `GoodEnds` says.
Missing: that it is made for every plan (`C119_wired_violation`, `C119_direct_violation`). -/
theorem C119_raises_exactly_partial (ops : List Op) (I : MetricsInput) :
    (∃ m, metrics (run {} ops) I = .ok m) ↔
      I.oversubscription ≠ 0 ∧ I.utilization ≠ some [] ∧ PopInUse (run {} ops) ∧
      ∀ l, (run {} ops).links.get? ⟨l.tx, l.rx⟩ = some l → InNetwork l.status →
        ∃ a b, l.sectors = some (a, b) ∧ GoodEnds (run {} ops) l a b := by
  have inv := Inv.empty.run ops
  generalize run {} ops = t at *
  rw [← links_ok_iff inv, ← pop_count_pos inv]
  unfold metrics
  constructor
  · rintro ⟨m, h⟩
    split at h
    · rename_i d1 d2 e1 e2
      split at h
      · cases h
      rename_i ho
      split at h
      · cases h
      rename_i hu
      split at h
      · cases h
      rename_i bh ac hc
      split at h
      · cases h
      rename_i hp
      refine ⟨ho, hu, hp, fun f => ?_, ?_⟩
      · refine (channels_isSome t f t.links.vals []).2 fun l hl hf => ?_
        have := (channels_isSome t anyFilter t.links.vals []).1 (by
          change (t.linkChannels anyFilter).isSome = true
          rw [e2]; rfl) l hl
        simp only [Bool.and_eq_true] at hf
        exact this (by simp [anyFilter, hf.2])
      · by_contra c
        obtain ⟨e, he⟩ := (countAll_spec inv).2 c
        rw [hc] at he
        cases he
    · cases h
  · rintro ⟨ho, hu, hp, hf, hl⟩
    obtain ⟨d1, e1⟩ := Option.isSome_iff_exists.1 (hf activeFilter)
    obtain ⟨d2, e2⟩ := Option.isSome_iff_exists.1 (hf anyFilter)
    obtain ⟨⟨bh, ac⟩, hc, _⟩ := (countAll_spec inv).1 hl
    rw [e1, e2]
    dsimp only
    rw [if_neg ho, if_neg hu, hc]
    dsimp only
    rw [if_neg hp]
    exact ⟨_, rfl⟩

/-- What a report that was made looks like. -/
theorem metrics_ok {t : Topology} (inv : t.Inv) {I : MetricsInput} {m : Metrics} (h : metrics t I = .ok m) :
    ∃ bh ac, Holds bh t.dnSectors.keys (fun s g => ∃ k ∈ t.links.vals, TouchesBackhaul t k s ∧ t.linkHash k = g) ∧
      Holds ac t.dnSectors.keys (fun s g => ∃ k ∈ t.links.vals, TouchesAccess t k s ∧ t.linkHash k = g) ∧
      m = { demands := t.demandSites.length
            disconnected := I.failures.paths.disconnected.length
            atPop := I.failures.paths.atPop.length
            disjoint := I.failures.paths.disjoint.length
            disjointPercent := disjointPercent t.demandSites.length I.failures.paths.atPop.length
              I.failures.paths.disjoint.length
            totalDemand := t.totalDemand
            totalOversubscribed := t.totalDemand / I.oversubscription
            utilization := I.utilization.map fun u => statOf u.vals
            backhaulPerSector := sectorStat (sizes bh) (t.sectorCount Topology.activeFilter .dn)
            accessPerSector := sectorStat (sizes ac) (t.sectorCount Topology.activeFilter .dn)
            backhaulDist := statOf ((t.activeOf .wirelessBackhaul).map (·.distance))
            accessDist := statOf ((t.activeOf .wirelessAccess).map (·.distance))
            backhaulMcs := fun m => (t.pairMcs I.mcs .wirelessBackhaul).vals.count m
            accessMcs := fun m => (t.pairMcs I.mcs .wirelessAccess).vals.count m
            edgeFail := statOf (sizes I.failures.edges)
            popFail := failStat (sizes I.failures.sites.1) (t.siteCount Topology.activeFilter .pop)
            dnFail := failStat (sizes I.failures.sites.2) (t.siteCount Topology.activeFilter .dn)
            availability := 100 * (if I.availability.length > 0 then I.availability.sum / I.availability.length else 0)
            percentiles := [0, 25, 50, 75, 100].map fun p =>
              (p, 100 * (if I.availability.length > 0 then percentile I.availability p else 0)) } := by
  unfold metrics at h
  split at h
  · split at h
    · cases h
    split at h
    · cases h
    split at h
    · cases h
    rename_i bh ac hc
    split at h
    · cases h
    simp only [Except.ok.injEq] at h
    have hl : ∀ l ∈ t.links.vals, Passes t t.dnSectors.keys l := by
      by_contra c
      obtain ⟨e, he⟩ := (countAll_spec inv).2 c
      rw [hc] at he
      cases he
    obtain ⟨d', hd, h1, h2⟩ := (countAll_spec inv).1 hl
    rw [hc] at hd
    cases hd
    exact ⟨bh, ac, h1, h2, h.symm⟩
  · cases h

/-- A wireless link in use, to a CN or not. -/
def Spec.UsedOf (t : Topology) (cn : Bool) (l : Link) : Prop :=
  t.links.get? ⟨l.tx, l.rx⟩ = some l ∧ InNetwork l.status ∧ l.isWireless = true ∧
    ∃ x, t.sites.get? l.rx = some x ∧ (cn = true ↔ x.siteType = .cn)

theorem touchesBackhaul_iff {t : Topology} (inv : t.Inv) {l : Link} {s : SectorId} :
    (l ∈ t.links.vals ∧ TouchesBackhaul t l s) ↔
      UsedOf t false l ∧ ∃ a b, l.sectors = some (a, b) ∧ (s = a ∨ s = b) := by
  unfold UsedOf TouchesBackhaul
  rw [mem_vals_iff inv]
  constructor
  · rintro ⟨h1, h2, h3, h4⟩
    obtain ⟨x, hx⟩ := inv.link_rx _ _ h1
    obtain ⟨hw, y, hy, hc⟩ := (linkType_iff hx _).1 h3
    exact ⟨⟨h1, (active_iff _).1 h2, hw, y, hy, by simp [hc]⟩, h4⟩
  · rintro ⟨⟨h1, h2, hw, y, hy, hc⟩, h4⟩
    obtain ⟨x, hx⟩ := inv.link_rx _ _ h1
    exact ⟨h1, (active_iff _).2 h2, (linkType_iff hx _).2 ⟨hw, y, hy, by simpa using hc⟩, h4⟩

theorem touchesAccess_iff {t : Topology} (inv : t.Inv) {l : Link} {s : SectorId} :
    (l ∈ t.links.vals ∧ TouchesAccess t l s) ↔ UsedOf t true l ∧ ∃ b, l.sectors = some (s, b) := by
  unfold UsedOf TouchesAccess
  rw [mem_vals_iff inv]
  constructor
  · rintro ⟨h1, h2, h3, a, b, h4, rfl⟩
    obtain ⟨x, hx⟩ := inv.link_rx _ _ h1
    obtain ⟨hw, y, hy, hc⟩ := (linkType_iff hx _).1 h3
    exact ⟨⟨h1, (active_iff _).1 h2, hw, y, hy, by simp [hc]⟩, b, h4⟩
  · rintro ⟨⟨h1, h2, hw, y, hy, hc⟩, b, h4⟩
    obtain ⟨x, hx⟩ := inv.link_rx _ _ h1
    exact ⟨h1, (active_iff _).2 h2, (linkType_iff hx _).2 ⟨hw, y, hy, by simpa using hc⟩, _, b, h4, rfl⟩

/-- The number of hashes is the number of pairs of sites. -/
theorem hash_card {t : Topology} {β : Type} [DecidableEq β] (key : Link → β)
    (hkey : ∀ l ∈ t.links.vals, ∀ l' ∈ t.links.vals, t.linkHash l = t.linkHash l' ↔ key l = key l')
    (Q : Link → Prop) [DecidablePred Q] {xs : List String} (hn : xs.Nodup)
    (hx : ∀ h, h ∈ xs ↔ ∃ k ∈ t.links.vals, Q k ∧ t.linkHash k = h) :
    xs.length = (((t.links.vals.filter (fun l => decide (Q l))).map key).toFinset).card := by
  rw [← dedup_length_eq_card (t.links.vals.filter (fun l => decide (Q l))) t.linkHash key
    (fun a ha b hb => hkey a (List.mem_filter.1 ha).1 b (List.mem_filter.1 hb).1)]
  rw [← List.toFinset_card_of_nodup hn, ← List.card_toFinset]
  congr 1
  ext h
  rw [List.mem_toFinset, List.mem_toFinset, hx, List.mem_map]
  constructor
  · rintro ⟨k, h1, h2, h3⟩; exact ⟨k, List.mem_filter.2 ⟨h1, by simpa using h2⟩, h3⟩
  · rintro ⟨k, h1, h3⟩
    obtain ⟨h1, h2⟩ := List.mem_filter.1 h1
    exact ⟨k, h1, by simpa using h2, h3⟩

/-- Statistics of the numbers of pairs per sector. -/
theorem sector_stats {t : Topology} (inv : t.Inv) {β : Type} [DecidableEq β] (key : Link → β)
    (hkey : ∀ l ∈ t.links.vals, ∀ l' ∈ t.links.vals, t.linkHash l = t.linkHash l' ↔ key l = key l')
    (Q : Link → SectorId → Prop) {d : Dict SectorId (List String)}
    (hd : Holds d t.dnSectors.keys (fun s g => ∃ k ∈ t.links.vals, Q k s ∧ t.linkHash k = g)) :
    ∃ P : SectorId → Finset β, (∀ s p, p ∈ P s ↔ ∃ l ∈ t.links.vals, Q l s ∧ key l = p) ∧
      Describes (sectorStat (sizes d) (t.sectorCount activeFilter .dn)) t.dnSectors.keys.toFinset
        (fun s => ((P s).card : ℚ)) := by
  classical
  refine ⟨fun s => ((t.links.vals.filter (fun l => decide (Q l s))).map key).toFinset, ?_, ?_⟩
  · intro s p
    simp only [List.mem_toFinset, List.mem_map, List.mem_filter, decide_eq_true_eq, and_assoc]
  · have e := sizes_eq hd (fun s => (((t.links.vals.filter (fun l => decide (Q l s))).map key).toFinset).card)
      (fun s xs hs => by
        obtain ⟨h1, h2⟩ := hd.2.2 s xs hs
        exact hash_card key hkey (fun l => Q l s) h1 h2)
    have hlen : t.sectorCount activeFilter .dn = (sizes d).length := by
      rw [← dnSectors_length, e, List.length_map]
    rw [hlen, sectorStat_eq, e]
    have := dnSectors_holds inv
    exact statOf_describes t.dnSectors.keys this.1 _

theorem toFinset_dnSectors {t : Topology} (inv : t.Inv) (s : SectorId) :
    s ∈ t.dnSectors.keys.toFinset ↔ DnSector t s := by
  rw [List.mem_toFinset, mem_dnSectors inv]

theorem ends_known {t : Topology} (inv : t.Inv) {l : Link} (hl : l ∈ t.links.vals) :
    t.sites.get? l.tx = some (siteAt t l.tx) ∧ t.sites.get? l.rx = some (siteAt t l.rx) := by
  have hg := (mem_vals_iff inv).1 hl
  obtain ⟨x, hx⟩ := inv.link_rx _ _ hg
  obtain ⟨y, hy⟩ := inv.link_tx _ _ hg
  simp [siteAt, hx, hy]

/-- The statistics per sector for any way of telling links apart that agrees with the hash. -/
theorem per_sector {t : Topology} (inv : t.Inv) {β : Type} [DecidableEq β] (key : Link → β)
    (hkey : ∀ l ∈ t.links.vals, ∀ l' ∈ t.links.vals, t.linkHash l = t.linkHash l' ↔ key l = key l')
    {I : MetricsInput} {m : Metrics} (h : metrics t I = .ok m) :
    ∃ (S : Finset SectorId) (B A : SectorId → Finset β), (∀ s, s ∈ S ↔ DnSector t s) ∧
      (∀ s p, p ∈ B s ↔ ∃ l a b, UsedOf t false l ∧ l.sectors = some (a, b) ∧ (s = a ∨ s = b) ∧ key l = p) ∧
      (∀ s p, p ∈ A s ↔ ∃ l b, UsedOf t true l ∧ l.sectors = some (s, b) ∧ key l = p) ∧
      Describes m.backhaulPerSector S (fun s => ((B s).card : ℚ)) ∧
      Describes m.accessPerSector S (fun s => ((A s).card : ℚ)) := by
  obtain ⟨bh, ac, h1, h2, rfl⟩ := metrics_ok inv h
  obtain ⟨B, b1, b2⟩ := sector_stats inv key hkey (fun l s => TouchesBackhaul t l s) h1
  obtain ⟨A, a1, a2⟩ := sector_stats inv key hkey (fun l s => TouchesAccess t l s) h2
  refine ⟨_, B, A, toFinset_dnSectors inv, fun s p => ?_, fun s p => ?_, b2, a2⟩
  · rw [b1]
    constructor
    · rintro ⟨l, hl, ht, hp⟩
      obtain ⟨hu, a, b, e, hs⟩ := (touchesBackhaul_iff inv).1 ⟨hl, ht⟩
      exact ⟨l, a, b, hu, e, hs, hp⟩
    · rintro ⟨l, a, b, hu, e, hs, hp⟩
      obtain ⟨hl, ht⟩ := (touchesBackhaul_iff inv).2 ⟨hu, a, b, e, hs⟩
      exact ⟨l, hl, ht, hp⟩
  · rw [a1]
    constructor
    · rintro ⟨l, hl, ht, hp⟩
      obtain ⟨hu, b, e⟩ := (touchesAccess_iff inv).1 ⟨hl, ht⟩
      exact ⟨l, b, hu, e, hp⟩
    · rintro ⟨l, b, hu, e, hp⟩
      obtain ⟨hl, ht⟩ := (touchesAccess_iff inv).2 ⟨hu, b, e⟩
      exact ⟨l, hl, ht, hp⟩

/-- **C119.** The links per sector are given for the DN sectors in use: the number of pairs of ends (grid cell and type
of site) of backhaul links in use that start or end at the sector, and of access links in use that start there. A link
and its reverse count once. -/
theorem C119_links_per_sector (ops : List Op) (I : MetricsInput) (m : Metrics) (hv : ValidCoords (run {} ops))
    (h : metrics (run {} ops) I = .ok m) :
    ∃ (S : Finset SectorId) (B A : SectorId → Finset (Sym2 (ℤ × ℤ × SiteType))),
      (∀ s, s ∈ S ↔ DnSector (run {} ops) s) ∧
      (∀ s p, p ∈ B s ↔ ∃ l a b, UsedOf (run {} ops) false l ∧ l.sectors = some (a, b) ∧ (s = a ∨ s = b) ∧
        s(cellOf (siteAt (run {} ops) l.tx), cellOf (siteAt (run {} ops) l.rx)) = p) ∧
      (∀ s p, p ∈ A s ↔ ∃ l b, UsedOf (run {} ops) true l ∧ l.sectors = some (s, b) ∧
        s(cellOf (siteAt (run {} ops) l.tx), cellOf (siteAt (run {} ops) l.rx)) = p) ∧
      Describes m.backhaulPerSector S (fun s => ((B s).card : ℚ)) ∧
      Describes m.accessPerSector S (fun s => ((A s).card : ℚ)) := by
  have inv := Inv.empty.run ops
  generalize run {} ops = t at *
  exact per_sector inv _ (fun l hl l' hl' => linkHash_iff hv (ends_known inv hl).1 (ends_known inv hl).2
    (ends_known inv hl').1 (ends_known inv hl').2) h

/-- **C119, `_partial`.** With at most one site of a type in each grid cell these are pairs of sites. Missing: sites
closer than a cell, as in C61. -/
theorem C119_links_per_sector_partial (ops : List Op) (I : MetricsInput) (m : Metrics) (hv : ValidCoords (run {} ops))
    (hd : CellsDistinct (run {} ops)) (h : metrics (run {} ops) I = .ok m) :
    ∃ (S : Finset SectorId) (B A : SectorId → Finset (Sym2 SiteId)), (∀ s, s ∈ S ↔ DnSector (run {} ops) s) ∧
      (∀ s p, p ∈ B s ↔ ∃ l a b, UsedOf (run {} ops) false l ∧ l.sectors = some (a, b) ∧ (s = a ∨ s = b) ∧
        s(l.tx, l.rx) = p) ∧
      (∀ s p, p ∈ A s ↔ ∃ l b, UsedOf (run {} ops) true l ∧ l.sectors = some (s, b) ∧ s(l.tx, l.rx) = p) ∧
      Describes m.backhaulPerSector S (fun s => ((B s).card : ℚ)) ∧
      Describes m.accessPerSector S (fun s => ((A s).card : ℚ)) := by
  have inv := Inv.empty.run ops
  generalize run {} ops = t at *
  refine per_sector inv _ (fun l hl l' hl' => ?_) h
  obtain ⟨h1, h2⟩ := ends_known inv hl
  obtain ⟨h3, h4⟩ := ends_known inv hl'
  rw [linkHash_iff hv h1 h2 h3 h4, Sym2.eq_iff, Sym2.eq_iff]
  have key : ∀ {i j x y}, t.sites.get? i = some x → t.sites.get? j = some y → (cellOf x = cellOf y ↔ i = j) := by
    intro i j x y hx hy
    refine ⟨hd i j x y hx hy, ?_⟩
    rintro rfl
    rw [hx] at hy
    cases hy
    rfl
  rw [key h1 h3, key h2 h4, key h1 h4, key h2 h3]

theorem activeOf_iff {t : Topology} (inv : t.Inv) (cn : Bool) (l : Link) :
    l ∈ t.activeOf (if cn then .wirelessAccess else .wirelessBackhaul) ↔ UsedOf t cn l := by
  unfold activeOf UsedOf
  rw [List.mem_filter, mem_vals_iff inv, Bool.and_eq_true, beq_iff_eq]
  constructor
  · rintro ⟨h1, h2, h3⟩
    obtain ⟨x, hx⟩ := inv.link_rx _ _ h1
    have := (linkType_iff hx _).1 h3
    cases cn with
    | true =>
      obtain ⟨hw, y, hy, hc⟩ := this
      exact ⟨h1, (active_iff _).1 h2, hw, y, hy, by simp [hc]⟩
    | false =>
      obtain ⟨hw, y, hy, hc⟩ := this
      exact ⟨h1, (active_iff _).1 h2, hw, y, hy, by simp [hc]⟩
  · rintro ⟨h1, h2, hw, y, hy, hc⟩
    refine ⟨h1, (active_iff _).2 h2, (linkType_iff hy _).2 ?_⟩
    cases cn with
    | true => exact ⟨hw, y, hy, by simpa using hc⟩
    | false => exact ⟨hw, y, hy, by simpa using hc⟩

theorem vals_nodup {t : Topology} (inv : t.Inv) : t.links.vals.Nodup :=
  Dict.nodup_vals_of_inj inv.nd_links (fun l => ⟨l.tx, l.rx⟩) inv.link_id

/-- **C119.** The distances are those of the wireless links in use, each direction for itself. -/
theorem C119_distances (ops : List Op) (I : MetricsInput) (m : Metrics) (h : metrics (run {} ops) I = .ok m) :
    ∃ B A : Finset Link, (∀ l, l ∈ B ↔ UsedOf (run {} ops) false l) ∧ (∀ l, l ∈ A ↔ UsedOf (run {} ops) true l) ∧
      Describes m.backhaulDist B (fun l => l.distance) ∧ Describes m.accessDist A (fun l => l.distance) := by
  have inv := Inv.empty.run ops
  generalize run {} ops = t at *
  obtain ⟨bh, ac, _, _, rfl⟩ := metrics_ok inv h
  have hn := vals_nodup inv
  refine ⟨(t.activeOf .wirelessBackhaul).toFinset, (t.activeOf .wirelessAccess).toFinset, fun l => ?_, fun l => ?_,
    statOf_describes _ (hn.sublist List.filter_sublist) _, statOf_describes _ (hn.sublist List.filter_sublist) _⟩
  · rw [List.mem_toFinset]; exact activeOf_iff inv false l
  · rw [List.mem_toFinset]; exact activeOf_iff inv true l

theorem foldSet_spec {κ : Type} [DecidableEq κ] (key : Link → κ) (val : Link → ℤ) (L : List Link) :
    ∀ d : Dict κ ℤ, d.NodupKeys →
    (L.foldl (fun d l => d.set (key l) (val l)) d).NodupKeys ∧
    (∀ k, k ∈ (L.foldl (fun d l => d.set (key l) (val l)) d).keys ↔ k ∈ d.keys ∨ ∃ l ∈ L, key l = k) ∧
    (∀ k v, (L.foldl (fun d l => d.set (key l) (val l)) d).get? k = some v →
      d.get? k = some v ∨ ∃ l ∈ L, key l = k ∧ val l = v) := by
  induction L with
  | nil => intro d hd; exact ⟨hd, by simp, fun k v h => Or.inl h⟩
  | cons l L ih =>
    intro d hd
    rw [List.foldl_cons]
    obtain ⟨h1, h2, h3⟩ := ih (d.set (key l) (val l)) (hd.set _ _)
    refine ⟨h1, fun k => ?_, fun k v hk => ?_⟩
    · rw [h2, Dict.mem_keys_iff, Dict.mem_keys_iff]
      simp only [Dict.get?_set, List.mem_cons, exists_eq_or_imp]
      by_cases c : key l = k
      · simp [c]
      · simp [c]
    · rcases h3 k v hk with h | ⟨l', hl', e⟩
      · rw [Dict.get?_set] at h
        split at h
        · rename_i c
          simp only [Option.some.injEq] at h
          exact Or.inr ⟨l, by simp, c, h⟩
        · exact Or.inl h
      · exact Or.inr ⟨l', by simp [hl'], e⟩

theorem pairMcs_spec {t : Topology} (inv : t.Inv) (mcs : LinkId → ℤ) (cn : Bool) :
    ∃ (P : Finset (Sym2 SiteId)) (g : Sym2 SiteId → ℤ),
      (∀ p, p ∈ P ↔ ∃ l, UsedOf t cn l ∧ s(l.tx, l.rx) = p) ∧
      (∀ p ∈ P, ∃ l, UsedOf t cn l ∧ s(l.tx, l.rx) = p ∧ mcs l.id = g p) ∧
      ∀ m, (t.pairMcs mcs (if cn then .wirelessAccess else .wirelessBackhaul)).vals.count m =
        (P.filter (fun p => g p = m)).card := by
  obtain ⟨h1, h2, h3⟩ := foldSet_spec (fun l => l.sortedIds) (fun l => mcs l.id)
    (t.activeOf (if cn then .wirelessAccess else .wirelessBackhaul)) [] Dict.nodupKeys_nil
  change (t.pairMcs mcs (if cn then .wirelessAccess else .wirelessBackhaul)).NodupKeys at h1
  change ∀ k, k ∈ (t.pairMcs mcs (if cn then .wirelessAccess else .wirelessBackhaul)).keys ↔ _ at h2
  change ∀ k v, (t.pairMcs mcs (if cn then .wirelessAccess else .wirelessBackhaul)).get? k = some v → _ at h3
  generalize t.pairMcs mcs (if cn then .wirelessAccess else .wirelessBackhaul) = D at *
  simp only [Dict.keys, List.map_nil, List.not_mem_nil, false_or, Dict.get?_nil, reduceCtorEq] at h2 h3
  have hinj : ∀ k ∈ D.keys, ∀ k' ∈ D.keys, s(k.1, k.2) = s(k'.1, k'.2) → k = k' := by
    intro k hk k' hk' e
    obtain ⟨l, _, rfl⟩ := (h2 k).1 hk
    obtain ⟨l', _, rfl⟩ := (h2 k').1 hk'
    rw [sortedIds_iff]
    rwa [sortedIds_sym, sortedIds_sym] at e
  -- the level listed for a pair
  let g : Sym2 SiteId → ℤ := fun p =>
    match D.find? (fun e => s(e.1.1, e.1.2) = p) with
    | some e => e.2
    | none => 0
  have hg : ∀ k v, D.get? k = some v → g s(k.1, k.2) = v := by
    intro k v hk
    have hm := Dict.mem_of_get? _ hk
    cases hf : D.find? (fun e => s(e.1.1, e.1.2) = s(k.1, k.2)) with
    | none => exact absurd (List.find?_eq_none.1 hf _ hm) (by simp)
    | some e =>
      have he := List.find?_some hf
      have hem := List.mem_of_find?_eq_some hf
      have := hinj e.1 (List.mem_map.2 ⟨e, hem, rfl⟩) k ((Dict.mem_keys_iff _ _).2 ⟨v, hk⟩) (by simpa using he)
      have he' := (Dict.mem_iff_get? h1 e.1 e.2).1 hem
      rw [this, hk] at he'
      simp only [Option.some.injEq] at he'
      simp only [g, hf]
      exact he'.symm
  refine ⟨(D.keys.map fun k => s(k.1, k.2)).toFinset, g, fun p => ?_, fun p hp => ?_, fun m => ?_⟩
  · rw [List.mem_toFinset, List.mem_map]
    constructor
    · rintro ⟨k, hk, rfl⟩
      obtain ⟨l, hl, rfl⟩ := (h2 k).1 hk
      exact ⟨l, (activeOf_iff inv cn l).1 hl, (sortedIds_sym l).symm⟩
    · rintro ⟨l, hl, rfl⟩
      exact ⟨l.sortedIds, (h2 _).2 ⟨l, (activeOf_iff inv cn l).2 hl, rfl⟩, sortedIds_sym l⟩
  · rw [List.mem_toFinset, List.mem_map] at hp
    obtain ⟨k, hk, rfl⟩ := hp
    obtain ⟨v, hv⟩ := (Dict.mem_keys_iff _ _).1 hk
    obtain ⟨l, hl, e1, e2⟩ := h3 k v hv
    refine ⟨l, (activeOf_iff inv cn l).1 hl, ?_, ?_⟩
    · rw [← e1, sortedIds_sym]
    · rw [hg k v hv, e2]
  · have e : D.vals.count m = (D.filter (fun e => e.2 = m)).length := by
      unfold Dict.vals
      rw [List.count_eq_countP, List.countP_map, List.countP_eq_length_filter]
      congr 1
    rw [e]
    have hnd : ((D.filter (fun e => e.2 = m)).map (fun e => s(e.1.1, e.1.2))).Nodup := by
      have h1' : D.Pairwise (fun a b => a.1 ≠ b.1) := by
        have := h1
        unfold Dict.NodupKeys Dict.keys List.Nodup at this
        rwa [List.pairwise_map] at this
      rw [List.Nodup, List.pairwise_map]
      refine List.Pairwise.imp_of_mem ?_ (h1'.sublist List.filter_sublist)
      intro a b ha hb hab c
      exact hab (hinj a.1 (List.mem_map.2 ⟨a, (List.mem_filter.1 ha).1, rfl⟩) b.1
        (List.mem_map.2 ⟨b, (List.mem_filter.1 hb).1, rfl⟩) c)
    rw [← List.length_map (f := fun e : (SiteId × SiteId) × ℤ => s(e.1.1, e.1.2)), ← List.toFinset_card_of_nodup hnd]
    congr 1
    ext p
    simp only [List.mem_toFinset, List.mem_map, List.mem_filter, Finset.mem_filter, decide_eq_true_eq]
    constructor
    · rintro ⟨x, ⟨hx, rfl⟩, rfl⟩
      exact ⟨⟨x.1, List.mem_map.2 ⟨x, hx, rfl⟩, rfl⟩, hg _ _ ((Dict.mem_iff_get? h1 x.1 x.2).1 hx)⟩
    · rintro ⟨⟨k, hk, rfl⟩, rfl⟩
      obtain ⟨v, hv⟩ := (Dict.mem_keys_iff _ _).1 hk
      exact ⟨(k, v), ⟨Dict.mem_of_get? _ hv, (hg k v hv).symm⟩, rfl⟩

/-- **C119.** Each pair of sites with wireless links in use is counted once among the MCS levels, with the level of one
of its links. -/
theorem C119_mcs (ops : List Op) (I : MetricsInput) (m : Metrics) (h : metrics (run {} ops) I = .ok m) (cn : Bool) :
    ∃ (P : Finset (Sym2 SiteId)) (g : Sym2 SiteId → ℤ),
      (∀ p, p ∈ P ↔ ∃ l, UsedOf (run {} ops) cn l ∧ s(l.tx, l.rx) = p) ∧
      (∀ p ∈ P, ∃ l, UsedOf (run {} ops) cn l ∧ s(l.tx, l.rx) = p ∧ I.mcs ⟨l.tx, l.rx⟩ = g p) ∧
      ∀ v, (if cn then m.accessMcs v else m.backhaulMcs v) = (P.filter (fun p => g p = v)).card := by
  have inv := Inv.empty.run ops
  generalize run {} ops = t at *
  obtain ⟨bh, ac, _, _, rfl⟩ := metrics_ok inv h
  obtain ⟨P, g, h1, h2, h3⟩ := pairMcs_spec inv I.mcs cn
  refine ⟨P, g, h1, h2, fun v => ?_⟩
  rw [← h3]
  cases cn <;> rfl

/-- **C119 is violated.** No report can be made of a network with a wired link in use, as wired links have no
sectors. -/
theorem C119_wired_violation (ops : List Op) (l : Link) (hl : (run {} ops).links.get? ⟨l.tx, l.rx⟩ = some l)
    (hw : l.isWireless = false) (hu : InNetwork l.status) (hs : l.sectors = none) (I : MetricsInput) (m : Metrics) :
    metrics (run {} ops) I ≠ .ok m := by
  intro h
  have _ := hw
  obtain ⟨_, _, _, h4⟩ := (C119_raises_exactly_partial ops I).1 ⟨m, h⟩
  obtain ⟨a, b, e, _⟩ := h4 l hl hu
  rw [hs] at e
  cases e

/-- A POP that serves a demand site itself. -/
def popOnly : List Op :=
  [.addSite { id := "P", siteType := .pop, status := .existing } false,
   .addDemandSite { id := "d", connected := ["P"], demand := some 1 }]

/-- **C119 is violated.** No report can be made of a POP that serves its demand itself, although the flow problem can be
set up: the average utilization of no links is a division by 0. -/
theorem C119_direct_violation :
    PopInUse (run {} popOnly) ∧
    (Plan.mk (run {} popOnly) { popCapacity := 10, costs := ⟨0, 0, 0⟩ }).setupErr = none ∧
    ∀ (flow : LinkId → ℚ) (I : MetricsInput) (m : Metrics),
      I.utilization = some ((run {} popOnly).linkUtilization flow) → metrics (run {} popOnly) I ≠ .ok m := by
  refine ⟨⟨"P", { id := "P", siteType := .pop, status := .existing }, by decide +kernel, rfl, Or.inr rfl⟩,
    by decide +kernel, fun flow I m hI h => ?_⟩
  obtain ⟨_, h2, _⟩ := (C119_raises_exactly_partial popOnly I).1 ⟨m, h⟩
  apply h2
  rw [hI]
  have : (run {} popOnly).links = [] := by decide +kernel
  unfold linkUtilization
  rw [this]
  rfl

/-- A POP, a DN and a CN with sectors, all in use. -/
def reportDemo : List Op :=
  [.addSite { id := "P", siteType := .pop, status := .existing, lat := 1, lon := 1 } false,
   .addSite { id := "D", siteType := .dn, status := .proposed, lat := 2, lon := 1 } false,
   .addSite { id := "C", siteType := .cn, status := .proposed, lat := 3, lon := 1 } false,
   .addSector { site := "P", node := 0, pos := 0, status := .existing, channel := 0 },
   .addSector { site := "D", node := 0, pos := 0, status := .proposed, channel := 0 },
   .addSector { site := "C", node := 0, pos := 0, typ := .cn, status := .proposed, channel := 0 },
   .addLink { tx := "P", rx := "D", status := .proposed, distance := 100, capacity := 2,
              sectors := some (⟨"P", 0, 0, .dn⟩, ⟨"D", 0, 0, .dn⟩) },
   .addLink { tx := "D", rx := "P", status := .proposed, distance := 100, capacity := 2,
              sectors := some (⟨"D", 0, 0, .dn⟩, ⟨"P", 0, 0, .dn⟩) },
   .addLink { tx := "D", rx := "C", status := .proposed, distance := 50, capacity := 2,
              sectors := some (⟨"D", 0, 0, .dn⟩, ⟨"C", 0, 0, .cn⟩) },
   .addDemandSite { id := "c", connected := ["C"], demand := some 1 }]

def reportInput : MetricsInput where
  oversubscription := 1
  utilization := some ((run {} reportDemo).linkUtilization fun _ => 1)
  failures := { paths := {}, edges := [((.site "D", .site "P"), [.demand "c"])],
                sites := ([(.site "P", [.demand "c"])], [(.site "D", [.demand "c"])]) }
  availability := [1, 1 / 2]
  mcs := fun _ => 9

/-- The report of a small network is made; one backhaul pair counts once for both sectors. -/
example : (match metrics (run {} reportDemo) reportInput with
    | .ok m => decide (m.backhaulPerSector = ⟨1, 1, 1⟩ ∧ m.accessPerSector = ⟨1 / 2, 1, 0⟩ ∧
        m.backhaulDist = ⟨100, 100, 100⟩ ∧ m.accessDist = ⟨50, 50, 50⟩ ∧ m.backhaulMcs 9 = 1 ∧ m.popFail = ⟨1, 1, 1⟩ ∧
        m.edgeFail = ⟨1, 1, 1⟩ ∧ m.availability = 75 ∧ m.percentiles.map (·.2) = [50, 125 / 2, 75, 175 / 2, 100])
    | .error _ => false) = true := by decide +kernel

/-- A wired link in use without sectors. -/
example : ∃ l : Link, (run {} [.addSite { id := "P", siteType := .pop, status := .existing } false,
    .addSite { id := "D", siteType := .dn, status := .proposed, lat := 1 } false,
    .addLink { tx := "P", rx := "D", status := .proposed, isWireless := false }]).links.get? ⟨l.tx, l.rx⟩ = some l ∧
    l.isWireless = false ∧ InNetwork l.status ∧ l.sectors = none :=
  ⟨{ tx := "P", rx := "D", status := .proposed, isWireless := false }, by decide +kernel, rfl, Or.inl rfl, rfl⟩

end Verif
