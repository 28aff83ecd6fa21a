import Verif.Spec.Topology
import Verif.Model.History
import Verif.Lemmas.SortBy

/-! # Invariant of the topology state machine (helper lemmas for C01-C04) -/

namespace Verif
namespace Topology

/-- Two-level lookup in a connectivity map. -/
def cget (c : Dict SiteId (Dict SiteId LinkId)) (a b : SiteId) : Option LinkId :=
  (c.get? a).bind (fun row => row.get? b)

/-- The invariant carried through the induction. -/
structure Inv (t : Topology) : Prop where
  nd_sites : t.sites.NodupKeys
  nd_demand : t.demandSites.NodupKeys
  nd_sectors : t.sectors.NodupKeys
  nd_links : t.links.NodupKeys
  nd_row : ∀ a row, t.conn.get? a = some row → row.NodupKeys
  nd_rowR : ∀ a row, t.connRev.get? a = some row → row.NodupKeys
  site_id : ∀ id s, t.sites.get? id = some s → s.id = id
  demand_id : ∀ id d, t.demandSites.get? id = some d → d.id = id
  sector_id : ∀ id s, t.sectors.get? id = some s → s.id = id
  sector_site : ∀ id s, t.sectors.get? id = some s → ∃ x, t.sites.get? s.site = some x
  link_id : ∀ id l, t.links.get? id = some l → id = ⟨l.tx, l.rx⟩
  link_tx : ∀ id l, t.links.get? id = some l → ∃ x, t.sites.get? l.tx = some x
  link_rx : ∀ id l, t.links.get? id = some l → ∃ x, t.sites.get? l.rx = some x
  conn_iff : ∀ a b i, cget t.conn a b = some i ↔ i = ⟨a, b⟩ ∧ ∃ l, t.links.get? ⟨a, b⟩ = some l
  connRev_iff : ∀ a b i, cget t.connRev b a = some i ↔
    i = ⟨a, b⟩ ∧ ∃ l, t.links.get? ⟨a, b⟩ = some l
  index : ∀ id s, t.sectors.get? id = some s → id ∈ t.sectorIndex s.site
  index_site : ∀ a i, i ∈ t.sectorIndex a → i.site = a
  index_nd : ∀ a, (t.sectorIndex a).Nodup

theorem Inv.empty : Inv {} := by
  constructor <;> simp [Dict.NodupKeys, Dict.keys, cget, sectorIndex]

theorem Inv.addSite {t : Topology} (h : Inv t) (s : Site) (d : Bool) : Inv (t.addSite s d).1 := by
  unfold Topology.addSite
  split
  · exact h
  split
  · exact h
  rename_i hs
  have hs' : t.sites.get? s.id = none := by
    rw [← Dict.has_eq_false_iff]; simpa using hs
  have key : ∀ k x, t.sites.get? k = some x → ∃ y, (t.sites.set s.id s).get? k = some y := by
    intro k x hx; rw [Dict.get?_set]; split <;> simp_all
  refine { h with
    nd_sites := h.nd_sites.set _ _
    site_id := ?_, sector_site := ?_, link_tx := ?_, link_rx := ?_ }
  · intro id x hx
    simp only [Dict.get?_set] at hx
    split at hx
    · simp_all
    · exact h.site_id _ _ hx
  · intro id x hx; obtain ⟨y, hy⟩ := h.sector_site _ _ hx; exact key _ _ hy
  · intro id x hx; obtain ⟨y, hy⟩ := h.link_tx _ _ hx; exact key _ _ hy
  · intro id x hx; obtain ⟨y, hy⟩ := h.link_rx _ _ hx; exact key _ _ hy

theorem Inv.addDemandSite {t : Topology} (h : Inv t) (d : DemandSite) :
    Inv (t.addDemandSite d).1 := by
  refine { h with nd_demand := h.nd_demand.set _ _, demand_id := ?_ }
  intro id x hx
  simp only [Topology.addDemandSite, Dict.get?_set] at hx
  split at hx
  · simp_all
  · exact h.demand_id _ _ hx

theorem Inv.removeDemandSite {t : Topology} (h : Inv t) (d : DemandId) :
    Inv (t.removeDemandSite d).1 := by
  unfold Topology.removeDemandSite
  split
  · refine { h with nd_demand := h.nd_demand.del _, demand_id := ?_ }
    intro id x hx
    simp only [Dict.get?_del] at hx
    split at hx
    · simp at hx
    · exact h.demand_id _ _ hx
  · exact h

theorem sectorIndex_set (t : Topology) (a b : SiteId) (l : List SectorId) :
    ((t.siteSectors.set a l).get? b).getD [] = if a = b then l else t.sectorIndex b := by
  rw [Dict.get?_set]; split <;> simp [sectorIndex]

theorem mem_setAdd (l : List SectorId) (x y : SectorId) : y ∈ setAdd l x ↔ y ∈ l ∨ y = x := by
  unfold setAdd; split
  · constructor
    · exact Or.inl
    · rintro (h | rfl) <;> assumption
  · simp

theorem nodup_setAdd (l : List SectorId) (x : SectorId) (h : l.Nodup) : (setAdd l x).Nodup := by
  unfold setAdd; split
  · exact h
  · rename_i hx
    rw [List.nodup_append]
    refine ⟨h, by simp, ?_⟩
    intro a ha b hb; simp at hb; subst hb; rintro rfl; exact hx ha

theorem Inv.addSector {t : Topology} (h : Inv t) (s : Sector) : Inv (t.addSector s).1 := by
  unfold Topology.addSector
  split
  · exact h
  split
  swap
  · exact h
  rename_i hn hs
  rw [Dict.has_iff] at hs
  refine { h with
    nd_sectors := h.nd_sectors.set _ _, sector_id := ?_, sector_site := ?_, index := ?_
    index_site := ?_, index_nd := ?_ }
  · intro id x hx
    simp only [Dict.get?_set] at hx
    split at hx
    · simp_all
    · exact h.sector_id _ _ hx
  · intro id x hx
    simp only [Dict.get?_set] at hx
    split at hx
    · cases hx; exact hs
    · exact h.sector_site _ _ hx
  · intro id x hx
    simp only [Dict.get?_set] at hx
    show id ∈ ((t.siteSectors.set s.site (setAdd (t.sectorIndex s.site) s.id)).get? x.site).getD []
    rw [sectorIndex_set]
    split at hx
    · cases hx; simp_all [mem_setAdd]
    · have := h.index _ _ hx
      split
      · rename_i e; rw [mem_setAdd, e]; exact Or.inl this
      · exact this
  · intro a i hi
    change i ∈ ((t.siteSectors.set s.site (setAdd (t.sectorIndex s.site) s.id)).get? a).getD [] at hi
    rw [sectorIndex_set] at hi
    split at hi
    · rw [mem_setAdd] at hi
      rcases hi with hi | rfl
      · subst_vars; exact h.index_site _ _ hi
      · subst_vars; rfl
    · exact h.index_site _ _ hi
  · intro a
    show (((t.siteSectors.set s.site (setAdd (t.sectorIndex s.site) s.id)).get? a).getD []).Nodup
    rw [sectorIndex_set]
    split
    · exact nodup_setAdd _ _ (h.index_nd _)
    · exact h.index_nd _

theorem cget_set (c : Dict SiteId (Dict SiteId LinkId)) (a b a' b' : SiteId) (i : LinkId) :
    cget (c.set a (((c.get? a).getD []).set b i)) a' b' =
      if a = a' ∧ b = b' then some i else cget c a' b' := by
  unfold cget
  rw [Dict.get?_set]
  by_cases h : a = a'
  · subst h
    simp only [if_true, true_and, Option.bind_some, Dict.get?_set]
    split
    · rfl
    · cases c.get? a <;> simp
  · simp [h]

theorem cget_del (c : Dict SiteId (Dict SiteId LinkId)) (a b a' b' : SiteId)
    (row : Dict SiteId LinkId) (hr : c.get? a = some row) :
    cget (c.set a (row.del b)) a' b' = if a = a' ∧ b = b' then none else cget c a' b' := by
  unfold cget
  rw [Dict.get?_set]
  by_cases h : a = a'
  · subst h
    simp only [if_true, true_and, Option.bind_some, Dict.get?_del, hr]
  · simp [h]

theorem Inv.addLink {t : Topology} (h : Inv t) (l : Link) : Inv (t.addLink l).1 := by
  unfold Topology.addLink
  split
  swap
  · exact h
  rename_i hs
  simp only [Bool.and_eq_true, Dict.has_iff] at hs
  have hl : ∀ a b, (∃ l', (t.links.set l.id l).get? ⟨a, b⟩ = some l') ↔
      (l.tx = a ∧ l.rx = b) ∨ ∃ l', t.links.get? ⟨a, b⟩ = some l' := by
    intro a b
    rw [Dict.get?_set]
    by_cases e : l.id = ⟨a, b⟩
    · have : l.tx = a ∧ l.rx = b := by simpa [Link.id] using e
      simp [e, this]
    · have : ¬ (l.tx = a ∧ l.rx = b) := by simpa [Link.id] using e
      simp [e, this]
  refine { h with
    nd_links := h.nd_links.set _ _
    nd_row := ?_, nd_rowR := ?_, link_id := ?_, link_tx := ?_, link_rx := ?_
    conn_iff := ?_, connRev_iff := ?_ }
  · intro a row hr
    simp only [Dict.get?_set] at hr
    split at hr
    · cases hr
      apply Dict.NodupKeys.set
      cases e : t.conn.get? l.tx with
      | none => exact Dict.nodupKeys_nil
      | some r => exact h.nd_row _ _ e
    · exact h.nd_row _ _ hr
  · intro a row hr
    simp only [Dict.get?_set] at hr
    split at hr
    · cases hr
      apply Dict.NodupKeys.set
      cases e : t.connRev.get? l.rx with
      | none => exact Dict.nodupKeys_nil
      | some r => exact h.nd_rowR _ _ e
    · exact h.nd_rowR _ _ hr
  · intro id x hx
    simp only [Dict.get?_set] at hx
    split at hx
    · cases hx; subst_vars; rfl
    · exact h.link_id _ _ hx
  · intro id x hx
    simp only [Dict.get?_set] at hx
    split at hx
    · cases hx; exact hs.1
    · exact h.link_tx _ _ hx
  · intro id x hx
    simp only [Dict.get?_set] at hx
    split at hx
    · cases hx; exact hs.2
    · exact h.link_rx _ _ hx
  · intro a b i
    show cget (t.conn.set _ _) a b = some i ↔ _
    rw [cget_set]
    show _ ↔ i = ⟨a, b⟩ ∧ ∃ l', (t.links.set l.id l).get? ⟨a, b⟩ = some l'
    rw [hl]
    split
    · rename_i e; obtain ⟨rfl, rfl⟩ := e
      simp [Link.id, eq_comm]
    · rename_i e; simp only [e, false_or]; exact h.conn_iff a b i
  · intro a b i
    show cget (t.connRev.set _ _) b a = some i ↔ _
    rw [cget_set]
    show _ ↔ i = ⟨a, b⟩ ∧ ∃ l', (t.links.set l.id l).get? ⟨a, b⟩ = some l'
    rw [hl]
    split
    · rename_i e; obtain ⟨rfl, rfl⟩ := e
      simp [Link.id, eq_comm]
    · rename_i e
      have : ¬ (l.tx = a ∧ l.rx = b) := fun e' => e ⟨e'.2, e'.1⟩
      simp only [this, false_or]; exact h.connRev_iff a b i

/-- On a consistent topology `remove_link` of a present link succeeds and only
drops that link (and its connectivity entries). -/
theorem removeLink_spec {t : Topology} (h : Inv t) (id : LinkId) (l : Link)
    (hl : t.links.get? id = some l) :
    ∃ t', t.removeLink id = (t', none) ∧ Inv t' ∧ t'.links = t.links.del id ∧
      t'.sites = t.sites ∧ t'.sectors = t.sectors ∧ t'.demandSites = t.demandSites ∧
      t'.siteSectors = t.siteSectors := by
  have hid := h.link_id _ _ hl
  have h1 := (h.conn_iff l.tx l.rx id).2 ⟨hid, l, hid ▸ hl⟩
  have h2 := (h.connRev_iff l.tx l.rx id).2 ⟨hid, l, hid ▸ hl⟩
  unfold cget at h1 h2
  cases hr : t.conn.get? l.tx with
  | none => simp [hr] at h1
  | some row =>
  cases hrR : t.connRev.get? l.rx with
  | none => simp [hrR] at h2
  | some rowR =>
  rw [hr] at h1; rw [hrR] at h2
  simp only [Option.bind_some] at h1 h2
  have e1 : row.has l.rx = true := by rw [Dict.has_iff]; exact ⟨_, h1⟩
  have e2 : rowR.has l.tx = true := by rw [Dict.has_iff]; exact ⟨_, h2⟩
  refine ⟨{ t with
      conn := t.conn.set l.tx (row.del l.rx)
      connRev := t.connRev.set l.rx (rowR.del l.tx)
      links := t.links.del id }, ?_, ?_, rfl, rfl, rfl, rfl, rfl⟩
  · simp [Topology.removeLink, hl, hr, hrR, e1, e2]
  · have hl' : ∀ a b, (∃ l', (t.links.del id).get? ⟨a, b⟩ = some l') ↔
        ¬ (l.tx = a ∧ l.rx = b) ∧ ∃ l', t.links.get? ⟨a, b⟩ = some l' := by
      intro a b
      rw [Dict.get?_del, hid]
      by_cases e : l.tx = a ∧ l.rx = b
      · simp [e]
      · have : ¬ ((⟨l.tx, l.rx⟩ : LinkId) = ⟨a, b⟩) := by simpa using e
        simp [this, e]
    refine { h with
      nd_links := h.nd_links.del _
      nd_row := ?_, nd_rowR := ?_, link_id := ?_, link_tx := ?_, link_rx := ?_
      conn_iff := ?_, connRev_iff := ?_ }
    · intro a r hra
      simp only [Dict.get?_set] at hra
      split at hra
      · cases hra; exact (h.nd_row _ _ hr).del _
      · exact h.nd_row _ _ hra
    · intro a r hra
      simp only [Dict.get?_set] at hra
      split at hra
      · cases hra; exact (h.nd_rowR _ _ hrR).del _
      · exact h.nd_rowR _ _ hra
    · intro i x hx
      simp only [Dict.get?_del] at hx
      split at hx
      · simp at hx
      · exact h.link_id _ _ hx
    · intro i x hx
      simp only [Dict.get?_del] at hx
      split at hx
      · simp at hx
      · exact h.link_tx _ _ hx
    · intro i x hx
      simp only [Dict.get?_del] at hx
      split at hx
      · simp at hx
      · exact h.link_rx _ _ hx
    · intro a b i
      show cget (t.conn.set _ _) a b = some i ↔ i = ⟨a, b⟩ ∧ ∃ l', (t.links.del id).get? ⟨a, b⟩ = some l'
      rw [cget_del _ _ _ _ _ _ hr, hl']
      split
      · rename_i e; simp [e]
      · rename_i e; simp only [e, not_false_eq_true, true_and]; exact h.conn_iff a b i
    · intro a b i
      show cget (t.connRev.set _ _) b a = some i ↔ i = ⟨a, b⟩ ∧ ∃ l', (t.links.del id).get? ⟨a, b⟩ = some l'
      rw [cget_del _ _ _ _ _ _ hrR, hl']
      split
      · rename_i e; simp [e]
      · rename_i e
        have : ¬ (l.tx = a ∧ l.rx = b) := fun e' => e ⟨e'.2, e'.1⟩
        simp only [this, not_false_eq_true, true_and]; exact h.connRev_iff a b i

theorem removeLink_absent (t : Topology) (id : LinkId) (hl : t.links.get? id = none) :
    t.removeLink id = (t, some .planner) := by
  simp [Topology.removeLink, hl]

theorem Inv.removeLink {t : Topology} (h : Inv t) (id : LinkId) : Inv (t.removeLink id).1 := by
  cases hl : t.links.get? id with
  | none => rw [removeLink_absent _ _ hl]; exact h
  | some l => obtain ⟨t', e, hi, _⟩ := removeLink_spec h id l hl; rw [e]; exact hi

theorem removeLinks_spec (ids : List LinkId) : ∀ {t : Topology}, Inv t →
    Inv (t.removeLinks ids).1 ∧
    (t.removeLinks ids).1.sites = t.sites ∧ (t.removeLinks ids).1.sectors = t.sectors ∧
    (t.removeLinks ids).1.demandSites = t.demandSites ∧
    (t.removeLinks ids).1.siteSectors = t.siteSectors ∧
    ((t.removeLinks ids).2 = none →
      ∀ i, (t.removeLinks ids).1.links.get? i = if i ∈ ids then none else t.links.get? i) ∧
    (ids.Nodup → (∀ i ∈ ids, ∃ l, t.links.get? i = some l) → (t.removeLinks ids).2 = none) := by
  induction ids with
  | nil => intro t h; simp [removeLinks, h]
  | cons a rest ih =>
    intro t h
    unfold removeLinks
    cases hl : t.links.get? a with
    | none =>
      rw [removeLink_absent _ _ hl]
      refine ⟨h, rfl, rfl, rfl, rfl, by simp, ?_⟩
      intro _ hall; obtain ⟨l, e⟩ := hall a (by simp); simp [hl] at e
    | some l =>
      obtain ⟨t', e, hi, el, e1, e2, e3, e4⟩ := removeLink_spec h a l hl
      rw [e]
      obtain ⟨i1, i2, i3, i4, i5, i6, i7⟩ := ih hi
      refine ⟨i1, i2.trans e1, i3.trans e2, i4.trans e3, i5.trans e4, ?_, ?_⟩
      · intro hn i
        rw [i6 hn i, el, Dict.get?_del]
        simp only [List.mem_cons]
        by_cases h1 : i ∈ rest
        · simp [h1]
        · by_cases h2 : i = a
          · simp [h2]
          · simp [h1, h2, Ne.symm h2]
      · intro hnd hall
        apply i7 (List.nodup_cons.1 hnd).2
        intro i him
        rw [el, Dict.get?_del]
        have : a ≠ i := by rintro rfl; exact (List.nodup_cons.1 hnd).1 him
        simp only [this, if_false]
        exact hall i (by simp [him])

theorem Inv.delSector {t : Topology} (h : Inv t) (s : SectorId) :
    Inv { t with sectors := t.sectors.del s } := by
  have key : ∀ id x, (t.sectors.del s).get? id = some x → t.sectors.get? id = some x := by
    intro id x hx
    rw [Dict.get?_del] at hx
    split at hx
    · simp at hx
    · exact hx
  exact { h with
    nd_sectors := h.nd_sectors.del _
    sector_id := fun id x hx => h.sector_id _ _ (key _ _ hx)
    sector_site := fun id x hx => h.sector_site _ _ (key _ _ hx)
    index := fun id x hx => h.index _ _ (key _ _ hx) }

theorem delSectors_spec (ids : List SectorId) : ∀ {t : Topology}, Inv t →
    Inv (t.delSectors ids).1 ∧
    (t.delSectors ids).1.sites = t.sites ∧ (t.delSectors ids).1.links = t.links ∧
    (t.delSectors ids).1.demandSites = t.demandSites ∧
    (t.delSectors ids).1.siteSectors = t.siteSectors ∧
    (t.delSectors ids).1.conn = t.conn ∧ (t.delSectors ids).1.connRev = t.connRev ∧
    ((t.delSectors ids).2 = none →
      ∀ i, (t.delSectors ids).1.sectors.get? i = if i ∈ ids then none else t.sectors.get? i) ∧
    (ids.Nodup → (∀ i ∈ ids, ∃ x, t.sectors.get? i = some x) → (t.delSectors ids).2 = none) := by
  induction ids with
  | nil => intro t h; simp [delSectors, h]
  | cons a rest ih =>
    intro t h
    unfold delSectors
    split
    · obtain ⟨i1, i2, i3, i4, i5, i6, i7, i8, i9⟩ := ih (h.delSector a)
      refine ⟨i1, i2, i3, i4, i5, i6, i7, ?_, ?_⟩
      · intro hn i
        rw [i8 hn i, Dict.get?_del]
        simp only [List.mem_cons]
        by_cases h1 : i ∈ rest
        · simp [h1]
        · by_cases h2 : i = a
          · simp [h2]
          · simp [h1, h2, Ne.symm h2]
      · intro hnd hall
        apply i9 (List.nodup_cons.1 hnd).2
        intro i him
        have : a ≠ i := by rintro rfl; exact (List.nodup_cons.1 hnd).1 him
        simp only [Dict.get?_del, this, if_false]
        exact hall i (by simp [him])
    · rename_i hh
      refine ⟨h, rfl, rfl, rfl, rfl, rfl, rfl, by simp, ?_⟩
      intro _ hall
      obtain ⟨x, e⟩ := hall a (by simp)
      exact absurd ((Dict.has_iff _ _).2 ⟨x, e⟩) hh

theorem mem_vals_iff_cget (c : Dict SiteId (Dict SiteId LinkId))
    (hnd : ∀ a row, c.get? a = some row → row.NodupKeys) (a : SiteId) (i : LinkId) :
    i ∈ ((c.get? a).getD []).vals ↔ ∃ b, cget c a b = some i := by
  unfold cget
  cases hr : c.get? a with
  | none => simp [Dict.vals]
  | some row =>
    simp only [Option.getD_some, Option.bind_some, Dict.vals, List.mem_map]
    constructor
    · rintro ⟨⟨b, j⟩, hm, rfl⟩; exact ⟨b, (Dict.mem_iff_get? (hnd _ _ hr) _ _).1 hm⟩
    · rintro ⟨b, hb⟩; exact ⟨(b, i), Dict.mem_of_get? _ hb, rfl⟩

theorem nodup_vals (c : Dict SiteId (Dict SiteId LinkId))
    (hnd : ∀ a row, c.get? a = some row → row.NodupKeys)
    (hinj : ∀ a b b' i, cget c a b = some i → cget c a b' = some i → b = b') (a : SiteId) :
    ((c.get? a).getD []).vals.Nodup := by
  cases hr : c.get? a with
  | none => simp [Dict.vals]
  | some row =>
    simp only [Option.getD_some, Dict.vals]
    have hrn : row.Nodup := List.Nodup.of_map _ (hnd _ _ hr)
    refine (List.nodup_map_iff_inj_on hrn).2 ?_
    rintro ⟨b, i⟩ h1 ⟨b', i'⟩ h2 e
    simp only at e; subst e
    have e1 := (Dict.mem_iff_get? (hnd _ _ hr) _ _).1 h1
    have e2 := (Dict.mem_iff_get? (hnd _ _ hr) _ _).1 h2
    have := hinj a b b' i (by simp [cget, hr, e1]) (by simp [cget, hr, e2])
    rw [this]

theorem mem_linksToRemove {t : Topology} (h : Inv t) (s : SiteId) (i : LinkId) :
    i ∈ t.linksToRemove s ↔ (i.tx = s ∨ i.rx = s) ∧ ∃ l, t.links.get? i = some l := by
  unfold linksToRemove
  rw [List.mem_append, mem_vals_iff_cget _ h.nd_row, mem_vals_iff_cget _ h.nd_rowR]
  constructor
  · rintro (⟨b, hb⟩ | ⟨b, hb⟩)
    · obtain ⟨rfl, e⟩ := (h.conn_iff _ _ _).1 hb; exact ⟨Or.inl rfl, e⟩
    · obtain ⟨rfl, e⟩ := (h.connRev_iff _ _ _).1 hb; exact ⟨Or.inr rfl, e⟩
  · rintro ⟨e | e, hl⟩
    · left; refine ⟨i.rx, (h.conn_iff _ _ _).2 ⟨?_, ?_⟩⟩
      · subst e; rfl
      · subst e; exact hl
    · right; refine ⟨i.tx, (h.connRev_iff _ _ _).2 ⟨?_, ?_⟩⟩
      · subst e; rfl
      · subst e; exact hl

/-- Effect of a successful `remove_site`. -/
theorem removeSite_ok {t : Topology} (h : Inv t) (s : SiteId) (t' : Topology)
    (he : t.removeSite s = (t', none)) :
    (∀ i, t'.sites.get? i = if i = s then none else t.sites.get? i) ∧
    (∀ i, t'.sectors.get? i = if i.site = s then none else t.sectors.get? i) ∧
    (∀ i, t'.links.get? i = if i.tx = s ∨ i.rx = s then none else t.links.get? i) ∧
    t'.demandSites = t.demandSites ∧ Inv t' := by
  unfold Topology.removeSite at he
  split at he
  swap
  · simp at he
  obtain ⟨i1, i2, i3, i4, i5, i6, i7, i8, _⟩ := delSectors_spec (t.sectorIndex s) h
  generalize hd : t.delSectors (t.sectorIndex s) = o at he i1 i2 i3 i4 i5 i6 i7 i8
  obtain ⟨t1, e1⟩ := o
  cases e1 with
  | some e => simp at he
  | none =>
  simp only at he i1 i2 i3 i4 i5 i6 i7 i8
  obtain ⟨j1, j2, j3, j4, j5, j6, _⟩ := removeLinks_spec (t1.linksToRemove s) i1
  have hmem := mem_linksToRemove i1 s
  generalize hd2 : t1.removeLinks (t1.linksToRemove s) = o at he j1 j2 j3 j4 j5 j6
  obtain ⟨t2, e2⟩ := o
  cases e2 with
  | some e => simp at he
  | none =>
  simp only [Prod.mk.injEq, and_true] at he j1 j2 j3 j4 j5 j6
  subst he
  have hsec : ∀ i, t2.sectors.get? i = if i.site = s then none else t.sectors.get? i := by
    intro i
    rw [j3, i8 trivial i]
    by_cases hm : i ∈ t.sectorIndex s
    · simp [hm, h.index_site _ _ hm]
    · simp only [hm, if_false]
      split
      · rename_i hs
        cases e : t.sectors.get? i with
        | none => rfl
        | some x =>
          have h1 := h.index _ _ e
          have h2 : x.site = i.site := by rw [← h.sector_id _ _ e]; rfl
          rw [h2, hs] at h1
          exact absurd h1 hm
      · rfl
  have hlink : ∀ i, t2.links.get? i = if i.tx = s ∨ i.rx = s then none else t.links.get? i := by
    intro i
    rw [j6 trivial i, ← i3]
    by_cases hm : i ∈ t1.linksToRemove s
    · rw [if_pos hm, if_pos ((hmem i).1 hm).1]
    · rw [if_neg hm]
      split
      · rename_i hs
        cases e : t1.links.get? i with
        | none => rfl
        | some x => exact absurd ((hmem i).2 ⟨hs, x, e⟩) hm
      · rfl
  have hsite : ∀ i, (t2.sites.del s).get? i = if i = s then none else t.sites.get? i := by
    intro i
    rw [Dict.get?_del, j2, i2]
    by_cases e : s = i
    · simp [e]
    · simp [e, Ne.symm e]
  have keep : ∀ k x, k ≠ s → t2.sites.get? k = some x → ∃ y, (t2.sites.del s).get? k = some y := by
    intro k x hk hx; rw [Dict.get?_del]; simp [Ne.symm hk, hx]
  refine ⟨hsite, hsec, hlink, j4.trans i4, ?_⟩
  refine { j1 with
    nd_sites := j1.nd_sites.del _
    site_id := ?_, sector_site := ?_, link_tx := ?_, link_rx := ?_ }
  · intro id x hx
    simp only [Dict.get?_del] at hx
    split at hx
    · simp at hx
    · exact j1.site_id _ _ hx
  · intro id x hx
    obtain ⟨y, hy⟩ := j1.sector_site _ _ hx
    refine keep _ _ ?_ hy
    have hx' : t2.sectors.get? id = some x := hx
    have h2 : x.site = id.site := by rw [← j1.sector_id _ _ hx]; rfl
    rw [hsec] at hx'
    rw [h2]; intro e; simp [e] at hx'
  · intro id x hx
    obtain ⟨y, hy⟩ := j1.link_tx _ _ hx
    refine keep _ _ ?_ hy
    have hx' : t2.links.get? id = some x := hx
    have h2 := j1.link_id _ _ hx
    rw [hlink, h2] at hx'
    intro e; simp [e] at hx'
  · intro id x hx
    obtain ⟨y, hy⟩ := j1.link_rx _ _ hx
    refine keep _ _ ?_ hy
    have hx' : t2.links.get? id = some x := hx
    have h2 := j1.link_id _ _ hx
    rw [hlink, h2] at hx'
    intro e; simp [e] at hx'

theorem Inv.removeSite {t : Topology} (h : Inv t) (s : SiteId) : Inv (t.removeSite s).1 := by
  cases hr : t.removeSite s with
  | mk t' e =>
    cases e with
    | none => exact (removeSite_ok h s t' hr).2.2.2.2
    | some e =>
      simp only
      unfold Topology.removeSite at hr
      split at hr
      swap
      · cases hr; exact h
      have hd := (delSectors_spec (t.sectorIndex s) h).1
      generalize t.delSectors (t.sectorIndex s) = o at hr hd
      obtain ⟨t1, e1⟩ := o
      cases e1 with
      | some e => simp only [Prod.mk.injEq] at hr; rw [← hr.1]; exact hd
      | none =>
      simp only at hr hd
      have hd2 := (removeLinks_spec (t1.linksToRemove s) hd).1
      generalize t1.removeLinks (t1.linksToRemove s) = o at hr hd2
      obtain ⟨t2, e2⟩ := o
      cases e2 with
      | some e => simp only [Prod.mk.injEq] at hr; rw [← hr.1]; exact hd2
      | none => simp at hr

/-- When `remove_site` succeeds: the per-site index names only present sectors
and the site has no self loop. -/
theorem removeSite_succeeds {t : Topology} (h : Inv t) (s : SiteId)
    (hs : ∃ x, t.sites.get? s = some x)
    (hidx : ∀ i ∈ t.sectorIndex s, ∃ x, t.sectors.get? i = some x)
    (hloop : t.links.get? ⟨s, s⟩ = none) : (t.removeSite s).2 = none := by
  unfold Topology.removeSite
  rw [if_pos ((Dict.has_iff _ _).2 hs)]
  obtain ⟨i1, i2, i3, i4, i5, i6, i7, i8, i9⟩ := delSectors_spec (t.sectorIndex s) h
  have h9 := i9 (h.index_nd s) hidx
  generalize t.delSectors (t.sectorIndex s) = o at *
  obtain ⟨t1, e1⟩ := o
  simp only at h9 i1 i3 i6 i7
  subst h9
  simp only
  obtain ⟨j1, j2, j3, j4, j5, j6, j7⟩ := removeLinks_spec (t1.linksToRemove s) i1
  have : (t1.removeLinks (t1.linksToRemove s)).2 = none := by
    apply j7
    · unfold linksToRemove
      rw [List.nodup_append]
      refine ⟨nodup_vals _ i1.nd_row ?_ s, nodup_vals _ i1.nd_rowR ?_ s, ?_⟩
      · intro a b b' i h1 h2
        have e1 := ((i1.conn_iff _ _ _).1 h1).1; have e2 := ((i1.conn_iff _ _ _).1 h2).1
        subst e1; simpa using e2
      · intro a b b' i h1 h2
        have e1 := ((i1.connRev_iff _ _ _).1 h1).1; have e2 := ((i1.connRev_iff _ _ _).1 h2).1
        subst e1; simpa using e2
      · intro a ha b hb
        rw [mem_vals_iff_cget _ i1.nd_row] at ha
        rw [mem_vals_iff_cget _ i1.nd_rowR] at hb
        rintro rfl
        obtain ⟨x, hx⟩ := ha
        obtain ⟨y, hy⟩ := hb
        obtain ⟨ex, l, hl⟩ := (i1.conn_iff _ _ _).1 hx
        obtain ⟨ey, _⟩ := (i1.connRev_iff _ _ _).1 hy
        rw [ex] at ey
        simp only [LinkId.mk.injEq] at ey
        obtain ⟨rfl, rfl⟩ := ey
        rw [i3, hloop] at hl; simp at hl
    · intro i hi; exact ((mem_linksToRemove i1 s i).1 hi).2
  generalize t1.removeLinks (t1.linksToRemove s) = o at *
  obtain ⟨t2, e2⟩ := o
  simp only at this
  subst this
  rfl

theorem Inv.clearLinkSectors {t : Topology} (h : Inv t) (id : LinkId) :
    Inv (t.clearLinkSectors id) := by
  have key : ∀ i l, (t.clearLinkSectors id).links.get? i = some l →
      ∃ l', t.links.get? i = some l' ∧ l'.tx = l.tx ∧ l'.rx = l.rx := by
    intro i l hl
    simp only [Topology.clearLinkSectors, Dict.get?_modify] at hl
    split at hl
    · rw [Option.map_eq_some_iff] at hl; obtain ⟨a, ha, rfl⟩ := hl; exact ⟨a, ha, rfl, rfl⟩
    · exact ⟨l, hl, rfl, rfl⟩
  have key2 : ∀ i, (∃ l, (t.clearLinkSectors id).links.get? i = some l) ↔
      ∃ l, t.links.get? i = some l := by
    intro i
    simp only [Topology.clearLinkSectors, Dict.get?_modify]
    split <;> simp
  refine { h with
    nd_links := by simpa [Topology.clearLinkSectors] using h.nd_links.modify id _
    link_id := ?_, link_tx := ?_, link_rx := ?_, conn_iff := ?_, connRev_iff := ?_ }
  · intro i l hl; obtain ⟨l', h1, h2, h3⟩ := key i l hl; rw [← h2, ← h3]; exact h.link_id _ _ h1
  · intro i l hl; obtain ⟨l', h1, h2, h3⟩ := key i l hl; rw [← h2]; exact h.link_tx _ _ h1
  · intro i l hl; obtain ⟨l', h1, h2, h3⟩ := key i l hl; rw [← h3]; exact h.link_rx _ _ h1
  · intro a b i; rw [key2]; exact h.conn_iff a b i
  · intro a b i; rw [key2]; exact h.connRev_iff a b i

theorem clearLoop_spec (sel : SectorId × SectorId → SectorId) (sid : SectorId)
    (ids : List LinkId) : ∀ {t : Topology}, Inv t →
    Inv (t.clearLoop sel sid ids).1 ∧
    (t.clearLoop sel sid ids).1.sites = t.sites ∧
    (t.clearLoop sel sid ids).1.sectors = t.sectors ∧
    (t.clearLoop sel sid ids).1.demandSites = t.demandSites ∧
    (t.clearLoop sel sid ids).1.siteSectors = t.siteSectors ∧
    (t.clearLoop sel sid ids).1.conn = t.conn ∧
    (t.clearLoop sel sid ids).1.connRev = t.connRev ∧
    (t.clearLoop sel sid ids).1.links.keys = t.links.keys ∧
    ((∀ i ∈ ids, ∃ l, t.links.get? i = some l) → (t.clearLoop sel sid ids).2 = none) ∧
    ((t.clearLoop sel sid ids).2 = none → ∀ i, (t.clearLoop sel sid ids).1.links.get? i =
      (t.links.get? i).map (fun l => if i ∈ ids ∧ l.sectors.map sel = some sid
        then { l with sectors := none } else l)) := by
  induction ids with
  | nil => intro t h; simp [clearLoop, h]
  | cons a rest ih =>
    intro t h
    unfold clearLoop
    cases hl : t.links.get? a with
    | none =>
      refine ⟨h, rfl, rfl, rfl, rfl, rfl, rfl, rfl, ?_, by simp⟩
      intro hall; obtain ⟨l, e⟩ := hall a (by simp); simp [hl] at e
    | some l =>
      simp only
      split
      · rename_i hsel
        obtain ⟨i1, i2, i3, i4, i5, i6, i7, i8, i9, i10⟩ := ih (h.clearLinkSectors a)
        refine ⟨i1, i2, i3, i4, i5, i6, i7, i8.trans (by simp [Topology.clearLinkSectors]), ?_, ?_⟩
        · intro hall
          apply i9
          intro i hi
          obtain ⟨x, hx⟩ := hall i (by simp [hi])
          simp only [Topology.clearLinkSectors, Dict.get?_modify, hx]
          split <;> simp
        · intro hn i
          rw [i10 hn i]
          simp only [Topology.clearLinkSectors, Dict.get?_modify]
          by_cases e : a = i
          · subst e
            simp [hl, hsel]
          · simp only [e, if_false, List.mem_cons, Ne.symm e, false_or]
      · rename_i hsel
        obtain ⟨i1, i2, i3, i4, i5, i6, i7, i8, i9, i10⟩ := ih h
        refine ⟨i1, i2, i3, i4, i5, i6, i7, i8, ?_, ?_⟩
        · intro hall; exact i9 fun i hi => hall i (by simp [hi])
        · intro hn i
          rw [i10 hn i]
          by_cases e : a = i
          · subst e
            simp [hl, hsel]
          · simp only [List.mem_cons, Ne.symm e, false_or]

/-- Effect of `remove_sector` on a consistent topology. -/
theorem removeSector_spec {t : Topology} (h : Inv t) (sid : SectorId) (sec : Sector)
    (hsec : t.sectors.get? sid = some sec) :
    ∃ t', t.removeSector sid = (t', none) ∧ Inv t' ∧ t'.sites = t.sites ∧
      t'.demandSites = t.demandSites ∧ t'.sectors = t.sectors.del sid ∧
      (∀ i, t'.links.get? i = (t.links.get? i).map (fun l =>
        if (i.tx = sid.site ∧ l.sectors.map Prod.fst = some sid) ∨
           (i.rx = sid.site ∧ l.sectors.map Prod.snd = some sid)
        then { l with sectors := none } else l)) := by
  have hsite : sec.site = sid.site := by rw [← h.sector_id _ _ hsec]; rfl
  unfold Topology.removeSector
  rw [hsec]
  simp only [hsite]
  rw [if_pos (by rw [Dict.has_iff, ← hsite]; exact h.sector_site _ _ hsec)]
  have m1 : ∀ i, i ∈ ((t.conn.get? sid.site).getD []).vals ↔
      i.tx = sid.site ∧ ∃ l, t.links.get? i = some l := by
    intro i
    rw [mem_vals_iff_cget _ h.nd_row]
    constructor
    · rintro ⟨b, hb⟩; obtain ⟨rfl, e⟩ := (h.conn_iff _ _ _).1 hb; exact ⟨rfl, e⟩
    · rintro ⟨e, hl⟩; refine ⟨i.rx, (h.conn_iff _ _ _).2 ⟨?_, ?_⟩⟩
      · rw [← e]
      · rw [← e]; exact hl
  have m2 : ∀ i, i ∈ ((t.connRev.get? sid.site).getD []).vals ↔
      i.rx = sid.site ∧ ∃ l, t.links.get? i = some l := by
    intro i
    rw [mem_vals_iff_cget _ h.nd_rowR]
    constructor
    · rintro ⟨b, hb⟩; obtain ⟨rfl, e⟩ := (h.connRev_iff _ _ _).1 hb; exact ⟨rfl, e⟩
    · rintro ⟨e, hl⟩; refine ⟨i.tx, (h.connRev_iff _ _ _).2 ⟨?_, ?_⟩⟩
      · rw [← e]
      · rw [← e]; exact hl
  obtain ⟨i1, i2, i3, i4, i5, i6, i7, i8, i9, i10⟩ :=
    clearLoop_spec Prod.fst sid ((t.conn.get? sid.site).getD []).vals h
  have h9 := i9 fun i hi => ((m1 i).1 hi).2
  have h10 := i10 h9
  generalize t.clearLoop Prod.fst sid ((t.conn.get? sid.site).getD []).vals = o at *
  obtain ⟨t1, e1⟩ := o
  simp only at i1 i2 i3 i4 i5 i6 i7 i8 h9 h10
  subst h9
  simp only
  obtain ⟨j1, j2, j3, j4, j5, j6, j7, j8, j9, j10⟩ :=
    clearLoop_spec Prod.snd sid ((t1.connRev.get? sid.site).getD []).vals i1
  have k9 := j9 (by
    intro i hi
    rw [i7] at hi
    obtain ⟨l, hl⟩ := ((m2 i).1 hi).2
    rw [h10 i, hl]; simp)
  have k10 := j10 k9
  rw [i7] at k9 k10 j1 j2 j3 j4 j5 j6 j7 j8 ⊢
  generalize t1.clearLoop Prod.snd sid ((t.connRev.get? sid.site).getD []).vals = o at *
  obtain ⟨t2, e2⟩ := o
  simp only at j1 j2 j3 j4 j5 j6 j7 j8 k9 k10
  subst k9
  simp only
  have hidx : sid ∈ t2.sectorIndex sid.site := by
    unfold sectorIndex; rw [j5, i5]
    have := h.index _ _ hsec; rwa [hsite] at this
  rw [if_pos hidx]
  refine ⟨_, rfl, ?_, ?_, ?_, ?_, ?_⟩
  · have key : ∀ id x, (t2.sectors.del sid).get? id = some x →
        id ≠ sid ∧ t2.sectors.get? id = some x := by
      intro id x hx
      rw [Dict.get?_del] at hx
      split at hx
      · simp at hx
      · rename_i hne; exact ⟨Ne.symm hne, hx⟩
    refine { j1 with
      nd_sectors := j1.nd_sectors.del _
      sector_id := fun id x hx => j1.sector_id _ _ (key _ _ hx).2
      sector_site := fun id x hx => j1.sector_site _ _ (key _ _ hx).2
      index := ?_, index_site := ?_, index_nd := ?_ }
    · intro id x hx
      obtain ⟨hne, hx'⟩ := key _ _ hx
      have := j1.index _ _ hx'
      show id ∈ ((t2.siteSectors.set _ _).get? x.site).getD []
      rw [sectorIndex_set]
      split
      · rename_i e; rw [e]; simp [this, hne]
      · exact this
    · intro a i hi
      change i ∈ ((t2.siteSectors.set _ _).get? a).getD [] at hi
      rw [sectorIndex_set] at hi
      split at hi
      · rename_i e; subst e; exact j1.index_site _ _ (List.mem_filter.1 hi).1
      · exact j1.index_site _ _ hi
    · intro a
      show (((t2.siteSectors.set _ _).get? a).getD []).Nodup
      rw [sectorIndex_set]
      split
      · exact (j1.index_nd _).filter _
      · exact j1.index_nd _
  · exact j2.trans i2
  · exact j4.trans i4
  · show t2.sectors.del sid = _; rw [j3, i3]
  · intro i
    show t2.links.get? i = _
    rw [k10 i, h10 i]
    cases hl : t.links.get? i with
    | none => simp
    | some l =>
      have e1 : (i ∈ ((t.conn.get? sid.site).getD []).vals) ↔ i.tx = sid.site := by
        rw [m1]; simp [hl]
      have e2 : (i ∈ ((t.connRev.get? sid.site).getD []).vals) ↔ i.rx = sid.site := by
        rw [m2]; simp [hl]
      simp only [Option.map_some, e1, e2, Option.some.injEq]
      by_cases c1 : i.tx = sid.site ∧ l.sectors.map Prod.fst = some sid
      · simp [c1]
      · by_cases c2 : i.rx = sid.site ∧ l.sectors.map Prod.snd = some sid
        · simp only [c1, if_false, c2, and_self, if_true, or_true]
        · simp only [c1, if_false, c2, or_self]

theorem clearLoop_siteSectors (sel : SectorId × SectorId → SectorId) (sid : SectorId)
    (ids : List LinkId) : ∀ (t : Topology), (t.clearLoop sel sid ids).1.siteSectors = t.siteSectors ∧
      (t.clearLoop sel sid ids).1.sites = t.sites := by
  induction ids with
  | nil => intro t; exact ⟨rfl, rfl⟩
  | cons a rest ih =>
    intro t
    unfold clearLoop
    cases t.links.get? a with
    | none => exact ⟨rfl, rfl⟩
    | some l =>
      simp only
      split
      · exact ih _
      · exact ih _

/-- `remove_sector` drops the sector from the per-site index. -/
theorem removeSector_index {t : Topology} (h : Inv t) (sid : SectorId) (sec : Sector)
    (hsec : t.sectors.get? sid = some sec) :
    ∀ a, ∀ i ∈ (t.removeSector sid).1.sectorIndex a, i ∈ t.sectorIndex a ∧ i ≠ sid := by
  have hsite : sec.site = sid.site := by rw [← h.sector_id _ _ hsec]; rfl
  obtain ⟨t', e, _⟩ := removeSector_spec h sid sec hsec
  intro a i hi
  unfold Topology.removeSector at e hi
  rw [hsec] at e hi
  simp only at e hi
  split at e
  swap
  · simp at e
  rename_i hh
  rw [if_pos hh] at hi
  have c1 := (clearLoop_siteSectors Prod.fst sid ((t.conn.get? sec.site).getD []).vals t).1
  generalize t.clearLoop Prod.fst sid ((t.conn.get? sec.site).getD []).vals = o at *
  obtain ⟨t1, e1⟩ := o
  cases e1 with
  | some _ => simp at e
  | none =>
  simp only at e hi c1
  have c2 := (clearLoop_siteSectors Prod.snd sid ((t1.connRev.get? sec.site).getD []).vals t1).1
  generalize t1.clearLoop Prod.snd sid ((t1.connRev.get? sec.site).getD []).vals = o at *
  obtain ⟨t2, e2⟩ := o
  cases e2 with
  | some _ => simp at e
  | none =>
  simp only at e hi c2
  split at e
  swap
  · simp at e
  rename_i hm
  rw [if_pos hm] at hi
  change i ∈ ((t2.siteSectors.set _ _).get? a).getD [] at hi
  have ht2 : ∀ b, t2.sectorIndex b = t.sectorIndex b := by
    intro b; unfold sectorIndex; rw [c2, c1]
  rw [sectorIndex_set, ht2, ht2] at hi
  split at hi
  · rename_i ea
    subst ea
    obtain ⟨h1, h2⟩ := List.mem_filter.1 hi
    exact ⟨h1, by simpa using h2⟩
  · rename_i ea
    refine ⟨hi, ?_⟩
    rintro rfl
    exact ea (hsite.trans (h.index_site _ _ hi))

theorem Inv.removeSector {t : Topology} (h : Inv t) (sid : SectorId) :
    Inv (t.removeSector sid).1 := by
  cases hs : t.sectors.get? sid with
  | none => simp [Topology.removeSector, hs, h]
  | some sec =>
    obtain ⟨t', e, hi, _⟩ := removeSector_spec h sid sec hs
    rw [e]; exact hi

theorem get?_modify_some {κ ν : Type} [DecidableEq κ] {d : Dict κ ν} {k k' : κ} {f : ν → ν} {v : ν}
    (h : (d.modify k f).get? k' = some v) : ∃ w, d.get? k' = some w ∧ (v = w ∨ v = f w) := by
  rw [Dict.get?_modify] at h
  split at h
  · cases hd : d.get? k' with
    | none => simp [hd] at h
    | some w => simp [hd] at h; exact ⟨w, rfl, Or.inr h.symm⟩
  · exact ⟨v, h, Or.inl rfl⟩

theorem modify_isSome {κ ν : Type} [DecidableEq κ] (d : Dict κ ν) (k k' : κ) (f : ν → ν) :
    (∃ v, (d.modify k f).get? k' = some v) ↔ ∃ v, d.get? k' = some v := by
  rw [← Dict.mem_keys_iff, ← Dict.mem_keys_iff, Dict.keys_modify]

theorem Inv.modSite {t : Topology} (h : Inv t) (id : SiteId) (f : Site → Site)
    (hf : ∀ s, (f s).id = s.id) : Inv { t with sites := t.sites.modify id f } :=
  { h with
    nd_sites := h.nd_sites.modify _ _
    site_id := by
      intro i s hs
      obtain ⟨w, hw, rfl | rfl⟩ := get?_modify_some hs
      · exact h.site_id _ _ hw
      · rw [hf]; exact h.site_id _ _ hw
    sector_site := fun i s hs => (modify_isSome _ _ _ _).2 (h.sector_site i s hs)
    link_tx := fun i s hs => (modify_isSome _ _ _ _).2 (h.link_tx i s hs)
    link_rx := fun i s hs => (modify_isSome _ _ _ _).2 (h.link_rx i s hs) }

theorem Inv.modSector {t : Topology} (h : Inv t) (id : SectorId) (f : Sector → Sector)
    (hf : ∀ s, (f s).id = s.id) : Inv { t with sectors := t.sectors.modify id f } := by
  have hs' : ∀ s, (f s).site = s.site := fun s => congrArg SectorId.site (hf s)
  exact { h with
    nd_sectors := h.nd_sectors.modify _ _
    sector_id := by
      intro i s hs
      obtain ⟨w, hw, rfl | rfl⟩ := get?_modify_some hs
      · exact h.sector_id _ _ hw
      · rw [hf]; exact h.sector_id _ _ hw
    sector_site := by
      intro i s hs
      obtain ⟨w, hw, rfl | rfl⟩ := get?_modify_some hs
      · exact h.sector_site _ _ hw
      · rw [hs']; exact h.sector_site _ _ hw
    index := by
      intro i s hs
      obtain ⟨w, hw, rfl | rfl⟩ := get?_modify_some hs
      · exact h.index _ _ hw
      · rw [hs']; exact h.index _ _ hw }

theorem Inv.modLink {t : Topology} (h : Inv t) (id : LinkId) (f : Link → Link)
    (htx : ∀ l, (f l).tx = l.tx) (hrx : ∀ l, (f l).rx = l.rx) :
    Inv { t with links := t.links.modify id f } :=
  { h with
    nd_links := h.nd_links.modify _ _
    link_id := by
      intro i s hs
      obtain ⟨w, hw, rfl | rfl⟩ := get?_modify_some hs
      · exact h.link_id _ _ hw
      · rw [htx, hrx]; exact h.link_id _ _ hw
    link_tx := by
      intro i s hs
      obtain ⟨w, hw, rfl | rfl⟩ := get?_modify_some hs
      · exact h.link_tx _ _ hw
      · rw [htx]; exact h.link_tx _ _ hw
    link_rx := by
      intro i s hs
      obtain ⟨w, hw, rfl | rfl⟩ := get?_modify_some hs
      · exact h.link_rx _ _ hw
      · rw [hrx]; exact h.link_rx _ _ hw
    conn_iff := by intro a b i; rw [modify_isSome]; exact h.conn_iff a b i
    connRev_iff := by intro a b i; rw [modify_isSome]; exact h.connRev_iff a b i }

theorem Inv.assign {t : Topology} (h : Inv t) (a : Assign) : Inv (t.assign a).1 := by
  cases a with
  | site i st =>
    simp only [Topology.assign, setSiteStatus]
    repeat' split
    all_goals first | exact h | exact h.modSite _ _ (fun _ => rfl)
  | sector i st =>
    simp only [Topology.assign, setSectorStatus]
    repeat' split
    all_goals first | exact h | exact h.modSector _ _ (fun _ => rfl)
  | link i st =>
    simp only [Topology.assign, setLinkStatus]
    repeat' split
    all_goals first | exact h | exact h.modLink _ _ (fun _ => rfl) (fun _ => rfl)

theorem Inv.write {t : Topology} (h : Inv t) (w : Write) : Inv (t.write w).1 := by
  cases w <;> simp only [Topology.write] <;> repeat' split
  all_goals first | exact h | exact h.modSite _ _ (fun _ => rfl) |
    exact h.modSector _ _ (fun _ => rfl) | exact h.modLink _ _ (fun _ => rfl) (fun _ => rfl)

theorem get?_sort {t : Topology} (h : Inv t) :
    (∀ i, t.sort.sites.get? i = t.sites.get? i) ∧ (∀ i, t.sort.sectors.get? i = t.sectors.get? i) ∧
    (∀ i, t.sort.links.get? i = t.links.get? i) ∧
    (∀ i, t.sort.demandSites.get? i = (t.demandSites.get? i).map fun d =>
      { d with connected := d.connected.insertionSort (· ≤ ·) }) := by
  refine ⟨fun i => get?_of_perm (sortBy_nodupKeys _ h.nd_sites) (sortBy_perm _ _) i,
    fun i => get?_of_perm (sortBy_nodupKeys _ h.nd_sectors) (sortBy_perm _ _) i,
    fun i => get?_of_perm (sortBy_nodupKeys _ h.nd_links) (sortBy_perm _ _) i, fun i => ?_⟩
  simp only [Topology.sort]
  rw [get?_map_val _ (fun d : DemandSite => { d with connected := d.connected.insertionSort (· ≤ ·) }),
    get?_of_perm (sortBy_nodupKeys _ h.nd_demand) (sortBy_perm _ _)]

theorem Inv.sort {t : Topology} (h : Inv t) : Inv t.sort := by
  obtain ⟨h1, h2, h3, h4⟩ := get?_sort h
  exact
  { h with
    nd_sites := sortBy_nodupKeys _ h.nd_sites
    nd_demand := by
      show (Dict.keys (List.map _ _)).Nodup
      rw [keys_map_val _ (fun d : DemandSite => { d with connected := d.connected.insertionSort (· ≤ ·) })]
      exact sortBy_nodupKeys _ h.nd_demand
    nd_sectors := sortBy_nodupKeys _ h.nd_sectors
    nd_links := sortBy_nodupKeys _ h.nd_links
    site_id := fun i s hs => h.site_id i s (by rw [← h1]; exact hs)
    demand_id := by
      intro i d hd
      rw [h4] at hd
      obtain ⟨d0, e, rfl⟩ := Option.map_eq_some_iff.1 hd
      exact h.demand_id i d0 e
    sector_id := fun i s hs => h.sector_id i s (by rw [← h2]; exact hs)
    sector_site := by
      intro i s hs
      rw [h1]; exact h.sector_site i s (by rw [← h2]; exact hs)
    link_id := fun i s hs => h.link_id i s (by rw [← h3]; exact hs)
    link_tx := by
      intro i s hs
      rw [h1]; exact h.link_tx i s (by rw [← h3]; exact hs)
    link_rx := by
      intro i s hs
      rw [h1]; exact h.link_rx i s (by rw [← h3]; exact hs)
    conn_iff := by intro a b i; rw [h3]; exact h.conn_iff a b i
    connRev_iff := by intro a b i; rw [h3]; exact h.connRev_iff a b i
    index := by
      intro i s hs
      exact h.index i s (by rw [← h2]; exact hs) }

theorem Inv.step {t : Topology} (h : Inv t) (o : Op) : Inv (t.step o).1 := by
  cases o with
  | addSite s d => exact h.addSite s d
  | removeSite s => exact h.removeSite s
  | addDemandSite d => exact h.addDemandSite d
  | removeDemandSite d => exact h.removeDemandSite d
  | addSector s => exact h.addSector s
  | removeSector s => exact h.removeSector s
  | addLink l => exact h.addLink l
  | removeLink l => exact h.removeLink l
  | assign a => exact h.assign a
  | write w => exact h.write w
  | sort => exact h.sort

theorem Inv.run {t : Topology} (h : Inv t) (ops : List Op) : Inv (t.run ops) := by
  induction ops generalizing t with
  | nil => exact h
  | cons o rest ih => exact ih (h.step o)

end Topology
end Verif
