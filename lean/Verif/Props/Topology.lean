import Verif.Lemmas.Topology

/-! # C01-C04: the topology container -/

namespace Verif
open Topology Spec

/-- A small topology used as a witness: POP `p`, DN `d`, CN `c`, links
`p<->d`, `d->c`, one sector on `d`. -/
def demoOps : List Op :=
  [.addSite { id := "p", siteType := .pop, status := .existing } false,
   .addSite { id := "d", siteType := .dn, status := .candidate } false,
   .addSite { id := "c", siteType := .cn, status := .candidate } false,
   .addSector { site := "d", node := 0, pos := 0 },
   .addLink { tx := "p", rx := "d" }, .addLink { tx := "d", rx := "p" },
   .addLink { tx := "d", rx := "c" }]

/-- The state after `demoOps`. -/
def demo : Topology := Topology.run {} demoOps

/-- **C01.** After any history of API calls on an empty topology, including
calls that raise, there are no dangling references. -/
theorem C01_consistent (ops : List Op) : Consistent (run {} ops) := by
  have h := Inv.empty.run ops
  exact
    { site_id := h.site_id
      demand_id := h.demand_id
      sector_id := fun id s hs => ⟨h.sector_id _ _ hs, h.sector_site _ _ hs⟩
      link_id := fun id l hl => ⟨h.link_id _ _ hl, h.link_tx _ _ hl, h.link_rx _ _ hl⟩
      unique := ⟨h.nd_sites, h.nd_demand, h.nd_sectors, h.nd_links⟩ }

example : demo.sites.keys = ["p", "d", "c"] ∧ demo.links.keys.length = 3 ∧
    demo.sectors.keys.length = 1 := by decide +kernel

/-- A failing call in the middle of a history: the removal of an absent link and
a sector on an absent site raise and the history goes on. -/
example : (demo.step (.removeLink ⟨"c", "d"⟩)).2 = some .planner ∧
    (demo.step (.addSector { site := "x", node := 0, pos := 0 })).2 = some .topology := by
  decide +kernel

theorem lookupSites_ok {t : Topology} (ids : List SiteId)
    (h : ∀ i ∈ ids, ∃ x, t.sites.get? i = some x) :
    ∃ r, t.lookupSites ids = .ok r ∧ r.map some = ids.map t.sites.get? := by
  induction ids with
  | nil => exact ⟨[], rfl, rfl⟩
  | cons a rest ih =>
    obtain ⟨x, hx⟩ := h a (by simp)
    obtain ⟨r, hr, hm⟩ := ih fun i hi => h i (by simp [hi])
    unfold Topology.lookupSites at hr ⊢
    refine ⟨x :: r, ?_, by simp [hx, hm]⟩
    rw [List.mapM_cons, hr, hx]; rfl

theorem listsSites_of_keys {t : Topology} (hid : ∀ id s, t.sites.get? id = some s → s.id = id)
    (ids : List SiteId) (hnd : ids.Nodup) (r : List Site)
    (hr : r.map some = ids.map t.sites.get?) (P : SiteId → Prop)
    (hP : ∀ i, i ∈ ids ↔ P i) : ListsSites t r P := by
  have hids : r.map Site.id = ids := by
    clear hnd hP
    induction r generalizing ids with
    | nil => cases ids <;> simp_all
    | cons x r ih =>
      cases ids with
      | nil => simp at hr
      | cons a ids =>
        simp only [List.map_cons, List.cons.injEq] at hr ⊢
        exact ⟨hid _ _ hr.1.symm, ih _ hr.2⟩
  refine ⟨List.Nodup.of_map Site.id (hids ▸ hnd), fun x => ?_⟩
  rw [← hP, ← hids]
  have hmem : ∀ y, y ∈ r → t.sites.get? y.id = some y := by
    intro y hy
    have : some y ∈ ids.map t.sites.get? := by rw [← hr]; exact List.mem_map.2 ⟨y, hy, rfl⟩
    obtain ⟨i, _, hi⟩ := List.mem_map.1 this
    rw [hid _ _ hi]; exact hi
  constructor
  · intro hx; exact ⟨hmem x hx, List.mem_map.2 ⟨x, hx, rfl⟩⟩
  · rintro ⟨hx, hm⟩
    obtain ⟨y, hy, e⟩ := List.mem_map.1 hm
    have := hmem y hy
    rw [e, hx] at this
    cases this; exact hy

theorem keys_conn_iff {c : Dict SiteId (Dict SiteId LinkId)} (a b : SiteId) :
    b ∈ ((c.get? a).getD []).keys ↔ ∃ i, cget c a b = some i := by
  unfold cget
  cases hr : c.get? a with
  | none => simp [Dict.keys]
  | some row => simp [Dict.mem_keys_iff]

theorem successors_spec {t : Topology} (h : Inv t) (s : SiteId) (x : Site)
    (hs : t.sites.get? s = some x) :
    ∃ r, t.getSuccessorSites s = .ok r ∧ ListsSites t r (fun b => HasLink t s b) := by
  unfold Topology.getSuccessorSites
  rw [if_pos ((Dict.has_iff _ _).2 ⟨x, hs⟩)]
  have hk : ∀ b, b ∈ ((t.conn.get? s).getD []).keys ↔ HasLink t s b := by
    intro b; rw [keys_conn_iff]
    constructor
    · rintro ⟨i, hi⟩; exact ((h.conn_iff _ _ _).1 hi).2
    · intro hl; exact ⟨_, (h.conn_iff _ _ _).2 ⟨rfl, hl⟩⟩
  obtain ⟨r, hr, hm⟩ := lookupSites_ok (t := t) ((t.conn.get? s).getD []).keys (by
    intro i hi
    obtain ⟨l, hl⟩ := (hk i).1 hi
    have := h.link_rx _ _ hl
    rw [show l.rx = i from by simpa using (congrArg LinkId.rx (h.link_id _ _ hl)).symm] at this
    exact this)
  refine ⟨r, hr, listsSites_of_keys h.site_id _ ?_ r hm _ hk⟩
  cases e : t.conn.get? s with
  | none => simp [Dict.keys]
  | some row => exact h.nd_row _ _ e

/-- **C04 (successors).** In every reachable state, for every present site, the
successor query succeeds and lists exactly the receivers of its links, each once. -/
theorem C04_successors (ops : List Op) (s : SiteId) (x : Site)
    (hs : (run {} ops).sites.get? s = some x) :
    ∃ r, (run {} ops).getSuccessorSites s = .ok r ∧
      ListsSites (run {} ops) r (fun b => HasLink (run {} ops) s b) :=
  successors_spec (Inv.empty.run ops) s x hs

theorem predecessors_spec {t : Topology} (h : Inv t) (s : SiteId) (x : Site)
    (hs : t.sites.get? s = some x) :
    ∃ r, t.getPredecessorSites s = .ok r ∧ ListsSites t r (fun a => HasLink t a s) := by
  unfold Topology.getPredecessorSites
  rw [if_pos ((Dict.has_iff _ _).2 ⟨x, hs⟩)]
  have hk : ∀ a, a ∈ ((t.connRev.get? s).getD []).keys ↔ HasLink t a s := by
    intro b; rw [keys_conn_iff]
    constructor
    · rintro ⟨i, hi⟩; exact ((h.connRev_iff _ _ _).1 hi).2
    · intro hl; exact ⟨_, (h.connRev_iff _ _ _).2 ⟨rfl, hl⟩⟩
  obtain ⟨r, hr, hm⟩ := lookupSites_ok (t := t) ((t.connRev.get? s).getD []).keys (by
    intro i hi
    obtain ⟨l, hl⟩ := (hk i).1 hi
    have := h.link_tx _ _ hl
    rw [show l.tx = i from by simpa using (congrArg LinkId.tx (h.link_id _ _ hl)).symm] at this
    exact this)
  refine ⟨r, hr, listsSites_of_keys h.site_id _ ?_ r hm _ hk⟩
  cases e : t.connRev.get? s with
  | none => simp [Dict.keys]
  | some row => exact h.nd_rowR _ _ e

/-- **C04 (predecessors).** -/
theorem C04_predecessors (ops : List Op) (s : SiteId) (x : Site)
    (hs : (run {} ops).sites.get? s = some x) :
    ∃ r, (run {} ops).getPredecessorSites s = .ok r ∧
      ListsSites (run {} ops) r (fun a => HasLink (run {} ops) a s) :=
  predecessors_spec (Inv.empty.run ops) s x hs

example : (demo.getSuccessorSites "d").toOption.map (·.map Site.id) = some ["p", "c"] ∧
    (demo.getPredecessorSites "d").toOption.map (·.map Site.id) = some ["p"] := by
  decide +kernel

/-- What the wireless filter returns: the listed sites `o` with a wireless link
`s -> o`, in both queries. -/
theorem filterWireless_ok {t : Topology} (s : SiteId) (hs : ∃ x, t.sites.get? s = some x)
    (os : List Site) (ho : ∀ o ∈ os, t.sites.get? o.id = some o) :
    ∃ r, t.filterWireless s os = .ok r ∧ r.Sublist os ∧
      ∀ o, o ∈ r ↔ o ∈ os ∧ HasWirelessLink t s o.id := by
  induction os with
  | nil => exact ⟨[], rfl, by simp, by simp⟩
  | cons a rest ih =>
    obtain ⟨r, hr, hsub, hm⟩ := ih fun o h => ho o (by simp [h])
    have ha := ho a (by simp)
    have hg : t.getLinkBySiteIds s a.id = .ok (t.links.get? ⟨s, a.id⟩) := by
      unfold Topology.getLinkBySiteIds
      rw [if_pos]
      simp only [Bool.and_eq_true, Dict.has_iff]
      exact ⟨hs, a, ha⟩
    unfold Topology.filterWireless
    rw [hg, hr]
    cases hl : t.links.get? ⟨s, a.id⟩ with
    | none =>
      refine ⟨r, rfl, hsub.cons _, fun o => ?_⟩
      rw [hm, List.mem_cons]
      constructor
      · rintro ⟨h1, h2⟩; exact ⟨Or.inr h1, h2⟩
      · rintro ⟨rfl | h1, h2⟩
        · obtain ⟨l, h3, _⟩ := h2; rw [hl] at h3; simp at h3
        · exact ⟨h1, h2⟩
    | some l =>
      by_cases hw : l.isWireless = true
      · refine ⟨a :: r, by simp [bind, Except.bind, hw, pure, Except.pure], hsub.cons_cons _, fun o => ?_⟩
        rw [List.mem_cons, hm, List.mem_cons]
        constructor
        · rintro (rfl | ⟨h1, h2⟩)
          · exact ⟨Or.inl rfl, l, hl, hw⟩
          · exact ⟨Or.inr h1, h2⟩
        · rintro ⟨rfl | h1, h2⟩
          · exact Or.inl rfl
          · exact Or.inr ⟨h1, h2⟩
      · refine ⟨r, by simp [bind, Except.bind, hw, pure, Except.pure], hsub.cons _, fun o => ?_⟩
        rw [hm, List.mem_cons]
        constructor
        · rintro ⟨h1, h2⟩; exact ⟨Or.inr h1, h2⟩
        · rintro ⟨rfl | h1, h2⟩
          · obtain ⟨l', h3, h4⟩ := h2; rw [hl] at h3; cases h3; exact absurd h4 hw
          · exact ⟨h1, h2⟩

/-- **C04 (wireless successors).** -/
theorem C04_wireless_successors (ops : List Op) (s : SiteId) (x : Site)
    (hs : (run {} ops).sites.get? s = some x) :
    ∃ r, (run {} ops).getWirelessSuccessorSites s = .ok r ∧
      ListsSites (run {} ops) r (fun b => HasWirelessLink (run {} ops) s b) := by
  obtain ⟨r, hr, hnd, hm⟩ := C04_successors ops s x hs
  obtain ⟨r', hr', hsub, hm'⟩ := filterWireless_ok s ⟨x, hs⟩ r fun o ho => ((hm o).1 ho).1
  refine ⟨r', ?_, hsub.nodup hnd, fun o => ?_⟩
  · unfold Topology.getWirelessSuccessorSites; rw [hr]; exact hr'
  · rw [hm', hm]
    constructor
    · rintro ⟨⟨h1, _⟩, h3⟩; exact ⟨h1, h3⟩
    · rintro ⟨h1, l, h2, h3⟩; exact ⟨⟨h1, l, h2⟩, l, h2, h3⟩

/-- **C04 (wireless predecessors), `_partial`.** Full statement (false of the
code): the query lists exactly the `a` with a wireless link `a -> s`. What the
code returns: the predecessors `a` such that a wireless link *out of* `s` to
`a` exists. -/
theorem C04_wireless_predecessors_partial (ops : List Op) (s : SiteId) (x : Site)
    (hs : (run {} ops).sites.get? s = some x) :
    ∃ r, (run {} ops).getWirelessPredecessorSites s = .ok r ∧
      ListsSites (run {} ops) r
        (fun a => HasLink (run {} ops) a s ∧ HasWirelessLink (run {} ops) s a) := by
  obtain ⟨r, hr, hnd, hm⟩ := C04_predecessors ops s x hs
  obtain ⟨r', hr', hsub, hm'⟩ := filterWireless_ok s ⟨x, hs⟩ r fun o ho => ((hm o).1 ho).1
  refine ⟨r', ?_, hsub.nodup hnd, fun o => ?_⟩
  · unfold Topology.getWirelessPredecessorSites; rw [hr]; exact hr'
  · rw [hm', hm, and_assoc]

/-- **C04 violation.** The CN `c` has a wireless link from `d`, yet the wireless
predecessor query of `c` is empty. -/
theorem C04_wireless_predecessors_violation :
    ∃ ops s, ∃ d, HasWirelessLink (run {} ops) d s ∧
      (run {} ops).getWirelessPredecessorSites s = .ok [] := by
  refine ⟨demoOps, "c", "d", ⟨{ tx := "d", rx := "c" }, ?_, ?_⟩, ?_⟩ <;> decide +kernel

/-- **C03.** A removal that returns normally removes exactly the site, the
sectors mounted on it and the links that start or end at it. -/
theorem C03_remove_site_exact (ops : List Op) (s : SiteId) (t' : Topology)
    (he : (run {} ops).removeSite s = (t', none)) :
    (∀ i, t'.sites.get? i = if i = s then none else (run {} ops).sites.get? i) ∧
    (∀ i x, t'.sectors.get? i = some x ↔
      (run {} ops).sectors.get? i = some x ∧ x.site ≠ s) ∧
    (∀ i l, t'.links.get? i = some l ↔
      (run {} ops).links.get? i = some l ∧ l.tx ≠ s ∧ l.rx ≠ s) ∧
    t'.demandSites = (run {} ops).demandSites := by
  have h := Inv.empty.run ops
  obtain ⟨h1, h2, h3, h4, _⟩ := removeSite_ok h s t' he
  refine ⟨h1, ?_, ?_, h4⟩
  · intro i x
    rw [h2]
    constructor
    · intro hx
      split at hx
      · simp at hx
      · rename_i hne
        refine ⟨hx, ?_⟩
        have : x.site = i.site := by rw [← h.sector_id _ _ hx]; rfl
        rwa [this]
    · rintro ⟨hx, hne⟩
      have : x.site = i.site := by rw [← h.sector_id _ _ hx]; rfl
      rw [if_neg (this ▸ hne)]; exact hx
  · intro i l
    rw [h3]
    constructor
    · intro hx
      split at hx
      · simp at hx
      · rename_i hne
        have e := h.link_id _ _ hx
        refine ⟨hx, ?_, ?_⟩
        · intro c; exact hne (Or.inl (by rw [e]; exact c))
        · intro c; exact hne (Or.inr (by rw [e]; exact c))
    · rintro ⟨hx, ha, hb⟩
      have e := h.link_id _ _ hx
      rw [if_neg]
      · exact hx
      · rw [e]; rintro (c | c)
        · exact ha c
        · exact hb c

example : ((run {} demoOps).removeSite "d").2 = none ∧
    ((run {} demoOps).removeSite "d").1.links.keys = [] ∧
    ((run {} demoOps).removeSite "d").1.sectors.keys = [] ∧
    ((run {} demoOps).removeSite "d").1.sites.keys = ["p", "c"] := by decide +kernel

/-- Removing a sector removes it from the sector table, clears both sectors of
every link that used it, and touches nothing else. -/
theorem C03_remove_sector_exact (ops : List Op) (sid : SectorId) (x : Sector)
    (hx : (run {} ops).sectors.get? sid = some x) :
    ∃ t', (run {} ops).removeSector sid = (t', none) ∧
      t'.sites = (run {} ops).sites ∧ t'.demandSites = (run {} ops).demandSites ∧
      (∀ i, t'.sectors.get? i = if i = sid then none else (run {} ops).sectors.get? i) ∧
      (∀ i, t'.links.get? i = ((run {} ops).links.get? i).map (fun l =>
        if (l.tx = sid.site ∧ l.sectors.map Prod.fst = some sid) ∨
           (l.rx = sid.site ∧ l.sectors.map Prod.snd = some sid)
        then { l with sectors := none } else l)) := by
  have h := Inv.empty.run ops
  obtain ⟨t', h1, _, h2, h3, h4, h5⟩ := removeSector_spec h sid x hx
  refine ⟨t', h1, h2, h3, ?_, ?_⟩
  · intro i; rw [h4, Dict.get?_del]
    by_cases e : sid = i
    · simp [e]
    · simp [e, Ne.symm e]
  · intro i; rw [h5]
    cases hl : (run {} ops).links.get? i with
    | none => rfl
    | some l => rw [h.link_id _ _ hl]; rfl

example : ∃ x, (run {} demoOps).sectors.get? ⟨"d", 0, 0, .dn⟩ = some x :=
  ⟨{ site := "d", node := 0, pos := 0 }, by decide +kernel⟩

/-- Removing a link removes that link only. -/
theorem C03_remove_link_exact (ops : List Op) (id : LinkId) (l : Link)
    (hl : (run {} ops).links.get? id = some l) :
    ∃ t', (run {} ops).removeLink id = (t', none) ∧
      t'.sites = (run {} ops).sites ∧ t'.sectors = (run {} ops).sectors ∧
      t'.demandSites = (run {} ops).demandSites ∧
      (∀ i, t'.links.get? i = if i = id then none else (run {} ops).links.get? i) := by
  have h := Inv.empty.run ops
  obtain ⟨t', h1, _, h2, h3, h4, h5, _⟩ := removeLink_spec h id l hl
  refine ⟨t', h1, h3, h4, h5, ?_⟩
  intro i; rw [h2, Dict.get?_del]
  by_cases e : id = i
  · simp [e]
  · simp [e, Ne.symm e]

example : ∃ l, (run {} demoOps).links.get? ⟨"d", "c"⟩ = some l :=
  ⟨{ tx := "d", rx := "c" }, by decide +kernel⟩

/-- **C02, `_partial`.** Full statement (false of the code): removing a present
site always succeeds. Proved: it succeeds when no site was removed before in the
history and the site has no link to itself. -/
theorem C02_remove_site_succeeds_partial (ops : List Op) (s : SiteId) (x : Site)
    (hs : (run {} ops).sites.get? s = some x)
    (hnoremove : ∀ o ∈ ops, ∀ r, o ≠ .removeSite r)
    (hloop : (run {} ops).links.get? ⟨s, s⟩ = none) :
    ((run {} ops).removeSite s).2 = none := by
  have h := Inv.empty.run ops
  refine removeSite_succeeds h s ⟨x, hs⟩ ?_ hloop
  clear hloop hs h
  have gen : ∀ (ops : List Op) (t : Topology), Inv t →
      (∀ a, ∀ i ∈ t.sectorIndex a, ∃ y, t.sectors.get? i = some y) →
      (∀ o ∈ ops, ∀ r, o ≠ .removeSite r) →
      ∀ a, ∀ i ∈ (t.run ops).sectorIndex a, ∃ y, (t.run ops).sectors.get? i = some y := by
    intro ops
    induction ops with
    | nil => intro t _ ht _; exact ht
    | cons o rest ih =>
      intro t hi ht ho
      refine ih (t.step o).1 (hi.step o) ?_ (fun o' h' => ho o' (by simp [h']))
      intro a i hi'
      cases o with
      | addSite s d =>
        simp only [Topology.step, Topology.addSite] at hi' ⊢
        split at hi'
        · simp only [*, if_true] at hi' ⊢; exact ht a i hi'
        · split at hi'
          · simp only [*, if_true] at hi' ⊢; exact ht a i hi'
          · simp only [*] at hi' ⊢; exact ht a i hi'
      | removeSite s => exact absurd rfl (ho _ (by simp) s)
      | addDemandSite d => exact ht a i hi'
      | removeDemandSite d =>
        simp only [Topology.step, Topology.removeDemandSite] at hi' ⊢
        split at hi' <;> (split <;> exact ht a i hi')
      | addSector s =>
        simp only [Topology.step, Topology.addSector] at hi' ⊢
        by_cases c1 : t.sectors.has s.id = true
        · simp only [c1, if_true] at hi' ⊢; exact ht a i hi'
        · by_cases c2 : t.sites.has s.site = true
          · simp only [c1, c2, if_true] at hi' ⊢
            change i ∈ ((t.siteSectors.set _ _).get? a).getD [] at hi'
            simp only [Bool.false_eq_true, if_false]
            rw [sectorIndex_set] at hi'
            rw [Dict.get?_set]
            split
            · exact ⟨_, rfl⟩
            · rename_i hne
              split at hi'
              · rw [mem_setAdd] at hi'
                rcases hi' with h1 | rfl
                · exact ht _ i h1
                · exact absurd rfl hne
              · exact ht a i hi'
          · simp only [c1, c2] at hi' ⊢; exact ht a i hi'
      | removeSector sid =>
        simp only [Topology.step] at hi' ⊢
        cases hsec : t.sectors.get? sid with
        | none =>
          simp only [Topology.removeSector, hsec] at hi' ⊢; exact ht a i hi'
        | some sec =>
          obtain ⟨t', e, hiv, e1, e2, e3, e4⟩ := removeSector_spec hi sid sec hsec
          have hidx := removeSector_index hi sid sec hsec
          rw [e] at hi' hidx ⊢
          simp only at hi' hidx ⊢
          obtain ⟨h1, h2⟩ := hidx a i hi'
          obtain ⟨y, hy⟩ := ht a i h1
          exact ⟨y, by rw [e3, Dict.get?_del]; simp [Ne.symm h2, hy]⟩
      | addLink l =>
        simp only [Topology.step, Topology.addLink] at hi' ⊢
        split at hi' <;> (split <;> exact ht a i hi')
      | removeLink l =>
        simp only [Topology.step] at hi' ⊢
        cases hl : t.links.get? l with
        | none => rw [removeLink_absent _ _ hl] at hi' ⊢; exact ht a i hi'
        | some x =>
          obtain ⟨t', e, hiv, e1, e2, e3, e4, e5⟩ := removeLink_spec hi l x hl
          rw [e] at hi' ⊢
          simp only [sectorIndex, e5, e3] at hi' ⊢
          exact ht a i hi'
      | assign x =>
        have e1 : (t.assign x).1.siteSectors = t.siteSectors := by
          cases x <;> simp only [Topology.assign, setSiteStatus, setSectorStatus, setLinkStatus] <;>
            repeat' split
          all_goals rfl
        have e2 : (∃ y, (t.assign x).1.sectors.get? i = some y) ↔ ∃ y, t.sectors.get? i = some y := by
          cases x <;> simp only [Topology.assign, setSiteStatus, setSectorStatus, setLinkStatus] <;>
            repeat' split
          all_goals first | exact Iff.rfl | (dsimp only; exact modify_isSome t.sectors _ i _)
        simp only [Topology.step, sectorIndex, e1] at hi'
        exact e2.2 (ht a i hi')
      | write x =>
        have e1 : (t.write x).1.siteSectors = t.siteSectors := by
          cases x <;> simp only [Topology.write] <;> repeat' split
          all_goals rfl
        have e2 : (∃ y, (t.write x).1.sectors.get? i = some y) ↔ ∃ y, t.sectors.get? i = some y := by
          cases x <;> simp only [Topology.write] <;> repeat' split
          all_goals first | exact Iff.rfl | (dsimp only; exact modify_isSome t.sectors _ i _)
        simp only [Topology.step, sectorIndex, e1] at hi'
        exact e2.2 (ht a i hi')
      | sort =>
        obtain ⟨y, hy⟩ := ht a i hi'
        exact ⟨y, ((get?_sort hi).2.1 i).trans hy⟩
  exact fun i hi => gen ops {} Inv.empty (by simp [sectorIndex]) hnoremove s i hi

example : (run {} demoOps).links.get? ⟨"d", "d"⟩ = none ∧
    (∀ o ∈ demoOps, ∀ r, o ≠ .removeSite r) := by
  refine ⟨by decide +kernel, ?_⟩
  intro o ho r; simp [demoOps] at ho
  rcases ho with rfl | rfl | rfl | rfl | rfl | rfl | rfl <;> simp

/-- **C02 violation (stale index).** Remove a site that has a sector, add it
again, remove it again: the second removal raises `KeyError`. -/
theorem C02_remove_readd_remove_violation :
    ∃ ops s, (∃ x, (run {} ops).sites.get? s = some x) ∧
      ((run {} ops).removeSite s).2 = some .keyError := by
  refine ⟨[.addSite { id := "d", siteType := .dn, status := .candidate } false,
    .addSector { site := "d", node := 0, pos := 0 },
    .removeSite "d",
    .addSite { id := "d", siteType := .dn, status := .candidate } false], "d",
    ⟨{ id := "d", siteType := .dn, status := .candidate }, ?_⟩, ?_⟩ <;> decide +kernel

/-- **C02 violation (self loop).** A site linked to itself cannot be removed, and
the failed call has already deleted its sectors. -/
theorem C02_self_loop_violation :
    ∃ ops s, (∃ x, (run {} ops).sites.get? s = some x) ∧
      ((run {} ops).removeSite s).2 = some .planner ∧
      (∃ y i, (run {} ops).sectors.get? i = some y) ∧
      ((run {} ops).removeSite s).1.sectors = [] := by
  refine ⟨[.addSite { id := "d", siteType := .dn, status := .candidate } false,
    .addSector { site := "d", node := 0, pos := 0 },
    .addLink { tx := "d", rx := "d" }], "d",
    ⟨{ id := "d", siteType := .dn, status := .candidate }, ?_⟩, ?_,
    ⟨{ site := "d", node := 0, pos := 0 }, ⟨"d", 0, 0, .dn⟩, ?_⟩, ?_⟩ <;> decide +kernel

end Verif
