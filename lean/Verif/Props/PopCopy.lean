import Verif.Model.PopProposal
import Verif.Props.Topology
import Verif.Props.Colocate

/-!
# C110: the POPs that are added at the chosen DNs
-/

namespace Verif
open Topology Spec

/-- The sector of the new POP for a sector of a DN. -/
def copyId (pid : SiteId → SiteId) (k : SectorId) : SectorId := ⟨pid k.site, k.node, k.pos, .dn⟩

theorem addSite_done {t t' : Topology} {s : Site} (h : t.addSite s = (t', none)) :
    t.sites.get? s.id = none ∧ t' = { t with sites := t.sites.set s.id s } := by
  unfold addSite at h
  simp only [Bool.false_eq_true, if_false] at h
  split_ifs at h with c
  · simp at h
  · simp only [Prod.mk.injEq, and_true] at h
    exact ⟨(Dict.has_eq_false_iff _ _).1 (by simpa using c), h.symm⟩

theorem addSector_done {t t' : Topology} {s : Sector} (h : t.addSector s = (t', none)) :
    t.sectors.get? s.id = none ∧ t'.sites = t.sites ∧ t'.links = t.links ∧ t'.demandSites = t.demandSites ∧
    t'.sectors = t.sectors.set s.id s := by
  unfold addSector at h
  split_ifs at h with c d
  · simp at h
  · simp only [Prod.mk.injEq, and_true] at h
    subst h
    exact ⟨(Dict.has_eq_false_iff _ _).1 (by simpa using c), rfl, rfl, rfl, rfl⟩
  · simp at h

theorem get?_set_new {κ ν : Type} [DecidableEq κ] {d : Dict κ ν} {k : κ} {v : ν} (h : d.get? k = none) (k' : κ) (v' : ν) :
    (d.set k v).get? k' = some v' ↔ d.get? k' = some v' ∨ (k' = k ∧ v' = v) := by
  rw [Dict.get?_set]
  by_cases c : k = k'
  · subst c; simp [h, eq_comm]
  · rw [if_neg c]
    constructor
    · exact Or.inl
    · rintro (g | ⟨rfl, _⟩)
      · exact g
      · exact absurd rfl c

theorem dupSectors_ok (pop : SiteId) (pid : SiteId → SiteId) : ∀ (L : List Sector) (t t' : Topology)
    (D D' : Dict SectorId SectorId), Inv t → t.dupSectors pop D L = (t', D', none) → (∀ k ∈ L, pid k.site = pop) →
    (∀ k k', D.get? k = some k' → k' = copyId pid k) →
    Inv t' ∧ t'.sites = t.sites ∧ t'.links = t.links ∧ t'.demandSites = t.demandSites ∧
    (∀ k x, t'.sectors.get? k = some x ↔ t.sectors.get? k = some x ∨
      ∃ s ∈ L, k = (sectorOn pop s).id ∧ x = sectorOn pop s) ∧
    ∀ k k', D'.get? k = some k' → k' = copyId pid k := by
  intro L
  induction L with
  | nil =>
    intro t t' D D' inv h _ hD
    cases h
    exact ⟨inv, rfl, rfl, rfl, by simp, hD⟩
  | cons s rest ih =>
    intro t t' D D' inv h hpid hD
    unfold dupSectors at h
    rcases hs : t.addSector (sectorOn pop s) with ⟨t1, _ | e⟩
    · rw [hs] at h
      dsimp only at h
      obtain ⟨n0, n1, n2, n3, n4⟩ := addSector_done hs
      have inv1 : Inv t1 := by have := inv.addSector (sectorOn pop s); rw [hs] at this; exact this
      obtain ⟨i1, i2, i3, i4, i5, i6⟩ := ih t1 t' _ D' inv1 h (fun k hk => hpid k (List.mem_cons_of_mem _ hk)) (by
        intro k k' hk
        rw [Dict.get?_set] at hk
        split_ifs at hk with c
        · injection hk with hk
          subst c
          rw [← hk]
          unfold copyId sectorOn Sector.id
          dsimp only
          rw [hpid s (by simp)]
        · exact hD k k' hk)
      refine ⟨i1, i2.trans n1, i3.trans n2, i4.trans n3, ?_, i6⟩
      intro k x
      rw [i5, n4, get?_set_new n0, or_assoc]
      simp
    · rw [hs] at h; simp at h

theorem dupSites_ok (pid : SiteId → SiteId) (chosen : SiteId → Bool) (secs : List Sector) :
    ∀ (L : List (SiteId × Site)) (t t' : Topology) (S S' : List SiteId) (D D' : Dict SectorId SectorId), Inv t →
    t.dupSites pid chosen secs S D L = (t', S', D', none) → (∀ e ∈ L, e.2.id = e.1) →
    (∀ k k', D.get? k = some k' → k' = copyId pid k) →
    Inv t' ∧ t'.links = t.links ∧ t'.demandSites = t.demandSites ∧
    (∀ k x, t'.sites.get? k = some x ↔ t.sites.get? k = some x ∨
      ∃ e ∈ L, chosen e.1 = true ∧ e.2.siteType = .dn ∧ k = pid e.1 ∧ x = popOn pid e.2) ∧
    (∀ e ∈ L, chosen e.1 = true → e.2.siteType = .dn → t.sites.get? (pid e.1) = none) ∧
    (∀ k x, t'.sectors.get? k = some x ↔ t.sectors.get? k = some x ∨
      ∃ e ∈ L, chosen e.1 = true ∧ e.2.siteType = .dn ∧ ∃ s ∈ secs, s.site = e.1 ∧ k = (sectorOn (pid e.1) s).id ∧
        x = sectorOn (pid e.1) s) ∧
    S' = S ++ (L.filter fun e => chosen e.1 && e.2.siteType == .dn).map (·.1) ∧
    ((L.filter fun e => chosen e.1 && e.2.siteType == .dn).map fun e => pid e.1).Nodup ∧
    ∀ k k', D'.get? k = some k' → k' = copyId pid k := by
  intro L
  induction L with
  | nil =>
    intro t t' S S' D D' inv h _ hD
    cases h
    exact ⟨inv, rfl, rfl, by simp, by simp, by simp, by simp, by simp, hD⟩
  | cons e rest ih =>
    intro t t' S S' D D' inv h hid hD
    unfold dupSites at h
    by_cases c : (chosen e.1 && e.2.siteType == .dn) = true
    · rw [if_pos c] at h
      rcases hs : t.addSite (popOn pid e.2) with ⟨t1, _ | err⟩
      swap
      · rw [hs] at h; simp at h
      rw [hs] at h
      dsimp only at h
      obtain ⟨n0, n1⟩ := addSite_done hs
      have inv1 : Inv t1 := by have := inv.addSite (popOn pid e.2) false; rw [hs] at this; exact this
      rcases hd : t1.dupSectors (pid e.1) D (secs.filter fun k => k.site = e.1) with ⟨t2, D2, _ | err⟩
      swap
      · rw [hd] at h; simp at h
      rw [hd] at h
      dsimp only at h
      obtain ⟨m1, m2, m3, m4, m5, m6⟩ := dupSectors_ok (pid e.1) pid _ t1 t2 D D2 inv1 hd
        (by intro k hk; have := (List.mem_filter.1 hk).2; simp only [decide_eq_true_eq] at this; rw [this]) hD
      obtain ⟨i1, i2, i3, i4, i5, i6, i7, i8, i9⟩ := ih t2 t' _ S' D2 D' m1 h
        (fun a ha => hid a (List.mem_cons_of_mem _ ha)) m6
      have eid : (popOn pid e.2).id = pid e.1 := by unfold popOn; dsimp only; rw [hid e (by simp)]
      have hc : chosen e.1 = true ∧ e.2.siteType = .dn := by simpa using c
      rw [eid] at n0 n1
      have hold : ∀ k x, t2.sites.get? k = some x ↔ t.sites.get? k = some x ∨ (k = pid e.1 ∧ x = popOn pid e.2) := by
        intro k x
        rw [m2, n1]
        exact get?_set_new n0 k x
      refine ⟨i1, by rw [i2, m3, n1], by rw [i3, m4, n1], ?_, ?_, ?_, ?_, ?_, i9⟩
      · intro k x
        rw [i4, hold, or_assoc]
        simp [hc]
      · intro a ha hca hda
        rcases List.mem_cons.1 ha with rfl | ha
        · exact n0
        · have := i5 a ha hca hda
          cases hg : t.sites.get? (pid a.1) with
          | none => rfl
          | some y =>
            have q := (hold (pid a.1) y).2 (Or.inl hg)
            rw [this] at q; cases q
      · intro k x
        rw [i6, m5, n1, or_assoc]
        simp [hc, and_assoc]
      · rw [i7]; simp only [List.filter_cons, c, if_true]; simp
      · simp only [List.filter_cons, c, if_true]; rw [List.map_cons, List.nodup_cons]
        refine ⟨?_, i8⟩
        intro hm
        obtain ⟨a, ha, ea⟩ := List.mem_map.1 hm
        obtain ⟨ha1, ha2⟩ := List.mem_filter.1 ha
        simp only [Bool.and_eq_true, beq_iff_eq] at ha2
        have := i5 a ha1 ha2.1 ha2.2
        rw [ea] at this
        have q := (hold (pid e.1) _).2 (Or.inr ⟨rfl, rfl⟩)
        rw [this] at q; cases q
    · rw [if_neg c] at h
      obtain ⟨i1, i2, i3, i4, i5, i6, i7, i8, i9⟩ := ih t t' S S' D D' inv h
        (fun a ha => hid a (List.mem_cons_of_mem _ ha)) hD
      have hc : ¬ (chosen e.1 = true ∧ e.2.siteType = .dn) := by simpa using c
      refine ⟨i1, i2, i3, ?_, ?_, ?_, ?_, ?_, i9⟩
      · intro k x
        rw [i4]
        constructor
        · rintro (g | ⟨a, ha, g⟩)
          · exact Or.inl g
          · exact Or.inr ⟨a, List.mem_cons_of_mem _ ha, g⟩
        · rintro (g | ⟨a, ha, g⟩)
          · exact Or.inl g
          · rcases List.mem_cons.1 ha with rfl | ha
            · exact absurd ⟨g.1, g.2.1⟩ hc
            · exact Or.inr ⟨a, ha, g⟩
      · intro a ha hca hda
        rcases List.mem_cons.1 ha with rfl | ha
        · exact absurd ⟨hca, hda⟩ hc
        · exact i5 a ha hca hda
      · intro k x
        rw [i6]
        constructor
        · rintro (g | ⟨a, ha, g⟩)
          · exact Or.inl g
          · exact Or.inr ⟨a, List.mem_cons_of_mem _ ha, g⟩
        · rintro (g | ⟨a, ha, g⟩)
          · exact Or.inl g
          · rcases List.mem_cons.1 ha with rfl | ha
            · exact absurd ⟨g.1, g.2.1⟩ hc
            · exact Or.inr ⟨a, ha, g⟩
      · rw [i7]; simp only [List.filter_cons, c, if_false]; simp
      · simp only [List.filter_cons, c]; exact i8

theorem addCopy_ok {t t' : Topology} (inv : Inv t) {tx rx : SiteId} {secs : SectorId × SectorId} {l m : Link}
    (h : t.addCopy tx rx secs l m = (t', none)) :
    Inv t' ∧ t'.sites = t.sites ∧ t'.sectors = t.sectors ∧ t'.demandSites = t.demandSites ∧
    ∀ k, t'.links.get? k = if k = ⟨tx, rx⟩ then
      some { tx := tx, rx := rx, sectors := some secs, isWireless := m.isWireless, status := .candidate,
             capacity := l.capacity, distance := l.distance, confidence := m.confidence }
      else t.links.get? k := by
  unfold addCopy at h
  cases ha : t.sites.get? tx with
  | none => rw [ha] at h; simp at h
  | some a =>
  cases hb : t.sites.get? rx with
  | none => rw [ha, hb] at h; simp at h
  | some b =>
  rw [ha, hb] at h
  dsimp only at h
  cases hm : mkLink (some a) (some b) (some ⟨secs.1, a⟩) (some ⟨secs.2, b⟩) .candidate m.isWireless with
  | error e => rw [hm] at h; simp at h
  | ok n =>
  rw [hm] at h
  dsimp only at h
  have hn : n = { tx := tx, rx := rx, sectors := some secs, isWireless := m.isWireless, status := .candidate } := by
    have ea := inv.site_id _ _ ha
    have eb := inv.site_id _ _ hb
    unfold mkLink at hm
    dsimp only at hm
    simp only [HOrElse.hOrElse, OrElse.orElse, Option.orElse] at hm
    split_ifs at hm <;> simp_all
  have i1 := inv.addLink { n with capacity := l.capacity, distance := l.distance, confidence := m.confidence }
  rw [h] at i1
  unfold addLink at h
  split_ifs at h
  · simp only [Prod.mk.injEq, and_true] at h
    refine ⟨i1, ?_⟩
    subst h
    refine ⟨rfl, rfl, rfl, ?_⟩
    intro k
    dsimp only
    rw [Dict.get?_set]
    subst hn
    unfold Link.id
    dsimp only
    by_cases c : k = ⟨tx, rx⟩
    · subst c; simp
    · rw [if_neg c, if_neg (Ne.symm c)]
  · simp at h

/-- The copy of the link from a DN to a neighbour. -/
def outCopy (pid : SiteId → SiteId) (pop b : SiteId) (secs : SectorId × SectorId) (l : Link) : Link :=
  { tx := pop, rx := b, sectors := some (copyId pid secs.1, secs.2), isWireless := l.isWireless, status := .candidate,
    capacity := l.capacity, distance := l.distance, confidence := l.confidence }

/-- The copy of the link from a neighbour to a DN. -/
def inCopy (pid : SiteId → SiteId) (pop a : SiteId) (secs : SectorId × SectorId) (l m : Link) : Link :=
  { tx := a, rx := pop, sectors := some (secs.1, copyId pid secs.2), isWireless := m.isWireless, status := .candidate,
    capacity := l.capacity, distance := l.distance, confidence := m.confidence }

theorem dupOut_ok (pid : SiteId → SiteId) (D : Dict SectorId SectorId) (hD : ∀ k k', D.get? k = some k' → k' = copyId pid k)
    (dn pop : SiteId) (hne : dn ≠ pop) : ∀ (L : List Site) (t t' : Topology) (last last' : Option Link), Inv t →
    dupOut D dn pop t last L = (t', last', none) → (∀ n ∈ L, t.links.get? ⟨pop, n.id⟩ = none) → (L.map (·.id)).Nodup →
    Inv t' ∧ t'.sites = t.sites ∧ t'.sectors = t.sectors ∧ t'.demandSites = t.demandSites ∧
    (∀ k l, t'.links.get? k = some l ↔ t.links.get? k = some l ∨
      ∃ n ∈ L, n.siteType ≠ .pop ∧ k = ⟨pop, n.id⟩ ∧ ∃ l0 secs, t.links.get? ⟨dn, n.id⟩ = some l0 ∧
        l0.sectors = some secs ∧ l = outCopy pid pop n.id secs l0) ∧
    (last' = last ∨ ∃ n ∈ L, n.siteType ≠ .pop ∧ ∃ l0, t.links.get? ⟨dn, n.id⟩ = some l0 ∧ last' = some l0) := by
  intro L
  induction L with
  | nil =>
    intro t t' last last' inv h _ _
    cases h
    exact ⟨inv, rfl, rfl, rfl, by simp, Or.inl rfl⟩
  | cons n rest ih =>
    intro t t' last last' inv h hfr hnd
    rw [List.map_cons, List.nodup_cons] at hnd
    unfold dupOut at h
    by_cases c : n.siteType = .pop
    · rw [if_pos c] at h
      obtain ⟨i1, i2, i3, i4, i5, i6⟩ := ih t t' last last' inv h (fun m hm => hfr m (List.mem_cons_of_mem _ hm)) hnd.2
      refine ⟨i1, i2, i3, i4, ?_, ?_⟩
      · intro k l
        rw [i5]
        simp [c]
      · rcases i6 with g | ⟨m, hm, g⟩
        · exact Or.inl g
        · exact Or.inr ⟨m, List.mem_cons_of_mem _ hm, g⟩
    · rw [if_neg c] at h
      rcases hg : t.getLinkBySiteIds dn n.id with e | _ | l0
      · rw [hg] at h; simp at h
      · rw [hg] at h; simp at h
      rw [hg] at h
      dsimp only at h
      have hl0 : t.links.get? ⟨dn, n.id⟩ = some l0 := by
        unfold getLinkBySiteIds at hg
        split_ifs at hg
        injection hg
      cases hsec : l0.sectors with
      | none =>
        rw [hsec] at h
        dsimp only at h
        obtain ⟨i1, i2, i3, i4, i5, i6⟩ := ih t t' _ last' inv h (fun m hm => hfr m (List.mem_cons_of_mem _ hm)) hnd.2
        refine ⟨i1, i2, i3, i4, ?_, ?_⟩
        · intro k l
          rw [i5]
          simp only [List.mem_cons, exists_eq_or_imp, hl0, Option.some.injEq]
          constructor
          · rintro (g | g)
            · exact Or.inl g
            · exact Or.inr (Or.inr g)
          · rintro (g | ⟨-, -, l1, secs, rfl, e, -⟩ | g)
            · exact Or.inl g
            · rw [hsec] at e; cases e
            · exact Or.inr g
        · rcases i6 with g | ⟨m, hm, g⟩
          · exact Or.inr ⟨n, by simp, c, l0, hl0, g⟩
          · exact Or.inr ⟨m, List.mem_cons_of_mem _ hm, g⟩
      | some secs =>
        rw [hsec] at h
        dsimp only at h
        cases hd : D.get? secs.1 with
        | none => rw [hd] at h; simp at h
        | some k1 =>
        rw [hd] at h
        dsimp only at h
        rcases ha : t.addCopy pop n.id (k1, secs.2) l0 l0 with ⟨t1, _ | e⟩
        swap
        · rw [ha] at h; simp at h
        rw [ha] at h
        dsimp only at h
        obtain ⟨a1, a2, a3, a4, a5⟩ := addCopy_ok inv ha
        rw [hD _ _ hd] at a5
        have hkeep : ∀ m : Site, t1.links.get? ⟨dn, m.id⟩ = t.links.get? ⟨dn, m.id⟩ := by
          intro m
          rw [a5, if_neg]
          intro e
          exact hne (congrArg LinkId.tx e)
        obtain ⟨i1, i2, i3, i4, i5, i6⟩ := ih t1 t' _ last' a1 h (by
          intro m hm
          rw [a5, if_neg]
          · exact hfr m (List.mem_cons_of_mem _ hm)
          · intro e
            exact hnd.1 (List.mem_map.2 ⟨m, hm, congrArg LinkId.rx e⟩)) hnd.2
        refine ⟨i1, i2.trans a2, i3.trans a3, i4.trans a4, ?_, ?_⟩
        · intro k l
          rw [i5]
          simp only [hkeep]
          have hnew : t1.links.get? k = some l ↔ t.links.get? k = some l ∨ (k = ⟨pop, n.id⟩ ∧ l = outCopy pid pop n.id secs l0) := by
            rw [a5]
            by_cases ck : k = ⟨pop, n.id⟩
            · subst ck
              rw [if_pos rfl, hfr n (by simp)]
              simp [outCopy, eq_comm]
            · rw [if_neg ck]; simp [ck]
          rw [hnew]
          simp only [List.mem_cons, exists_eq_or_imp, hl0, Option.some.injEq]
          constructor
          · rintro ((g | ⟨g1, g2⟩) | g)
            · exact Or.inl g
            · exact Or.inr (Or.inl ⟨c, g1, l0, secs, rfl, hsec, g2⟩)
            · exact Or.inr (Or.inr g)
          · rintro (g | ⟨-, g1, l1, secs', rfl, e, g2⟩ | g)
            · exact Or.inl (Or.inl g)
            · rw [hsec] at e; cases e; exact Or.inl (Or.inr ⟨g1, g2⟩)
            · exact Or.inr g
        · rcases i6 with g | ⟨m, hm, g1, l1, g2, g3⟩
          · exact Or.inr ⟨n, by simp, c, l0, hl0, g⟩
          · exact Or.inr ⟨m, List.mem_cons_of_mem _ hm, g1, l1, (hkeep m).symm.trans g2, g3⟩

theorem dupIn_ok (pid : SiteId → SiteId) (D : Dict SectorId SectorId) (hD : ∀ k k', D.get? k = some k' → k' = copyId pid k)
    (dn pop : SiteId) (hne : dn ≠ pop) (last : Option Link) : ∀ (L : List Site) (t t' : Topology), Inv t →
    dupIn D dn pop last t L = (t', none) → (∀ n ∈ L, t.links.get? ⟨n.id, pop⟩ = none) → (L.map (·.id)).Nodup →
    Inv t' ∧ t'.sites = t.sites ∧ t'.sectors = t.sectors ∧ t'.demandSites = t.demandSites ∧
    (∀ k l, t'.links.get? k = some l ↔ t.links.get? k = some l ∨
      ∃ n ∈ L, n.siteType ≠ .pop ∧ k = ⟨n.id, pop⟩ ∧ ∃ l0 secs m, t.links.get? ⟨n.id, dn⟩ = some l0 ∧
        l0.sectors = some secs ∧ last = some m ∧ l = inCopy pid pop n.id secs l0 m) ∧
    (∀ n ∈ L, n.siteType ≠ .pop → ∀ l0 secs, t.links.get? ⟨n.id, dn⟩ = some l0 → l0.sectors = some secs →
      last.isSome = true) := by
  intro L
  induction L with
  | nil =>
    intro t t' inv h _ _
    cases h
    exact ⟨inv, rfl, rfl, rfl, by simp, by simp⟩
  | cons n rest ih =>
    intro t t' inv h hfr hnd
    rw [List.map_cons, List.nodup_cons] at hnd
    unfold dupIn at h
    by_cases c : n.siteType = .pop
    · rw [if_pos c] at h
      obtain ⟨i1, i2, i3, i4, i5, i6⟩ := ih t t' inv h (fun m hm => hfr m (List.mem_cons_of_mem _ hm)) hnd.2
      refine ⟨i1, i2, i3, i4, ?_, ?_⟩
      · intro k l
        rw [i5]
        simp [c]
      · intro m hm cm
        rcases List.mem_cons.1 hm with rfl | hm
        · exact absurd c cm
        · exact i6 m hm cm
    · rw [if_neg c] at h
      rcases hg : t.getLinkBySiteIds n.id dn with e | _ | l0
      · rw [hg] at h; simp at h
      · rw [hg] at h; simp at h
      rw [hg] at h
      dsimp only at h
      have hl0 : t.links.get? ⟨n.id, dn⟩ = some l0 := by
        unfold getLinkBySiteIds at hg
        split_ifs at hg
        injection hg
      cases hsec : l0.sectors with
      | none =>
        rw [hsec] at h
        dsimp only at h
        obtain ⟨i1, i2, i3, i4, i5, i6⟩ := ih t t' inv h (fun m hm => hfr m (List.mem_cons_of_mem _ hm)) hnd.2
        refine ⟨i1, i2, i3, i4, ?_, ?_⟩
        · intro k l
          rw [i5]
          simp only [List.mem_cons, exists_eq_or_imp, hl0, Option.some.injEq]
          constructor
          · rintro (g | g)
            · exact Or.inl g
            · exact Or.inr (Or.inr g)
          · rintro (g | ⟨-, -, l1, secs, m, rfl, e, -⟩ | g)
            · exact Or.inl g
            · rw [hsec] at e; cases e
            · exact Or.inr g
        · intro m hm cm l1 secs g1 g2
          rcases List.mem_cons.1 hm with rfl | hm
          · rw [hl0] at g1; cases g1; rw [hsec] at g2; cases g2
          · exact i6 m hm cm l1 secs g1 g2
      | some secs =>
        rw [hsec] at h
        dsimp only at h
        cases hd : D.get? secs.2 with
        | none => rw [hd] at h; simp at h
        | some k1 =>
        rw [hd] at h
        dsimp only at h
        cases hlast : last with
        | none => rw [hlast] at h; simp at h
        | some m0 =>
        rw [hlast] at h ih
        dsimp only at h
        rcases ha : t.addCopy n.id pop (secs.1, k1) l0 m0 with ⟨t1, _ | e⟩
        swap
        · rw [ha] at h; simp at h
        rw [ha] at h
        dsimp only at h
        obtain ⟨a1, a2, a3, a4, a5⟩ := addCopy_ok inv ha
        rw [hD _ _ hd] at a5
        have hkeep : ∀ m : Site, t1.links.get? ⟨m.id, dn⟩ = t.links.get? ⟨m.id, dn⟩ := by
          intro m
          rw [a5, if_neg]
          intro e
          exact hne (congrArg LinkId.rx e)
        obtain ⟨i1, i2, i3, i4, i5, i6⟩ := ih t1 t' a1 h (by
          intro m hm
          rw [a5, if_neg]
          · exact hfr m (List.mem_cons_of_mem _ hm)
          · intro e
            exact hnd.1 (List.mem_map.2 ⟨m, hm, congrArg LinkId.tx e⟩)) hnd.2
        refine ⟨i1, i2.trans a2, i3.trans a3, i4.trans a4, ?_, fun _ _ _ _ _ _ _ => rfl⟩
        intro k l
        rw [i5]
        simp only [hkeep]
        have hnew : t1.links.get? k = some l ↔ t.links.get? k = some l ∨ (k = ⟨n.id, pop⟩ ∧ l = inCopy pid pop n.id secs l0 m0) := by
          rw [a5]
          by_cases ck : k = ⟨n.id, pop⟩
          · subst ck
            rw [if_pos rfl, hfr n (by simp)]
            simp [inCopy, eq_comm]
          · rw [if_neg ck]; simp [ck]
        rw [hnew]
        simp only [List.mem_cons, exists_eq_or_imp, hl0, Option.some.injEq]
        constructor
        · rintro ((g | ⟨g1, g2⟩) | g)
          · exact Or.inl g
          · exact Or.inr (Or.inl ⟨c, g1, l0, secs, m0, rfl, hsec, rfl, g2⟩)
          · exact Or.inr (Or.inr g)
        · rintro (g | ⟨-, g1, l1, secs', m1, rfl, e, rfl, g2⟩ | g)
          · exact Or.inl (Or.inl g)
          · rw [hsec] at e; cases e; exact Or.inl (Or.inr ⟨g1, g2⟩)
          · exact Or.inr g

/-- A link of the input that is copied: it has sectors and its end `o` away from the DN is not a POP. -/
def Spec.Copied (t : Topology) (k : LinkId) (o : SiteId) (l : Link) (secs : SectorId × SectorId) : Prop :=
  t.links.get? k = some l ∧ l.sectors = some secs ∧ ∃ y, t.sites.get? o = some y ∧ y.siteType ≠ .pop

/-- What is known while links are copied: `t` is the input, `S` are the chosen DNs. -/
structure Setting (t : Topology) (pid : SiteId → SiteId) (S : List SiteId) (u : Topology) : Prop where
  sub : ∀ k x, t.sites.get? k = some x → u.sites.get? k = some x
  new : ∀ k x, u.sites.get? k = some x → t.sites.get? k = some x ∨ (x.siteType = .pop ∧ ∃ i ∈ S, k = pid i)
  pop : ∀ i ∈ S, ∃ x, u.sites.get? (pid i) = some x ∧ x.siteType = .pop
  fresh : ∀ i ∈ S, t.sites.get? (pid i) = none
  site : ∀ i ∈ S, ∃ s, t.sites.get? i = some s

/-- The links after the DNs in `S0` are done. -/
structure Linked (t : Topology) (pid : SiteId → SiteId) (src : Link → Prop) (S0 : List SiteId) (u : Topology) : Prop where
  old : ∀ k l, t.links.get? k = some l → u.links.get? k = some l
  out : ∀ i ∈ S0, ∀ b l secs, Copied t ⟨i, b⟩ b l secs → u.links.get? ⟨pid i, b⟩ = some (outCopy pid (pid i) b secs l)
  inn : ∀ i ∈ S0, ∀ a l secs, Copied t ⟨a, i⟩ a l secs →
    ∃ m, src m ∧ u.links.get? ⟨a, pid i⟩ = some (inCopy pid (pid i) a secs l m)
  only : ∀ k l, u.links.get? k = some l → t.links.get? k = some l ∨ ∃ i ∈ S0, ∃ l0 secs,
    (k.tx = pid i ∧ Copied t ⟨i, k.rx⟩ k.rx l0 secs) ∨ (k.rx = pid i ∧ Copied t ⟨k.tx, i⟩ k.tx l0 secs)

theorem ids_nodup {u : Topology} {L : List Site} {P : SiteId → Prop} (h : ListsSites u L P) : (L.map (·.id)).Nodup := by
  refine List.Nodup.map_on ?_ h.1
  intro a ha b hb e
  have h1 := ((h.2 a).1 ha).1
  have h2 := ((h.2 b).1 hb).1
  rw [e, h2] at h1
  cases h1; rfl

theorem dupLink_ok {t : Topology} (inv : Inv t) {pid : SiteId → SiteId} {D : Dict SectorId SectorId}
    (hD : ∀ k k', D.get? k = some k' → k' = copyId pid k) {S S0 : List SiteId} {src : Link → Prop} {dn : SiteId} {u u1 u2 : Topology}
    (hdn : dn ∈ S) (hS0 : ∀ i ∈ S0, i ∈ S) (hpid : pid dn ∉ S0.map pid)
    (hsrc : ∀ b l, t.links.get? ⟨dn, b⟩ = some l → src l)
    {last last1 : Option Link} (hlast : ∀ m, last = some m → src m)
    (iu : Inv u) (st : Setting t pid S u) (ln : Linked t pid src S0 u) {succ pred : List Site}
    (hs : u.getSuccessorSites dn = .ok succ) (h1 : dupOut D dn (pid dn) u last succ = (u1, last1, none))
    (hp : u1.getPredecessorSites dn = .ok pred) (h2 : dupIn D dn (pid dn) last1 u1 pred = (u2, none)) :
    Inv u2 ∧ u2.sites = u.sites ∧ u2.sectors = u.sectors ∧ u2.demandSites = u.demandSites ∧
    Linked t pid src (S0 ++ [dn]) u2 ∧ ∀ m, last1 = some m → src m := by
  obtain ⟨sd, hsd⟩ := st.site dn hdn
  obtain ⟨xp, hxp, hxpt⟩ := st.pop dn hdn
  have fr := st.fresh dn hdn
  have hne : dn ≠ pid dn := by
    intro e; rw [← e, hsd] at fr; cases fr
  have tnone1 : ∀ b, t.links.get? ⟨pid dn, b⟩ = none := by
    intro b
    cases hl : t.links.get? ⟨pid dn, b⟩ with
    | none => rfl
    | some l =>
      obtain ⟨x, hx⟩ := inv.link_tx _ _ hl
      have := congrArg LinkId.tx (inv.link_id _ _ hl)
      dsimp only at this
      rw [← this, fr] at hx; cases hx
  have tnone2 : ∀ a, t.links.get? ⟨a, pid dn⟩ = none := by
    intro a
    cases hl : t.links.get? ⟨a, pid dn⟩ with
    | none => rfl
    | some l =>
      obtain ⟨x, hx⟩ := inv.link_rx _ _ hl
      have := congrArg LinkId.rx (inv.link_id _ _ hl)
      dsimp only at this
      rw [← this, fr] at hx; cases hx
  have hnp : ∀ i ∈ S0, pid i ≠ pid dn := fun i hi e => hpid (List.mem_map.2 ⟨i, hi, e⟩)
  have unone1 : ∀ b, u.links.get? ⟨pid dn, b⟩ = none := by
    intro b
    cases hl : u.links.get? ⟨pid dn, b⟩ with
    | none => rfl
    | some l =>
      rcases ln.only _ _ hl with g | ⟨i, hi, l0, secs, ⟨e, -⟩ | ⟨-, e, -⟩⟩
      · rw [tnone1] at g; cases g
      · exact absurd e.symm (hnp i hi)
      · dsimp only at e; rw [tnone1] at e; cases e
  have unone2 : ∀ a, u.links.get? ⟨a, pid dn⟩ = none := by
    intro a
    cases hl : u.links.get? ⟨a, pid dn⟩ with
    | none => rfl
    | some l =>
      rcases ln.only _ _ hl with g | ⟨i, hi, l0, secs, ⟨-, e, -⟩ | ⟨e, -⟩⟩
      · rw [tnone2] at g; cases g
      · dsimp only at e; rw [tnone2] at e; cases e
      · exact absurd e.symm (hnp i hi)
  -- a site that is not a POP is one of the input
  have npop : ∀ n : Site, u.sites.get? n.id = some n → n.siteType ≠ .pop → t.sites.get? n.id = some n := by
    intro n hn ht
    rcases st.new _ _ hn with g | ⟨g, -⟩
    · exact g
    · exact absurd g ht
  -- links between the DN and such a site
  have lout : ∀ b y l, t.sites.get? b = some y → u.links.get? ⟨dn, b⟩ = some l → t.links.get? ⟨dn, b⟩ = some l := by
    intro b y l hy hl
    rcases ln.only _ _ hl with g | ⟨i, hi, l0, secs, ⟨e, -⟩ | ⟨e, -⟩⟩
    · exact g
    · dsimp only at e; have := st.fresh i (hS0 i hi); rw [← e, hsd] at this; cases this
    · dsimp only at e; have := st.fresh i (hS0 i hi); rw [← e, hy] at this; cases this
  have linn : ∀ a y l, t.sites.get? a = some y → u.links.get? ⟨a, dn⟩ = some l → t.links.get? ⟨a, dn⟩ = some l := by
    intro a y l hy hl
    rcases ln.only _ _ hl with g | ⟨i, hi, l0, secs, ⟨e, -⟩ | ⟨e, -⟩⟩
    · exact g
    · dsimp only at e; have := st.fresh i (hS0 i hi); rw [← e, hy] at this; cases this
    · dsimp only at e; have := st.fresh i (hS0 i hi); rw [← e, hsd] at this; cases this
  obtain ⟨succ', hs', hls⟩ := successors_spec iu dn sd (st.sub _ _ hsd)
  rw [hs] at hs'; cases hs'
  obtain ⟨a1, a2, a3, a4, a5, a6⟩ := dupOut_ok pid D hD dn (pid dn) hne succ u u1 last last1 iu h1
    (fun n _ => unone1 n.id) (ids_nodup hls)
  obtain ⟨pred', hp', hlp⟩ := predecessors_spec a1 dn sd (by rw [a2]; exact st.sub _ _ hsd)
  rw [hp] at hp'; cases hp'
  have keep1 : ∀ k, k.tx ≠ pid dn → u1.links.get? k = u.links.get? k := by
    intro k hk
    cases hu : u.links.get? k with
    | some l => exact (a5 k l).2 (Or.inl hu)
    | none =>
      cases hu1 : u1.links.get? k with
      | none => rfl
      | some l =>
        rcases (a5 k l).1 hu1 with g | ⟨n, -, -, rfl, -⟩
        · rw [hu] at g; cases g
        · exact absurd rfl hk
  have hself : u.links.get? ⟨pid dn, dn⟩ = none := unone1 dn
  have u1none : ∀ n ∈ pred, u1.links.get? ⟨n.id, pid dn⟩ = none := by
    intro n hn
    cases hu1 : u1.links.get? ⟨n.id, pid dn⟩ with
    | none => rfl
    | some l =>
      rcases (a5 _ l).1 hu1 with g | ⟨n', hn', ht, e, -⟩
      · rw [unone2] at g; cases g
      · have e2 := congrArg LinkId.rx e
        dsimp only at e2
        have := ((hls.2 n').1 hn').1
        rw [← e2, hxp] at this
        cases this
        exact absurd hxpt ht
  obtain ⟨b1, b2, b3, b4, b5, b6⟩ := dupIn_ok pid D hD dn (pid dn) hne last1 pred u1 u2 a1 h2 u1none (ids_nodup hlp)
  have hlast1 : ∀ m, last1 = some m → src m := by
    intro m hm
    rcases a6 with g | ⟨n, hn, ht, l0, g1, g2⟩
    · exact hlast m (by rw [← g]; exact hm)
    · rw [hm] at g2; cases g2
      have hn' := ((hls.2 n).1 hn).1
      exact hsrc _ _ (lout _ n _ (npop n hn' ht) g1)
  have keep2 : ∀ k l, u1.links.get? k = some l → u2.links.get? k = some l := fun k l h => (b5 k l).2 (Or.inl h)
  have keepu : ∀ k l, u.links.get? k = some l → u2.links.get? k = some l := fun k l h => keep2 k l ((a5 k l).2 (Or.inl h))
  refine ⟨b1, b2.trans a2, b3.trans a3, b4.trans a4, ⟨fun k l h => keepu k l (ln.old k l h), ?_, ?_, ?_⟩, hlast1⟩
  · intro i hi b l secs hc
    rcases List.mem_append.1 hi with hi | hi
    · exact keepu _ _ (ln.out i hi b l secs hc)
    · rw [List.mem_singleton] at hi; subst hi
      obtain ⟨g1, g2, y, hy, hyt⟩ := hc
      have hyb : y.id = b := inv.site_id _ _ hy
      apply keep2
      refine (a5 _ _).2 (Or.inr ⟨y, ?_, hyt, by rw [hyb], l, secs, ?_, g2, by rw [hyb]⟩)
      · refine (hls.2 y).2 ⟨by rw [hyb]; exact st.sub _ _ hy, l, ?_⟩
        rw [hyb]; exact ln.old _ _ g1
      · rw [hyb]; exact ln.old _ _ g1
  · intro i hi a l secs hc
    rcases List.mem_append.1 hi with hi | hi
    · obtain ⟨m, hm, g⟩ := ln.inn i hi a l secs hc
      exact ⟨m, hm, keepu _ _ g⟩
    · rw [List.mem_singleton] at hi; subst hi
      obtain ⟨g1, g2, y, hy, hyt⟩ := hc
      have hyb : y.id = a := inv.site_id _ _ hy
      have hane : a ≠ pid i := by
        intro e; rw [e, fr] at hy; cases hy
      have hl1 : u1.links.get? ⟨y.id, i⟩ = some l := by
        rw [hyb, keep1 ⟨a, i⟩ hane]; exact ln.old _ _ g1
      have hyp : y ∈ pred := (hlp.2 y).2 ⟨by rw [hyb, a2]; exact st.sub _ _ hy, l, hl1⟩
      have hsome := b6 y hyp hyt l secs hl1 g2
      obtain ⟨m, hm⟩ := Option.isSome_iff_exists.1 hsome
      refine ⟨m, hlast1 m hm, ?_⟩
      exact (b5 _ _).2 (Or.inr ⟨y, hyp, hyt, by rw [hyb], l, secs, m, hl1, g2, hm, by rw [hyb]⟩)
  · intro k l hl
    rcases (b5 k l).1 hl with g | ⟨n, hn, ht, rfl, l0, secs, m, g1, g2, -⟩
    · rcases (a5 k l).1 g with g | ⟨n, hn, ht, rfl, l0, secs, g1, g2, -⟩
      · rcases ln.only k l g with g | ⟨i, hi, g⟩
        · exact Or.inl g
        · exact Or.inr ⟨i, List.mem_append_left _ hi, g⟩
      · right
        have hn' := npop n ((hls.2 n).1 hn).1 ht
        exact ⟨dn, by simp, l0, secs, Or.inl ⟨rfl, lout _ n _ hn' g1, g2, n, hn', ht⟩⟩
    · right
      have hnu : u.sites.get? n.id = some n := by rw [← a2]; exact ((hlp.2 n).1 hn).1
      have hn' := npop n hnu ht
      have hane : n.id ≠ pid dn := by
        intro e; rw [e, fr] at hn'; cases hn'
      rw [keep1 ⟨n.id, dn⟩ hane] at g1
      exact ⟨dn, by simp, l0, secs, Or.inr ⟨rfl, linn _ n _ hn' g1, g2, n, hn', ht⟩⟩

theorem dupLinks_ok {t : Topology} (inv : Inv t) {pid : SiteId → SiteId} {D : Dict SectorId SectorId}
    (hD : ∀ k k', D.get? k = some k' → k' = copyId pid k) {S : List SiteId} {src : Link → Prop} :
    ∀ (R S0 : List SiteId) (u u2 : Topology) (last : Option Link), (∀ i ∈ R, i ∈ S) → (∀ i ∈ S0, i ∈ S) →
    ((S0 ++ R).map pid).Nodup → (∀ i ∈ S, ∀ b l, t.links.get? ⟨i, b⟩ = some l → src l) →
    (∀ m, last = some m → src m) → Inv u → Setting t pid S u → Linked t pid src S0 u →
    dupLinks pid D u last R = (u2, none) →
    Inv u2 ∧ u2.sites = u.sites ∧ u2.sectors = u.sectors ∧ u2.demandSites = u.demandSites ∧
    Linked t pid src (S0 ++ R) u2 := by
  intro R
  induction R with
  | nil =>
    intro S0 u u2 last _ _ _ _ _ iu st ln h
    cases h
    exact ⟨iu, rfl, rfl, rfl, by rwa [List.append_nil]⟩
  | cons dn rest ih =>
    intro S0 u u2 last hR hS0 hnd hsrc hlast iu st ln h
    unfold dupLinks at h
    rcases hs : u.getSuccessorSites dn with e | succ
    · rw [hs] at h; simp at h
    rw [hs] at h
    dsimp only at h
    rcases h1 : dupOut D dn (pid dn) u last succ with ⟨u1, last1, _ | e⟩
    swap
    · rw [h1] at h; simp at h
    rw [h1] at h
    dsimp only at h
    rcases hp : u1.getPredecessorSites dn with e | pred
    · rw [hp] at h; simp at h
    rw [hp] at h
    dsimp only at h
    rcases h2 : dupIn D dn (pid dn) last1 u1 pred with ⟨u3, _ | e⟩
    swap
    · rw [h2] at h; simp at h
    rw [h2] at h
    dsimp only at h
    have hdn : dn ∈ S := hR dn (by simp)
    have hpid : pid dn ∉ S0.map pid := by
      rw [List.map_append, List.nodup_append] at hnd
      intro hm
      exact hnd.2.2 _ hm _ (by simp) rfl
    obtain ⟨c1, c2, c3, c4, c5, c6⟩ := dupLink_ok inv hD hdn hS0 hpid (hsrc dn hdn) hlast iu st ln hs h1 hp h2
    have st3 : Setting t pid S u3 := by
      refine ⟨?_, ?_, ?_, st.fresh, st.site⟩
      · rw [c2]; exact st.sub
      · rw [c2]; exact st.new
      · rw [c2]; exact st.pop
    obtain ⟨d1, d2, d3, d4, d5⟩ := ih (S0 ++ [dn]) u3 u2 last1 (fun i hi => hR i (List.mem_cons_of_mem _ hi))
      (by
        intro i hi
        rcases List.mem_append.1 hi with hi | hi
        · exact hS0 i hi
        · rw [List.mem_singleton] at hi; subst hi; exact hdn)
      (by rw [List.append_assoc]; exact hnd) hsrc c6 c1 st3 c5 h
    refine ⟨d1, d2.trans c2, d3.trans c3, d4.trans c4, ?_⟩
    rw [List.append_assoc] at d5
    exact d5

/-- `i` is a DN of the topology that was decided on. -/
def Spec.Picked (t : Topology) (chosen : SiteId → Bool) (i : SiteId) (s : Site) : Prop :=
  t.sites.get? i = some s ∧ chosen i = true ∧ s.siteType = .dn

/-- C110. `add_duplicate_pop_to_dn_site` when it does not raise: `pid i` is the site id of the POP at DN `i`. The sites
afterwards are those before and, for each chosen DN, a CANDIDATE POP at the same place with the same device; the sectors
are those before and CANDIDATE copies of the sectors of the chosen DNs on their POPs; the links are those before and
copies of the links with sectors between a chosen DN and a site that is not a POP, in both directions; demand points
connected to chosen DNs are connected to their POPs as well. Missing for the full property: a copy of an incoming link
takes the medium and the confidence from `m`, any outgoing link of a chosen DN (`C110_wired_violation`). -/
theorem C110_copies_partial (ops : List Op) (pid : SiteId → SiteId) (chosen : SiteId → Bool) (t' : Topology)
    (h : addPopsOnDns pid chosen (run {} ops) = (t', none)) :
    (∀ k x, t'.sites.get? k = some x ↔ (run {} ops).sites.get? k = some x ∨
      ∃ i s, Picked (run {} ops) chosen i s ∧ k = pid i ∧ x =
        { id := pid i, siteType := .pop, status := .candidate, lat := s.lat, lon := s.lon, alt := s.alt,
          device := s.device, building := s.building }) ∧
    (∀ i s, Picked (run {} ops) chosen i s → (run {} ops).sites.get? (pid i) = none) ∧
    (∀ i j s s', Picked (run {} ops) chosen i s → Picked (run {} ops) chosen j s' → pid i = pid j → i = j) ∧
    (∀ k x, t'.sectors.get? k = some x ↔ (run {} ops).sectors.get? k = some x ∨
      ∃ i s k0 x0, Picked (run {} ops) chosen i s ∧ (run {} ops).sectors.get? k0 = some x0 ∧ x0.site = i ∧
        k = ⟨pid i, x0.node, x0.pos, .dn⟩ ∧ x =
        { site := pid i, node := x0.node, pos := x0.pos, typ := .dn, azimuth := x0.azimuth, status := .candidate,
          channel := x0.channel }) ∧
    (∀ k l, (run {} ops).links.get? k = some l → t'.links.get? k = some l) ∧
    (∀ i s b l secs, Picked (run {} ops) chosen i s → Copied (run {} ops) ⟨i, b⟩ b l secs →
      t'.links.get? ⟨pid i, b⟩ = some (outCopy pid (pid i) b secs l)) ∧
    (∀ i s a l secs, Picked (run {} ops) chosen i s → Copied (run {} ops) ⟨a, i⟩ a l secs →
      ∃ j sj b m, Picked (run {} ops) chosen j sj ∧ (run {} ops).links.get? ⟨j, b⟩ = some m ∧
        t'.links.get? ⟨a, pid i⟩ = some (inCopy pid (pid i) a secs l m)) ∧
    (∀ k l, t'.links.get? k = some l → (run {} ops).links.get? k = some l ∨ ∃ i s l0 secs, Picked (run {} ops) chosen i s ∧
      ((k.tx = pid i ∧ Copied (run {} ops) ⟨i, k.rx⟩ k.rx l0 secs) ∨
       (k.rx = pid i ∧ Copied (run {} ops) ⟨k.tx, i⟩ k.tx l0 secs))) ∧
    (∀ id, (run {} ops).demandSites.get? id = none → t'.demandSites.get? id = none) ∧
    (∀ id d, (run {} ops).demandSites.get? id = some d → ∃ extra,
      t'.demandSites.get? id = some { d with connected := d.connected ++ extra } ∧ extra.Nodup ∧
      ∀ x, x ∈ extra ↔ x ∉ d.connected ∧ ∃ i s, Picked (run {} ops) chosen i s ∧ i ∈ d.connected ∧ x = pid i) := by
  have inv := Inv.empty.run ops
  generalize run {} ops = t at *
  unfold addPopsOnDns at h
  rcases h1 : dupSites pid chosen t.sectors.vals t [] [] t.sites with ⟨t1, S, D, _ | e⟩
  swap
  · rw [h1] at h; simp at h
  rw [h1] at h
  dsimp only at h
  rcases h2 : dupLinks pid D t1 none S with ⟨t2, _ | e⟩
  swap
  · rw [h2] at h; simp at h
  rw [h2] at h
  dsimp only at h
  simp only [Prod.mk.injEq, and_true] at h
  have hmem : ∀ i s, (i, s) ∈ t.sites ↔ t.sites.get? i = some s := fun i s => (Dict.mem_iff_get? inv.nd_sites i s)
  obtain ⟨a1, a2, a3, a4, a5, a6, a7, a8, a9⟩ := dupSites_ok pid chosen t.sectors.vals t.sites t t1 [] S [] D inv h1
    (fun e he => inv.site_id _ _ ((hmem e.1 e.2).1 he)) (by intro k k' hk; cases hk)
  rw [List.nil_append] at a7
  have hS : ∀ i, i ∈ S ↔ ∃ s, Picked t chosen i s := by
    intro i
    rw [a7, List.mem_map]
    constructor
    · rintro ⟨e, he, rfl⟩
      rw [List.mem_filter] at he
      have hc : chosen e.1 = true ∧ e.2.siteType = .dn := by simpa using he.2
      exact ⟨e.2, (hmem _ _).1 he.1, hc.1, hc.2⟩
    · rintro ⟨s, g1, g2, g3⟩
      exact ⟨(i, s), List.mem_filter.2 ⟨(hmem _ _).2 g1, by simp [g2, g3]⟩, rfl⟩
  have hSnd : (S.map pid).Nodup := by
    rw [a7, List.map_map]; exact a8
  have hfresh : ∀ i s, Picked t chosen i s → t.sites.get? (pid i) = none := fun i s hp =>
    a5 (i, s) ((hmem _ _).2 hp.1) hp.2.1 hp.2.2
  have st : Setting t pid S t1 := by
    refine ⟨fun k x hk => (a4 k x).2 (Or.inl hk), ?_, ?_, ?_, ?_⟩
    · intro k x hk
      rcases (a4 k x).1 hk with g | ⟨e, he, g1, g2, g3, g4⟩
      · exact Or.inl g
      · exact Or.inr ⟨by rw [g4]; rfl, e.1, (hS _).2 ⟨e.2, (hmem _ _).1 he, g1, g2⟩, g3⟩
    · intro i hi
      obtain ⟨s, g1, g2, g3⟩ := (hS i).1 hi
      exact ⟨popOn pid s, (a4 _ _).2 (Or.inr ⟨(i, s), (hmem _ _).2 g1, g2, g3, rfl, rfl⟩), rfl⟩
    · intro i hi
      obtain ⟨s, hp⟩ := (hS i).1 hi
      exact hfresh i s hp
    · intro i hi
      obtain ⟨s, hp⟩ := (hS i).1 hi
      exact ⟨s, hp.1⟩
  have ln : Linked t pid (fun m => ∃ i ∈ S, ∃ b, t.links.get? ⟨i, b⟩ = some m) [] t1 := by
    refine ⟨by rw [a2]; exact fun _ _ h => h, by simp, by simp, ?_⟩
    intro k l hl; rw [a2] at hl; exact Or.inl hl
  obtain ⟨b1, b2, b3, b4, b5⟩ := dupLinks_ok inv a9 (S := S) S [] t1 t2 none (fun _ h => h) (by simp)
    (by rw [List.nil_append]; exact hSnd) (fun i hi b l hl => ⟨i, hi, b, hl⟩) (by simp) a1 st ln h2
  rw [List.nil_append] at b5
  have c1 : t'.sites = t1.sites := by rw [← h]; exact b2
  have c2 : t'.sectors = t1.sectors := by rw [← h]; exact b3
  have c3 : t'.links = t2.links := by rw [← h]; rfl
  have hsite : ∀ i s, Picked t chosen i s → popOn pid s =
      { id := pid i, siteType := .pop, status := .candidate, lat := s.lat, lon := s.lon, alt := s.alt,
        device := s.device, building := s.building } := by
    intro i s hp
    unfold popOn
    rw [inv.site_id _ _ hp.1]
  refine ⟨?_, hfresh, ?_, ?_, ?_, ?_, ?_, ?_, ?_, ?_⟩
  · intro k x
    rw [c1, a4]
    constructor
    · rintro (g | ⟨e, he, g1, g2, g3, g4⟩)
      · exact Or.inl g
      · have hp : Picked t chosen e.1 e.2 := ⟨(hmem _ _).1 he, g1, g2⟩
        exact Or.inr ⟨e.1, e.2, hp, g3, by rw [g4, hsite _ _ hp]⟩
    · rintro (g | ⟨i, s, hp, g1, g2⟩)
      · exact Or.inl g
      · exact Or.inr ⟨(i, s), (hmem _ _).2 hp.1, hp.2.1, hp.2.2, g1, by rw [g2, hsite _ _ hp]⟩
  · intro i j s s' hi hj e
    exact List.inj_on_of_nodup_map hSnd ((hS i).2 ⟨s, hi⟩) ((hS j).2 ⟨s', hj⟩) e
  · intro k x
    have hv : ∀ y, y ∈ t.sectors.vals ↔ ∃ k0, t.sectors.get? k0 = some y := by
      intro y
      unfold Dict.vals
      rw [List.mem_map]
      constructor
      · rintro ⟨e, he, rfl⟩
        exact ⟨e.1, (Dict.mem_iff_get? inv.nd_sectors e.1 e.2).1 he⟩
      · rintro ⟨k0, hk⟩
        exact ⟨(k0, y), (Dict.mem_iff_get? inv.nd_sectors k0 y).2 hk, rfl⟩
    rw [c2, a6]
    constructor
    · rintro (g | ⟨e, he, g1, g2, y, hy, g3, g4, g5⟩)
      · exact Or.inl g
      · obtain ⟨k0, hk⟩ := (hv y).1 hy
        exact Or.inr ⟨e.1, e.2, k0, y, ⟨(hmem _ _).1 he, g1, g2⟩, hk, g3, g4, g5⟩
    · rintro (g | ⟨i, s, k0, y, hp, hk, g3, g4, g5⟩)
      · exact Or.inl g
      · exact Or.inr ⟨(i, s), (hmem _ _).2 hp.1, hp.2.1, hp.2.2, y, (hv y).2 ⟨k0, hk⟩, g3, g4, g5⟩
  · intro k l hl
    rw [c3]; exact b5.old k l hl
  · intro i s b l secs hp hc
    rw [c3]; exact b5.out i ((hS i).2 ⟨s, hp⟩) b l secs hc
  · intro i s a l secs hp hc
    rw [c3]
    obtain ⟨m, ⟨j, hj, b, hb⟩, g⟩ := b5.inn i ((hS i).2 ⟨s, hp⟩) a l secs hc
    obtain ⟨sj, hpj⟩ := (hS j).1 hj
    exact ⟨j, sj, b, m, hpj, hb, g⟩
  · intro k l hl
    rw [c3] at hl
    rcases b5.only k l hl with g | ⟨i, hi, l0, secs, g⟩
    · exact Or.inl g
    · obtain ⟨s, hp⟩ := (hS i).1 hi
      exact Or.inr ⟨i, s, l0, secs, hp, g⟩
  · intro id hid
    rw [← h]
    show Dict.get? (t2.demandSites.map _) id = none
    rw [b4, a3]
    refine (demand_get_map t.demandSites
      (fun d => { d with connected := connectLoop (S.map fun i => (i, [pid i])) d.connected d.connected }) id).trans ?_
    rw [hid]; rfl
  · intro id d hd
    obtain ⟨extra, e1, e2, e3⟩ := C59_closure t2 (S.map fun i => (i, [pid i])) id d (by rw [b4, a3]; exact hd)
    refine ⟨extra, by rw [← h]; exact e1, e2, ?_⟩
    have hm : ∀ a b, b ∈ (Dict.get? (S.map fun i => (i, [pid i])) a).getD [] ↔ a ∈ S ∧ b = pid a := by
      intro a b
      clear e1 e3 b5 ln st h2 hSnd hS a7 h1 h c1 c2 c3
      induction S with
      | nil => simp [Dict.get?]
      | cons i S ih =>
        rw [List.map_cons, Dict.get?_cons]
        by_cases c : i = a
        · subst c; simp
        · rw [if_neg c, ih, List.mem_cons]
          simp [Ne.symm c]
    intro x
    rw [e3]
    constructor
    · rintro ⟨hx, s, hs, hr⟩
      refine ⟨hx, ?_⟩
      rcases Relation.ReflTransGen.cases_tail hr with rfl | ⟨c, hsc, hcx⟩
      · exact absurd hs hx
      · obtain ⟨hc, rfl⟩ := (hm _ _).1 hcx
        obtain ⟨sc, hpc⟩ := (hS c).1 hc
        rcases Relation.ReflTransGen.cases_tail hsc with rfl | ⟨b, -, hbc⟩
        · exact ⟨c, sc, hpc, hs, rfl⟩
        · obtain ⟨hb, rfl⟩ := (hm _ _).1 hbc
          obtain ⟨sb, hpb⟩ := (hS b).1 hb
          have := hfresh b sb hpb
          rw [hpc.1] at this; cases this
    · rintro ⟨hx, i, s, hp, hi, rfl⟩
      exact ⟨hx, i, hi, Relation.ReflTransGen.single ((hm _ _).2 ⟨(hS i).2 ⟨s, hp⟩, rfl⟩)⟩

/-- A POP, two DNs, a DN that can be reached from both and a CN; the link from `E` to `D` is as given. -/
def copyDemo (d e : StatusType) (back : List Op) : List Op := [
  .addSite { id := "P", siteType := .pop, status := .candidate } false,
  .addSite { id := "D", siteType := .dn, status := d, lat := 1 } false,
  .addSite { id := "E", siteType := .dn, status := e, lat := 2 } false,
  .addSite { id := "A", siteType := .cn, status := .candidate, lat := 3 } false,
  .addSector { site := "P", node := 0, pos := 0 },
  .addSector { site := "D", node := 0, pos := 0, azimuth := 90 },
  .addSector { site := "E", node := 0, pos := 0 },
  .addSector { site := "A", node := 0, pos := 0, typ := .cn },
  .addLink { tx := "P", rx := "D", capacity := 2, sectors := some (⟨"P", 0, 0, .dn⟩, ⟨"D", 0, 0, .dn⟩) },
  .addLink { tx := "E", rx := "D", capacity := 2, sectors := some (⟨"E", 0, 0, .dn⟩, ⟨"D", 0, 0, .dn⟩),
             confidence := some 1 },
  .addDemandSite { id := "a", connected := ["A", "D"], demand := some 1 }] ++ back

/-- An outgoing link of `D`. -/
def copyBack (wireless : Bool) : List Op :=
  [.addLink { tx := "D", rx := "A", capacity := 3, isWireless := wireless, confidence := some (1 / 2),
              sectors := some (⟨"D", 0, 0, .dn⟩, ⟨"A", 0, 0, .cn⟩) }]

/-- The hypotheses of C110: a copy of the link to the CN is made. -/
example :
    let r := addPopsOnDns (fun i => i ++ "_POP") (fun i => i == "D") (run {} (copyDemo .candidate .candidate (copyBack true)))
    r.2 = none ∧ Picked (run {} (copyDemo .candidate .candidate (copyBack true))) (fun i => i == "D") "D"
      { id := "D", siteType := .dn, status := .candidate, lat := 1 } ∧
    (r.1.links.get? ⟨"D_POP", "A"⟩).map (·.capacity) = some 3 ∧ r.1.links.get? ⟨"P", "D_POP"⟩ = none := by
  refine ⟨by decide +kernel, ⟨by decide +kernel, by decide +kernel, rfl⟩, by decide +kernel, by decide +kernel⟩

/-- C110 (violation): the copy of a wireless link with confidence 1 into the DN has the confidence of another link, and if
that one is wired the copy is wired. -/
theorem C110_wired_violation :
    ∃ ops, ∃ l ∈ (run {} ops).links.get? ⟨"E", "D"⟩, ∃ m ∈ ((addPopsOnDns (fun i => i ++ "_POP") (fun i => i == "D")
        (run {} ops)).1.links.get? ⟨"E", "D_POP"⟩),
      (addPopsOnDns (fun i => i ++ "_POP") (fun i => i == "D") (run {} ops)).2 = none ∧
      l.isWireless = true ∧ m.isWireless = false ∧ l.confidence = some 1 ∧ m.confidence = some (1 / 2) :=
  ⟨copyDemo .candidate .candidate (copyBack false), by decide +kernel⟩

/-- C110 (violation): a chosen DN with incoming links but no outgoing link raises `UnboundLocalError`. -/
theorem C110_unbound_violation :
    ∃ ops, (addPopsOnDns (fun i => i ++ "_POP") (fun i => i == "D") (run {} ops)).2 = some .unboundLocal :=
  ⟨copyDemo .candidate .candidate [], by decide +kernel⟩

/-- C110 (violation): a link between a chosen DN and a site marked UNREACHABLE raises an exception, as does a site that
already has the id of the new POP. -/
theorem C110_inactive_violation :
    (∃ ops, (addPopsOnDns (fun i => i ++ "_POP") (fun i => i == "D") (run {} ops)).2 = some .topology ∧
      ∃ s ∈ (run {} ops).sites.get? "E", s.status = .unreachable) ∧
    ∃ ops, (addPopsOnDns (fun i => i ++ "_POP") (fun i => i == "D") (run {} ops)).2 = some .topology ∧
      ∃ s ∈ (run {} ops).sites.get? "D_POP", s.siteType = .cn :=
  ⟨⟨copyDemo .candidate .unreachable (copyBack true), by decide +kernel⟩,
   ⟨copyDemo .candidate .candidate (copyBack true ++
      [.addSite { id := "D_POP", siteType := .cn, status := .candidate, lat := 8 } false]), by decide +kernel⟩⟩

end Verif
