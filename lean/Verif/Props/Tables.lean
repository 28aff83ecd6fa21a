import Verif.Spec.Tables
import Verif.Lemmas.Tables
import Mathlib.Algebra.BigOperators.Group.Finset.Sigma

/-! # C133: the table of sites -/

namespace Verif
open Spec Topology Finset

theorem usedSectors_known {t : Topology} (inv : t.Inv) {α : Type} (what : Sector → α) :
    ∀ p ∈ t.usedSectors what, ∃ x, t.sites.get? p.1 = some x := by
  intro p hp
  obtain ⟨x, hx, rfl⟩ := List.mem_map.1 hp
  obtain ⟨⟨i, y⟩, hi, rfl⟩ := List.mem_map.1 (List.mem_filter.1 hx).1
  exact inv.sector_site _ _ ((Dict.mem_iff_get? inv.nd_sectors _ _).1 hi)

theorem mem_usedSectors {t : Topology} (inv : t.Inv) {α : Type} (what : Sector → α) (s : SiteId) (a : α) :
    (s, a) ∈ t.usedSectors what ↔ ∃ x, UsedSector t s x ∧ what x = a := by
  unfold usedSectors UsedSector
  simp only [List.mem_map, List.mem_filter, Prod.mk.injEq]
  constructor
  · rintro ⟨x, ⟨hx, ha⟩, rfl, rfl⟩
    obtain ⟨⟨i, y⟩, hi, rfl⟩ := List.mem_map.1 hx
    have hg := (Dict.mem_iff_get? inv.nd_sectors _ _).1 hi
    refine ⟨y, ⟨?_, rfl, (active_iff _).1 ha⟩, rfl⟩
    have := inv.sector_id _ _ hg
    unfold Sector.id at this
    rw [this]; exact hg
  · rintro ⟨x, ⟨h1, rfl, h3⟩, rfl⟩
    exact ⟨x, ⟨List.mem_map.2 ⟨_, Dict.mem_of_get? _ h1, rfl⟩, (active_iff _).2 h3⟩, rfl, rfl⟩

theorem usedLinks_known {t : Topology} (inv : t.Inv) : ∀ p ∈ t.linksInUse, ∃ x, t.sites.get? p.1 = some x := by
  intro p hp
  obtain ⟨l, hl, hp⟩ := List.mem_flatMap.1 hp
  have hg := (mem_vals_iff inv).1 (List.mem_filter.1 hl).1
  simp only [List.mem_cons, List.not_mem_nil, or_false] at hp
  rcases hp with rfl | rfl
  · exact inv.link_tx _ _ hg
  · exact inv.link_rx _ _ hg

theorem ethernet_iff {t : Topology} (l : Link) : (t.linkType l != .ethernet) = l.isWireless := by
  unfold linkType
  cases l.isWireless
  · rfl
  · cases t.sites.get? l.rx with
    | none => rfl
    | some x => by_cases h : x.siteType = .cn <;> simp [h]

theorem mem_usedLinks {t : Topology} (inv : t.Inv) (s : SiteId) (h : String) :
    (s, h) ∈ t.linksInUse ↔ ∃ l ∈ t.links.vals,
      (LinkUsed t l ∧ l.isWireless = true ∧ (l.tx = s ∨ l.rx = s)) ∧ t.linkHash l = h := by
  unfold linksInUse
  simp only [List.mem_flatMap, List.mem_filter, ethernet_iff, Bool.and_eq_true, List.mem_cons, Prod.mk.injEq,
    List.not_mem_nil, or_false]
  constructor
  · rintro ⟨l, ⟨h1, h2, h3⟩, h4⟩
    refine ⟨l, h1, ⟨⟨(mem_vals_iff inv).1 h1, (active_iff _).1 h2⟩, h3, ?_⟩, ?_⟩
    · rcases h4 with h4 | h4
      · exact Or.inl h4.1.symm
      · exact Or.inr h4.1.symm
    · rcases h4 with h4 | h4 <;> exact h4.2.symm
  · rintro ⟨l, h1, ⟨⟨_, h2⟩, h3, h4⟩, h5⟩
    refine ⟨l, ⟨h1, (active_iff _).2 h2, h3⟩, ?_⟩
    rcases h4 with h4 | h4
    · exact Or.inl ⟨h4.symm, h5.symm⟩
    · exact Or.inr ⟨h4.symm, h5.symm⟩

/-- What the row of a site says. `key` tells links apart. -/
structure RowOf {β : Type} [DecidableEq β] (t : Topology) (c : SiteCosts) (flow : LinkId → ℚ) (key : Link → β)
    (e : SiteId × Site) (r : SiteRow) : Prop where
  id : r.id = e.1
  capex : r.capex = c.of e.2.siteType
  nodes : ∃ N : Finset ℕ, (∀ n, n ∈ N ↔ ∃ x, UsedSector t e.1 x ∧ x.node = n) ∧ r.nodes = N.card
  sectors : ∃ S : Finset SectorId, (∀ s, s ∈ S ↔ ∃ x, UsedSector t e.1 x ∧ x.id = s) ∧ r.sectors = S.card
  links : ∃ P : Finset β, (∀ p, p ∈ P ↔ ∃ l, LinkUsed t l ∧ l.isWireless = true ∧ (l.tx = e.1 ∨ l.rx = e.1) ∧ key l = p) ∧
    r.links = P.card
  hops : ∀ n, r.hops = some n ↔ IsLeast {m | HopPath t StatusType.active e.1 m} n
  outgoing : r.outgoing = ((t.links.vals.filter fun l => counted t l && decide (l.tx = e.1)).map fun l => flow l.id).sum
  incoming : r.incoming = ((t.links.vals.filter fun l => counted t l && decide (l.rx = e.1)).map fun l => flow l.id).sum

theorem site_table {t : Topology} (inv : t.Inv) (c : SiteCosts) (flow : LinkId → ℚ) {β : Type} [DecidableEq β]
    (key : Link → β)
    (hkey : ∀ l ∈ t.links.vals, ∀ l' ∈ t.links.vals, t.linkHash l = t.linkHash l' ↔ key l = key l') :
    ∃ rows, t.siteTable c flow = .ok rows ∧ List.Forall₂ (RowOf t c flow key) t.sites rows := by
  classical
  obtain ⟨dn, n1, n2, n3⟩ := sets_at inv (t.usedSectors (·.node)) (usedSectors_known inv _)
  obtain ⟨ds, s1, s2, s3⟩ := sets_at inv (t.usedSectors Sector.id) (usedSectors_known inv _)
  obtain ⟨dl, l1, l2, l3⟩ := sets_at inv t.linksInUse (usedLinks_known inv)
  obtain ⟨hc, c1, c2⟩ := hops_spec inv activeFilter
  unfold siteTable
  rw [n1, s1, l1, c1]
  apply mapM_exists
  rintro ⟨i, x⟩ hm
  have hg := (Dict.mem_iff_get? inv.nd_sites _ _).1 hm
  obtain ⟨xs, a1, a2, a3⟩ := sizeAt_card n3 ((n2 i).2 ⟨x, hg⟩)
  obtain ⟨ys, b1, b2, b3⟩ := sizeAt_card s3 ((s2 i).2 ⟨x, hg⟩)
  obtain ⟨zs, d1, d2, d3⟩ := sizeAt_card l3 ((l2 i).2 ⟨x, hg⟩)
  unfold siteRow
  dsimp only
  rw [a1, b1, d1]
  refine ⟨_, rfl, rfl, rfl, ⟨xs.toFinset, fun n => ?_, (List.toFinset_card_of_nodup a2).symm⟩,
    ⟨ys.toFinset, fun n => ?_, (List.toFinset_card_of_nodup b2).symm⟩, ⟨_, fun p => ?_,
      hash_card key hkey (fun l => LinkUsed t l ∧ l.isWireless = true ∧ (l.tx = i ∨ l.rx = i)) d2
        (fun h => (d3 h).trans (mem_usedLinks inv i h))⟩, fun n => ?_, ?_, ?_⟩
  · rw [List.mem_toFinset, a3, mem_usedSectors inv]
  · rw [List.mem_toFinset, b3, mem_usedSectors inv]
  · simp only [List.mem_toFinset, List.mem_map, List.mem_filter, decide_eq_true_eq]
    constructor
    · rintro ⟨l, ⟨_, h1, h2, h3⟩, h4⟩; exact ⟨l, h1, h2, h3, h4⟩
    · rintro ⟨l, h1, h2, h3, h4⟩; exact ⟨l, ⟨(mem_vals_iff inv).2 h1.1, h1, h2, h3⟩, h4⟩
  · exact c2 i n
  · dsimp only
    rw [inv.site_id _ _ hg]
    have := (flow_fold (t := t) flow t.links.vals [] i).1
    simpa [siteFlow] using this
  · dsimp only
    rw [inv.site_id _ _ hg]
    have := (flow_fold (t := t) flow t.links.vals [] i).2
    simpa [siteFlow] using this

theorem row_of_id {β : Type} [DecidableEq β] {t : Topology} (inv : t.Inv) {c : SiteCosts} {flow : LinkId → ℚ}
    {key : Link → β} {rows : List SiteRow} (h : List.Forall₂ (RowOf t c flow key) t.sites rows) {r : SiteRow}
    (hr : r ∈ rows) : ∃ x, t.sites.get? r.id = some x ∧ RowOf t c flow key (r.id, x) r := by
  obtain ⟨⟨i, x⟩, h1, h2⟩ := forall₂_mem_right h hr
  have e := h2.id
  dsimp only at e
  rw [← e] at h1 h2
  exact ⟨x, (Dict.mem_iff_get? inv.nd_sites _ _).1 h1, h2⟩

theorem cells_key {t : Topology} (inv : t.Inv) (hv : ValidCoords t) :
    ∀ l ∈ t.links.vals, ∀ l' ∈ t.links.vals, t.linkHash l = t.linkHash l' ↔
      s(cellOf (siteAt t l.tx), cellOf (siteAt t l.rx)) = s(cellOf (siteAt t l'.tx), cellOf (siteAt t l'.rx)) :=
  fun _ hl _ hl' => linkHash_iff hv (ends_known inv hl).1 (ends_known inv hl).2 (ends_known inv hl').1
    (ends_known inv hl').2

theorem sites_key {t : Topology} (inv : t.Inv) (hv : ValidCoords t) (hd : CellsDistinct t) :
    ∀ l ∈ t.links.vals, ∀ l' ∈ t.links.vals, t.linkHash l = t.linkHash l' ↔ s(l.tx, l.rx) = s(l'.tx, l'.rx) := by
  intro l hl l' hl'
  obtain ⟨h1, h2⟩ := ends_known inv hl
  obtain ⟨h3, h4⟩ := ends_known inv hl'
  rw [linkHash_iff hv h1 h2 h3 h4, Sym2.eq_iff, Sym2.eq_iff]
  have key : ∀ {i j x y}, t.sites.get? i = some x → t.sites.get? j = some y → (cellOf x = cellOf y ↔ i = j) := by
    intro i j x y hx hy
    refine ⟨hd i j x y hx hy, ?_⟩
    rintro rfl
    rw [hx] at hy
    cases hy
    rfl
  rw [key h1 h3, key h2 h4, key h1 h4, key h2 h3]

/-- **C133.** The table of sites can always be made. It has one row for each site, in the order of the topology, with the
cost of a site of its type and the numbers of different nodes and sectors in use at the site. -/
theorem C133_sites (ops : List Op) (c : SiteCosts) (flow : LinkId → ℚ) :
    ∃ rows, (run {} ops).siteTable c flow = .ok rows ∧ rows.map (·.id) = (run {} ops).sites.keys ∧
      ∀ r ∈ rows, ∃ (x : Site) (N : Finset ℕ) (S : Finset SectorId), (run {} ops).sites.get? r.id = some x ∧
        (∀ n, n ∈ N ↔ ∃ y, UsedSector (run {} ops) r.id y ∧ y.node = n) ∧
        (∀ s, s ∈ S ↔ ∃ y, UsedSector (run {} ops) r.id y ∧ s = ⟨y.site, y.node, y.pos, y.typ⟩) ∧
        r.capex = c.of x.siteType ∧ r.nodes = N.card ∧ r.sectors = S.card := by
  have inv := Inv.empty.run ops
  generalize run {} ops = t at *
  obtain ⟨rows, h1, h2⟩ := site_table inv c flow t.linkHash (fun _ _ _ _ => Iff.rfl)
  refine ⟨rows, h1, forall₂_map_eq h2 (fun _ _ h => h.id), fun r hr => ?_⟩
  obtain ⟨x, hx, ho⟩ := row_of_id inv h2 hr
  obtain ⟨N, n1, n2⟩ := ho.nodes
  obtain ⟨S, s1, s2⟩ := ho.sectors
  exact ⟨x, N, S, hx, n1, fun s => by rw [s1]; exact exists_congr fun y => and_congr_right fun _ => eq_comm,
    ho.capex, n2, s2⟩

/-- **C133.** The number of links at a site is the number of pairs of ends (grid cell and type of site) of the wireless
links in use from or to the site. A link and its reverse count once. -/
theorem C133_links (ops : List Op) (c : SiteCosts) (flow : LinkId → ℚ) (hv : ValidCoords (run {} ops))
    (rows : List SiteRow) (h : (run {} ops).siteTable c flow = .ok rows) (r : SiteRow) (hr : r ∈ rows) :
    ∃ P : Finset (Sym2 (ℤ × ℤ × SiteType)), (∀ p, p ∈ P ↔ ∃ l, LinkUsed (run {} ops) l ∧ l.isWireless = true ∧
      (l.tx = r.id ∨ l.rx = r.id) ∧ s(cellOf (siteAt (run {} ops) l.tx), cellOf (siteAt (run {} ops) l.rx)) = p) ∧
      r.links = P.card := by
  have inv := Inv.empty.run ops
  generalize run {} ops = t at *
  obtain ⟨rows', h1, h2⟩ := site_table inv c flow _ (cells_key inv hv)
  rw [h] at h1
  cases h1
  obtain ⟨x, hx, ho⟩ := row_of_id inv h2 hr
  exact ho.links

/-- **C133, `_partial`.** With at most one site of a type in each grid cell this is the number of sites joined to the site
by wireless links in use. Missing: sites closer than a cell, as in C61. -/
theorem C133_links_partial (ops : List Op) (c : SiteCosts) (flow : LinkId → ℚ) (hv : ValidCoords (run {} ops))
    (hd : CellsDistinct (run {} ops))
    (rows : List SiteRow) (h : (run {} ops).siteTable c flow = .ok rows) (r : SiteRow) (hr : r ∈ rows) :
    ∃ P : Finset SiteId, (∀ p, p ∈ P ↔ ∃ l, LinkUsed (run {} ops) l ∧ l.isWireless = true ∧
      (l.tx = r.id ∧ l.rx = p ∨ l.rx = r.id ∧ l.tx = p)) ∧ r.links = P.card := by
  have inv := Inv.empty.run ops
  generalize run {} ops = t at *
  obtain ⟨rows', h1, h2⟩ := site_table inv c flow _ (sites_key inv hv hd)
  rw [h] at h1
  cases h1
  obtain ⟨x, hx, ho⟩ := row_of_id inv h2 hr
  obtain ⟨P, p1, p2⟩ := ho.links
  dsimp only at p1
  classical
  refine ⟨(P.biUnion (fun p => p.toFinset.filter (fun q => s(r.id, q) = p))), fun q => ?_, ?_⟩
  · simp only [Finset.mem_biUnion, Finset.mem_filter, Sym2.mem_toFinset]
    constructor
    · rintro ⟨p, hp, _, hq⟩
      obtain ⟨l, a1, a2, a3, a4⟩ := (p1 p).1 hp
      refine ⟨l, a1, a2, ?_⟩
      rw [← a4, Sym2.eq_iff] at hq
      rcases hq with ⟨b1, b2⟩ | ⟨b1, b2⟩
      · exact Or.inl ⟨b1.symm, b2.symm⟩
      · exact Or.inr ⟨b1.symm, b2.symm⟩
    · rintro ⟨l, a1, a2, a3⟩
      refine ⟨s(r.id, q), (p1 _).2 ⟨l, a1, a2, ?_, ?_⟩, by simp, rfl⟩
      · rcases a3 with a3 | a3
        · exact Or.inl a3.1
        · exact Or.inr a3.1
      · rcases a3 with ⟨h1, rfl⟩ | ⟨h1, rfl⟩
        · rw [h1]
        · rw [h1]; exact Sym2.eq_swap
  · rw [p2]
    refine (Finset.card_bij (fun q _ => s(r.id, q)) ?_ ?_ ?_).symm
    · intro q hq
      simp only [Finset.mem_biUnion, Finset.mem_filter] at hq
      obtain ⟨p, hp, _, rfl⟩ := hq
      exact hp
    · intro a _ b _ hab
      exact Sym2.congr_right.1 hab
    · intro p hp
      obtain ⟨l, a1, a2, a3, a4⟩ := (p1 p).1 hp
      rcases a3 with a3 | a3
      · refine ⟨l.rx, ?_, by rw [← a3]; exact a4⟩
        simp only [Finset.mem_biUnion, Finset.mem_filter, Sym2.mem_toFinset]
        exact ⟨p, hp, by rw [← a4]; simp, by rw [← a3]; exact a4⟩
      · refine ⟨l.tx, ?_, by rw [← a3, ← a4]; exact Sym2.eq_swap⟩
        simp only [Finset.mem_biUnion, Finset.mem_filter, Sym2.mem_toFinset]
        exact ⟨p, hp, by rw [← a4]; simp, by rw [← a3, ← a4]; exact Sym2.eq_swap⟩

/-- **C133.** The hops given are the least number of links in use on a path from a POP in use over sites in use; sites
without such a path are "disconnected". -/
theorem C133_hops (ops : List Op) (c : SiteCosts) (flow : LinkId → ℚ) (rows : List SiteRow)
    (h : (run {} ops).siteTable c flow = .ok rows) (r : SiteRow) (hr : r ∈ rows) :
    (∀ n, r.hops = some n ↔ IsLeast {m | HopPath (run {} ops) StatusType.active r.id m} n) ∧
    (r.hops = none ↔ ∀ m, ¬ HopPath (run {} ops) StatusType.active r.id m) := by
  have inv := Inv.empty.run ops
  generalize run {} ops = t at *
  obtain ⟨rows', h1, h2⟩ := site_table inv c flow t.linkHash (fun _ _ _ _ => Iff.rfl)
  rw [h] at h1
  cases h1
  obtain ⟨x, hx, ho⟩ := row_of_id inv h2 hr
  refine ⟨ho.hops, fun e m hm => ?_, fun hn => ?_⟩
  · classical
    have hex : ∃ m, HopPath t StatusType.active r.id m := ⟨m, hm⟩
    have := (ho.hops (Nat.find hex)).2 ⟨Nat.find_spec hex, fun m' hm' => Nat.find_min' hex hm'⟩
    rw [e] at this
    cases this
  · cases e : r.hops with
    | none => rfl
    | some n => exact absurd ((ho.hops n).1 e).1 (hn n)

theorem counted_eq {t : Topology} (inv : t.Inv) (ha : Apart t) {l : Link} (hl : l ∈ t.links.vals) :
    counted t l = l.status.active := by
  obtain ⟨x, hx⟩ := inv.link_rx _ _ ((mem_vals_iff inv).1 hl)
  unfold counted
  rw [(Dict.has_eq_false_iff _ _).2 (ha _ _ hx)]
  simp

theorem sum_used {t : Topology} (inv : t.Inv) (ha : Apart t) (flow : LinkId → ℚ) (Q : Link → Prop) [DecidablePred Q] :
    ((t.links.vals.filter fun l => counted t l && decide (Q l)).map fun l => flow l.id).sum =
      ∑ l ∈ (t.links.vals.filter fun l => l.status.active && decide (Q l)).toFinset, flow ⟨l.tx, l.rx⟩ := by
  rw [List.sum_toFinset _ ((vals_nodup inv).filter _)]
  congr 2
  apply List.filter_congr
  intro l hl
  rw [counted_eq inv ha hl]

/-- **C133.** The outgoing flow of a site is the sum of the flows of the links in use that start there, the incoming
flow that of the links in use that end there. -/
theorem C133_flow (ops : List Op) (c : SiteCosts) (flow : LinkId → ℚ) (ha : Apart (run {} ops)) (rows : List SiteRow)
    (h : (run {} ops).siteTable c flow = .ok rows) (r : SiteRow) (hr : r ∈ rows) :
    ∃ O I : Finset Link, (∀ l, l ∈ O ↔ LinkUsed (run {} ops) l ∧ l.tx = r.id) ∧
      (∀ l, l ∈ I ↔ LinkUsed (run {} ops) l ∧ l.rx = r.id) ∧
      r.outgoing = ∑ l ∈ O, flow ⟨l.tx, l.rx⟩ ∧ r.incoming = ∑ l ∈ I, flow ⟨l.tx, l.rx⟩ := by
  have inv := Inv.empty.run ops
  generalize run {} ops = t at *
  obtain ⟨rows', h1, h2⟩ := site_table inv c flow t.linkHash (fun _ _ _ _ => Iff.rfl)
  rw [h] at h1
  cases h1
  obtain ⟨x, hx, ho⟩ := row_of_id inv h2 hr
  refine ⟨_, _, fun l => ?_, fun l => ?_, ho.outgoing.trans (sum_used inv ha flow _),
    ho.incoming.trans (sum_used inv ha flow _)⟩ <;>
  · simp only [List.mem_toFinset, List.mem_filter, Bool.and_eq_true, decide_eq_true_eq, mem_vals_iff inv, active_iff,
      LinkUsed, and_assoc]

theorem sum_sites {t : Topology} (inv : t.Inv) (F : Finset Link) (f : Link → ℚ) (e : Link → SiteId)
    (he : ∀ l ∈ F, e l ∈ t.sites.keys) :
    (t.sites.keys.map fun s => ∑ l ∈ F.filter (fun l => e l = s), f l).sum = ∑ l ∈ F, f l := by
  rw [← List.sum_toFinset _ inv.nd_sites]
  exact Finset.sum_fiberwise_of_maps_to (fun l hl => List.mem_toFinset.2 (he l hl)) f

/-- **C133.** Over all sites the outgoing flows and the incoming flows add up to the same: the flows of the links in
use. -/
theorem C133_balance (ops : List Op) (c : SiteCosts) (flow : LinkId → ℚ) (ha : Apart (run {} ops)) (rows : List SiteRow)
    (h : (run {} ops).siteTable c flow = .ok rows) :
    ∃ L : Finset Link, (∀ l, l ∈ L ↔ LinkUsed (run {} ops) l) ∧
      (rows.map (·.outgoing)).sum = ∑ l ∈ L, flow ⟨l.tx, l.rx⟩ ∧
      (rows.map (·.incoming)).sum = ∑ l ∈ L, flow ⟨l.tx, l.rx⟩ := by
  have inv := Inv.empty.run ops
  generalize run {} ops = t at *
  obtain ⟨rows', h1, h2⟩ := site_table inv c flow t.linkHash (fun _ _ _ _ => Iff.rfl)
  rw [h] at h1
  cases h1
  have mem : ∀ l, l ∈ (t.links.vals.filter fun l => l.status.active).toFinset ↔ LinkUsed t l := by
    intro l
    simp only [List.mem_toFinset, List.mem_filter, mem_vals_iff inv, active_iff, LinkUsed]
  have part : ∀ e : Link → SiteId, (∀ l ∈ t.links.vals, e l ∈ t.sites.keys) →
      (t.sites.map fun p => ((t.links.vals.filter fun l => counted t l && decide (e l = p.1)).map
        fun l => flow l.id).sum).sum =
      ∑ l ∈ (t.links.vals.filter fun l => l.status.active).toFinset, flow ⟨l.tx, l.rx⟩ := by
    intro e he
    rw [← sum_sites inv (t.links.vals.filter fun l => l.status.active).toFinset (fun l => flow ⟨l.tx, l.rx⟩) e
      (fun l hl => he l (List.mem_filter.1 (List.mem_toFinset.1 hl)).1)]
    unfold Dict.keys
    rw [List.map_map]
    congr 1
    apply List.map_congr_left
    intro p _
    rw [sum_used inv ha flow]
    simp only [Function.comp_apply]
    congr 1
    ext l
    simp only [List.mem_toFinset, List.mem_filter, Finset.mem_filter, Bool.and_eq_true, decide_eq_true_eq, and_assoc]
  refine ⟨_, mem, ?_, ?_⟩
  · rw [forall₂_map_eq h2 (fun _ _ ho => ho.outgoing)]
    exact part (·.tx) (fun l hl => (Dict.mem_keys_iff _ _).2 (inv.link_tx _ _ ((mem_vals_iff inv).1 hl)))
  · rw [forall₂_map_eq h2 (fun _ _ ho => ho.incoming)]
    exact part (·.rx) (fun l hl => (Dict.mem_keys_iff _ _).2 (inv.link_rx _ _ ((mem_vals_iff inv).1 hl)))

/-- A POP and two DNs; the link to the second is not in use. -/
def tableDemo : List Op := [
  .addSite { id := "P", siteType := .pop, status := .existing } false,
  .addSite { id := "A", siteType := .dn, status := .proposed, lat := 1 } false,
  .addSite { id := "B", siteType := .dn, status := .candidate, lat := 2 } false,
  .addSector { site := "P", node := 0, pos := 0, status := .existing, channel := 1 },
  .addSector { site := "A", node := 0, pos := 0, status := .proposed, channel := 1 },
  .addSector { site := "A", node := 0, pos := 1, status := .proposed },
  .addSector { site := "B", node := 0, pos := 0, status := .candidate },
  .addLink { tx := "P", rx := "A", sectors := some (⟨"P", 0, 0, .dn⟩, ⟨"A", 0, 0, .dn⟩), status := .proposed },
  .addLink { tx := "A", rx := "P", sectors := some (⟨"A", 0, 0, .dn⟩, ⟨"P", 0, 0, .dn⟩), status := .proposed },
  .addLink { tx := "A", rx := "B", sectors := some (⟨"A", 0, 1, .dn⟩, ⟨"B", 0, 0, .dn⟩), status := .candidate }]

example : ((run {} tableDemo).siteTable ⟨5, 3, 1⟩ (fun l => if l.tx = "P" then 2 else 0)).toOption =
    some [⟨"P", 5, 1, 1, 1, some 0, 2, 0⟩, ⟨"A", 3, 1, 2, 1, some 1, 0, 2⟩, ⟨"B", 3, 0, 0, 0, none, 0, 0⟩] := by
  decide +kernel

end Verif
