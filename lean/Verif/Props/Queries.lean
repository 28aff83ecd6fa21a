import Verif.Model.Queries
import Verif.Model.MaxFlow
import Verif.Model.Redundancy
import Verif.Lemmas.Topology

/-! # C191, C192: questions about a topology -/

namespace Verif
open Topology

/-! ## C191 -/

/-- **C191, errors.** Asking for the link between two sectors fails exactly if one of them is not in the topology. -/
theorem C191_fails_iff (ops : List Op) (a b : SectorId) :
    (∃ e, (run {} ops).getLinkBySectorIds a b = .error e) ↔
      (run {} ops).sectors.get? a = none ∨ (run {} ops).sectors.get? b = none := by
  have inv : Topology.Inv (run {} ops) := Inv.empty.run ops
  unfold getLinkBySectorIds
  cases ha : (run {} ops).sectors.get? a with
  | none => simp
  | some x =>
    cases hb : (run {} ops).sectors.get? b with
    | none => simp
    | some y =>
      have h1 := (Dict.has_iff _ _).2 (inv.sector_site _ _ ha)
      have h2 := (Dict.has_iff _ _).2 (inv.sector_site _ _ hb)
      simp [getLinkBySiteIds, h1, h2]

/-- **C191, found.** A link of the topology that uses the two sectors is the answer. Links are constructed with
sectors of their own sites (`link.py:161-175`). -/
theorem C191_found (ops : List Op) (a b : SectorId) (l : Link) (hl : (run {} ops).links.get? l.id = some l)
    (hs : l.sectors = some (a, b)) (own : a.site = l.tx ∧ b.site = l.rx)
    (ha : (run {} ops).sectors.get? a ≠ none) (hb : (run {} ops).sectors.get? b ≠ none) :
    (run {} ops).getLinkBySectorIds a b = .ok (some l) := by
  have inv : Topology.Inv (run {} ops) := Inv.empty.run ops
  obtain ⟨x, hx⟩ := Option.ne_none_iff_exists'.1 ha
  obtain ⟨y, hy⟩ := Option.ne_none_iff_exists'.1 hb
  have h1 := (Dict.has_iff _ _).2 (inv.sector_site _ _ hx)
  have h2 := (Dict.has_iff _ _).2 (inv.sector_site _ _ hy)
  have e1 : x.site = l.tx := by rw [← own.1, ← inv.sector_id _ _ hx]; rfl
  have e2 : y.site = l.rx := by rw [← own.2, ← inv.sector_id _ _ hy]; rfl
  unfold getLinkBySectorIds
  rw [hx, hy]
  simp only [getLinkBySiteIds, h1, h2, Bool.and_self, if_true]
  rw [e1, e2]
  exact congrArg _ hl

/-- **C191, partial**: the answer is a link of the topology between the sites of the sectors. Missing: that it uses
the sectors; see `C191_other_sectors_violation`. -/
theorem C191_sites_partial (ops : List Op) (a b : SectorId) (l : Link)
    (h : (run {} ops).getLinkBySectorIds a b = .ok (some l)) :
    l.tx = a.site ∧ l.rx = b.site ∧ (run {} ops).links.get? l.id = some l := by
  have inv : Topology.Inv (run {} ops) := Inv.empty.run ops
  unfold getLinkBySectorIds at h
  split at h
  · rename_i x y hx hy
    unfold getLinkBySiteIds at h
    split at h
    · injection h with h
      have e := inv.link_id _ _ h
      have e1 : a.site = x.site := by rw [← inv.sector_id _ _ hx]; rfl
      have e2 : b.site = y.site := by rw [← inv.sector_id _ _ hy]; rfl
      injection e with e3 e4
      refine ⟨by rw [e1, e3], by rw [e2, e4], ?_⟩
      rw [← h, e3, e4]
      rfl
    · cases h
  · cases h

/-- Two sites with two sectors each, and a link between the first ones. -/
def sectorDemo : List Op := [
  .addSite { id := "A", siteType := .dn, status := .candidate } false,
  .addSite { id := "B", siteType := .dn, status := .proposed, polarity := .odd } false,
  .addSector { site := "A", node := 0, pos := 0 }, .addSector { site := "A", node := 1, pos := 0 },
  .addSector { site := "B", node := 0, pos := 0, status := .proposed }, .addSector { site := "B", node := 1, pos := 0 },
  .addLink { tx := "A", rx := "B", sectors := some (⟨"A", 0, 0, .dn⟩, ⟨"B", 0, 0, .dn⟩) }]

/-- The hypotheses of C191 hold of it. -/
example : (run {} sectorDemo).links.get? ⟨"A", "B"⟩ =
      some { tx := "A", rx := "B", sectors := some (⟨"A", 0, 0, .dn⟩, ⟨"B", 0, 0, .dn⟩) } ∧
    (run {} sectorDemo).sectors.get? ⟨"A", 0, 0, .dn⟩ ≠ none ∧
    (run {} sectorDemo).sectors.get? ⟨"B", 0, 0, .dn⟩ ≠ none ∧
    (run {} sectorDemo).getLinkBySectorIds ⟨"A", 0, 0, .dn⟩ ⟨"C", 0, 0, .dn⟩ = .error .topology := by
  decide +kernel

/-- **C191, violated.** No link uses the sectors `A-1` and `B-1`, yet asking for it gives the one of `A-0` and `B-0`. -/
theorem C191_other_sectors_violation : ∃ (ops : List Op) (a b : SectorId) (l : Link),
    (run {} ops).getLinkBySectorIds a b = .ok (some l) ∧ ∀ k ∈ (run {} ops).links, k.2.sectors ≠ some (a, b) :=
  ⟨sectorDemo, ⟨"A", 1, 0, .dn⟩, ⟨"B", 1, 0, .dn⟩,
    { tx := "A", rx := "B", sectors := some (⟨"A", 0, 0, .dn⟩, ⟨"B", 0, 0, .dn⟩) }, by decide +kernel, by decide +kernel⟩

/-! ## C192 -/

/-- The table built so far lists exactly the matching sectors among those seen, and no empty rows. -/
theorem sectorIds_fold (status : StatusType → Bool) (es : List (SectorId × Sector)) (d : Dict SiteId (List SectorId))
    (hd : ∀ i, d.get? i ≠ some []) :
    let r := es.foldl (fun d e => if status e.2.status then d.set e.2.site ((d.get? e.2.site).getD [] ++ [e.1]) else d) d
    (∀ i, r.get? i ≠ some []) ∧ ∀ i k, k ∈ (r.get? i).getD [] ↔
      k ∈ (d.get? i).getD [] ∨ ∃ s, (k, s) ∈ es ∧ s.site = i ∧ status s.status = true := by
  induction es generalizing d with
  | nil => exact ⟨hd, by simp⟩
  | cons e es ih =>
    simp only [List.foldl_cons]
    by_cases c : status e.2.status = true
    · rw [if_pos c]
      obtain ⟨h1, h2⟩ := ih (d.set e.2.site ((d.get? e.2.site).getD [] ++ [e.1])) (by
        intro i
        rw [Dict.get?_set]
        split
        · simp
        · exact hd i)
      refine ⟨h1, fun i k => ?_⟩
      rw [h2, Dict.get?_set]
      obtain ⟨k0, s0⟩ := e
      dsimp only at c ⊢
      by_cases g : s0.site = i
      · subst g
        simp only [if_true, Option.getD_some, List.mem_append, List.mem_cons, List.not_mem_nil, or_false, Prod.mk.injEq]
        constructor
        · rintro ((h | h) | ⟨s, h, h'⟩)
          · exact .inl h
          · exact .inr ⟨s0, .inl ⟨h, rfl⟩, rfl, c⟩
          · exact .inr ⟨s, .inr h, h'⟩
        · rintro (h | ⟨s, ⟨h, -⟩ | h, h'⟩)
          · exact .inl (.inl h)
          · exact .inl (.inr h)
          · exact .inr ⟨s, h, h'⟩
      · have g' : i ≠ s0.site := fun h => g h.symm
        simp only [g, g', if_false, List.mem_cons, Prod.mk.injEq]
        constructor
        · rintro (h | ⟨s, h, h'⟩)
          · exact .inl h
          · exact .inr ⟨s, .inr h, h'⟩
        · rintro (h | ⟨s, ⟨-, rfl⟩ | h, h'⟩)
          · exact .inl h
          · exact absurd h'.1 g
          · exact .inr ⟨s, h, h'⟩
    · rw [if_neg c]
      obtain ⟨h1, h2⟩ := ih d hd
      refine ⟨h1, fun i k => ?_⟩
      rw [h2]
      simp only [List.mem_cons]
      constructor
      · rintro (h | ⟨s, h, h'⟩)
        · exact .inl h
        · exact .inr ⟨s, .inr h, h'⟩
      · rintro (h | ⟨s, h | h, h'⟩)
        · exact .inl h
        · rw [← h] at c
          exact absurd h'.2 c
        · exact .inr ⟨s, h, h'⟩

/-- **C192, sectors.** The sectors of a status are listed under their own sites, all of them and no others, and a
site without such sectors is not listed. -/
theorem C192_sectors (ops : List Op) (status : StatusType → Bool) (i : SiteId) :
    (∀ k, (∃ ks, ((run {} ops).getSectorIds status).get? i = some ks ∧ k ∈ ks) ↔
      ∃ s, (run {} ops).sectors.get? k = some s ∧ s.site = i ∧ status s.status = true) ∧
    (((run {} ops).getSectorIds status).get? i ≠ none ↔
      ∃ k s, (run {} ops).sectors.get? k = some s ∧ s.site = i ∧ status s.status = true) := by
  have inv : Topology.Inv (run {} ops) := Inv.empty.run ops
  obtain ⟨h1, h2⟩ := sectorIds_fold status (run {} ops).sectors [] (by simp)
  have e : ∀ k, (∃ ks, ((run {} ops).getSectorIds status).get? i = some ks ∧ k ∈ ks) ↔
      ∃ s, (run {} ops).sectors.get? k = some s ∧ s.site = i ∧ status s.status = true := by
    intro k
    have := h2 i k
    simp only [Dict.mem_iff_get? inv.nd_sectors] at this
    unfold getSectorIds
    cases c : Dict.get? (List.foldl _ [] (run {} ops).sectors) i with
    | none => rw [c] at this; simpa using this
    | some ks => rw [c] at this; simpa using this
  refine ⟨e, ?_, ?_⟩
  · intro h
    obtain ⟨ks, hk⟩ := Option.ne_none_iff_exists'.1 h
    cases ks with
    | nil => exact absurd hk (h1 i)
    | cons k ks =>
      obtain ⟨s, hs⟩ := (e k).1 ⟨_, hk, by simp⟩
      exact ⟨k, s, hs⟩
  · rintro ⟨k, s, hs⟩
    obtain ⟨ks, hk, -⟩ := (e k).2 ⟨s, hs⟩
    rw [hk]
    simp

/-- **C192, routing.** In the routing problem of a topology, the decision of a sector is 1 if `getSectorIds` lists it
under its site as PROPOSED, and 0 otherwise (`flow_optimization.py:183-191`). -/
theorem C192_routing (ops : List Op) (p : OptParams) (k : SectorId) (s : Sector)
    (hk : (run {} ops).sectors.get? k = some s) :
    (Plan.mk (run {} ops) p).routeSector k =
      if k ∈ (((run {} ops).getSectorIds (· == .proposed)).get? s.site).getD [] then 1 else 0 := by
  have h := (C192_sectors ops (· == .proposed) s.site).1 k
  have e : k ∈ (((run {} ops).getSectorIds (· == .proposed)).get? s.site).getD [] ↔ s.status = .proposed := by
    constructor
    · intro m
      cases c : ((run {} ops).getSectorIds (· == .proposed)).get? s.site with
      | none => rw [c] at m; simp at m
      | some ks =>
        rw [c] at m
        obtain ⟨s', h1, -, h2⟩ := h.1 ⟨ks, c, m⟩
        rw [hk] at h1
        injection h1 with h1
        subst h1
        simpa using h2
    · intro m
      obtain ⟨ks, c, m⟩ := h.2 ⟨s, hk, rfl, by simp [m]⟩
      rw [c]
      exact m
  unfold Plan.routeSector
  dsimp only
  rw [hk]
  by_cases c : s.status = .proposed
  · rw [if_pos (e.2 c), if_pos (by simp [c])]
  · rw [if_neg (fun m => c (e.1 m)), if_neg (by simp [c])]

/-- **C192, polarities.** The sites of a polarity are the PROPOSED and EXISTING POPs and DNs that have it, each once; no
site has both. -/
theorem C192_polarities (ops : List Op) :
    (∀ p, p ≠ .unassigned → ∀ i, i ∈ (run {} ops).getSitePolarities p ↔ ∃ s, (run {} ops).sites.get? i = some s ∧
      (s.status = .proposed ∨ s.status = .existing) ∧ (s.siteType = .pop ∨ s.siteType = .dn) ∧ s.polarity = p) ∧
    (∀ p, ((run {} ops).getSitePolarities p).Nodup) ∧
    ∀ i, i ∈ (run {} ops).getSitePolarities .odd → i ∉ (run {} ops).getSitePolarities .even := by
  have inv : Topology.Inv (run {} ops) := Inv.empty.run ops
  have e : ∀ p, p ≠ .unassigned → ∀ i, i ∈ (run {} ops).getSitePolarities p ↔ ∃ s, (run {} ops).sites.get? i = some s ∧
      (s.status = .proposed ∨ s.status = .existing) ∧ (s.siteType = .pop ∨ s.siteType = .dn) ∧ s.polarity = p := by
    intro p hp i
    unfold getSitePolarities
    simp only [List.mem_map, List.mem_filter, Prod.exists, exists_and_right, exists_eq_right]
    refine exists_congr fun s => ?_
    rw [Dict.mem_iff_get? inv.nd_sites]
    refine and_congr_right fun _ => ?_
    cases s.status <;> cases s.siteType <;> cases s.polarity <;> cases p <;> simp_all [StatusType.active]
  refine ⟨e, fun p => ?_, fun i h h' => ?_⟩
  · exact (List.filter_sublist.map _).nodup inv.nd_sites
  · obtain ⟨s, h1, -, -, h2⟩ := (e _ (by decide) _).1 h
    obtain ⟨s', h3, -, -, h4⟩ := (e _ (by decide) _).1 h'
    rw [h1] at h3
    injection h3 with h3
    subst h3
    rw [h2] at h4
    cases h4

/-- **C192, redundancy.** A selected POP or DN that the redundancy problem leaves out is read as odd exactly if it is listed as
ODD (`redundancy_optimization.py:580-591`). -/
theorem C192_redundancy (ops : List Op) (p : OptParams) (restr : Option (List (SiteId × SiteId))) (x : RVars)
    (i : SiteId) (s : Site) (hs : (run {} ops).sites.get? i = some s) (ht : s.siteType = .pop ∨ s.siteType = .dn)
    (out : (Plan.mk (run {} ops) p).redSite restr (.site i) = false)
    (sel : (Plan.mk (run {} ops) p).redDec restr x i = 1) :
    (Plan.mk (run {} ops) p).redOddRaw restr x i =
      if i ∈ (run {} ops).getSitePolarities .odd then 1 else 0 := by
  have h := (C192_polarities ops).1 .odd (by decide) i
  unfold Plan.redOddRaw
  rw [out, if_neg (by simp)]
  simp only [sel, hs, true_and, Option.any_some]
  have e : i ∈ (run {} ops).getSitePolarities .odd ↔ (s.status.active && s.polarity == .odd) = true := by
    rw [h]
    constructor
    · rintro ⟨s', h1, h2, -, h3⟩
      rw [hs] at h1
      injection h1 with h1
      subst h1
      rcases h2 with h2 | h2 <;> simp [h2, h3, StatusType.active]
    · intro c
      rw [Bool.and_eq_true, beq_iff_eq] at c
      refine ⟨s, hs, ?_, ht, c.2⟩
      have := c.1
      cases k : s.status <;> simp_all [StatusType.active]
  by_cases c : i ∈ (run {} ops).getSitePolarities .odd
  · rw [if_pos c, if_pos (e.1 c)]
  · rw [if_neg c, if_neg (fun m => c (e.2 m))]

/-- The demo has a PROPOSED sector at `B`, which is of odd polarity. -/
example : ((run {} sectorDemo).getSectorIds (· == .proposed)) = [("B", [⟨"B", 0, 0, .dn⟩])] ∧
    (run {} sectorDemo).getSitePolarities .odd = ["B"] ∧ (run {} sectorDemo).getSitePolarities .even = [] := by
  decide +kernel

/-- The hypotheses of `C192_redundancy` hold of `B` in it if no links are left. -/
example (p : OptParams) (x : RVars) : (Plan.mk (run {} sectorDemo) p).redSite (some []) (.site "B") = false ∧
    (Plan.mk (run {} sectorDemo) p).redDec (some []) x "B" = 1 := by
  have h : (Plan.mk (run {} sectorDemo) p).redSite (some []) (.site "B") = false := by rfl
  refine ⟨h, ?_⟩
  unfold Plan.redDec Plan.redDist
  rw [h]
  rfl

end Verif
