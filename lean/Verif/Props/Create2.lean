import Verif.Props.Create

/-! # C124, C125: what is created, and what the check guarantees -/

namespace Verif
open Spec Verif.Topology

theorem get?_append {κ ν : Type} [DecidableEq κ] (d e : Dict κ ν) (k : κ) :
    Dict.get? (d ++ e) k = (Dict.get? d k).orElse (fun _ => Dict.get? e k) := by
  induction d with
  | nil => rfl
  | cons p d ih =>
    obtain ⟨k', v⟩ := p
    rw [List.cons_append, Dict.get?_cons, Dict.get?_cons]
    split
    · rfl
    · exact ih

theorem dict_mem_vals {κ ν : Type} [DecidableEq κ] {d : Dict κ ν} (hd : d.NodupKeys) {v : ν} :
    v ∈ d.vals ↔ ∃ k, d.get? k = some v := by
  unfold Dict.vals
  rw [List.mem_map]
  constructor
  · rintro ⟨⟨k, w⟩, h, rfl⟩
    exact ⟨k, (Dict.mem_iff_get? hd k w).1 h⟩
  · rintro ⟨k, h⟩
    exact ⟨(k, v), Dict.mem_of_get? d h, rfl⟩

namespace Topology

theorem addSectors_sectors : ∀ (xs : List Sector) (t t1 : Topology), foldOut addSector t xs = (t1, none) →
    t1.sectors = t.sectors ++ xs.map (fun x => (x.id, x)) := by
  intro xs
  induction xs with
  | nil => intro t t1 h; cases h; simp
  | cons x xs ih =>
    intro t t1 h
    unfold foldOut addSector at h
    by_cases h1 : t.sectors.has x.id = true
    · rw [if_pos h1] at h; cases h
    · rw [if_neg h1] at h
      by_cases h2 : t.sites.has x.site = true
      · rw [if_pos h2] at h
        rw [ih _ _ h]
        dsimp only
        have hf : t.sectors.get? x.id = none := by
          rw [← Dict.has_eq_false_iff]
          simpa using h1
        rw [Dict.set_fresh _ _ _ hf]
        simp
      · rw [if_neg h2] at h; cases h

theorem createLoop_sectors (mean : List ℚ → ℚ) (radio : SiteId → Radio) (want : Site → Bool)
    (best : SiteId → Except Err (List (List ℚ))) (have_ : SiteId → List Sector) :
    ∀ (sites : List Site) (t t' : Topology), createLoop mean radio want best have_ t sites = (t', none) →
      t'.sectors = t.sectors ++ (sites.flatMap (added want best have_)).map (fun x => (x.id, x)) := by
  intro sites
  induction sites with
  | nil => intro t t' h; cases h; simp
  | cons s rest ih =>
    intro t t' h
    unfold createLoop at h
    by_cases h1 : ((have_ s.id).length > 0 || !want s) = true
    · rw [if_pos h1] at h
      have e : added want best have_ s = [] := by unfold added; rw [if_pos h1]
      cases hv : validateSiteSectors mean (radio s.id) (have_ s.id) with
      | some e => rw [hv] at h; cases h
      | none =>
        rw [hv] at h
        rw [ih _ _ h, List.flatMap_cons, e]
        rfl
    · rw [if_neg h1] at h
      cases hb : best s.id with
      | error e => rw [hb] at h; cases h
      | ok angles =>
        rw [hb] at h
        dsimp only at h
        have e : added want best have_ s = newSectors s angles := by
          unfold added; rw [if_neg h1, hb]
        by_cases h2 : ((newSectors s angles).isEmpty || sectorCompat s.status .candidate) = true
        · rw [if_pos h2] at h
          cases hf : foldOut addSector t (newSectors s angles) with
          | mk t1 o =>
            rw [hf] at h
            cases o with
            | some e => cases h
            | none =>
              rw [ih _ _ h, addSectors_sectors _ _ _ hf, List.flatMap_cons, e]
              simp
        · rw [if_neg h2] at h; cases h

end Topology

/-- The sectors of a site, by node and position. -/
theorem mem_blocks_iff (s : Site) (x : Sector) : ∀ (angles : List (List ℚ)) (k : ℕ),
    x ∈ blocks s k angles ↔ k ≤ x.node ∧ ∃ azs, angles[x.node - k]? = some azs ∧ azs[x.pos]? = some x.azimuth ∧
      x = { site := s.id, node := x.node, pos := x.pos, azimuth := x.azimuth, status := .candidate,
            typ := if s.siteType = .cn then .cn else .dn } := by
  intro angles
  induction angles with
  | nil => intro k; simp [blocks_nil]
  | cons a as ih =>
    intro k
    rw [blocks_cons, List.mem_append, ih]
    constructor
    · rintro (h | ⟨h1, azs, h2, h3⟩)
      · obtain ⟨⟨az, j⟩, hm, rfl⟩ := List.mem_map.1 h
        rw [List.mem_zipIdx_iff_getElem?] at hm
        exact ⟨le_refl _, a, by simp, hm, rfl⟩
      · refine ⟨by omega, azs, ?_, h3⟩
        rw [show x.node - k = (x.node - (k + 1)) + 1 by omega, List.getElem?_cons_succ]
        exact h2
    · rintro ⟨h1, azs, h2, h3, h4⟩
      by_cases hk : x.node = k
      · left
        rw [hk, Nat.sub_self, List.getElem?_cons_zero, Option.some.injEq] at h2
        subst h2
        refine List.mem_map.2 ⟨(x.azimuth, x.pos), List.mem_zipIdx_iff_getElem?.2 h3, ?_⟩
        dsimp only
        rw [← hk]
        exact h4.symm
      · right
        refine ⟨by omega, azs, ?_, h3, h4⟩
        rw [show x.node - k = (x.node - (k + 1)) + 1 by omega, List.getElem?_cons_succ] at h2
        exact h2

/-- `x` is the sector at position `x.pos` of node `x.node` of an orientation
that was found for the site `s`. -/
def Spec.FoundSector (s : Site) (out : List (List ℚ)) (ty : SectorType) (x : Sector) : Prop :=
  x.site = s.id ∧ x.typ = ty ∧ x.status = .candidate ∧ x.channel = -1 ∧
    ∃ azs, out[x.node]? = some azs ∧ azs[x.pos]? = some x.azimuth

theorem found_iff (s : Site) (out : List (List ℚ)) (ty : SectorType)
    (hty : (if s.siteType = .cn then SectorType.cn else .dn) = ty) (x : Sector) :
    x ∈ newSectors s out ↔ FoundSector s out ty x := by
  rw [newSectors_eq, mem_blocks_iff]
  unfold FoundSector
  constructor
  · rintro ⟨_, azs, h1, h2, h3⟩
    rw [Nat.sub_zero] at h1
    rw [hty] at h3
    exact ⟨congrArg Sector.site h3, congrArg Sector.typ h3, congrArg Sector.status h3,
      congrArg Sector.channel h3, azs, h1, h2⟩
  · rintro ⟨h1, h2, h3, h4, azs, h5, h6⟩
    refine ⟨Nat.zero_le _, azs, by simpa using h5, h6, ?_⟩
    rw [hty]
    cases x
    simp_all

/-- Sectors after a creation. -/
theorem created_spec (mean : List ℚ → ℚ) (radio : SiteId → Radio) (ty : SectorType) (want : Site → Bool)
    (best : SiteId → Except Err (List (List ℚ))) (t t' : Topology)
    (hid : ∀ k v, t.sectors.get? k = some v → v.id = k)
    (hty : ∀ s, want s = true → (if s.siteType = .cn then SectorType.cn else .dn) = ty)
    (h : createLoop mean radio want best (t.sectorsOfType ty) t t.sites.vals = (t', none)) (id : SectorId) (x : Sector) :
    t'.sectors.get? id = some x ↔ t.sectors.get? id = some x ∨
      (x.id = id ∧ ∃ s ∈ t.sites.vals, want s = true ∧ t.sectorsOfType ty s.id = [] ∧
        ∃ out, best s.id = .ok out ∧ FoundSector s out ty x) := by
  have hs := createLoop_sectors _ _ _ _ _ _ _ _ h
  have hm : ∀ y, y ∈ t.sites.vals.flatMap (added want best (t.sectorsOfType ty)) ↔
      ∃ s ∈ t.sites.vals, want s = true ∧ t.sectorsOfType ty s.id = [] ∧
        ∃ out, best s.id = .ok out ∧ FoundSector s out ty y := by
    intro y
    rw [List.mem_flatMap]
    constructor
    · rintro ⟨s, hs, hy⟩
      unfold added at hy
      split at hy
      · cases hy
      · next hc =>
        have hc' : t.sectorsOfType ty s.id = [] ∧ want s = true := by simpa using hc
        split at hy
        · next out hb => exact ⟨s, hs, hc'.2, hc'.1, out, hb, (found_iff s out ty (hty s hc'.2) y).1 hy⟩
        · cases hy
    · rintro ⟨s, hs, h1, h2, out, h3, h4⟩
      refine ⟨s, hs, ?_⟩
      unfold added
      rw [if_neg (by simp [h1, h2]), h3]
      exact (found_iff s out ty (hty s h1) y).2 h4
  -- a found sector was not there before
  have hnew : ∀ y, y ∈ t.sites.vals.flatMap (added want best (t.sectorsOfType ty)) → t.sectors.get? y.id = none := by
    intro y hy
    obtain ⟨s, _, _, h2, out, _, h4⟩ := (hm y).1 hy
    cases hg : t.sectors.get? y.id with
    | none => rfl
    | some z =>
      exfalso
      have hz := hid _ _ hg
      have : z ∈ t.sectorsOfType ty s.id := by
        unfold sectorsOfType
        rw [List.mem_filter]
        refine ⟨List.mem_map.2 ⟨_, Dict.mem_of_get? _ hg, rfl⟩, ?_⟩
        have e1 : z.typ = y.typ := congrArg SectorId.typ hz
        have e2 : z.site = y.site := congrArg SectorId.site hz
        rw [decide_eq_true_eq, e1, e2]
        exact ⟨h4.2.1, h4.1⟩
      rw [h2] at this
      cases this
  -- ids determine found sectors
  have huniq : ∀ y z, y ∈ t.sites.vals.flatMap (added want best (t.sectorsOfType ty)) →
      z ∈ t.sites.vals.flatMap (added want best (t.sectorsOfType ty)) → y.id = z.id → y = z := by
    intro y z hy hz e
    obtain ⟨s, _, _, _, out, b1, f1⟩ := (hm y).1 hy
    obtain ⟨s', _, _, _, out', b2, f2⟩ := (hm z).1 hz
    obtain ⟨a1, a2, a3, a4, azs, a5, a6⟩ := f1
    obtain ⟨c1, c2, c3, c4, azs', c5, c6⟩ := f2
    have e1 : y.site = z.site := congrArg SectorId.site e
    have e2 : y.node = z.node := congrArg SectorId.node e
    have e3 : y.pos = z.pos := congrArg SectorId.pos e
    have e4 : s.id = s'.id := by rw [← a1, e1, c1]
    rw [e4, b2] at b1
    cases b1
    rw [e2, c5] at a5
    cases a5
    rw [e3, c6] at a6
    cases y; cases z
    simp_all
  rw [hs, get?_append]
  set news := t.sites.vals.flatMap (added want best (t.sectorsOfType ty)) with hnews
  have hget : Dict.get? (news.map (fun x => (x.id, x))) id = some x ↔ x ∈ news ∧ x.id = id := by
    constructor
    · intro hg
      obtain ⟨y, hy, e⟩ := List.mem_map.1 (Dict.mem_of_get? _ hg)
      cases e
      exact ⟨hy, rfl⟩
    · rintro ⟨h1, h2⟩
      have : id ∈ Dict.keys (news.map (fun x => (x.id, x))) := by
        unfold Dict.keys
        rw [List.map_map]
        exact List.mem_map.2 ⟨x, h1, h2⟩
      obtain ⟨z, hz⟩ := (Dict.mem_keys_iff _ _).1 this
      obtain ⟨y, hy, e⟩ := List.mem_map.1 (Dict.mem_of_get? _ hz)
      obtain ⟨e1, e2⟩ := Prod.mk.inj e
      rw [huniq x y h1 hy (h2.trans e1.symm), hz, e2]
  cases hg : t.sectors.get? id with
  | some v =>
    simp only [Option.orElse_some, Option.some.injEq]
    constructor
    · exact Or.inl
    · rintro (h | ⟨h1, h2⟩)
      · exact h
      · have := hnew x ((hm x).2 h2)
        rw [h1, hg] at this
        cases this
  | none =>
    simp only [Option.orElse_none, reduceCtorEq, false_or]
    rw [hget, hm]
    exact and_comm

/-- C124 for distribution sites: after the creation the sectors are those that
were there before and, for every site that is not a client site and had no
sector for distribution links, those of the orientation found by the search for
that site: sector `j` of node `i` at the azimuth found for it, as a candidate
without channel. Sites and links stay as they were. -/
theorem C124_dn (ops : List Op) (mean : List ℚ → ℚ) (q : SiteId → Search) (t' : Topology)
    (h : createDnSectors mean (fun s => (q s).radio) (fun s => (q s).findBest) (run {} ops) = (t', none)) :
    t'.sites = (run {} ops).sites ∧ t'.links = (run {} ops).links ∧
    ∀ id x, t'.sectors.get? id = some x ↔ (run {} ops).sectors.get? id = some x ∨
      (x.id = id ∧ ∃ s, (run {} ops).sites.get? s.id = some s ∧ s.siteType ≠ .cn ∧
        (∀ id y, (run {} ops).sectors.get? id = some y → ¬ (y.typ = .dn ∧ y.site = s.id)) ∧
        ∃ out, (q s.id).findBest = .ok out ∧ FoundSector s out .dn x) := by
  obtain ⟨h1, h2, _⟩ := createLoop_ok _ _ _ _ _ _ _ _ h
  refine ⟨h1, h2, fun id x => ?_⟩
  have inv := Inv.empty.run ops
  generalize run {} ops = t at *
  have hs : ∀ s : Site, s ∈ t.sites.vals ↔ t.sites.get? s.id = some s := by
    intro s
    rw [dict_mem_vals inv.nd_sites]
    constructor
    · rintro ⟨k, hk⟩
      rw [inv.site_id k s hk]; exact hk
    · exact fun h => ⟨_, h⟩
  have he : ∀ s, t.sectorsOfType .dn s = [] ↔ ∀ id y, t.sectors.get? id = some y → ¬ (y.typ = .dn ∧ y.site = s) := by
    intro s
    unfold sectorsOfType
    rw [List.filter_eq_nil_iff]
    constructor
    · intro h id y hy
      have := h y ((dict_mem_vals inv.nd_sectors).2 ⟨id, hy⟩)
      simpa using this
    · intro h y hy
      obtain ⟨id, hy⟩ := (dict_mem_vals inv.nd_sectors).1 hy
      simpa using h id y hy
  rw [created_spec _ _ .dn _ _ t t' inv.sector_id (fun s hs => by rw [if_neg (of_decide_eq_true hs)]) h id x]
  simp only [hs, he, decide_eq_true_eq]

/-- C124 for client sites. -/
theorem C124_cn (ops : List Op) (mean : List ℚ → ℚ) (r : SiteId → Radio) (angles : SiteId → List ℚ) (t' : Topology)
    (h : createCnSectors mean r (fun s => equidistant (r s) (angles s)) (run {} ops) = (t', none)) :
    t'.sites = (run {} ops).sites ∧ t'.links = (run {} ops).links ∧
    ∀ id x, t'.sectors.get? id = some x ↔ (run {} ops).sectors.get? id = some x ∨
      (x.id = id ∧ ∃ s, (run {} ops).sites.get? s.id = some s ∧ s.siteType = .cn ∧
        (∀ id y, (run {} ops).sectors.get? id = some y → ¬ (y.typ = .cn ∧ y.site = s.id)) ∧
        ∃ out, equidistant (r s.id) (angles s.id) = .ok out ∧ FoundSector s out .cn x) := by
  obtain ⟨h1, h2, _⟩ := createLoop_ok _ _ _ _ _ _ _ _ h
  refine ⟨h1, h2, fun id x => ?_⟩
  have inv := Inv.empty.run ops
  generalize run {} ops = t at *
  have hs : ∀ s : Site, s ∈ t.sites.vals ↔ t.sites.get? s.id = some s := by
    intro s
    rw [dict_mem_vals inv.nd_sites]
    constructor
    · rintro ⟨k, hk⟩
      rw [inv.site_id k s hk]; exact hk
    · exact fun h => ⟨_, h⟩
  have he : ∀ s, t.sectorsOfType .cn s = [] ↔ ∀ id y, t.sectors.get? id = some y → ¬ (y.typ = .cn ∧ y.site = s) := by
    intro s
    unfold sectorsOfType
    rw [List.filter_eq_nil_iff]
    constructor
    · intro h id y hy
      have := h y ((dict_mem_vals inv.nd_sectors).2 ⟨id, hy⟩)
      simpa using this
    · intro h y hy
      obtain ⟨id, hy⟩ := (dict_mem_vals inv.nd_sectors).1 hy
      simpa using h id y hy
  rw [created_spec _ _ .cn _ _ t t' inv.sector_id (fun s hs => by rw [if_pos (of_decide_eq_true hs)]) h id x]
  simp only [hs, he, decide_eq_true_eq]

/-- The demonstration of C123: two sites, three sectors each. -/
example : (createdOnce 3 6).sectors.get? ⟨"A", 0, 1, .dn⟩ =
    some { site := "A", node := 0, pos := 1, typ := .dn, azimuth := 6 } := by decide +kernel

end Verif
