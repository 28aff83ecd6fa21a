import Verif.Model.Counter
import Verif.Props.GeoHash
import Verif.Props.Hops
import Verif.Props.Sort
import Mathlib.Algebra.BigOperators.Group.Finset.Basic
import Mathlib.Data.Sym.Sym2

/-! # C61, C68, C69, C70: the component counters of the report -/

namespace Verif
open Topology Spec

/-! ## Sites -/

/-- Physical locations (longitude, latitude, altitude) holding a site that satisfies `P`. -/
def Spec.locations (t : Topology) (P : Site → Bool) : Finset (ℚ × ℚ × Option ℚ) :=
  ((t.sites.vals.filter P).map (fun s => (s.lon, s.lat, s.alt))).toFinset

theorem group_fold {κ α β : Type} [DecidableEq κ] (key : α → κ) (val : α → β) (L : List α) :
    ∀ d : Dict κ (List β), d.NodupKeys →
    let d' := L.foldl (fun d p => d.set (key p) ((d.get? (key p)).getD [] ++ [val p])) d
    d'.NodupKeys ∧ (∀ k, (d'.get? k).getD [] = (d.get? k).getD [] ++
      (L.filter (fun p => key p = k)).map val) ∧
    (∀ p ∈ L, key p ∈ d'.keys) ∧ (∀ k ∈ d.keys, k ∈ d'.keys) := by
  induction L with
  | nil => intro d hd; simp [hd]
  | cons p L ih =>
    intro d hd
    simp only [List.foldl_cons]
    obtain ⟨h1, h2, h3, h4⟩ := ih (d.set (key p) ((d.get? (key p)).getD [] ++ [val p])) (hd.set _ _)
    have hk : ∀ k, k ∈ (d.set (key p) ((d.get? (key p)).getD [] ++ [val p])).keys ↔
        k = key p ∨ k ∈ d.keys := by
      intro k
      rw [Dict.mem_keys_iff, Dict.mem_keys_iff]
      simp only [Dict.get?_set]
      by_cases c : key p = k
      · simp [c]
      · have c' : ¬ k = key p := fun h => c h.symm
        simp [c, c']
    refine ⟨h1, ?_, ?_, ?_⟩
    · intro k
      rw [h2 k, Dict.get?_set]
      by_cases c : key p = k
      · subst c; simp
      · simp [c]
    · intro q hq
      rcases List.mem_cons.1 hq with rfl | hq
      · exact h4 _ ((hk _).2 (Or.inl rfl))
      · exact h3 q hq
    · intro k hk'
      exact h4 _ ((hk k).2 (Or.inr hk'))

theorem count_sub_redundant {κ : Type} [DecidableEq κ] (L K : List κ) (hK : K.Nodup)
    (hc : ∀ a ∈ L, a ∈ K) :
    L.length = (K.map (fun k => L.countP (fun a => decide (a = k)) - 1)).sum + L.toFinset.card := by
  have e0 : ∀ k, L.countP (fun a => decide (a = k)) = L.count k := by
    intro k; rw [List.count_eq_countP]; congr 1
  simp only [e0]
  have e1 : (K.map (fun k => L.count k - 1)).sum = ∑ k ∈ K.toFinset, (L.count k - 1) := by
    rw [List.sum_toFinset _ hK]
  have e2 : ∑ k ∈ K.toFinset, (L.count k - 1) = ∑ k ∈ L.toFinset, (L.count k - 1) := by
    symm
    apply Finset.sum_subset
    · intro a ha; rw [List.mem_toFinset] at ha ⊢; exact hc a ha
    · intro a _ ha
      rw [List.mem_toFinset] at ha
      simp [List.count_eq_zero_of_not_mem ha]
  rw [e1, e2, Finset.card_eq_sum_ones, ← Finset.sum_add_distrib,
    ← List.sum_toFinset_count_eq_length]
  apply Finset.sum_congr rfl
  intro a ha
  rw [List.mem_toFinset] at ha
  have := List.count_pos_iff.2 ha
  omega

theorem redundant_spec (t : Topology) (hn : t.sites.NodupKeys) (sub : SiteId → Bool)
    (ty : SiteType) :
    (t.sites.filter (fun p => p.2.siteType = ty && sub p.1)).length = t.redundant sub ty +
      ((t.sites.filter (fun p => p.2.siteType = ty && sub p.1)).map
        (fun p => p.2.point)).toFinset.card := by
  obtain ⟨h1, h2, h3, _⟩ := group_fold (fun p : SiteId × Site => p.2.point) Prod.fst t.sites []
    Dict.nodupKeys_nil
  change t.colocated.NodupKeys at h1
  change ∀ k, (t.colocated.get? k).getD [] = _ at h2
  change ∀ p ∈ t.sites, p.2.point ∈ t.colocated.keys at h3
  have hg : ∀ k, t.groupCount sub ((t.colocated.get? k).getD []) ty =
      ((t.sites.filter (fun p => p.2.siteType = ty && sub p.1)).map (fun p => p.2.point)).countP (fun a => decide (a = k)) := by
    intro k
    rw [h2 k]
    simp only [Dict.get?_nil, Option.getD_none, List.nil_append]
    unfold groupCount
    rw [List.filter_map, List.length_map, List.filter_filter,
      List.countP_map, List.countP_eq_length_filter, List.filter_filter]
    congr 1
    apply List.filter_congr
    rintro ⟨i, s⟩ hm
    have := (Dict.mem_iff_get? hn i s).1 hm
    simp only [Function.comp_apply, this]
    rw [Bool.eq_iff_iff]
    simp only [Bool.and_eq_true, decide_eq_true_eq, beq_iff_eq]
    tauto
  have hv : t.colocated.vals = t.colocated.keys.map (fun k => (t.colocated.get? k).getD []) := by
    unfold Dict.vals Dict.keys
    rw [List.map_map]
    apply List.map_congr_left
    rintro ⟨k, v⟩ hp
    simp [(Dict.mem_iff_get? h1 k v).1 hp]
  have hr : t.redundant sub ty = (t.colocated.keys.map (fun k =>
      ((t.sites.filter (fun p => p.2.siteType = ty && sub p.1)).map (fun p => p.2.point)).countP (fun a => decide (a = k)) - 1)).sum := by
    unfold redundant
    rw [hv, List.map_map]
    congr 1
    apply List.map_congr_left
    intro k _
    simp only [Function.comp_apply, hg]
    split <;> omega
  rw [hr]
  have := count_sub_redundant ((t.sites.filter (fun p => p.2.siteType = ty && sub p.1)).map
    (fun p => p.2.point)) t.colocated.keys h1 (by
      intro a ha
      obtain ⟨p, hp, rfl⟩ := List.mem_map.1 ha
      exact h3 p (List.mem_filter.1 hp).1)
  rw [List.length_map] at this
  exact this

theorem siteCount_eq (t : Topology) (f : Filter) (ty : SiteType) :
    t.siteCount f ty = (t.sites.filter (fun p => p.2.siteType = ty && f p.2.status)).length := by
  unfold siteCount Dict.vals
  rw [List.count_eq_countP, List.countP_map, List.countP_eq_length_filter, List.filter_filter,
    List.filter_map, List.length_map]
  congr 1

theorem totalSitesOf_eq (t : Topology) (hn : t.sites.NodupKeys) (ty : SiteType) :
    t.totalSitesOf ty = (locations t (fun s => s.siteType = ty)).card := by
  have h := redundant_spec t hn (fun _ => true) ty
  unfold totalSitesOf
  rw [siteCount_eq]
  have e : locations t (fun s => s.siteType = ty) = ((t.sites.filter (fun p => p.2.siteType = ty
      && (fun _ => true) p.1)).map (fun p => p.2.point)).toFinset := by
    unfold locations Dict.vals
    rw [List.filter_map, List.map_map]
    congr 2
    apply List.filter_congr; simp
  rw [e]
  simp only [Bool.and_true, anyFilter] at h ⊢
  omega

/-- **C61 (sites).** The reported total number of sites of a type is the number
of physical locations holding a site of that type. -/
theorem C61_total_sites (ops : List Op) (ty : SiteType) :
    (run {} ops).totalSitesOf ty = (locations (run {} ops) (fun s => s.siteType = ty)).card :=
  totalSitesOf_eq _ (Inv.empty.run ops).nd_sites ty

/-- **C61 (totals).** The overall totals are the sums over the three types; the
active total counts the sites of active status. -/
theorem C61_totals_add_up (t : Topology) :
    t.totalSites = t.totalSitesOf .pop + t.totalSitesOf .dn + t.totalSitesOf .cn ∧
    t.activeSites = (t.sites.vals.filter (fun s => s.status = .proposed ∨ s.status = .existing)).length := by
  constructor
  · unfold totalSites totalSitesOf; simp; ring
  · unfold activeSites
    simp only [List.map_cons, List.map_nil, List.sum_cons, List.sum_nil, siteCount]
    have e : t.sites.vals.filter (fun s => s.status = .proposed ∨ s.status = .existing) =
        t.sites.vals.filter (fun s => activeFilter s.status) := by
      apply List.filter_congr
      intro s _
      cases s.status <;> rfl
    rw [e]
    generalize t.sites.vals.filter (fun s => activeFilter s.status) = L
    induction L with
    | nil => rfl
    | cons s L ih =>
      simp only [List.map_cons, List.length_cons]
      cases h : s.siteType <;> simp <;> omega

/-- **C61 (connectable).** The reported connectable DNs/CNs are the physical
locations holding a site of that type with a path from a POP. -/
theorem C61_connectable (ops : List Op) (ty : SiteType) :
    ∃ P : Site → Bool, (∀ s, P s = true ↔ s.siteType = ty ∧
      ∃ n, HopPath (run {} ops) StatusType.reachable s.id n) ∧
    (run {} ops).connectable ty = some ((locations (run {} ops) P).card : Int) := by
  obtain ⟨hc, e1, h1, h2⟩ := C08_hops ops StatusType.reachable
  have inv := Inv.empty.run ops
  generalize run {} ops = t at *
  refine ⟨fun s => s.siteType = ty && hc.has s.id, ?_, ?_⟩
  · intro s
    simp only [Bool.and_eq_true, decide_eq_true_eq, Dict.has_iff]
    constructor
    · rintro ⟨h, n, hn⟩; exact ⟨h, n, ((h1 _ _).1 hn).1⟩
    · rintro ⟨h, n, hn⟩
      refine ⟨h, ?_⟩
      cases e : hc.get? s.id with
      | some v => exact ⟨v, rfl⟩
      | none => exact absurd hn ((h2 s.id).1 e n)
  · unfold connectable
    rw [e1, Option.map_some]
    have h := redundant_spec t inv.nd_sites hc.has ty
    have e : locations t (fun s => s.siteType = ty && hc.has s.id) =
        ((t.sites.filter (fun p => p.2.siteType = ty && hc.has p.1)).map
          (fun p => p.2.point)).toFinset := by
      unfold locations Dict.vals
      rw [List.filter_map, List.map_map]
      congr 2
      apply List.filter_congr
      rintro ⟨i, s⟩ hm
      have := inv.site_id i s ((Dict.mem_iff_get? inv.nd_sites i s).1 hm)
      simp [this]
    rw [e]
    congr 1
    omega

/-! ## Links -/

/-- Coordinates accepted by the site constructor. -/
def Spec.ValidCoords (t : Topology) : Prop :=
  ∀ id s, t.sites.get? id = some s → -90 ≤ s.lat ∧ s.lat ≤ 90 ∧ -180 ≤ s.lon ∧ s.lon ≤ 180

/-- Grid cell and type of a site. -/
def Spec.cellOf (s : Site) : ℤ × ℤ × SiteType :=
  (cellIndex (-180) 360 25 s.lon, cellIndex (-90) 180 25 s.lat, s.siteType)

theorem siteType_str_inj {a b : SiteType} (h : a.str = b.str) : a = b := by
  cases a <;> cases b <;> first | rfl | exact absurd h (by decide)

theorem geoHash_of_valid {s : Site} (h : -90 ≤ s.lat ∧ s.lat ≤ 90 ∧ -180 ≤ s.lon ∧ s.lon ≤ 180) :
    geoHash s.lat s.lon = some s.hash := by
  have := (C67_defined_iff s.lat s.lon).2 h
  obtain ⟨x, hx⟩ := Option.isSome_iff_exists.1 this
  unfold Site.hash; rw [hx]; rfl

theorem endHash_iff {t : Topology} (hv : ValidCoords t) {a b : SiteId} {x y : Site}
    (ha : t.sites.get? a = some x) (hb : t.sites.get? b = some y) :
    t.endHash a = t.endHash b ↔ cellOf x = cellOf y := by
  have hx := geoHash_of_valid (hv a x ha)
  have hy := geoHash_of_valid (hv b y hb)
  have hi := C67_same_hash_iff _ _ _ _ _ _ hx hy
  unfold endHash cellOf
  simp only [ha, hb, Prod.mk.injEq]
  rw [← and_assoc, ← hi]
  constructor
  · intro h
    have h' := congrArg String.toList h
    simp only [String.toList_append, List.append_assoc] at h'
    obtain ⟨h1, h2⟩ := List.append_inj h' (by
      rw [String.length_toList, String.length_toList, (C67_format _ _ _ hx).1,
        (C67_format _ _ _ hy).1])
    exact ⟨String.toList_inj.1 h1, siteType_str_inj (String.toList_inj.1 (by simpa using h2))⟩
  · rintro ⟨h1, h2⟩; rw [h1, h2]

theorem endHash_no_hyphen {t : Topology} (hv : ValidCoords t) {a : SiteId} {x : Site}
    (ha : t.sites.get? a = some x) : '-' ∉ (t.endHash a).toList := by
  have hx := geoHash_of_valid (hv a x ha)
  unfold endHash
  simp only [ha, String.toList_append, List.mem_append, not_or]
  refine ⟨⟨?_, by decide⟩, ?_⟩
  · intro h
    have := (C67_format _ _ _ hx).2 _ h
    exact absurd this (by decide)
  · cases x.siteType <;> decide

theorem pair_hash_iff {a b c d : String} (ha : '-' ∉ a.toList) (hb : '-' ∉ b.toList)
    (hc : '-' ∉ c.toList) (hd : '-' ∉ d.toList) :
    ((if b < a then b ++ "-" ++ a else a ++ "-" ++ b) =
      (if d < c then d ++ "-" ++ c else c ++ "-" ++ d)) ↔ s(a, b) = s(c, d) := by
  have key : ∀ {p q r s : String}, '-' ∉ p.toList → '-' ∉ r.toList →
      (p ++ "-" ++ q = r ++ "-" ++ s ↔ p = r ∧ q = s) := by
    intro p q r s hp hr
    constructor
    · intro h
      have h' := congrArg String.toList h
      simp only [String.toList_append, String.append_assoc] at h'
      obtain ⟨h1, h2⟩ := append_hyphen_inj hp hr h'
      exact ⟨String.toList_inj.1 h1, String.toList_inj.1 h2⟩
    · rintro ⟨rfl, rfl⟩; rfl
  rw [Sym2.eq_iff]
  split <;> split
  · rw [key hb hd]
    rename_i h1 h2
    constructor
    · rintro ⟨rfl, rfl⟩; exact Or.inl ⟨rfl, rfl⟩
    · rintro (⟨rfl, rfl⟩ | ⟨rfl, rfl⟩)
      · exact ⟨rfl, rfl⟩
      · exact absurd h1 (not_lt_of_gt h2)
  · rw [key hb hc]
    rename_i h1 h2
    constructor
    · rintro ⟨rfl, rfl⟩; exact Or.inr ⟨rfl, rfl⟩
    · rintro (⟨rfl, rfl⟩ | ⟨rfl, rfl⟩)
      · exact absurd h1 h2
      · exact ⟨rfl, rfl⟩
  · rw [key ha hd]
    rename_i h1 h2
    constructor
    · rintro ⟨rfl, rfl⟩; exact Or.inr ⟨rfl, rfl⟩
    · rintro (⟨rfl, rfl⟩ | ⟨rfl, rfl⟩)
      · exact absurd h2 h1
      · exact ⟨rfl, rfl⟩
  · rw [key ha hc]
    rename_i h1 h2
    constructor
    · rintro ⟨rfl, rfl⟩; exact Or.inl ⟨rfl, rfl⟩
    · rintro (⟨rfl, rfl⟩ | ⟨rfl, rfl⟩)
      · exact ⟨rfl, rfl⟩
      · exact ⟨le_antisymm (not_lt.1 h1) (not_lt.1 h2), le_antisymm (not_lt.1 h2) (not_lt.1 h1)⟩

theorem dedup_length_eq_card {α β γ : Type} [DecidableEq β] [DecidableEq γ] (L : List α)
    (f : α → β) (g : α → γ) (h : ∀ a ∈ L, ∀ b ∈ L, f a = f b ↔ g a = g b) :
    (L.map f).dedup.length = (L.map g).toFinset.card := by
  rw [List.card_toFinset]
  induction L with
  | nil => rfl
  | cons a L ih =>
    have ih := ih (fun x hx y hy => h x (by simp [hx]) y (by simp [hy]))
    simp only [List.map_cons]
    have hm : f a ∈ L.map f ↔ g a ∈ L.map g := by
      simp only [List.mem_map]
      constructor
      · rintro ⟨b, hb, e⟩; exact ⟨b, hb, (h b (by simp [hb]) a (by simp)).1 e⟩
      · rintro ⟨b, hb, e⟩; exact ⟨b, hb, (h b (by simp [hb]) a (by simp)).2 e⟩
    by_cases c : f a ∈ L.map f
    · rw [List.dedup_cons_of_mem c, List.dedup_cons_of_mem (hm.1 c), ih]
    · rw [List.dedup_cons_of_notMem c, List.dedup_cons_of_notMem (fun h => c (hm.2 h))]
      simp [ih]

/-- The type of a link as the report groups it: by medium, wireless links by
whether the receiver is a CN. -/
def Spec.HasType (t : Topology) (l : Link) : LinkType → Prop
  | .ethernet => l.isWireless = false
  | .wirelessAccess => l.isWireless = true ∧ ∃ x, t.sites.get? l.rx = some x ∧ x.siteType = .cn
  | .wirelessBackhaul => l.isWireless = true ∧ ∃ x, t.sites.get? l.rx = some x ∧ x.siteType ≠ .cn

theorem linkType_iff {t : Topology} {l : Link} {x : Site} (hx : t.sites.get? l.rx = some x)
    (ty : LinkType) : t.linkType l = ty ↔ HasType t l ty := by
  unfold linkType
  cases hw : l.isWireless
  · cases ty <;> simp [HasType, hw]
  · simp only [Bool.not_true, Bool.false_eq_true, if_false, hx]
    by_cases c : x.siteType = .cn <;> cases ty <;> simp [HasType, hw, hx, c]

/-- The site filed under an id, with a default for absent ids. -/
def siteAt (t : Topology) (i : SiteId) : Site :=
  (t.sites.get? i).getD { id := i, siteType := .dn, status := .candidate }

theorem linkHash_iff {t : Topology} (hv : ValidCoords t) {l l' : Link} {a b c d : Site}
    (h1 : t.sites.get? l.tx = some a) (h2 : t.sites.get? l.rx = some b)
    (h3 : t.sites.get? l'.tx = some c) (h4 : t.sites.get? l'.rx = some d) :
    t.linkHash l = t.linkHash l' ↔ s(cellOf a, cellOf b) = s(cellOf c, cellOf d) := by
  unfold linkHash
  rw [pair_hash_iff (endHash_no_hyphen hv h1) (endHash_no_hyphen hv h2)
    (endHash_no_hyphen hv h3) (endHash_no_hyphen hv h4), Sym2.eq_iff, Sym2.eq_iff,
    endHash_iff hv h1 h3, endHash_iff hv h2 h4, endHash_iff hv h1 h4, endHash_iff hv h2 h3]

/-- **C61 (links).** The number of links of a type reported is the number of
distinct unordered pairs of ends, an end being a grid cell and a site type;
thus a link and its reverse count once. -/
theorem C61_link_count (ops : List Op) (f : StatusType → Bool) (ty : LinkType)
    (hv : ValidCoords (run {} ops)) :
    ∃ L : List Link, (∀ l, l ∈ L ↔ (run {} ops).links.get? ⟨l.tx, l.rx⟩ = some l ∧
        f l.status = true ∧ HasType (run {} ops) l ty) ∧
      (run {} ops).linkCount f ty = (L.map (fun l =>
        s(cellOf (siteAt (run {} ops) l.tx), cellOf (siteAt (run {} ops) l.rx)))).toFinset.card := by
  have inv := Inv.empty.run ops
  generalize run {} ops = t at *
  refine ⟨t.links.vals.filter (fun l => f l.status && t.linkType l = ty), ?_, ?_⟩
  · intro l
    simp only [List.mem_filter, Bool.and_eq_true, decide_eq_true_eq, Dict.vals, List.mem_map,
      Prod.exists, exists_eq_right]
    constructor
    · rintro ⟨⟨i, hi⟩, h1, h2⟩
      have hg := (Dict.mem_iff_get? inv.nd_links _ _).1 hi
      obtain ⟨x, hx⟩ := inv.link_rx _ _ hg
      have e := inv.link_id _ _ hg
      exact ⟨e ▸ hg, h1, (linkType_iff hx ty).1 h2⟩
    · rintro ⟨hg, h1, h2⟩
      obtain ⟨x, hx⟩ := inv.link_rx _ _ hg
      exact ⟨⟨_, (Dict.mem_iff_get? inv.nd_links _ _).2 hg⟩, h1, (linkType_iff hx ty).2 h2⟩
  · apply dedup_length_eq_card
    have key : ∀ l ∈ t.links.vals.filter (fun l => f l.status && t.linkType l = ty),
        t.sites.get? l.tx = some (siteAt t l.tx) ∧ t.sites.get? l.rx = some (siteAt t l.rx) := by
      intro l hl
      have := (List.mem_filter.1 hl).1
      obtain ⟨⟨i, l⟩, hi, rfl⟩ := List.mem_map.1 this
      have hg := (Dict.mem_iff_get? inv.nd_links _ _).1 hi
      obtain ⟨x, hx⟩ := inv.link_rx _ _ hg
      obtain ⟨y, hy⟩ := inv.link_tx _ _ hg
      simp [siteAt, hx, hy]
    intro l hl l' hl'
    exact linkHash_iff hv (key l hl).1 (key l hl).2 (key l' hl').1 (key l' hl').2

/-- Two different sites of one type never share a grid cell. -/
def Spec.CellsDistinct (t : Topology) : Prop :=
  ∀ i j x y, t.sites.get? i = some x → t.sites.get? j = some y → cellOf x = cellOf y → i = j

/-- **C61 (links), `_partial`.** Full statement (false of the code): the number
of links reported is the number of pairs of sites joined by a link, a link and
its reverse counting once. Proved when different sites of one type lie in
different cells; missing: sites of one type stacked at different altitudes or
closer than a cell, see `C61_stacked_violation`. -/
theorem C61_link_pairs_partial (ops : List Op) (f : StatusType → Bool) (ty : LinkType)
    (hv : ValidCoords (run {} ops)) (hd : CellsDistinct (run {} ops)) :
    ∃ L : List Link, (∀ l, l ∈ L ↔ (run {} ops).links.get? ⟨l.tx, l.rx⟩ = some l ∧
        f l.status = true ∧ HasType (run {} ops) l ty) ∧
      (run {} ops).linkCount f ty = (L.map (fun l => s(l.tx, l.rx))).toFinset.card := by
  obtain ⟨L, h1, h2⟩ := C61_link_count ops f ty hv
  refine ⟨L, h1, ?_⟩
  rw [h2, List.card_toFinset]
  apply dedup_length_eq_card
  have inv := Inv.empty.run ops
  generalize run {} ops = t at *
  have key : ∀ l ∈ L,
      t.sites.get? l.tx = some (siteAt t l.tx) ∧ t.sites.get? l.rx = some (siteAt t l.rx) := by
    intro l hl
    have hg := ((h1 l).1 hl).1
    obtain ⟨x, hx⟩ := inv.link_rx _ _ hg
    obtain ⟨y, hy⟩ := inv.link_tx _ _ hg
    simp [siteAt, hx, hy]
  have inj : ∀ i j, t.sites.get? i = some (siteAt t i) → t.sites.get? j = some (siteAt t j) →
      (cellOf (siteAt t i) = cellOf (siteAt t j) ↔ i = j) := by
    intro i j hi hj
    exact ⟨fun h => hd i j _ _ hi hj h, fun h => by rw [h]⟩
  intro l hl l' hl'
  rw [Sym2.eq_iff, Sym2.eq_iff, inj _ _ (key l hl).1 (key l' hl').1,
    inj _ _ (key l hl).2 (key l' hl').2, inj _ _ (key l hl).1 (key l' hl').2,
    inj _ _ (key l hl).2 (key l' hl').1]

/-- A POP linked both ways with a DN, and with a second DN mounted above the first. -/
def stacked : List Op := [
  .addSite { id := "p", siteType := .pop, status := .candidate, lat := 1, lon := 1, alt := some 5 } false,
  .addSite { id := "d", siteType := .dn, status := .candidate, lat := 2, lon := 2, alt := some 5 } false,
  .addSite { id := "e", siteType := .dn, status := .candidate, lat := 2, lon := 2, alt := some 9 } false,
  .addLink { tx := "p", rx := "d" }, .addLink { tx := "d", rx := "p" }, .addLink { tx := "p", rx := "e" }]

/-- **C61 violation.** Two DNs at different heights on one mast are two sites but
their two links to the POP are reported as one. -/
theorem C61_stacked_violation :
    (run {} stacked).totalSitesOf .dn = 2 ∧ (run {} stacked).links.length = 3 ∧
    (run {} stacked).linkCount (fun _ => true) .wirelessBackhaul = 1 := by decide +kernel

/-- A link and its reverse on an ordinary topology count once. -/
example :
    let t := run {} [
      .addSite { id := "p", siteType := .pop, status := .candidate, lat := 1, lon := 1 } false,
      .addSite { id := "d", siteType := .dn, status := .candidate, lat := 2, lon := 2 } false,
      .addSite { id := "c", siteType := .cn, status := .candidate, lat := 3, lon := 2 } false,
      .addLink { tx := "p", rx := "d" }, .addLink { tx := "d", rx := "p" }, .addLink { tx := "d", rx := "c" }]
    t.linkCount (fun _ => true) .wirelessBackhaul = 1 ∧ t.linkCount (fun _ => true) .wirelessAccess = 1 ∧
    t.totalSites = 3 ∧ t.connectable .cn = some 1 := by decide +kernel

end Verif
