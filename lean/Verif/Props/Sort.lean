import Verif.Model.Ids
import Verif.Lemmas.Topology
import Verif.Lemmas.SortBy
import Verif.Props.Topology
import Std.Data.String.ToNat

/-! # C05 (sorting) and C63 (identifiers) -/

namespace Verif
open Topology Spec

/-- Site ids are MD5 hex digests, in particular they contain no hyphen. -/
def NoHyphen (s : String) : Prop := '-' ∉ s.toList

theorem append_hyphen_inj {a a' b b' : List Char} (ha : '-' ∉ a) (ha' : '-' ∉ a')
    (h : a ++ '-' :: b = a' ++ '-' :: b') : a = a' ∧ b = b' := by
  induction a generalizing a' with
  | nil =>
    cases a' with
    | nil => simpa using h
    | cons c t => simp at h; simp [← h.1] at ha'
  | cons c t ih =>
    cases a' with
    | nil => simp at h; simp [h.1] at ha
    | cons c' t' =>
      simp only [List.cons_append, List.cons.injEq] at h
      simp only [List.mem_cons, not_or] at ha ha'
      obtain ⟨h1, h2⟩ := ih ha.2 ha'.2 h.2
      exact ⟨by rw [h.1, h1], h2⟩

theorem hyphen_not_mem_repr (n : Nat) : '-' ∉ (Nat.repr n).toList := by
  rw [Nat.toList_repr]
  intro h
  have := Nat.isDigit_of_mem_toDigits (b := 10) (by decide) (by decide) h
  exact absurd this (by decide)

theorem SectorType.name_inj {a b : SectorType} (h : a.name.toList = b.name.toList) : a = b := by
  cases a <;> cases b <;> first | rfl | exact absurd h (by decide)

/-- **C63 (links).** Two link ids are equal as strings iff the links have the same
transmitter and the same receiver. -/
theorem C63_link_id_injective (i j : LinkId) (hi : NoHyphen i.tx) (hj : NoHyphen j.tx) :
    i.render = j.render ↔ i.tx = j.tx ∧ i.rx = j.rx := by
  constructor
  · intro h
    have h' := congrArg String.toList h
    simp only [LinkId.render, String.toList_append, String.append_assoc] at h'
    obtain ⟨h1, h2⟩ := append_hyphen_inj hi hj h'
    exact ⟨String.toList_inj.1 h1, String.toList_inj.1 h2⟩
  · rintro ⟨h1, h2⟩; simp [LinkId.render, h1, h2]

/-- **C63 (sectors).** Two sector ids are equal as strings iff site, node,
position and type agree. -/
theorem C63_sector_id_injective (i j : SectorId) (hi : NoHyphen i.site) (hj : NoHyphen j.site) :
    i.render = j.render ↔ i = j := by
  constructor
  · intro h
    have h' := congrArg String.toList h
    simp only [SectorId.render, String.toList_append, String.append_assoc] at h'
    obtain ⟨h1, h2⟩ := append_hyphen_inj hi hj h'
    obtain ⟨h3, h4⟩ := append_hyphen_inj (hyphen_not_mem_repr _) (hyphen_not_mem_repr _) h2
    obtain ⟨h5, h6⟩ := append_hyphen_inj (hyphen_not_mem_repr _) (hyphen_not_mem_repr _) h4
    cases i; cases j
    simp only [SectorId.mk.injEq]
    exact ⟨String.toList_inj.1 h1, Nat.repr_injective (String.toList_inj.1 h3),
      Nat.repr_injective (String.toList_inj.1 h5), SectorType.name_inj h6⟩
  · rintro rfl; rfl

/-- The hyphen hypothesis is needed: without it two different links collide. -/
example : (⟨"a-b", "c"⟩ : LinkId).render = (⟨"a", "b-c"⟩ : LinkId).render := by decide

example : NoHyphen "d41d8cd98f00b204e9800998ecf8427e" := by unfold NoHyphen; decide

/-- Ids in the topology contain no hyphen (they are hex digests). -/
def HexIds (t : Topology) : Prop := ∀ s ∈ t.sites.keys, NoHyphen s

theorem link_inj {t : Topology} (ht : Consistent t) (hh : HexIds t) :
    ∀ a ∈ t.links.keys, ∀ b ∈ t.links.keys, a.render = b.render → a = b := by
  have key : ∀ a ∈ t.links.keys, NoHyphen a.tx := by
    intro a ha
    obtain ⟨l, hl⟩ := (Dict.mem_keys_iff _ _).1 ha
    obtain ⟨h1, h2, _⟩ := ht.link_id _ _ hl
    rw [h1]; exact hh _ ((Dict.mem_keys_iff _ _).2 h2)
  intro a ha b hb h
  obtain ⟨h1, h2⟩ := (C63_link_id_injective a b (key a ha) (key b hb)).1 h
  cases a; cases b; simp_all

theorem sector_inj {t : Topology} (ht : Consistent t) (hh : HexIds t) :
    ∀ a ∈ t.sectors.keys, ∀ b ∈ t.sectors.keys, a.render = b.render → a = b := by
  have key : ∀ a ∈ t.sectors.keys, NoHyphen a.site := by
    intro a ha
    obtain ⟨l, hl⟩ := (Dict.mem_keys_iff _ _).1 ha
    obtain ⟨h1, h2⟩ := ht.sector_id _ _ hl
    rw [← h1]; exact hh _ ((Dict.mem_keys_iff _ _).2 h2)
  intro a ha b hb h
  exact (C63_sector_id_injective a b (key a ha) (key b hb)).1 h

/-- **C05 (contents).** Sorting keeps every object under its id; a demand site
only has its list of connected sites reordered. -/
theorem C05_sort_contents (t : Topology) (ht : Consistent t) :
    (∀ i, t.sort.sites.get? i = t.sites.get? i) ∧
    (∀ i, t.sort.sectors.get? i = t.sectors.get? i) ∧
    (∀ i, t.sort.links.get? i = t.links.get? i) ∧
    (∀ i d, t.demandSites.get? i = some d → ∃ c, c.Perm d.connected ∧
      t.sort.demandSites.get? i = some { d with connected := c }) ∧
    (∀ i, t.sort.demandSites.get? i = none ↔ t.demandSites.get? i = none) := by
  obtain ⟨h1, h2, h3, h4⟩ := ht.unique
  refine ⟨fun i => get?_of_perm (sortBy_nodupKeys _ h1) (sortBy_perm _ _) i,
    fun i => get?_of_perm (sortBy_nodupKeys _ h3) (sortBy_perm _ _) i,
    fun i => get?_of_perm (sortBy_nodupKeys _ h4) (sortBy_perm _ _) i, ?_, ?_⟩
  · intro i d hd
    refine ⟨d.connected.insertionSort (· ≤ ·), List.perm_insertionSort _ _, ?_⟩
    simp only [Topology.sort]
    rw [get?_map_val _ (fun d : DemandSite =>
      { d with connected := d.connected.insertionSort (· ≤ ·) }),
      get?_of_perm (sortBy_nodupKeys _ h2) (sortBy_perm _ _), hd]
    rfl
  · intro i
    simp only [Topology.sort]
    rw [get?_map_val _ (fun d : DemandSite =>
      { d with connected := d.connected.insertionSort (· ≤ ·) }),
      get?_of_perm (sortBy_nodupKeys _ h2) (sortBy_perm _ _)]
    simp

/-- **C05 (order).** After sorting, every dictionary iterates in strictly
increasing id order and every demand site lists its sites in increasing order. -/
theorem C05_sort_order (t : Topology) (ht : Consistent t) (hh : HexIds t) :
    t.sort.sites.keys.Pairwise (· < ·) ∧
    t.sort.demandSites.keys.Pairwise (· < ·) ∧
    t.sort.sectors.keys.Pairwise (fun a b => a.render < b.render) ∧
    t.sort.links.keys.Pairwise (fun a b => a.render < b.render) ∧
    (∀ i d, t.sort.demandSites.get? i = some d → d.connected.Pairwise (· ≤ ·)) := by
  obtain ⟨h1, h2, h3, h4⟩ := ht.unique
  refine ⟨keys_sorted_strict id h1 (by simp), ?_,
    keys_sorted_strict _ h3 (sector_inj ht hh), keys_sorted_strict _ h4 (link_inj ht hh), ?_⟩
  · have := keys_sorted_strict id h2 (by simp)
    simp only [Topology.sort]
    rw [keys_map_val _ (fun d : DemandSite =>
      { d with connected := d.connected.insertionSort (· ≤ ·) })]
    exact this
  · intro i d hd
    simp only [Topology.sort] at hd
    rw [get?_map_val _ (fun d : DemandSite =>
      { d with connected := d.connected.insertionSort (· ≤ ·) }), Option.map_eq_some_iff] at hd
    obtain ⟨d', _, rfl⟩ := hd
    exact List.pairwise_insertionSort _ _

/-- **C05 (determinism).** Two topologies with the same contents, whatever their
insertion orders, are indistinguishable by iteration after sorting. -/
theorem C05_sort_deterministic (t u : Topology) (ht : Consistent t) (hu : Consistent u)
    (hh : HexIds t)
    (hs : ∀ i, t.sites.get? i = u.sites.get? i)
    (hd : ∀ i, t.demandSites.get? i = u.demandSites.get? i)
    (hsec : ∀ i, t.sectors.get? i = u.sectors.get? i)
    (hl : ∀ i, t.links.get? i = u.links.get? i) :
    t.sort.sites = u.sort.sites ∧ t.sort.demandSites = u.sort.demandSites ∧
    t.sort.sectors = u.sort.sectors ∧ t.sort.links = u.sort.links := by
  obtain ⟨h1, h2, h3, h4⟩ := ht.unique
  obtain ⟨g1, g2, g3, g4⟩ := hu.unique
  refine ⟨eq_of_sorted id h1 (by simp) (perm_of_get? h1 g1 hs), ?_,
    eq_of_sorted _ h3 (sector_inj ht hh) (perm_of_get? h3 g3 hsec),
    eq_of_sorted _ h4 (link_inj ht hh) (perm_of_get? h4 g4 hl)⟩
  simp only [Topology.sort]
  rw [eq_of_sorted id h2 (by simp) (perm_of_get? h2 g2 hd)]

/-- **C05 (idempotence).** -/
theorem C05_sort_idempotent (t : Topology) : t.sort.sort = t.sort := by
  have hd : ∀ d : Dict DemandId DemandSite,
      Dict.sortBy id (d.map fun p =>
        (p.1, { p.2 with connected := p.2.connected.insertionSort (· ≤ ·) })) =
      (d.sortBy id).map fun p =>
        (p.1, { p.2 with connected := p.2.connected.insertionSort (· ≤ ·) }) := by
    intro d
    unfold Dict.sortBy
    exact (List.map_insertionSort (fun a b : DemandId × DemandSite => id a.1 ≤ id b.1)
      (fun a b : DemandId × DemandSite => id a.1 ≤ id b.1) (fun p : DemandId × DemandSite =>
      (p.1, { p.2 with connected := p.2.connected.insertionSort (· ≤ ·) })) d
      (fun _ _ _ _ => Iff.rfl)).symm
  simp only [Topology.sort, sortBy_idem, hd, List.map_map]
  congr 1
  apply List.map_congr_left
  intro p _
  simp only [Function.comp, Prod.mk.injEq, true_and]
  congr 1
  exact List.Pairwise.insertionSort_eq (List.pairwise_insertionSort _ _)

example : Consistent demo ∧ HexIds demo ∧ demo.sites.keys = ["p", "d", "c"] ∧
    demo.sort.sites.keys = ["c", "d", "p"] :=
  ⟨C01_consistent _, by unfold HexIds NoHyphen; decide +kernel, by decide +kernel, by decide +kernel⟩

end Verif
