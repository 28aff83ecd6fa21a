import Verif.Model.Capex
import Verif.Props.Solution
import Mathlib.Algebra.BigOperators.Group.Finset.Basic
import Mathlib.Algebra.BigOperators.Group.Finset.Piecewise

/-! # C14: CAPEX -/

namespace Verif
open Topology Spec

/-- The sectors of each node share one status. -/
def Spec.NodesUniform (t : Topology) : Prop :=
  ∀ x ∈ t.sectors.vals, ∀ y ∈ t.sectors.vals, x.site = y.site → x.node = y.node →
    x.status = y.status

/-- The distinct nodes (site, node number) having a sector of status `st`. -/
def Spec.nodesWith (t : Topology) (st : StatusType) : Finset (SiteId × Nat) :=
  ((t.sectors.vals.filter (fun x => x.status = st)).map (fun x => (x.site, x.node))).toFinset

/-- Cost of everything of status `st`: the device's node cost for each node, the
site cost for each site. -/
def Spec.costOf (t : Topology) (c : SiteCosts) (st : StatusType) : ℚ :=
  (∑ n ∈ nodesWith t st, (((t.sites.get? n.1).map (fun s => s.device.nodeCapex)).getD 0)) +
  ((t.sites.vals.filter (fun s => s.status = st)).map (fun s => c.of s.siteType)).sum

theorem nodeCapex_eq (t : Topology) (s : SiteId) :
    t.nodeCapex s = ((t.sites.get? s).map (fun s => s.device.nodeCapex)).getD 0 := by
  unfold nodeCapex; cases t.sites.get? s <;> rfl

theorem capexSector_fold (t : Topology) (g : SiteId × Nat → StatusType) (L : List Sector)
    (hg : ∀ x ∈ L, x.status = g (x.site, x.node)) (st0 : CapexState) :
    let st := L.foldl t.capexSector st0
    let new := (L.map (fun x => (x.site, x.node))).toFinset \ st0.seen.toFinset
    st.proposed = st0.proposed + ∑ n ∈ new.filter (fun n => g n = .proposed), t.nodeCapex n.1 ∧
    st.existing = st0.existing + ∑ n ∈ new.filter (fun n => g n = .existing), t.nodeCapex n.1 := by
  induction L generalizing st0 with
  | nil => simp
  | cons x L ih =>
    have hx := hg x (by simp)
    have ih := ih (fun y hy => hg y (by simp [hy]))
    simp only [List.foldl_cons]
    by_cases c : (x.site, x.node) ∈ st0.seen
    · have e : t.capexSector st0 x = st0 := by simp [capexSector, c]
      rw [e]
      have := ih st0
      simp only at this ⊢
      have es : ((x :: L).map (fun x => (x.site, x.node))).toFinset \ st0.seen.toFinset =
          (L.map (fun x => (x.site, x.node))).toFinset \ st0.seen.toFinset := by
        ext n
        simp only [List.map_cons, List.toFinset_cons, Finset.mem_sdiff, Finset.mem_insert,
          List.mem_toFinset]
        constructor
        · rintro ⟨rfl | h, h2⟩
          · exact absurd c h2
          · exact ⟨h, h2⟩
        · rintro ⟨h, h2⟩; exact ⟨Or.inr h, h2⟩
      rw [es]; exact this
    · have hseen : (t.capexSector st0 x).seen = (x.site, x.node) :: st0.seen := by
        unfold capexSector; rw [if_neg c]; cases x.status <;> rfl
      have hp : (t.capexSector st0 x).proposed =
          st0.proposed + if g (x.site, x.node) = .proposed then t.nodeCapex x.site else 0 := by
        unfold capexSector; rw [if_neg c, ← hx]; cases x.status <;> simp
      have he : (t.capexSector st0 x).existing =
          st0.existing + if g (x.site, x.node) = .existing then t.nodeCapex x.site else 0 := by
        unfold capexSector; rw [if_neg c, ← hx]; cases x.status <;> simp
      have := ih (t.capexSector st0 x)
      simp only [hseen, hp, he] at this ⊢
      rw [this.1, this.2]
      have es : ((x :: L).map (fun x => (x.site, x.node))).toFinset \ st0.seen.toFinset =
          insert (x.site, x.node) ((L.map (fun x => (x.site, x.node))).toFinset \
            ((x.site, x.node) :: st0.seen).toFinset) := by
        ext n
        simp only [List.map_cons, List.toFinset_cons, Finset.mem_sdiff, Finset.mem_insert,
          List.mem_toFinset]
        by_cases hn : n = (x.site, x.node)
        · subst hn; simp [c]
        · simp [hn]
      have hnot : (x.site, x.node) ∉ ((L.map (fun x => (x.site, x.node))).toFinset \
            ((x.site, x.node) :: st0.seen).toFinset) := by simp
      rw [es]
      constructor
      · rw [Finset.filter_insert]
        split
        · rw [Finset.sum_insert (by simp [hnot]), add_assoc]
        · rw [add_zero]
      · rw [Finset.filter_insert]
        split
        · rw [Finset.sum_insert (by simp [hnot]), add_assoc]
        · rw [add_zero]

theorem capexSite_fold (c : SiteCosts) (L : List Site) (st0 : CapexState) :
    (L.foldl (capexSite c) st0).proposed = st0.proposed +
      ((L.filter (fun s => s.status = .proposed)).map (fun s => c.of s.siteType)).sum ∧
    (L.foldl (capexSite c) st0).existing = st0.existing +
      ((L.filter (fun s => s.status = .existing)).map (fun s => c.of s.siteType)).sum := by
  induction L generalizing st0 with
  | nil => simp
  | cons x L ih =>
    simp only [List.foldl_cons]
    obtain ⟨h1, h2⟩ := ih (capexSite c st0 x)
    rw [h1, h2]
    unfold capexSite
    cases hs : x.status <;> simp [hs, add_assoc]

theorem computeCapex_eq (t : Topology) (c : SiteCosts) (hu : NodesUniform t) :
    t.computeCapex c = (costOf t c .proposed + costOf t c .existing, costOf t c .proposed) := by
  classical
  let g : SiteId × Nat → StatusType := fun n =>
    if h : ∃ x ∈ t.sectors.vals, (x.site, x.node) = n then h.choose.status else .candidate
  have hg : ∀ x ∈ t.sectors.vals, x.status = g (x.site, x.node) := by
    intro x hx
    have h : ∃ y ∈ t.sectors.vals, (y.site, y.node) = (x.site, x.node) := ⟨x, hx, rfl⟩
    have hh := h.choose_spec
    have e := Prod.mk.inj hh.2
    simp only [g, dif_pos h]
    exact hu x hx _ hh.1 e.1.symm e.2.symm
  have hn : ∀ st, ((t.sectors.vals.map (fun x => (x.site, x.node))).toFinset \
      ([] : List (SiteId × Nat)).toFinset).filter (fun n => g n = st) = nodesWith t st := by
    intro st
    ext n
    simp only [nodesWith, List.toFinset_nil, Finset.sdiff_empty, Finset.mem_filter,
      List.mem_toFinset, List.mem_map, List.mem_filter, decide_eq_true_eq]
    constructor
    · rintro ⟨⟨x, hx, rfl⟩, h2⟩; exact ⟨x, ⟨hx, by rw [hg x hx, h2]⟩, rfl⟩
    · rintro ⟨x, ⟨hx, h2⟩, rfl⟩; exact ⟨⟨x, hx, rfl⟩, by rw [← hg x hx, h2]⟩
  have h1 := capexSector_fold t g t.sectors.vals hg {}
  simp only [hn, zero_add] at h1
  obtain ⟨k1, k2⟩ := capexSite_fold c t.sites.vals (t.sectors.vals.foldl t.capexSector {})
  unfold computeCapex costOf
  simp only [k1, k2, h1.1, h1.2, nodeCapex_eq]

/-- **C14, `_partial`.** Full statement (false of the code): the reported costs
are those of the PROPOSED, respectively PROPOSED and EXISTING, nodes and sites
whatever the statuses. Proved for topologies in which the sectors of each node
share a status; missing: nodes of mixed status, see `C14_order_violation`. -/
theorem C14_capex_partial (t : Topology) (c : SiteCosts) (hu : NodesUniform t) :
    (t.computeCapex c).2 = costOf t c .proposed ∧
    (t.computeCapex c).1 = costOf t c .proposed + costOf t c .existing := by
  rw [computeCapex_eq t c hu]; exact ⟨rfl, rfl⟩

theorem Dict.get?_perm {κ ν : Type} [DecidableEq κ] {d d' : Dict κ ν} (h : d.Perm d')
    (hn : d.NodupKeys) (k : κ) : d'.get? k = d.get? k := by
  have hn' : d'.NodupKeys := by
    unfold Dict.NodupKeys Dict.keys at *; exact (h.map Prod.fst).nodup_iff.1 hn
  cases hx : d.get? k with
  | some v =>
    have := (Dict.mem_iff_get? hn k v).2 hx
    exact (Dict.mem_iff_get? hn' k v).1 (h.mem_iff.1 this)
  | none =>
    rw [Dict.get?_eq_none_iff] at hx ⊢
    intro hk; exact hx ((h.map Prod.fst).mem_iff.2 hk)

/-- **C14 (order), `_partial`.** Reordering the site and sector dictionaries
(inserting the same objects in another order) does not change the costs, when
the sectors of each node share a status. -/
theorem C14_order_independent_partial (t t' : Topology) (c : SiteCosts) (hn : t.sites.NodupKeys)
    (hs : t.sites.Perm t'.sites) (hx : t.sectors.Perm t'.sectors) (hu : NodesUniform t) :
    t'.computeCapex c = t.computeCapex c := by
  have hv : t.sectors.vals.Perm t'.sectors.vals := hx.map _
  have hsv : t.sites.vals.Perm t'.sites.vals := hs.map _
  have hu' : NodesUniform t' := by
    intro x hx y hy; exact hu x (hv.mem_iff.2 hx) y (hv.mem_iff.2 hy)
  have hN : ∀ st, nodesWith t' st = nodesWith t st := by
    intro st; exact (List.toFinset_eq_of_perm _ _ ((hv.filter _).map _)).symm
  have hC : ∀ st, costOf t' c st = costOf t c st := by
    intro st
    unfold costOf
    rw [hN, ((hsv.filter _).map _).sum_eq]
    simp only [Dict.get?_perm hs hn]
  rw [computeCapex_eq t c hu, computeCapex_eq t' c hu', hC, hC]

/-- One CANDIDATE and one PROPOSED sector on the same node of a PROPOSED site. -/
def mixedNode (a b : Nat) : List Op :=
  let st := fun n => if n = 0 then StatusType.candidate else StatusType.proposed
  [.addSite { id := "d", siteType := .dn, status := .proposed,
              device := { nodeCapex := 250, sectorsPerNode := 2 } } false,
   .addSector { site := "d", node := 0, pos := a, status := st a },
   .addSector { site := "d", node := 0, pos := b, status := st b }]

/-- **C14 violation.** The same node, sectors inserted in two orders: the node
cost is charged or not. -/
theorem C14_order_violation :
    (run {} (mixedNode 0 1)).sectors.Perm (run {} (mixedNode 1 0)).sectors ∧
    (run {} (mixedNode 0 1)).sites = (run {} (mixedNode 1 0)).sites ∧
    ((run {} (mixedNode 0 1)).computeCapex ⟨1000, 1000, 100⟩).2 = 1000 ∧
    ((run {} (mixedNode 1 0)).computeCapex ⟨1000, 1000, 100⟩).2 = 1250 := by
  refine ⟨?_, by decide +kernel, by decide +kernel, by decide +kernel⟩
  have h1 : (run {} (mixedNode 0 1)).sectors =
    [(⟨"d", 0, 0, .dn⟩, { site := "d", node := 0, pos := 0, status := .candidate }),
     (⟨"d", 0, 1, .dn⟩, { site := "d", node := 0, pos := 1, status := .proposed })] := by
    decide +kernel
  have h2 : (run {} (mixedNode 1 0)).sectors =
    [(⟨"d", 0, 1, .dn⟩, { site := "d", node := 0, pos := 1, status := .proposed }),
     (⟨"d", 0, 0, .dn⟩, { site := "d", node := 0, pos := 0, status := .candidate })] := by
    decide +kernel
  rw [h1, h2]; exact List.Perm.swap _ _ _

/-- A uniform node of two PROPOSED sectors is charged once, next to an existing POP. -/
example :
    let t := run {} [
      .addSite { id := "p", siteType := .pop, status := .existing } false,
      .addSite { id := "d", siteType := .dn, status := .proposed, device := { nodeCapex := 250 } } false,
      .addSector { site := "d", node := 0, pos := 0, status := .proposed },
      .addSector { site := "d", node := 0, pos := 1, status := .proposed }]
    t.computeCapex ⟨2000, 1000, 100⟩ = (3250, 1250) ∧ NodesUniform t := by
  refine ⟨by decide +kernel, ?_⟩
  unfold NodesUniform; decide +kernel

end Verif
