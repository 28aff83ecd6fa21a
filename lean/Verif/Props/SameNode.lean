import Verif.Model.Capex
import Verif.Props.Capex

/-! # C66: sectors of one node are proposed together -/

namespace Verif
open Topology Spec

/-- The node (site, node number) holds a PROPOSED sector. -/
def Spec.ProposedNode (t : Topology) (s : SiteId) (n : Nat) : Prop :=
  ∃ id x, t.sectors.get? id = some x ∧ x.site = s ∧ x.node = n ∧ x.status = .proposed

/-- A sector that cannot be made PROPOSED: its status is final, or its site is
neither PROPOSED nor EXISTING. -/
def Spec.CannotPropose (t : Topology) (x : Sector) : Prop :=
  x.status = .existing ∨ x.status = .unavailable ∨
  ∀ s, t.sites.get? x.site = some s → s.status ≠ .proposed ∧ s.status ≠ .existing

theorem setSectorStatus_cases (t : Topology) (id : SectorId) (x : Sector)
    (hx : t.sectors.get? id = some x) (hsite : ∃ s, t.sites.get? x.site = some s) :
    (¬ CannotPropose t x ∧ t.setSectorStatus id .proposed =
      ({ t with sectors := t.sectors.modify id (fun s => { s with status := .proposed }) }, none)) ∨
    (CannotPropose t x ∧ t.setSectorStatus id .proposed = (t, some .topology)) := by
  obtain ⟨s, hs⟩ := hsite
  unfold setSectorStatus CannotPropose siteStatus
  simp only [hx, hs, Option.map_some]
  cases h1 : x.status <;> cases h2 : s.status <;>
    simp [statusMutable, StatusType.immutable, sectorCompat, StatusType.active, h2]

/-- Node membership as a Boolean-friendly list. -/
theorem setProposedIn_spec (N : List (SiteId × Nat)) (ids : List SectorId) :
    ∀ (t : Topology), ids.Nodup → (∀ id ∈ ids, ∃ x, t.sectors.get? id = some x) →
    (∀ id x, t.sectors.get? id = some x → ∃ s, t.sites.get? x.site = some s) →
    ((t.setProposedIn N ids).2 = none → ∃ d,
      (t.setProposedIn N ids).1 = { t with sectors := d } ∧ d.keys = t.sectors.keys ∧
      ∀ id, d.get? id = if id ∈ ids then (t.sectors.get? id).map (fun x =>
        if (x.site, x.node) ∈ N then { x with status := .proposed } else x)
        else t.sectors.get? id) ∧
    ((t.setProposedIn N ids).2 ≠ none ↔ ∃ id ∈ ids, ∃ x, t.sectors.get? id = some x ∧
      (x.site, x.node) ∈ N ∧ CannotPropose t x) := by
  induction ids with
  | nil =>
    intro t _ _ _
    refine ⟨fun _ => ⟨t.sectors, rfl, rfl, by simp⟩, by simp [setProposedIn]⟩
  | cons id ids ih =>
    intro t hn hk hsite
    rw [List.nodup_cons] at hn
    obtain ⟨x, hx⟩ := hk id (by simp)
    unfold setProposedIn
    simp only [hx]
    by_cases c : (x.site, x.node) ∈ N
    · rw [if_pos c]
      rcases setSectorStatus_cases t id x hx (hsite id x hx) with ⟨h1, h2⟩ | ⟨h1, h2⟩
      · rw [h2]
        dsimp only
        let d1 := t.sectors.modify id (fun s => { s with status := .proposed })
        obtain ⟨k1, k2⟩ := ih { t with sectors := d1 } hn.2 (by
            intro i hi
            obtain ⟨y, hy⟩ := hk i (by simp [hi])
            dsimp only [d1]
            rw [Dict.get?_modify]; split
            · simp_all
            · exact ⟨y, hy⟩) (by
            intro i y hy
            dsimp only [d1] at hy
            rw [Dict.get?_modify] at hy
            split at hy
            · simp only [Option.map_eq_some_iff] at hy
              obtain ⟨z, hz, rfl⟩ := hy
              exact hsite _ z hz
            · exact hsite i y hy)
        constructor
        · intro he
          obtain ⟨d, e1, e2, e3⟩ := k1 he
          refine ⟨d, e1, by simpa [d1] using e2, ?_⟩
          intro i
          rw [e3 i]
          dsimp only [d1]
          rw [Dict.get?_modify]
          by_cases ci : i = id
          · subst ci; simp [hn.1, hx, c]
          · have ci' : ¬ id = i := fun h => ci h.symm
            simp [ci, ci']
        · rw [k2]
          constructor
          · rintro ⟨i, hi, y, hy, hyN, hyc⟩
            dsimp only [d1] at hy
            have hne : ¬ id = i := by rintro rfl; exact hn.1 hi
            rw [Dict.get?_modify, if_neg hne] at hy
            exact ⟨i, by simp [hi], y, hy, hyN, hyc⟩
          · rintro ⟨i, hi, y, hy, hyN, hyc⟩
            rcases List.mem_cons.1 hi with rfl | hi
            · rw [hx] at hy; simp at hy; subst hy; exact absurd hyc h1
            · have hne : ¬ id = i := by rintro rfl; exact hn.1 hi
              refine ⟨i, hi, y, ?_, hyN, hyc⟩
              dsimp only [d1]
              rw [Dict.get?_modify, if_neg hne]; exact hy
      · rw [h2]
        dsimp only
        refine ⟨fun h => by simp at h, ?_⟩
        simp only [ne_eq, reduceCtorEq, not_false_eq_true, true_iff]
        exact ⟨id, by simp, x, hx, c, h1⟩
    · rw [if_neg c]
      obtain ⟨k1, k2⟩ := ih t hn.2 (fun i hi => hk i (by simp [hi])) hsite
      constructor
      · intro he
        obtain ⟨d, e1, e2, e3⟩ := k1 he
        refine ⟨d, e1, e2, ?_⟩
        intro i
        rw [e3 i]
        by_cases ci : i = id
        · subst ci; simp [hn.1, hx, c]
        · simp [ci]
      · rw [k2]
        constructor
        · rintro ⟨i, hi, r⟩; exact ⟨i, by simp [hi], r⟩
        · rintro ⟨i, hi, y, hy, hyN, r⟩
          rcases List.mem_cons.1 hi with rfl | hi
          · rw [hx] at hy; simp at hy; subst hy; exact absurd hyN c
          · exact ⟨i, hi, y, hy, hyN, r⟩

theorem mem_proposedNodes (t : Topology) (hn : t.sectors.NodupKeys) (s : SiteId) (n : Nat) :
    (s, n) ∈ (t.sectors.vals.filter (fun x => x.status == .proposed)).map
      (fun x => (x.site, x.node)) ↔ ProposedNode t s n := by
  simp only [List.mem_map, List.mem_filter, beq_iff_eq, Dict.vals, Prod.mk.injEq, ProposedNode]
  constructor
  · rintro ⟨x, ⟨⟨⟨i, y⟩, h, rfl⟩, h2⟩, h3, h4⟩
    exact ⟨i, y, (Dict.mem_iff_get? hn _ _).1 h, h3, h4, h2⟩
  · rintro ⟨i, y, h, h3, h4, h2⟩
    exact ⟨y, ⟨⟨(i, y), (Dict.mem_iff_get? hn _ _).2 h, rfl⟩, h2⟩, h3, h4⟩

/-- **C66.** Outcome of `_set_sector_status_in_same_node` when it returns: the
sectors of nodes holding a PROPOSED sector are PROPOSED, the others and
everything else are as before. -/
theorem C66_same_node_result (ops : List Op)
    (h : (run {} ops).setSameNode.2 = none) :
    let t := run {} ops
    let t' := t.setSameNode.1
    t' = { t with sectors := t'.sectors } ∧ t'.sectors.keys = t.sectors.keys ∧
    ∀ id x, t.sectors.get? id = some x →
      (ProposedNode t x.site x.node → t'.sectors.get? id = some { x with status := .proposed }) ∧
      (¬ ProposedNode t x.site x.node → t'.sectors.get? id = some x) := by
  have inv := Inv.empty.run ops
  generalize run {} ops = t at *
  dsimp only
  obtain ⟨h1, _⟩ := setProposedIn_spec ((t.sectors.vals.filter (fun x => x.status == .proposed)).map
    (fun x => (x.site, x.node))) t.sectors.keys t inv.nd_sectors
    (fun id hid => (Dict.mem_keys_iff _ _).1 hid) inv.sector_site
  obtain ⟨d, e1, e2, e3⟩ := h1 h
  change t.setSameNode.1 = _ at e1
  rw [e1]
  refine ⟨rfl, e2, ?_⟩
  intro id x hx
  dsimp only
  have hk : id ∈ t.sectors.keys := (Dict.mem_keys_iff _ _).2 ⟨x, hx⟩
  rw [e3 id, if_pos hk, hx, Option.map_some]
  constructor
  · intro hp; rw [if_pos ((mem_proposedNodes t inv.nd_sectors _ _).2 hp)]
  · intro hp; rw [if_neg (fun h => hp ((mem_proposedNodes t inv.nd_sectors _ _).1 h))]

/-- **C66 (failure).** It fails exactly when a node holding a PROPOSED sector
also holds a sector that cannot be made PROPOSED. -/
theorem C66_same_node_fails_iff (ops : List Op) :
    (run {} ops).setSameNode.2 ≠ none ↔
      ∃ id x, (run {} ops).sectors.get? id = some x ∧
        ProposedNode (run {} ops) x.site x.node ∧ CannotPropose (run {} ops) x := by
  have inv := Inv.empty.run ops
  generalize run {} ops = t at *
  obtain ⟨_, h2⟩ := setProposedIn_spec ((t.sectors.vals.filter (fun x => x.status == .proposed)).map
    (fun x => (x.site, x.node))) t.sectors.keys t inv.nd_sectors
    (fun id hid => (Dict.mem_keys_iff _ _).1 hid) inv.sector_site
  unfold setSameNode
  rw [h2]
  constructor
  · rintro ⟨id, _, x, hx, hN, hc⟩
    exact ⟨id, x, hx, (mem_proposedNodes t inv.nd_sectors _ _).1 hN, hc⟩
  · rintro ⟨id, x, hx, hN, hc⟩
    exact ⟨id, (Dict.mem_keys_iff _ _).2 ⟨x, hx⟩, x, hx,
      (mem_proposedNodes t inv.nd_sectors _ _).2 hN, hc⟩

/-- After a successful pass over a topology whose sectors are PROPOSED or
CANDIDATE, nodes are of one status, so C14 applies. -/
theorem C66_uniform (ops : List Op) (h : (run {} ops).setSameNode.2 = none)
    (hs : ∀ id x, (run {} ops).sectors.get? id = some x →
      x.status = .proposed ∨ x.status = .candidate) :
    NodesUniform (run {} ops).setSameNode.1 := by
  obtain ⟨h1, h2, h3⟩ := C66_same_node_result ops h
  have inv := Inv.empty.run ops
  generalize run {} ops = t at *
  have hn : t.setSameNode.1.sectors.NodupKeys := by
    unfold Dict.NodupKeys; rw [h2]; exact inv.nd_sectors
  have key : ∀ x ∈ t.setSameNode.1.sectors.vals, ∃ id y, t.sectors.get? id = some y ∧
      x.site = y.site ∧ x.node = y.node ∧
      (ProposedNode t y.site y.node ∧ x.status = .proposed ∨
       ¬ ProposedNode t y.site y.node ∧ x.status = .candidate) := by
    intro x hx
    obtain ⟨⟨id, x'⟩, hm, rfl⟩ := List.mem_map.1 hx
    have hg := (Dict.mem_iff_get? hn _ _).1 hm
    have hk : id ∈ t.sectors.keys := by
      rw [← h2]; exact (Dict.mem_keys_iff _ _).2 ⟨_, hg⟩
    obtain ⟨y, hy⟩ := (Dict.mem_keys_iff _ _).1 hk
    obtain ⟨a, b⟩ := h3 id y hy
    by_cases c : ProposedNode t y.site y.node
    · have := a c; rw [hg] at this; simp at this; subst this
      exact ⟨id, y, hy, rfl, rfl, Or.inl ⟨c, rfl⟩⟩
    · have := b c; rw [hg] at this; simp at this; subst this
      refine ⟨id, x', hy, rfl, rfl, Or.inr ⟨c, ?_⟩⟩
      rcases hs id x' hy with h | h
      · exact absurd ⟨id, x', hy, rfl, rfl, h⟩ c
      · exact h
  intro x hx y hy e1 e2
  obtain ⟨_, x', _, s1, n1, r1⟩ := key x hx
  obtain ⟨_, y', _, s2, n2, r2⟩ := key y hy
  have e3 : x'.site = y'.site := by rw [← s1, ← s2, e1]
  have e4 : x'.node = y'.node := by rw [← n1, ← n2, e2]
  rw [e3, e4] at r1
  rcases r1 with ⟨p1, r1⟩ | ⟨p1, r1⟩ <;> rcases r2 with ⟨p2, r2⟩ | ⟨p2, r2⟩
  · rw [r1, r2]
  · exact absurd p1 p2
  · exact absurd p2 p1
  · rw [r1, r2]

/-- The mixed node of C14 becomes uniform; an EXISTING neighbour makes the pass fail. -/
example :
    (run {} (mixedNode 0 1)).setSameNode.2 = none ∧
    ((run {} (mixedNode 0 1)).setSameNode.1.sectors.vals.map (·.status)) = [.proposed, .proposed] ∧
    (run {} [
      .addSite { id := "d", siteType := .dn, status := .existing } false,
      .addSector { site := "d", node := 0, pos := 0, status := .existing },
      .addSector { site := "d", node := 0, pos := 1, status := .proposed }]).setSameNode.2
      = some .topology := by decide +kernel

end Verif
