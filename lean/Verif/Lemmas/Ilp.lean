import Verif.Model.Ilp
import Verif.Lemmas.Rf
import Verif.Props.PopCapacity
import Mathlib.Algebra.BigOperators.Ring.List
import Mathlib.Tactic.Linarith
import Mathlib.Tactic.Ring

/-! Structure of the planning graph. -/

namespace Verif

theorem Dict.mem_keys_ofList {κ ν : Type} [DecidableEq κ] (ps : List (κ × ν)) (k : κ) :
    k ∈ (Dict.ofList ps).keys ↔ ∃ v, (k, v) ∈ ps := by
  induction ps using List.reverseRecOn with
  | nil => simp [Dict.ofList, Dict.keys]
  | append_singleton ps p ih =>
    rw [Dict.ofList_append, Dict.mem_keys_iff]
    simp only [Dict.get?_set]
    rw [Dict.mem_keys_iff] at ih
    obtain ⟨a, b⟩ := p
    by_cases c : a = k
    · subst c; simp
    · simp only [c, if_false, ih, List.mem_append, List.mem_singleton, Prod.mk.injEq]
      constructor
      · rintro ⟨v, h⟩; exact ⟨v, Or.inl h⟩
      · rintro ⟨v, h | h⟩
        · exact ⟨v, h⟩
        · exact absurd h.1.symm c

namespace Plan

variable {P : Plan}

theorem arcs_nodup : P.arcs.Nodup := Dict.ofList_nodup _

theorem mem_copies {c : DemandId × Nat × DemandSite} :
    c ∈ P.copies ↔ (c.1, c.2.2) ∈ P.t.demandSites ∧ c.2.1 < c.2.2.numSites := by
  unfold copies
  simp only [List.mem_flatMap, List.mem_map, List.mem_range]
  constructor
  · rintro ⟨e, he, k, hk, rfl⟩; exact ⟨he, hk⟩
  · rintro ⟨h1, h2⟩; exact ⟨_, h1, _, h2, rfl⟩

theorem mem_demands {l : Loc} :
    l ∈ P.demands ↔ ∃ id d k, (id, d) ∈ P.t.demandSites ∧ k < d.numSites ∧ l = .demand id k := by
  unfold demands
  simp only [List.mem_map, mem_copies]
  constructor
  · rintro ⟨c, ⟨h1, h2⟩, rfl⟩; exact ⟨_, _, _, h1, h2, rfl⟩
  · rintro ⟨id, d, k, h1, h2, rfl⟩; exact ⟨(id, k, d), ⟨h1, h2⟩, rfl⟩

theorem mem_locations {l : Loc} :
    l ∈ P.locations ↔ l = .source ∨ (∃ s ∈ P.t.sites.keys, l = .site s) ∨ l ∈ P.demands := by
  unfold locations
  simp only [List.mem_cons, List.mem_append, List.mem_map]
  constructor
  · rintro (h | ⟨s, h1, rfl⟩ | h)
    · exact Or.inl h
    · exact Or.inr (Or.inl ⟨s, h1, rfl⟩)
    · exact Or.inr (Or.inr h)
  · rintro (h | ⟨s, h1, rfl⟩ | h)
    · exact Or.inl h
    · exact Or.inr (Or.inl ⟨s, h1, rfl⟩)
    · exact Or.inr (Or.inr h)

theorem demands_nodup (h : P.t.demandSites.NodupKeys) : P.demands.Nodup := by
  have e : P.demands = P.t.demandSites.flatMap
      (fun e => (List.range e.2.numSites).map fun k => Loc.demand e.1 k) := by
    unfold demands copies
    rw [List.map_flatMap]
    congr 1
    funext e
    rw [List.map_map]
    rfl
  rw [e]
  unfold Dict.NodupKeys Dict.keys at h
  generalize P.t.demandSites = L at h
  induction L with
  | nil => simp
  | cons a L ih =>
    rw [List.map_cons, List.nodup_cons] at h
    rw [List.flatMap_cons, List.nodup_append]
    refine ⟨?_, ih h.2, ?_⟩
    · exact (List.nodup_map_iff (fun _ _ e => by injection e)).2 List.nodup_range
    · intro x hx y hy exy
      subst exy
      simp only [List.mem_map, List.mem_range, List.mem_flatMap] at hx hy
      obtain ⟨k, _, rfl⟩ := hx
      obtain ⟨b, hb, k', _, hk'⟩ := hy
      injection hk' with h1 _
      exact h.1 (h1 ▸ List.mem_map_of_mem hb)

theorem locations_nodup (hs : P.t.sites.NodupKeys) (hd : P.t.demandSites.NodupKeys) :
    P.locations.Nodup := by
  unfold locations
  rw [List.nodup_cons, List.nodup_append]
  refine ⟨?_, (List.nodup_map_iff (fun _ _ e => by injection e)).2 hs, demands_nodup hd, ?_⟩
  · intro h
    rcases List.mem_append.1 h with h | h
    · simp at h
    · obtain ⟨_, _, _, _, _, h⟩ := mem_demands.1 h; cases h
  · intro x hx y hy exy
    subst exy
    obtain ⟨s, _, rfl⟩ := List.mem_map.1 hx
    obtain ⟨_, _, _, _, _, h⟩ := mem_demands.1 hy
    cases h

/-- The three kinds of arcs. -/
theorem mem_arcs {e : Arc} : e ∈ P.arcs ↔
    (∃ s x, (s, x) ∈ P.t.sites ∧ x.siteType = .pop ∧ e = (.source, .site s)) ∨
    (∃ id d k s, (id, d) ∈ P.t.demandSites ∧ k < d.numSites ∧ s ∈ d.connected ∧
      e = (.site s, .demand id k)) ∨
    (∃ l ∈ P.t.links.vals, e = (.site l.tx, .site l.rx)) := by
  unfold arcs caps
  rw [Dict.mem_keys_ofList]
  unfold sourceArcs demandArcs linkArcs
  simp only [List.mem_append, List.mem_map, List.mem_filter, List.mem_flatMap, mem_copies,
    beq_iff_eq]
  constructor
  · rintro ⟨v, (⟨a, ⟨h1, h2⟩, h3⟩ | ⟨c, ⟨h1, h2⟩, s, h3, h4⟩) | ⟨l, h1, h2⟩⟩
    · injection h3 with h3 _; exact Or.inl ⟨_, _, h1, h2, h3.symm⟩
    · injection h4 with h4 _; exact Or.inr (Or.inl ⟨_, _, _, _, h1, h2, h3, h4.symm⟩)
    · injection h2 with h2 _; exact Or.inr (Or.inr ⟨l, h1, h2.symm⟩)
  · rintro (⟨s, x, h1, h2, rfl⟩ | ⟨id, d, k, s, h1, h2, h3, rfl⟩ | ⟨l, h1, rfl⟩)
    · exact ⟨_, Or.inl (Or.inl ⟨(s, x), ⟨h1, h2⟩, rfl⟩)⟩
    · exact ⟨_, Or.inl (Or.inr ⟨(id, k, d), ⟨h1, h2⟩, s, h3, rfl⟩)⟩
    · exact ⟨_, Or.inr ⟨l, h1, rfl⟩⟩

theorem no_arc_to_source {l : Loc} : (l, Loc.source) ∉ P.arcs := by
  intro h
  rcases mem_arcs.1 h with ⟨_, _, _, _, h⟩ | ⟨_, _, _, _, _, _, _, h⟩ | ⟨_, _, h⟩ <;> simp at h

theorem no_arc_from_demand {l : Loc} {i : DemandId} {k : Nat} : (Loc.demand i k, l) ∉ P.arcs := by
  intro h
  rcases mem_arcs.1 h with ⟨_, _, _, _, h⟩ | ⟨_, _, _, _, _, _, _, h⟩ | ⟨_, _, h⟩ <;> simp at h

/-- What successful set-up guarantees. -/
structure Ready (P : Plan) : Prop where
  valid : P.t.validateStatus = none
  demand : ∀ d ∈ P.t.demandSites.vals, ∃ q, d.demand = some q ∧ 0 ≤ q ∧ 1 ≤ d.numSites
  ends : ∀ e ∈ P.arcs, e.1 ∈ P.locations ∧ e.2 ∈ P.locations
  noLoop : ∀ l ∈ P.t.links.vals, l.tx ≠ l.rx
  pop : ∃ s x, (s, x) ∈ P.t.sites ∧ x.siteType = .pop

theorem ready (h : P.setupErr = none) : P.Ready := by
  unfold setupErr at h
  split at h
  · rename_i h1; rw [h] at h1; cases h1
  rename_i h1
  split at h
  · cases h
  rename_i h2
  split at h
  · cases h
  rename_i h3
  split at h
  · cases h
  rename_i h4
  split at h
  · cases h
  rename_i h5
  refine ⟨by simpa using h1, ?_, ?_, ?_, ?_⟩
  · intro d hd
    have := (List.findSome?_eq_none_iff.1 h2) d hd
    unfold demandErr at this
    split at this
    · cases this
    · rename_i q hq
      split at this
      · cases this
      split at this
      · cases this
      exact ⟨q, hq, by linarith, by omega⟩
  · intro e he
    simp only [List.any_eq_true, not_exists, not_and, Bool.not_eq_true', Bool.and_eq_false_iff,
      not_or, List.contains_eq_mem, decide_eq_false_iff_not, not_not] at h4
    exact h4 e he
  · intro l hl e
    apply h3
    rw [List.any_eq_true]
    exact ⟨l, hl, by simpa using e⟩
  · by_contra c
    apply h5
    have : P.t.popIds (fun _ => true) = [] := by
      rw [List.eq_nil_iff_forall_not_mem]
      intro s hs
      unfold Topology.popIds at hs
      simp only [List.mem_map, List.mem_filter] at hs
      obtain ⟨a, ⟨h1, h2⟩, rfl⟩ := hs
      exact c ⟨a.1, a.2, h1, by simpa using h2⟩
    rw [this]
    rfl

/-- Flow across a cut: summing net inflow over the locations in `U` counts each
arc entering `U` positively and each arc leaving it negatively. -/
theorem cut_sum (r : P.Ready) (nd : P.locations.Nodup) (f : Arc → ℚ) (U : Loc → Prop)
    [DecidablePred U] :
    ((P.locations.filter (fun l => U l)).map (fun l => P.inFlow f l - P.outFlow f l)).sum =
      (P.arcs.map (fun e => (if U e.2 then f e else 0) - (if U e.1 then f e else 0))).sum := by
  have key : ∀ (g : Arc → Loc), (∀ e ∈ P.arcs, g e ∈ P.locations) →
      ((P.locations.filter (fun l => U l)).map (fun l =>
        ((P.arcs.filter (fun e => g e = l)).map f).sum)).sum =
      (P.arcs.map (fun e => if U (g e) then f e else 0)).sum := by
    intro g hg
    rw [sum_partition P.arcs g (fun e => if U (g e) then f e else 0) P.locations nd hg]
    clear nd hg
    generalize P.locations = L
    induction L with
    | nil => simp
    | cons a L ih =>
      have hz : ∀ M : List Arc, ((M.filter (fun e => g e = a)).map
          (fun e => if U (g e) then f e else 0)).sum =
          if U a then ((M.filter (fun e => g e = a)).map f).sum else 0 := by
        intro M
        induction M with
        | nil => simp
        | cons b M ihm =>
          by_cases c : g b = a
          · simp only [List.filter_cons, c, decide_true, if_true, List.map_cons, List.sum_cons, ihm]
            split <;> simp
          · simp only [List.filter_cons, c, decide_false]; exact ihm
      simp only [List.filter_cons, List.map_cons, List.sum_cons, hz, ← ih]
      by_cases c : U a
      · simp [c]
      · simp [c]
  rw [show (fun l => P.inFlow f l - P.outFlow f l) = (fun l =>
    (fun l => P.inFlow f l) l - (fun l => P.outFlow f l) l) from rfl]
  have sub : ∀ (L : List Loc) (a b : Loc → ℚ),
      (L.map (fun l => a l - b l)).sum = (L.map a).sum - (L.map b).sum := by
    intro L a b
    induction L with
    | nil => simp
    | cons x L ih => simp only [List.map_cons, List.sum_cons, ih]; ring
  have sub' : ∀ (L : List Arc) (a b : Arc → ℚ),
      (L.map (fun l => a l - b l)).sum = (L.map a).sum - (L.map b).sum := by
    intro L a b
    induction L with
    | nil => simp
    | cons x L ih => simp only [List.map_cons, List.sum_cons, ih]; ring
  rw [sub, sub']
  unfold inFlow outFlow incoming outgoing
  rw [key (fun e => e.2) (fun e he => (r.ends e he).2),
    key (fun e => e.1) (fun e he => (r.ends e he).1)]

theorem inFlow_nil {f : Arc → ℚ} {l : Loc} (h : P.incoming l = []) : P.inFlow f l = 0 := by
  unfold inFlow; rw [h]; rfl

theorem outFlow_nil {f : Arc → ℚ} {l : Loc} (h : P.outgoing l = []) : P.outFlow f l = 0 := by
  unfold outFlow; rw [h]; rfl

theorem mem_incoming {l : Loc} {e : Arc} : e ∈ P.incoming l ↔ e ∈ P.arcs ∧ e.2 = l := by
  unfold incoming; simp

theorem mem_outgoing {l : Loc} {e : Arc} : e ∈ P.outgoing l ↔ e ∈ P.arcs ∧ e.1 = l := by
  unfold outgoing; simp

theorem incoming_source : P.incoming .source = [] := by
  rw [List.eq_nil_iff_forall_not_mem]
  rintro ⟨a, b⟩ h
  obtain ⟨h1, h2⟩ := mem_incoming.1 h
  simp only at h2
  subst h2
  exact no_arc_to_source h1

theorem outgoing_demand {i : DemandId} {k : Nat} : P.outgoing (.demand i k) = [] := by
  rw [List.eq_nil_iff_forall_not_mem]
  rintro ⟨a, b⟩ h
  obtain ⟨h1, h2⟩ := mem_outgoing.1 h
  simp only at h2
  subst h2
  exact no_arc_from_demand h1

theorem flow_le_inFlow {f : Arc → ℚ} (h0 : ∀ e ∈ P.arcs, 0 ≤ f e) {e : Arc} (he : e ∈ P.arcs) :
    f e ≤ P.inFlow f e.2 := by
  unfold inFlow
  exact List.single_le_sum (by
    intro y hy
    obtain ⟨a, ha, rfl⟩ := List.mem_map.1 hy
    exact h0 a (mem_incoming.1 ha).1) _ (List.mem_map_of_mem (mem_incoming.2 ⟨he, rfl⟩))

theorem flow_le_outFlow {f : Arc → ℚ} (h0 : ∀ e ∈ P.arcs, 0 ≤ f e) {e : Arc} (he : e ∈ P.arcs) :
    f e ≤ P.outFlow f e.1 := by
  unfold outFlow
  exact List.single_le_sum (by
    intro y hy
    obtain ⟨a, ha, rfl⟩ := List.mem_map.1 hy
    exact h0 a (mem_outgoing.1 ha).1) _ (List.mem_map_of_mem (mem_outgoing.2 ⟨he, rfl⟩))

end Plan
end Verif
