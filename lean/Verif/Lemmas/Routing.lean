import Verif.Spec.Routing
import Verif.Props.Nx
import Verif.Lemmas.NxPaths

/-! Lemmas for C117: walks of the graph and routes of the topology. -/

namespace Verif
open Spec Topology Relation

section routes

variable {t : Topology} {cost : Link → Option Nat}

theorem edge_site_iff (inv : t.Inv) {a b : SiteId} :
    (t.buildDigraph StatusType.active cost).edge (.site a, .site b) ↔ LinkInUse t a b := by
  rw [build_edge_site inv]
  constructor
  · rintro ⟨l, h1, h2, h3, h4⟩
    obtain ⟨x, h5, h6⟩ := admits_iff'.1 h3
    obtain ⟨y, h7, h8⟩ := admits_iff'.1 h4
    exact ⟨l, x, y, h1, h5, h7, (active_iff _).1 h2, (active_iff _).1 h6, (active_iff _).1 h8⟩
  · rintro ⟨l, x, y, h1, h5, h7, h2, h6, h8⟩
    exact ⟨l, h1, (active_iff _).2 h2, admits_iff'.2 ⟨x, h5, (active_iff _).2 h6⟩,
      admits_iff'.2 ⟨y, h7, (active_iff _).2 h8⟩⟩

/-- The nodes of the graph along a route. -/
def asWalk (d : DemandId) (q : List SiteId) : List GNode := .super :: (q.map .site ++ [.demand d])

theorem tail_route (inv : t.Inv) (d : DemandId) (p : List GNode) (s : SiteId)
    (h1 : p.head? = some (.site s)) (h2 : p.getLast? = some (.demand d))
    (h3 : p.IsChain (fun x y => (t.buildDigraph StatusType.active cost).edge (x, y))) :
    ∃ q : List SiteId, p = q.map GNode.site ++ [GNode.demand d] ∧ q.head? = some s ∧ q.IsChain (LinkInUse t) ∧
      ∃ s x dm, q.getLast? = some s ∧ t.sites.get? s = some x ∧ InNetwork x.status ∧
        t.demandSites.get? d = some dm ∧ s ∈ dm.connected := by
  induction p generalizing s with
  | nil => simp at h1
  | cons u p ih =>
    simp only [List.head?_cons, Option.some.injEq] at h1
    subst h1
    cases p with
    | nil => simp at h2
    | cons v p =>
      rw [List.getLast?_cons_cons] at h2
      rw [List.isChain_cons_cons] at h3
      cases v with
      | super => exact absurd h3.1 build_no_in
      | demand d' =>
        cases p with
        | nil =>
          simp only [List.getLast?_singleton, Option.some.injEq, GNode.demand.injEq] at h2
          subst h2
          obtain ⟨dm, g1, g2, g3⟩ := (build_edge_demand inv).1 h3.1
          obtain ⟨x, g4, g5⟩ := admits_iff'.1 g3
          exact ⟨[s], rfl, rfl, by simp, s, x, dm, rfl, g4, (active_iff _).1 g5, g1, g2⟩
        | cons w p =>
          rw [List.isChain_cons_cons] at h3
          exact absurd h3.2.1 build_no_out
      | site s' =>
        obtain ⟨q, e, g1, g2, g3⟩ := ih s' rfl h2 h3.2
        have hl := (edge_site_iff inv).1 h3.1
        cases q with
        | nil => simp at g1
        | cons a q =>
          simp only [List.head?_cons, Option.some.injEq] at g1
          subst g1
          refine ⟨s :: a :: q, by rw [e]; rfl, rfl, List.isChain_cons_cons.2 ⟨hl, g2⟩, ?_⟩
          rw [List.getLast?_cons_cons]
          exact g3

theorem route_tail (inv : t.Inv) (d : DemandId) (q : List SiteId) (hne : q ≠ [])
    (h : q.IsChain (LinkInUse t)) (hl : ∃ s x dm, q.getLast? = some s ∧ t.sites.get? s = some x ∧
      InNetwork x.status ∧ t.demandSites.get? d = some dm ∧ s ∈ dm.connected) :
    (q.map GNode.site ++ [GNode.demand d]).IsChain (fun x y => (t.buildDigraph StatusType.active cost).edge (x, y)) := by
  induction q with
  | nil => exact absurd rfl hne
  | cons a q ih =>
    cases q with
    | nil =>
      obtain ⟨s, x, dm, g1, g2, g3, g4, g5⟩ := hl
      simp only [List.getLast?_singleton, Option.some.injEq] at g1
      subst g1
      simp only [List.map_cons, List.map_nil, List.cons_append, List.nil_append, List.isChain_cons_cons,
        List.isChain_singleton, and_true]
      exact (build_edge_demand inv).2 ⟨dm, g4, g5, admits_iff'.2 ⟨x, g2, (active_iff _).2 g3⟩⟩
    | cons b q =>
      rw [List.isChain_cons_cons] at h
      rw [List.getLast?_cons_cons] at hl
      have := ih (by simp) h.2 hl
      simp only [List.map_cons, List.cons_append] at this ⊢
      exact List.isChain_cons_cons.2 ⟨(edge_site_iff inv).2 h.1, this⟩

theorem walk_route (inv : t.Inv) (d : DemandId) (p : List GNode) :
    IsWalk (t.buildDigraph StatusType.active cost).edge .super (.demand d) p ↔
      ∃ q, Route t d q ∧ p = asWalk d q := by
  constructor
  · rintro ⟨h1, h2, h3⟩
    cases p with
    | nil => simp at h1
    | cons u p =>
      simp only [List.head?_cons, Option.some.injEq] at h1
      subst h1
      cases p with
      | nil => simp at h2
      | cons v p =>
        rw [List.getLast?_cons_cons] at h2
        rw [List.isChain_cons_cons] at h3
        obtain ⟨s, y, rfl, g1, g2, g3⟩ := (build_edge_super inv).1 h3.1
        obtain ⟨q, e, f1, f2, f3⟩ := tail_route inv d _ s rfl h2 h3.2
        exact ⟨q, ⟨⟨s, y, f1, g1, g2, (active_iff _).1 g3⟩, f2, f3⟩, by rw [asWalk, e]⟩
  · rintro ⟨q, h, rfl⟩
    obtain ⟨s, x, g1, g2, g3, g4⟩ := h.start
    have hne : q ≠ [] := by rintro rfl; simp at g1
    refine ⟨rfl, by rw [asWalk, ← List.cons_append, List.getLast?_append]; rfl, ?_⟩
    have := route_tail (cost := cost) inv d q hne h.hops h.last
    cases q with
    | nil => exact absurd rfl hne
    | cons a q =>
      simp only [List.head?_cons, Option.some.injEq] at g1
      subst g1
      simp only [asWalk, List.map_cons, List.cons_append] at this ⊢
      exact List.isChain_cons_cons.2 ⟨(build_edge_super inv).2 ⟨a, x, rfl, g2, g3, (active_iff _).2 g4⟩, this⟩

theorem served_route (inv : t.Inv) (d : DemandId) : Served t [] [] d ↔ ∃ q, Route t d q := by
  rw [← joined_all_iff (cost := fun _ => none) inv]
  constructor
  · intro h
    obtain ⟨p, hp⟩ := h.walk
    obtain ⟨q, hq, _⟩ := (walk_route inv d p).1 hp
    exact ⟨q, hq⟩
  · rintro ⟨q, hq⟩
    exact IsWalk.joined ((walk_route inv d _).2 ⟨q, hq, rfl⟩)

theorem asWalk_inj {d : DemandId} {q q' : List SiteId} (h : asWalk d q = asWalk d q') : q = q' := by
  unfold asWalk at h
  simp only [List.cons.injEq, true_and] at h
  have := List.append_cancel_right h
  exact List.map_injective_iff.2 (fun a b e => GNode.site.inj e) this

theorem inner_asWalk (d : DemandId) (q : List SiteId) :
    innerEdges (asWalk d q) = (steps q).map fun i => (GNode.site i.tx, GNode.site i.rx) := by
  show innerEdges.go (q.map GNode.site ++ [GNode.demand d]) = _
  induction q with
  | nil => rfl
  | cons a q ih =>
    cases q with
    | nil => rfl
    | cons b q =>
      cases q with
      | nil => rfl
      | cons c q =>
        simp only [List.map_cons, List.cons_append, steps, innerEdges.go] at ih ⊢
        rw [ih]

theorem linksOf_steps (q : List SiteId) (h : q.IsChain (LinkInUse t)) :
    linksOf t ((steps q).map fun i => (GNode.site i.tx, GNode.site i.rx)) = .ok (steps q) := by
  induction q with
  | nil => rfl
  | cons a q ih =>
    cases q with
    | nil => rfl
    | cons b q =>
      rw [List.isChain_cons_cons] at h
      obtain ⟨l, x, y, hl, _⟩ := h.1
      have := ih h.2
      simp only [steps, List.map_cons, linksOf]
      rw [if_pos ((Dict.has_iff _ _).2 ⟨l, hl⟩), this]

/-- `link_cost` of the links of a level. -/
def costOf (n : Option Nat) : WithTop ℕ := match n with | some n => n | none => ⊤

theorem weight_site (inv : t.Inv) {a b : SiteId} (h : LinkInUse t a b) :
    ∃ l, t.links.get? ⟨a, b⟩ = some l ∧
      weight (t.buildDigraph StatusType.active cost) (.site a, .site b) = costOf (cost l) := by
  obtain ⟨at', hg⟩ : ∃ at', (t.buildDigraph StatusType.active cost).edges.get? (.site a, .site b) = some at' :=
    (Dict.mem_keys_iff _ _).1 ((edge_site_iff inv).2 h)
  have hm := build_get? hg
  rcases mem_digraph.1 hm with ⟨e, h1, h2, h3, he⟩ | ⟨l, h1, h2, h3, h4, he⟩ | ⟨e, h1, s, h2, h3, he⟩
  · simp at he
  · simp only [Prod.mk.injEq, GNode.site.injEq] at he
    obtain ⟨rfl, rfl, rfl⟩ := he
    obtain ⟨⟨k, l'⟩, hk, rfl⟩ := List.mem_map.1 h1
    have hk' := (Dict.mem_iff_get? inv.nd_links _ _).1 hk
    have : k = ⟨l'.tx, l'.rx⟩ := inv.link_id _ _ hk'
    rw [this] at hk'
    refine ⟨l', hk', ?_⟩
    unfold weight
    rw [hg]
    cases hc : cost l' <;> simp [costOf, hc]
  · simp at he

theorem weight_super (inv : t.Inv) {v : GNode} (h : (t.buildDigraph StatusType.active cost).edge (.super, v)) :
    weight (t.buildDigraph StatusType.active cost) (.super, v) = 1 := by
  obtain ⟨at', hg⟩ := (Dict.mem_keys_iff _ _).1 h
  rcases mem_digraph.1 (build_get? hg) with ⟨e, h1, h2, h3, he⟩ | ⟨l, h1, h2, h3, h4, he⟩ | ⟨e, h1, s, h2, h3, he⟩
  · simp only [Prod.mk.injEq, true_and] at he
    obtain ⟨rfl, rfl⟩ := he
    unfold weight
    rw [hg]
    rfl
  · simp at he
  · simp at he

theorem weight_demand (inv : t.Inv) {u : GNode} {d : DemandId}
    (h : (t.buildDigraph StatusType.active cost).edge (u, .demand d)) :
    weight (t.buildDigraph StatusType.active cost) (u, .demand d) = 1 := by
  obtain ⟨at', hg⟩ := (Dict.mem_keys_iff _ _).1 h
  rcases mem_digraph.1 (build_get? hg) with ⟨e, h1, h2, h3, he⟩ | ⟨l, h1, h2, h3, h4, he⟩ | ⟨e, h1, s, h2, h3, he⟩
  · simp at he
  · simp at he
  · simp only [Prod.mk.injEq, GNode.demand.injEq] at he
    obtain ⟨rfl, rfl, rfl⟩ := he
    unfold weight
    rw [hg]
    rfl

theorem cost_tail (inv : t.Inv) (c : LinkId → WithTop ℕ) (hc : ∀ id l, t.links.get? id = some l → c id = costOf (cost l))
    (d : DemandId) (q : List SiteId) (hne : q ≠ [])
    (h : (q.map GNode.site ++ [GNode.demand d]).IsChain (fun x y => (t.buildDigraph StatusType.active cost).edge (x, y))) :
    walkCost (weight (t.buildDigraph StatusType.active cost)) (q.map GNode.site ++ [GNode.demand d]) = routeCost c q + 1 := by
  induction q with
  | nil => exact absurd rfl hne
  | cons a q ih =>
    cases q with
    | nil =>
      simp only [List.map_cons, List.map_nil, List.cons_append, List.nil_append, List.isChain_cons_cons,
        List.isChain_singleton, and_true] at h
      simp only [List.map_cons, List.map_nil, List.cons_append, List.nil_append, walkCost, weight_demand inv h,
        routeCost, steps, List.sum_nil, add_zero, zero_add]
    | cons b q =>
      simp only [List.map_cons, List.cons_append, List.isChain_cons_cons] at h ih
      have := ih (by simp) h.2
      obtain ⟨l, hl, hw⟩ := weight_site (cost := cost) inv ((edge_site_iff inv).1 h.1)
      simp only [List.map_cons, List.cons_append, walkCost] at this ⊢
      rw [this, hw, ← hc _ l hl]
      simp only [routeCost, steps, List.map_cons, List.sum_cons, add_assoc]

theorem cost_asWalk (inv : t.Inv) (c : LinkId → WithTop ℕ)
    (hc : ∀ id l, t.links.get? id = some l → c id = costOf (cost l)) {d : DemandId} {q : List SiteId} (h : Route t d q) :
    walkCost (weight (t.buildDigraph StatusType.active cost)) (asWalk d q) = 1 + (routeCost c q + 1) := by
  have hw := ((walk_route (cost := cost) inv d _).2 ⟨q, h, rfl⟩).2.2
  obtain ⟨s, x, g1, _⟩ := h.start
  have hne : q ≠ [] := by rintro rfl; simp at g1
  unfold asWalk at hw ⊢
  cases q with
  | nil => exact absurd rfl hne
  | cons a q =>
    simp only [List.map_cons, List.cons_append, List.isChain_cons_cons] at hw
    have := cost_tail inv c hc d (a :: q) hne
    simp only [List.map_cons, List.cons_append] at this ⊢
    rw [walkCost, weight_super inv hw.1, this hw.2]

theorem routeLoop_spec {paths : Paths} {q : DemandId → List SiteId} (L : List DemandId) (used : List LinkId)
    (h : ∀ d p, paths (.demand d) = some p → Route t d (q d) ∧ p = asWalk d (q d)) :
    ∃ used', routeLoop t paths L used = .ok used' ∧
      ∀ i, i ∈ used' ↔ i ∈ used ∨ ∃ d ∈ L, paths (.demand d) ≠ none ∧ i ∈ steps (q d) := by
  induction L generalizing used with
  | nil => exact ⟨used, rfl, by simp⟩
  | cons d L ih =>
    unfold routeLoop
    cases hp : paths (.demand d) with
    | none =>
      obtain ⟨u, h1, h2⟩ := ih used
      refine ⟨u, h1, fun i => ?_⟩
      rw [h2]
      simp [hp]
    | some p =>
      obtain ⟨hr, rfl⟩ := h d p hp
      dsimp only
      rw [inner_asWalk, linksOf_steps _ hr.hops]
      obtain ⟨u, h1, h2⟩ := ih (used ++ steps (q d))
      refine ⟨u, h1, fun i => ?_⟩
      rw [h2, List.mem_append]
      simp only [List.mem_cons, exists_eq_or_imp, hp, ne_eq, reduceCtorEq, not_false_eq_true, true_and]
      tauto

end routes
end Verif
