import Verif.Lemmas.Zones
import Verif.Props.Topology

/-! # C117: with a routing type, the report keeps exactly the links of the routes -/

namespace Verif
open Spec Topology Relation

theorem levelCost_iff {m : ℤ} {c : WithTop ℕ} (h : LevelCost m c) : c = costOf (mcsToCost m) := by
  obtain ⟨h1, h2, h3, h4⟩ := h
  unfold mcsToCost
  split_ifs with g1 g2 g3 g4
  · exact h1 (by omega)
  · exact h3 (by omega) (by omega)
  · exact h2 g3.1 g3.2
  · exact h1 g4
  · exact h4 (by omega)

theorem cheapestPaths_exist {α : Type} (E : α × α → Prop) (w : α × α → WithTop ℕ) (a : α) :
    ∃ paths, CheapestPaths E w a paths := by
  classical
  have key : ∀ v, ∃ o : Option (List α), (o = none ↔ ∀ p, ¬ IsWalk E a v p) ∧
      ∀ p, o = some p → IsWalk E a v p ∧ ∀ q, IsWalk E a v q → walkCost w p ≤ walkCost w q := by
    intro v
    by_cases h : ∃ p, IsWalk E a v p
    · have wf : WellFounded (fun p q : List α => walkCost w p < walkCost w q) :=
        InvImage.wf (walkCost w) wellFounded_lt
      obtain ⟨p, hp, hm⟩ := wf.has_min {p | IsWalk E a v p} h
      refine ⟨some p, by simp only [reduceCtorEq, false_iff, not_forall, not_not]; exact ⟨p, hp⟩, ?_⟩
      rintro p' e
      cases e
      exact ⟨hp, fun q hq => not_lt.1 (hm q hq)⟩
    · exact ⟨none, by simpa using h, by simp⟩
  choose f h1 h2 using key
  exact ⟨f, h1, fun v p h => (h2 v p h).1, fun v p q h hq => (h2 v p h).2 q hq⟩

/-- There are searches such as C117 assumes. -/
theorem searches_exist : ∃ N, SearchesOk N := by
  choose f hf using fun G : Graph => shortestPaths_exist (fun e => e ∈ G.edges.keys) GNode.super
  choose g hg using fun G : Graph => cheapestPaths_exist (fun e => e ∈ G.edges.keys) (weight G) GNode.super
  exact ⟨⟨f, g⟩, hf, hg⟩

theorem get?_map_vals {κ ν : Type} [DecidableEq κ] (d : Dict κ ν) (f : κ → ν → ν) (k : κ) :
    Dict.get? (d.map fun e => (e.1, f e.1 e.2)) k = (d.get? k).map (f k) := by
  induction d with
  | nil => rfl
  | cons e d ih =>
    obtain ⟨k0, x⟩ := e
    by_cases c : k0 = k
    · subst c; simp [Dict.get?]
    · simp only [List.map_cons, Dict.get?, if_neg c]
      exact ih

section

variable {t : Topology} {cost : Link → Option Nat}

theorem super_iff (inv : t.Inv) :
    (t.buildDigraph StatusType.active cost).nodes.has .super = true ↔ PopInUse t := by
  rw [build_has]
  constructor
  · rintro ⟨x, hx, h | h⟩
    · obtain ⟨s, y, _, h1, h2, h3⟩ := (build_edge_super (v := x.2.1) inv).1 ((build_edge _).2 ⟨x, hx, by rw [← h]⟩)
      exact ⟨s, y, h1, h2, (active_iff _).1 h3⟩
    · exact absurd ((build_edge _).2 ⟨x, hx, by rw [← h]⟩) (build_no_in (v := x.1))
  · rintro ⟨s, y, h1, h2, h3⟩
    obtain ⟨x, hx, e⟩ := (build_edge _).1
      ((build_edge_super (f := StatusType.active) (cost := cost) inv).2 ⟨s, y, rfl, h1, h2, (active_iff _).2 h3⟩)
    simp only [Prod.mk.injEq] at e
    exact ⟨x, hx, Or.inl e.1.symm⟩

theorem routing_good (inv : t.Inv) {N : Searches} (hN : SearchesOk N) (c : LinkId → WithTop ℕ)
    (hc : ∀ id l, t.links.get? id = some l → c id = costOf (cost l)) (type : TopologyRouting) (d : DemandId) :
    (∀ q, Route t d q → ∃ q, routingPaths N (t.buildDigraph StatusType.active cost) type (.demand d) =
      some (asWalk d q) ∧ GoodRoute t c d q type) ∧
    ∀ p, routingPaths N (t.buildDigraph StatusType.active cost) type (.demand d) = some p → ∃ q, Route t d q := by
  have isRoute : ∀ p, IsWalk (t.buildDigraph StatusType.active cost).edge .super (.demand d) p → ∃ q, Route t d q := by
    intro p hp
    obtain ⟨q, hq, _⟩ := (walk_route inv d p).1 hp
    exact ⟨q, hq⟩
  cases type with
  | shortestPath =>
    have hH := hN.hops (t.buildDigraph StatusType.active cost)
    refine ⟨fun q hq => ?_, fun p hp => isRoute p (hH.walk _ _ hp)⟩
    show ∃ q, N.hops _ _ = _ ∧ _
    cases hp : N.hops (t.buildDigraph StatusType.active cost) (.demand d) with
    | none => exact absurd ((walk_route inv d _).2 ⟨q, hq, rfl⟩) ((hH.none_iff _).1 hp _)
    | some p =>
      obtain ⟨q1, h1, rfl⟩ := (walk_route inv d p).1 (hH.walk _ _ hp)
      refine ⟨q1, rfl, h1, fun q' hq' => ?_⟩
      have := hH.short _ _ _ hp ((walk_route inv d _).2 ⟨q', hq', rfl⟩)
      simpa [asWalk] using this
  | mcsCostPath =>
    have hC := hN.cheap (t.buildDigraph StatusType.active cost)
    refine ⟨fun q hq => ?_, fun p hp => isRoute p (hC.walk _ _ hp)⟩
    show ∃ q, N.cheap _ _ = _ ∧ _
    cases hp : N.cheap (t.buildDigraph StatusType.active cost) (.demand d) with
    | none => exact absurd ((walk_route inv d _).2 ⟨q, hq, rfl⟩) ((hC.none_iff _).1 hp _)
    | some p =>
      obtain ⟨q1, h1, rfl⟩ := (walk_route inv d p).1 (hC.walk _ _ hp)
      refine ⟨q1, rfl, h1, fun q' hq' => ?_⟩
      have := hC.cheap _ _ _ hp ((walk_route inv d _).2 ⟨q', hq', rfl⟩)
      rw [cost_asWalk inv c hc h1, cost_asWalk inv c hc hq'] at this
      have := (WithTop.add_le_add_iff_left (by simp)).1 this
      exact (WithTop.add_le_add_iff_right (by simp)).1 this
  | dpaPath =>
    refine ⟨fun q hq => dpa_spec inv hN c hc d ⟨q, hq⟩, fun p hp => ?_⟩
    have hp : dpaPaths N _ _ _ = some p := hp
    unfold dpaPaths at hp
    obtain ⟨f1, _⟩ := foldl_update (fun S => N.cheap ((t.buildDigraph StatusType.active cost).subgraph S))
      (((t.buildDigraph StatusType.active cost).nodes.keys.filterMap
        (N.hops (t.buildDigraph StatusType.active cost))).foldl zoneStep []).vals (fun _ => none) (.demand d)
    rcases f1 p hp with h | ⟨S, _, h⟩
    · simp at h
    · exact isRoute p (walk_sub ((hN.cheap _).walk _ _ h)).1

theorem markRoutes_spec (inv : t.Inv) (used : List LinkId) (hu : ∀ i ∈ used, ∃ l, t.links.get? i = some l)
    (L : List (LinkId × Link)) (hL : ∀ e ∈ L, e ∈ t.links) :
    t.markRoutes used L = .ok (L.map fun e =>
      (e.1, if e.1 ∈ used ∨ (⟨e.1.rx, e.1.tx⟩ : LinkId) ∈ used then e.2 else { e.2 with isRedundant := true })) := by
  induction L with
  | nil => rfl
  | cons e L ih =>
    obtain ⟨id, l⟩ := e
    have hg := (Dict.mem_iff_get? inv.nd_links _ _).1 (hL _ (List.mem_cons_self ..))
    have hid := inv.link_id _ _ hg
    obtain ⟨y, hy⟩ := inv.link_rx _ _ hg
    obtain ⟨x, hx⟩ := inv.link_tx _ _ hg
    have : t.getLinkBySiteIds l.rx l.tx = .ok (t.links.get? ⟨l.rx, l.tx⟩) := by
      unfold getLinkBySiteIds
      rw [if_pos]
      simp [Dict.has, hx, hy]
    unfold markRoutes
    rw [this, ih (fun e he => hL e (List.mem_cons_of_mem _ he))]
    subst hid
    simp only [List.map_cons, Except.ok.injEq, List.cons.injEq, Prod.mk.injEq, true_and, and_true]
    cases hr : t.links.get? ⟨l.rx, l.tx⟩ with
    | none =>
      have : (⟨l.rx, l.tx⟩ : LinkId) ∉ used := fun h => by
        obtain ⟨l', hl'⟩ := hu _ h
        rw [hr] at hl'; cases hl'
      by_cases c : (⟨l.tx, l.rx⟩ : LinkId) ∈ used <;> simp [c, this, Link.id]
    | some r =>
      have hrid : r.id = ⟨l.rx, l.tx⟩ := (inv.link_id _ _ hr).symm
      by_cases c : (⟨l.tx, l.rx⟩ : LinkId) ∈ used <;> by_cases c' : (⟨l.rx, l.tx⟩ : LinkId) ∈ used <;>
        simp [c, c', hrid]

end

/-- **C117.** With a routing type, if the network has a POP in use, the report marks as redundant the links that are on
no route in either direction, where each demand site that can be reached has one route such as the routing type asks
for. Everything else stays as it was. -/
theorem C117_routes (ops : List Op) (N : Searches) (hN : SearchesOk N) (level : LinkId → ℤ) (c : LinkId → WithTop ℕ)
    (hc : ∀ i, LevelCost (level i) (c i)) (type : TopologyRouting) (hp : PopInUse (run {} ops)) :
    ∃ (t' : Topology) (route : DemandId → List SiteId),
      (run {} ops).restrictToRoutes N level type = .ok t' ∧
      (∀ d, (∃ q, Route (run {} ops) d q) → GoodRoute (run {} ops) c d (route d) type) ∧
      (∀ id l, (run {} ops).links.get? id = some l →
        ((∃ d, (∃ q, Route (run {} ops) d q) ∧ (id ∈ steps (route d) ∨ ⟨id.rx, id.tx⟩ ∈ steps (route d))) →
          t'.links.get? id = some l) ∧
        ((∀ d, (∃ q, Route (run {} ops) d q) → id ∉ steps (route d) ∧ ⟨id.rx, id.tx⟩ ∉ steps (route d)) →
          t'.links.get? id = some { l with isRedundant := true })) ∧
      t'.links.keys = (run {} ops).links.keys ∧ t' = { (run {} ops) with links := t'.links } := by
  have inv := Inv.empty.run ops
  generalize run {} ops = t at *
  classical
  have hc' : ∀ id l, t.links.get? id = some l → c id = costOf (mcsToCost (level l.id)) := by
    intro id l hl
    have : l.id = id := (inv.link_id _ _ hl).symm
    rw [this]
    exact levelCost_iff (hc id)
  have good := fun d => routing_good (cost := fun l => mcsToCost (level l.id)) inv hN c hc' type d
  let route : DemandId → List SiteId := fun d =>
    if h : ∃ q, Route t d q then ((good d).1 _ h.choose_spec).choose else []
  have hroute : ∀ d, (∃ q, Route t d q) →
      routingPaths N (t.buildDigraph StatusType.active fun l => mcsToCost (level l.id)) type (.demand d) =
        some (asWalk d (route d)) ∧ GoodRoute t c d (route d) type := by
    intro d h
    have e : route d = ((good d).1 _ h.choose_spec).choose := dif_pos h
    rw [e]
    exact ((good d).1 _ h.choose_spec).choose_spec
  have goodRoute : ∀ d q, GoodRoute t c d q type → Route t d q := by
    intro d q h
    cases type with
    | shortestPath => exact h.1
    | mcsCostPath => exact h.1
    | dpaPath => exact h.1
  obtain ⟨used, hu1, hu2⟩ := routeLoop_spec (t := t)
    (paths := routingPaths N (t.buildDigraph StatusType.active fun l => mcsToCost (level l.id)) type) (q := route)
    t.demandSites.keys [] (by
      intro d p hp
      have hs := hroute d ((good d).2 p hp)
      rw [hs.1] at hp
      cases hp
      exact ⟨goodRoute d _ hs.2, rfl⟩)
  have hused : ∀ i, i ∈ used ↔ ∃ d, (∃ q, Route t d q) ∧ i ∈ steps (route d) := by
    intro i
    rw [hu2]
    simp only [List.not_mem_nil, false_or]
    constructor
    · rintro ⟨d, _, h1, h2⟩
      obtain ⟨p, hp⟩ := Option.ne_none_iff_exists'.1 h1
      exact ⟨d, (good d).2 p hp, h2⟩
    · rintro ⟨d, h, hi⟩
      obtain ⟨q, hq⟩ := h
      obtain ⟨_, _, dm, _, _, _, hdm, _⟩ := hq.last
      refine ⟨d, (Dict.mem_keys_iff _ _).2 ⟨dm, hdm⟩, ?_, hi⟩
      rw [(hroute d ⟨q, hq⟩).1]
      simp
  have hlink : ∀ i ∈ used, ∃ l, t.links.get? i = some l := by
    intro i hi
    obtain ⟨d, hd, hi⟩ := (hused i).1 hi
    have hr := (goodRoute d _ (hroute d hd).2).hops
    generalize route d = q at *
    clear hd
    induction q with
    | nil => simp [steps] at hi
    | cons a q ih =>
      cases q with
      | nil => simp [steps] at hi
      | cons b q =>
        rw [List.isChain_cons_cons] at hr
        rw [steps] at hi
        rcases List.mem_cons.1 hi with rfl | hi
        · obtain ⟨l, _, _, h, _⟩ := hr.1
          exact ⟨l, h⟩
        · exact ih hi hr.2
  have hm := markRoutes_spec inv used hlink t.links (fun e he => he)
  refine ⟨{ t with links := t.links.map fun e =>
      (e.1, if e.1 ∈ used ∨ (⟨e.1.rx, e.1.tx⟩ : LinkId) ∈ used then e.2 else { e.2 with isRedundant := true }) },
    route, ?_, fun d h => (hroute d h).2, ?_, ?_, rfl⟩
  · unfold restrictToRoutes routingResults
    rw [if_pos ((super_iff inv).2 hp), hu1]
    simp only [routingTopology]
    rw [hm]
  · intro id l hl
    have hget : Dict.get? (t.links.map fun e : LinkId × Link =>
        (e.1, if e.1 ∈ used ∨ (⟨e.1.rx, e.1.tx⟩ : LinkId) ∈ used then e.2 else { e.2 with isRedundant := true })) id =
        some (if id ∈ used ∨ (⟨id.rx, id.tx⟩ : LinkId) ∈ used then l else { l with isRedundant := true }) := by
      rw [get?_map_vals t.links (fun i x => if i ∈ used ∨ (⟨i.rx, i.tx⟩ : LinkId) ∈ used then x else { x with isRedundant := true })
        id, hl]
      rfl
    constructor
    · rintro ⟨d, hd, hi⟩
      dsimp only
      rw [hget, if_pos]
      rcases hi with hi | hi
      · exact Or.inl ((hused _).2 ⟨d, hd, hi⟩)
      · exact Or.inr ((hused _).2 ⟨d, hd, hi⟩)
    · intro h
      dsimp only
      rw [hget, if_neg]
      rintro (hi | hi)
      · obtain ⟨d, hd, hi⟩ := (hused _).1 hi
        exact (h d hd).1 hi
      · obtain ⟨d, hd, hi⟩ := (hused _).1 hi
        exact (h d hd).2 hi
  · simp [Dict.keys, Function.comp_def]

/-- **C117.** Without a POP in use the report with a routing type stops with an exception. -/
theorem C117_no_pop (ops : List Op) (N : Searches) (level : LinkId → ℤ) (type : TopologyRouting)
    (hp : ¬ PopInUse (run {} ops)) : (run {} ops).restrictToRoutes N level type = .error .planner := by
  have inv := Inv.empty.run ops
  unfold restrictToRoutes routingResults
  rw [if_neg]
  rw [super_iff inv]
  exact hp

theorem steps_get {t : Topology} {q : List SiteId} (h : q.IsChain (LinkInUse t)) :
    ∀ i ∈ steps q, ∃ l, t.links.get? i = some l := by
  intro i hi
  induction q with
  | nil => simp [steps] at hi
  | cons a q ih =>
    cases q with
    | nil => simp [steps] at hi
    | cons b q =>
      rw [List.isChain_cons_cons] at h
      rw [steps] at hi
      rcases List.mem_cons.1 hi with rfl | hi
      · obtain ⟨l, _, _, h, _⟩ := h.1
        exact ⟨l, h⟩
      · exact ih h.2 hi

/-- Marking links as redundant changes no route. -/
theorem route_congr {t t' : Topology} (e : t' = { t with links := t'.links })
    (hl : ∀ id l, t.links.get? id = some l → ∃ r, t'.links.get? id = some { l with isRedundant := r })
    {d : DemandId} {q : List SiteId} (h : Route t d q) : Route t' d q := by
  have es : t'.sites = t.sites := by rw [e]
  have ed : t'.demandSites = t.demandSites := by rw [e]
  obtain ⟨h1, h2, h3⟩ := h
  refine ⟨by rw [es]; exact h1, h2.imp ?_, by rw [es, ed]; exact h3⟩
  rintro a b ⟨l, x, y, g1, g2, g3, g4, g5, g6⟩
  obtain ⟨r, hr⟩ := hl _ _ g1
  exact ⟨_, x, y, hr, by rw [es]; exact g2, by rw [es]; exact g3, g4, g5, g6⟩

/-- **C117.** If no link was redundant before, each demand site that could be reached still can be reached along links
that are not redundant. -/
theorem C117_service_partial (ops : List Op) (N : Searches) (hN : SearchesOk N) (level : LinkId → ℤ)
    (type : TopologyRouting) (hr : ∀ id l, (run {} ops).links.get? id = some l → l.isRedundant = false)
    (t' : Topology) (h : (run {} ops).restrictToRoutes N level type = .ok t') (d : DemandId)
    (hd : ∃ q, Route (run {} ops) d q) :
    ∃ q, Route t' d q ∧ ∀ i ∈ steps q, ∃ l, t'.links.get? i = some l ∧ l.isRedundant = false := by
  have hp : PopInUse (run {} ops) := by
    obtain ⟨q, hq⟩ := hd
    obtain ⟨s, x, _, h1, h2, h3⟩ := hq.start
    exact ⟨s, x, h1, h2, h3⟩
  obtain ⟨t'', route, h1, h2, h3, h4, h5⟩ := C117_routes ops N hN level (fun i => costOf (mcsToCost (level i)))
    (by
      intro i
      unfold mcsToCost
      refine ⟨fun h => ?_, fun h h' => ?_, fun h h' => ?_, fun h => ?_⟩ <;> split_ifs <;> first | rfl | omega) type hp
  rw [h1] at h
  cases h
  have hR : Route (run {} ops) d (route d) := by
    have := h2 d hd
    cases type with
    | shortestPath => exact this.1
    | mcsCostPath => exact this.1
    | dpaPath => exact this.1
  refine ⟨route d, route_congr h5 ?_ hR, fun i hi => ?_⟩
  · intro id l hl
    by_cases c : ∃ d, (∃ q, Route (run {} ops) d q) ∧ (id ∈ steps (route d) ∨ ⟨id.rx, id.tx⟩ ∈ steps (route d))
    · exact ⟨l.isRedundant, (h3 id l hl).1 c⟩
    · exact ⟨true, (h3 id l hl).2 fun d hd => ⟨fun h => c ⟨d, hd, Or.inl h⟩, fun h => c ⟨d, hd, Or.inr h⟩⟩⟩
  · obtain ⟨l, hl⟩ := steps_get hR.hops i hi
    exact ⟨l, (h3 i l hl).1 ⟨d, hd, Or.inl hi⟩, hr i l hl⟩

/-! ## Marks of an earlier report -/

theorem links_ext {κ ν : Type} [DecidableEq κ] {d d' : Dict κ ν} (h : d.keys = d'.keys) (nd : d.NodupKeys)
    (hg : ∀ k ∈ d.keys, d.get? k = d'.get? k) : d = d' := by
  induction d generalizing d' with
  | nil =>
    cases d' with
    | nil => rfl
    | cons e d' => simp [Dict.keys] at h
  | cons e d ih =>
    cases d' with
    | nil => simp [Dict.keys] at h
    | cons e' d' =>
      obtain ⟨k, x⟩ := e
      obtain ⟨k', x'⟩ := e'
      simp only [Dict.keys, List.map_cons, List.cons.injEq] at h
      obtain ⟨rfl, h⟩ := h
      have nd' : k ∉ Dict.keys d ∧ (Dict.keys d).Nodup := by
        simpa [Dict.NodupKeys, Dict.keys] using nd
      have hx := hg k (by simp [Dict.keys])
      simp only [Dict.get?, if_true, Option.some.injEq] at hx
      subst hx
      congr 1
      refine ih h nd'.2 fun j hj => ?_
      have hne : k ≠ j := fun e => nd'.1 (e ▸ hj)
      have := hg j (by
        simp only [Dict.keys, List.map_cons, List.mem_cons]
        exact Or.inr hj)
      simpa [Dict.get?, hne] using this

/-- POP `P` has a direct link to `C` and one by way of `A`. -/
def twoWayOps (r1 r2 r3 : Bool) : List Op :=
  [.addSite ⟨"P", .pop, .existing, 0, 0, none, {}, none, 0, .unassigned, 0⟩ false,
   .addSite ⟨"A", .dn, .proposed, 0, 1, none, {}, none, 0, .unassigned, 0⟩ false,
   .addSite ⟨"C", .dn, .proposed, 1, 1, none, {}, none, 0, .unassigned, 0⟩ false,
   .addDemandSite { id := "D", connected := ["C"] },
   .addLink { tx := "P", rx := "C", status := .proposed, isRedundant := r1 },
   .addLink { tx := "P", rx := "A", status := .proposed, isRedundant := r2 },
   .addLink { tx := "A", rx := "C", status := .proposed, isRedundant := r3 }]

/-- The topology after these calls. -/
def twoWay (r1 r2 r3 : Bool) : Topology := run {} (twoWayOps r1 r2 r3)

/-- The direct link has MCS level 2, the others 9. -/
def twoWayLevel : LinkId → ℤ := fun i => if i = ⟨"P", "C"⟩ then 2 else 9

theorem twoWay_links (r1 r2 r3 : Bool) : (twoWay r1 r2 r3).links =
    [(⟨"P", "C"⟩, { tx := "P", rx := "C", status := .proposed, isRedundant := r1 }),
     (⟨"P", "A"⟩, { tx := "P", rx := "A", status := .proposed, isRedundant := r2 }),
     (⟨"A", "C"⟩, { tx := "A", rx := "C", status := .proposed, isRedundant := r3 })] := by
  cases r1 <;> cases r2 <;> cases r3 <;> decide +kernel

theorem twoWay_pop (r1 r2 r3 : Bool) : PopInUse (twoWay r1 r2 r3) :=
  ⟨"P", ⟨"P", .pop, .existing, 0, 0, none, {}, none, 0, .unassigned, 0⟩, by
    cases r1 <;> cases r2 <;> cases r3 <;> decide +kernel⟩

theorem twoWay_rest (r1 r2 r3 : Bool) : (twoWay r1 r2 r3).sites = (twoWay false false false).sites ∧
    (twoWay r1 r2 r3).demandSites = (twoWay false false false).demandSites ∧
    twoWay r1 r2 r3 = { (twoWay false false false) with links := (twoWay r1 r2 r3).links } := by
  cases r1 <;> cases r2 <;> cases r3 <;> decide +kernel

theorem twoWay_hop {r1 r2 r3 : Bool} {a b : SiteId} :
    LinkInUse (twoWay r1 r2 r3) a b ↔ (⟨a, b⟩ : LinkId) ∈ [(⟨"P", "C"⟩ : LinkId), ⟨"P", "A"⟩, ⟨"A", "C"⟩] := by
  constructor
  · rintro ⟨l, x, y, h, _⟩
    have := (Dict.mem_keys_iff _ _).2 ⟨l, h⟩
    rw [twoWay_links] at this
    exact this
  · intro h
    have key : ∀ i ∈ [(⟨"P", "C"⟩ : LinkId), ⟨"P", "A"⟩, ⟨"A", "C"⟩],
        ∃ l ∈ (twoWay r1 r2 r3).links.get? i, ∃ x ∈ (twoWay r1 r2 r3).sites.get? i.tx,
          ∃ y ∈ (twoWay r1 r2 r3).sites.get? i.rx, InNetwork l.status ∧ InNetwork x.status ∧ InNetwork y.status := by
      cases r1 <;> cases r2 <;> cases r3 <;> decide +kernel
    obtain ⟨l, hl, x, hx, y, hy, h⟩ := key _ h
    exact ⟨l, x, y, hl, hx, hy, h⟩

theorem twoWay_direct (r1 r2 r3 : Bool) : Route (twoWay r1 r2 r3) "D" ["P", "C"] := by
  refine ⟨⟨"P", ⟨"P", .pop, .existing, 0, 0, none, {}, none, 0, .unassigned, 0⟩, rfl, ?_⟩, ?_,
    ⟨"C", ⟨"C", .dn, .proposed, 1, 1, none, {}, none, 0, .unassigned, 0⟩, { id := "D", connected := ["C"] }, rfl, ?_⟩⟩
  · cases r1 <;> cases r2 <;> cases r3 <;> decide +kernel
  · simp only [List.isChain_cons_cons, List.isChain_singleton, and_true]
    exact twoWay_hop.2 (by simp)
  · cases r1 <;> cases r2 <;> cases r3 <;> decide +kernel

theorem twoWay_long (r1 r2 r3 : Bool) : Route (twoWay r1 r2 r3) "D" ["P", "A", "C"] := by
  obtain ⟨h1, _, h3⟩ := twoWay_direct r1 r2 r3
  refine ⟨h1, ?_, h3⟩
  simp only [List.isChain_cons_cons, List.isChain_singleton, and_true]
  exact ⟨twoWay_hop.2 (by simp), twoWay_hop.2 (by simp)⟩

theorem twoWay_ends {r1 r2 r3 : Bool} {d : DemandId} {q : List SiteId} (h : Route (twoWay r1 r2 r3) d q) :
    d = "D" ∧ q.head? = some "P" ∧ q.getLast? = some "C" := by
  obtain ⟨⟨s, x, g1, g2, g3, _⟩, _, ⟨e, _, dm, k1, _, _, k2, k3⟩⟩ := h
  have sites : ∀ z ∈ (twoWay r1 r2 r3).sites, z.2.siteType = .pop → z.1 = "P" := by
    cases r1 <;> cases r2 <;> cases r3 <;> decide +kernel
  have dem : ∀ z ∈ (twoWay r1 r2 r3).demandSites, z.1 = "D" ∧ z.2.connected = ["C"] := by
    cases r1 <;> cases r2 <;> cases r3 <;> decide +kernel
  have inv : (twoWay r1 r2 r3).Inv := Inv.empty.run _
  have hs := sites (s, x) ((Dict.mem_iff_get? inv.nd_sites _ _).2 g2) g3
  have hd := dem (d, dm) ((Dict.mem_iff_get? inv.nd_demand _ _).2 k2)
  simp only at hs hd
  rw [hd.2] at k3
  simp only [List.mem_singleton] at k3
  exact ⟨hd.1, by rw [g1, hs], by rw [k1, k3]⟩

/-- The cost that belongs to each link of `twoWay`. -/
def twoWayCost : LinkId → WithTop ℕ := fun i => if i = ⟨"P", "C"⟩ then 15 else 1

theorem twoWay_cost (i : LinkId) : LevelCost (twoWayLevel i) (twoWayCost i) := by
  unfold twoWayLevel twoWayCost
  by_cases h : i = ⟨"P", "C"⟩
  · rw [if_pos h, if_pos h]
    exact ⟨by decide, by decide, fun _ _ => rfl, by decide⟩
  · rw [if_neg h, if_neg h]
    exact ⟨fun _ => rfl, by decide, by decide, by decide⟩

theorem mem_le_sum (L : List (WithTop ℕ)) (a : WithTop ℕ) (h : a ∈ L) : a ≤ L.sum := by
  induction L with
  | nil => simp at h
  | cons b L ih =>
    rw [List.sum_cons]
    rcases List.mem_cons.1 h with rfl | h
    · exact le_self_add
    · exact (ih h).trans le_add_self

/-- **C117 is violated.** The marks of an earlier report are not taken away: after a report with the shortest paths and
then one with the cheapest paths, both of the same topology, all links are redundant, though the demand site can be
reached. -/
theorem C117_stale_violation : ∃ (ops : List Op) (level : LinkId → ℤ) (N : Searches) (t1 t2 : Topology) (d : DemandId),
    SearchesOk N ∧ (∃ q, Route (run {} ops) d q) ∧
    (∀ id l, (run {} ops).links.get? id = some l → l.isRedundant = false) ∧
    (run {} ops).restrictToRoutes N level .shortestPath = .ok t1 ∧
    t1.restrictToRoutes N level .mcsCostPath = .ok t2 ∧ (∃ q, Route t2 d q) ∧
    ∀ id l, t2.links.get? id = some l → l.isRedundant = true := by
  obtain ⟨N, hN⟩ := searches_exist
  have g0 : ∀ r1 r2 r3, ∀ id l, (twoWay r1 r2 r3).links.get? id = some l → (id, l) ∈ (twoWay r1 r2 r3).links :=
    fun r1 r2 r3 id l h => (Dict.mem_iff_get? (Inv.empty.run (twoWayOps r1 r2 r3)).nd_links _ _).2 h
  -- the first report
  obtain ⟨t1, route, h1, h2, h3, h4, h5⟩ := C117_routes (twoWayOps false false false) N hN twoWayLevel twoWayCost
    twoWay_cost .shortestPath (twoWay_pop _ _ _)
  change (twoWay false false false).restrictToRoutes N twoWayLevel .shortestPath = .ok t1 at h1
  change ∀ d, (∃ q, Route (twoWay false false false) d q) → _ at h2
  change ∀ id l, (twoWay false false false).links.get? id = some l → _ at h3
  change t1.links.keys = (twoWay false false false).links.keys at h4
  change t1 = { (twoWay false false false) with links := t1.links } at h5
  have hroute : route "D" = ["P", "C"] := by
    have hs := h2 "D" ⟨_, twoWay_direct _ _ _⟩
    have hl := hs.2 _ (twoWay_direct _ _ _)
    obtain ⟨_, e1, e2⟩ := twoWay_ends hs.1
    rcases hq : route "D" with _ | ⟨a, _ | ⟨b, _ | ⟨c, r⟩⟩⟩
    · rw [hq] at e1; simp at e1
    · rw [hq] at e1 e2; simp at e1 e2; rw [e1] at e2; simp at e2
    · rw [hq] at e1 e2; simp at e1 e2; rw [e1, e2]
    · rw [hq] at hl; simp at hl
  have nd1 : t1.links.NodupKeys := by
    unfold Dict.NodupKeys
    rw [h4]
    exact (Inv.empty.run (twoWayOps false false false)).nd_links
  have t1_eq : t1 = twoWay false true true := by
    have hlinks : t1.links = (twoWay false true true).links := by
      apply links_ext
      · rw [h4, twoWay_links, twoWay_links]; rfl
      · exact nd1
      · intro k hk
        rw [h4, twoWay_links] at hk
        have on : ∀ d, (∃ q, Route (run {} (twoWayOps false false false)) d q) → steps (route d) = [⟨"P", "C"⟩] := by
          rintro d ⟨q, hq⟩
          have := (twoWay_ends (r1 := false) (r2 := false) (r3 := false) hq).1
          subst this
          rw [hroute]; rfl
        simp only [Dict.keys, List.map_cons, List.map_nil, List.mem_cons, List.not_mem_nil, or_false] at hk
        rcases hk with rfl | rfl | rfl
        · have := (h3 ⟨"P", "C"⟩ { tx := "P", rx := "C", status := .proposed, isRedundant := false }
            (by rw [twoWay_links]; rfl)).1 ⟨"D", ⟨_, twoWay_direct _ _ _⟩, Or.inl (by rw [hroute]; simp [steps])⟩
          rw [this, twoWay_links]; rfl
        · have := (h3 ⟨"P", "A"⟩ { tx := "P", rx := "A", status := .proposed, isRedundant := false }
            (by rw [twoWay_links]; rfl)).2 (fun d hd => by rw [on d hd]; decide)
          rw [this, twoWay_links]; rfl
        · have := (h3 ⟨"A", "C"⟩ { tx := "A", rx := "C", status := .proposed, isRedundant := false }
            (by rw [twoWay_links]; rfl)).2 (fun d hd => by rw [on d hd]; decide)
          rw [this, twoWay_links]; rfl
    rw [h5, hlinks, (twoWay_rest false true true).2.2]
  -- the second report
  obtain ⟨t2, route', k1, k2, k3, k4, k5⟩ := C117_routes (twoWayOps false true true) N hN twoWayLevel twoWayCost
    twoWay_cost .mcsCostPath (twoWay_pop _ _ _)
  change (twoWay false true true).restrictToRoutes N twoWayLevel .mcsCostPath = .ok t2 at k1
  change ∀ d, (∃ q, Route (twoWay false true true) d q) → _ at k2
  change ∀ id l, (twoWay false true true).links.get? id = some l → _ at k3
  change t2.links.keys = (twoWay false true true).links.keys at k4
  have off : ∀ d, (∃ q, Route (run {} (twoWayOps false true true)) d q) →
      (⟨"P", "C"⟩ : LinkId) ∉ steps (route' d) ∧ (⟨"C", "P"⟩ : LinkId) ∉ steps (route' d) := by
    rintro d ⟨q, hq⟩
    have := (twoWay_ends (r1 := false) (r2 := true) (r3 := true) hq).1
    subst this
    have hs := k2 "D" ⟨_, twoWay_direct _ _ _⟩
    have hl := hs.2 _ (twoWay_long _ _ _)
    have e : routeCost twoWayCost ["P", "A", "C"] = 2 := by
      simp [routeCost, steps, twoWayCost]
      rfl
    rw [e] at hl
    refine ⟨fun hi => ?_, fun hi => ?_⟩
    · have : (15 : WithTop ℕ) ≤ routeCost twoWayCost (route' "D") := by
        have hm : (15 : WithTop ℕ) ∈ (steps (route' "D")).map twoWayCost :=
          List.mem_map.2 ⟨_, hi, by simp [twoWayCost]⟩
        exact mem_le_sum _ _ hm
      have h15 := this.trans hl
      exact absurd h15 (by decide)
    · obtain ⟨l, hl⟩ := steps_get hs.1.hops _ hi
      have := (Dict.mem_keys_iff _ _).2 ⟨l, hl⟩
      change _ ∈ (twoWay false true true).links.keys at this
      rw [twoWay_links] at this
      revert this
      decide
  have old : ∀ id l, (twoWay false true true).links.get? id = some l →
      t2.links.get? id = some l ∨ t2.links.get? id = some { l with isRedundant := true } := by
    intro id l hl
    by_cases c : ∃ d, (∃ q, Route (run {} (twoWayOps false true true)) d q) ∧
        (id ∈ steps (route' d) ∨ ⟨id.rx, id.tx⟩ ∈ steps (route' d))
    · exact Or.inl ((k3 id l hl).1 c)
    · exact Or.inr ((k3 id l hl).2 fun d hd => ⟨fun h => c ⟨d, hd, Or.inl h⟩, fun h => c ⟨d, hd, Or.inr h⟩⟩)
  refine ⟨twoWayOps false false false, twoWayLevel, N, t1, t2, "D", hN, ⟨_, twoWay_direct _ _ _⟩, ?_, h1, ?_, ?_, ?_⟩
  · intro id l hl
    have := g0 _ _ _ id l hl
    rw [twoWay_links] at this
    simp only [List.mem_cons, Prod.mk.injEq, List.not_mem_nil, or_false] at this
    rcases this with ⟨_, rfl⟩ | ⟨_, rfl⟩ | ⟨_, rfl⟩ <;> rfl
  · rw [t1_eq]; exact k1
  · refine ⟨_, route_congr k5 ?_ (twoWay_direct false true true)⟩
    intro id l hl
    rcases old id l hl with h | h
    · exact ⟨l.isRedundant, h⟩
    · exact ⟨true, h⟩
  · intro id l hl
    have hk := (Dict.mem_keys_iff _ _).2 ⟨l, hl⟩
    rw [k4] at hk
    obtain ⟨l0, hl0⟩ := (Dict.mem_keys_iff _ _).1 hk
    have hm := g0 _ _ _ id l0 hl0
    rw [twoWay_links] at hm
    simp only [List.mem_cons, Prod.mk.injEq, List.not_mem_nil, or_false] at hm
    rcases hm with ⟨rfl, rfl⟩ | ⟨rfl, rfl⟩ | ⟨rfl, rfl⟩
    · have := (k3 _ _ hl0).2 off
      rw [hl] at this
      cases this
      rfl
    · rcases old _ _ hl0 with h | h <;> rw [hl] at h <;> cases h <;> rfl
    · rcases old _ _ hl0 with h | h <;> rw [hl] at h <;> cases h <;> rfl

/-- The hypotheses of `C117_routes` and `C117_service_partial`: two ways to a demand site, no marks yet, searches that do
what networkx documents. -/
example : ∃ N : Searches, SearchesOk N ∧ PopInUse (run {} (twoWayOps false false false)) ∧
    (∀ i, LevelCost (twoWayLevel i) (twoWayCost i)) ∧ (∃ q, Route (run {} (twoWayOps false false false)) "D" q) ∧
    ∀ e ∈ (run {} (twoWayOps false false false)).links, e.2.isRedundant = false := by
  obtain ⟨N, hN⟩ := searches_exist
  exact ⟨N, hN, twoWay_pop _ _ _, twoWay_cost, ⟨_, twoWay_long _ _ _⟩, by decide +kernel⟩

/-- The hypothesis of `C117_no_pop`. -/
example : ¬ PopInUse (run {} [.addSite ⟨"A", .dn, .proposed, 0, 1, none, {}, none, 0, .unassigned, 0⟩ false]) := by
  rintro ⟨s, x, h, h1, _⟩
  have inv := Inv.empty.run [.addSite ⟨"A", .dn, .proposed, 0, 1, none, {}, none, 0, .unassigned, 0⟩ false]
  have : ∀ z ∈ (run {} [.addSite ⟨"A", .dn, .proposed, 0, 1, none, {}, none, 0, .unassigned, 0⟩ false]).sites,
      z.2.siteType = .dn := by decide +kernel
  have := this (s, x) ((Dict.mem_iff_get? inv.nd_sites _ _).2 h)
  rw [h1] at this
  cases this

end Verif
