import Verif.Lemmas.Routing

/-! Lemmas for C117: the zones of the POPs. -/

namespace Verif
open Spec Topology Relation

/-! ## Zones -/

theorem zones_spec (L : List (List GNode)) (Z : Dict GNode (List GNode)) (hz : Z.NodupKeys) :
    (L.foldl zoneStep Z).NodupKeys ∧
    ∀ pop, (∀ S, (L.foldl zoneStep Z).get? pop = some S →
      ∀ v, v ∈ S ↔ v ∈ (Z.get? pop).getD [] ∨ ∃ a r, (a :: pop :: r) ∈ L ∧ v ∈ a :: pop :: r) ∧
      ((∃ a r, (a :: pop :: r) ∈ L) → ∃ S, (L.foldl zoneStep Z).get? pop = some S) ∧
      ((∃ S, Z.get? pop = some S) → ∃ S, (L.foldl zoneStep Z).get? pop = some S) := by
  induction L generalizing Z with
  | nil =>
    refine ⟨hz, fun pop => ⟨fun S hS v => ?_, by simp, fun h => h⟩⟩
    have : Z.get? pop = some S := hS
    simp [this]
  | cons p L ih =>
    by_cases hp : ∀ a pop r, p ≠ a :: pop :: r
    · have e : zoneStep Z p = Z := by
        rcases p with _ | ⟨a, _ | ⟨b, r⟩⟩
        · rfl
        · rfl
        · exact absurd rfl (hp a b r)
      have := ih Z hz
      rw [List.foldl_cons, e]
      refine ⟨this.1, fun pop => ⟨fun S hS v => ?_, fun h => ?_, (this.2 pop).2.2⟩⟩
      · rw [(this.2 pop).1 S hS v]
        constructor
        · rintro (h | ⟨a, r, h1, h2⟩)
          · exact Or.inl h
          · exact Or.inr ⟨a, r, List.mem_cons_of_mem _ h1, h2⟩
        · rintro (h | ⟨a, r, h1, h2⟩)
          · exact Or.inl h
          · rcases List.mem_cons.1 h1 with h1 | h1
            · exact absurd h1.symm (hp _ _ _)
            · exact Or.inr ⟨a, r, h1, h2⟩
      · obtain ⟨a, r, h1⟩ := h
        rcases List.mem_cons.1 h1 with h1 | h1
        · exact absurd h1.symm (hp _ _ _)
        · exact (this.2 pop).2.1 ⟨a, r, h1⟩
    rcases p with _ | ⟨a, _ | ⟨b, r⟩⟩
    · exact absurd (by simp) hp
    · exact absurd (by simp) hp
    · clear hp
      rw [List.foldl_cons]
      have e : zoneStep Z (a :: b :: r) = Z.set b (((Z.get? b).getD []) ++ (a :: b :: r)) := rfl
      rw [e]
      have := ih (Z.set b (((Z.get? b).getD []) ++ (a :: b :: r))) (Dict.NodupKeys.set hz _ _)
      refine ⟨this.1, fun pop => ⟨fun S hS v => ?_, fun h => ?_, fun h => ?_⟩⟩
      · rw [(this.2 pop).1 S hS v, Dict.get?_set]
        by_cases c : b = pop
        · subst c
          simp only [if_true, Option.getD_some, List.mem_append]
          constructor
          · rintro ((h | h) | ⟨a', r', h1, h2⟩)
            · exact Or.inl h
            · exact Or.inr ⟨a, r, List.mem_cons_self .., h⟩
            · exact Or.inr ⟨a', r', List.mem_cons_of_mem _ h1, h2⟩
          · rintro (h | ⟨a', r', h1, h2⟩)
            · exact Or.inl (Or.inl h)
            · rcases List.mem_cons.1 h1 with h1 | h1
              · simp only [List.cons.injEq, true_and] at h1
                obtain ⟨rfl, rfl⟩ := h1
                exact Or.inl (Or.inr h2)
              · exact Or.inr ⟨a', r', h1, h2⟩
        · have c' : ¬ pop = b := fun h => c h.symm
          simp only [if_neg c, if_neg c']
          constructor
          · rintro (h | ⟨a', r', h1, h2⟩)
            · exact Or.inl h
            · exact Or.inr ⟨a', r', List.mem_cons_of_mem _ h1, h2⟩
          · rintro (h | ⟨a', r', h1, h2⟩)
            · exact Or.inl h
            · rcases List.mem_cons.1 h1 with h1 | h1
              · simp only [List.cons.injEq] at h1
                exact absurd h1.2.1.symm c
              · exact Or.inr ⟨a', r', h1, h2⟩
      · obtain ⟨a', r', h1⟩ := h
        rcases List.mem_cons.1 h1 with h1 | h1
        · simp only [List.cons.injEq] at h1
          apply (this.2 pop).2.2
          rw [h1.2.1, Dict.get?_set]
          simp
        · exact (this.2 pop).2.1 ⟨a', r', h1⟩
      · apply (this.2 pop).2.2
        rw [Dict.get?_set]
        split
        · exact ⟨_, rfl⟩
        · exact h

theorem foldl_update {α : Type} (f : α → Paths) (L : List α) (acc : Paths) (v : GNode) :
    (∀ p, L.foldl (fun a S => updatePaths a (f S)) acc v = some p → acc v = some p ∨ ∃ S ∈ L, f S v = some p) ∧
    (((∃ p, acc v = some p) ∨ ∃ S ∈ L, ∃ p, f S v = some p) →
      ∃ p, L.foldl (fun a S => updatePaths a (f S)) acc v = some p) := by
  induction L generalizing acc with
  | nil => exact ⟨fun p h => Or.inl h, by simp⟩
  | cons S L ih =>
    rw [List.foldl_cons]
    obtain ⟨h1, h2⟩ := ih (updatePaths acc (f S))
    constructor
    · intro p hp
      rcases h1 p hp with h | ⟨S', hS, h⟩
      · unfold updatePaths at h
        cases hf : f S v with
        | none => rw [hf] at h; exact Or.inl h
        | some p' => rw [hf] at h; exact Or.inr ⟨S, List.mem_cons_self .., by rw [hf]; exact h⟩
      · exact Or.inr ⟨S', List.mem_cons_of_mem _ hS, h⟩
    · intro h
      apply h2
      rcases h with ⟨p, h⟩ | ⟨S', hS, p, h⟩
      · left
        unfold updatePaths
        cases hf : f S v with
        | none => exact ⟨p, h⟩
        | some p' => exact ⟨p', rfl⟩
      · rcases List.mem_cons.1 hS with rfl | hS
        · left
          unfold updatePaths
          rw [h]
          exact ⟨p, rfl⟩
        · exact Or.inr ⟨S', hS, p, h⟩

theorem sub_edge (G : Graph) (S : List GNode) (e : GEdge) :
    e ∈ (G.subgraph S).edges.keys ↔ G.edge e ∧ e.1 ∈ S ∧ e.2 ∈ S := by
  unfold Graph.subgraph Graph.edge Dict.keys
  simp only [List.mem_map, List.mem_filter, Bool.and_eq_true, List.contains_iff_mem]
  constructor
  · rintro ⟨x, ⟨h1, h2, h3⟩, rfl⟩
    exact ⟨⟨x, h1, rfl⟩, h2, h3⟩
  · rintro ⟨⟨x, h1, rfl⟩, h2, h3⟩
    exact ⟨x, ⟨h1, h2, h3⟩, rfl⟩

theorem get?_filter_keys {κ ν : Type} [DecidableEq κ] (d : Dict κ ν) (f : κ → Bool) (k : κ) (h : f k = true) :
    Dict.get? (d.filter fun e => f e.1) k = d.get? k := by
  induction d with
  | nil => rfl
  | cons e d ih =>
    obtain ⟨k0, x⟩ := e
    by_cases c : k0 = k
    · subst c
      rw [List.filter_cons_of_pos (by exact h)]
      simp [Dict.get?]
    · by_cases c' : f k0 = true
      · rw [List.filter_cons_of_pos (by exact c')]
        simp only [Dict.get?, if_neg c]
        exact ih
      · rw [List.filter_cons_of_neg (by exact c')]
        simp only [Dict.get?, if_neg c]
        exact ih

theorem sub_weight (G : Graph) (S : List GNode) (e : GEdge) (h1 : e.1 ∈ S) (h2 : e.2 ∈ S) :
    weight (G.subgraph S) e = weight G e := by
  unfold weight
  have : (G.subgraph S).edges.get? e = G.edges.get? e :=
    get?_filter_keys G.edges (fun e => S.contains e.1 && S.contains e.2) e (by simp [h1, h2])
  rw [this]

theorem sub_walk {G : Graph} {S : List GNode} {p : List GNode} (h : ∀ v ∈ p, v ∈ S)
    (hp : p.IsChain (fun x y => G.edge (x, y))) :
    p.IsChain (fun x y => (x, y) ∈ (G.subgraph S).edges.keys) ∧
    walkCost (weight (G.subgraph S)) p = walkCost (weight G) p := by
  induction p with
  | nil => exact ⟨by simp, rfl⟩
  | cons a p ih =>
    cases p with
    | nil => exact ⟨by simp, rfl⟩
    | cons b p =>
      rw [List.isChain_cons_cons] at hp
      obtain ⟨i1, i2⟩ := ih (fun v hv => h v (List.mem_cons_of_mem _ hv)) hp.2
      have ha := h a (List.mem_cons_self ..)
      have hb := h b (List.mem_cons_of_mem _ (List.mem_cons_self ..))
      refine ⟨List.isChain_cons_cons.2 ⟨(sub_edge ..).2 ⟨hp.1, ha, hb⟩, i1⟩, ?_⟩
      simp only [walkCost]
      rw [sub_weight _ _ _ ha hb, i2]

theorem walk_sub {G : Graph} {S : List GNode} {a b : GNode} {p : List GNode}
    (h : IsWalk (fun e => e ∈ (G.subgraph S).edges.keys) a b p) :
    IsWalk G.edge a b p ∧ (a ≠ b → ∀ v ∈ p, v ∈ S) := by
  obtain ⟨h1, h2, h3⟩ := h
  refine ⟨⟨h1, h2, h3.imp fun x y hxy => ((sub_edge ..).1 hxy).1⟩, fun hne => ?_⟩
  induction p generalizing a with
  | nil => simp
  | cons x p ih =>
    simp only [List.head?_cons, Option.some.injEq] at h1
    subst h1
    cases p with
    | nil =>
      simp only [List.getLast?_singleton, Option.some.injEq] at h2
      exact absurd h2 hne
    | cons y p =>
      rw [List.getLast?_cons_cons] at h2
      rw [List.isChain_cons_cons] at h3
      obtain ⟨_, m1, m2⟩ := (sub_edge ..).1 h3.1
      intro v hv
      rcases List.mem_cons.1 hv with rfl | hv
      · exact m1
      · by_cases c : y = b
        · cases p with
          | nil =>
            simp only [List.mem_singleton] at hv
            rw [hv]; exact m2
          | cons z p =>
            rw [List.isChain_cons_cons] at h3
            rcases List.mem_cons.1 hv with rfl | hv
            · exact m2
            · have key : ∀ (w : GNode) (r : List GNode),
                  (w :: r).IsChain (fun x y => (x, y) ∈ (G.subgraph S).edges.keys) → ∀ v ∈ r, v ∈ S := by
                intro w r
                induction r generalizing w with
                | nil => simp
                | cons u r ih' =>
                  intro hc v hv
                  rw [List.isChain_cons_cons] at hc
                  rcases List.mem_cons.1 hv with rfl | hv
                  · exact ((sub_edge ..).1 hc.1).2.2
                  · exact ih' u hc.2 v hv
              exact key y (z :: p) (List.isChain_cons_cons.2 h3.2) v hv
        · exact ih rfl h2 h3.2 c v hv

section

variable {t : Topology} {cost : Link → Option Nat}

theorem edge_node {u v : GNode} (h : (t.buildDigraph StatusType.active cost).edge (u, v)) :
    v ∈ (t.buildDigraph StatusType.active cost).nodes.keys := by
  obtain ⟨x, hx, e⟩ := (build_edge _).1 h
  have := (build_has (t := t) (f := StatusType.active) (cost := cost) v).2 ⟨x, hx, Or.inr (by
    simp only [Prod.mk.injEq] at e
    exact e.2.symm)⟩
  rw [Dict.has_iff] at this
  exact (Dict.mem_keys_iff _ _).2 this

theorem walk_node {p : List GNode} {v : GNode} (hv : v ≠ .super)
    (h : IsWalk (t.buildDigraph StatusType.active cost).edge .super v p) :
    v ∈ (t.buildDigraph StatusType.active cost).nodes.keys := by
  obtain ⟨h1, h2, h3⟩ := h
  rcases List.eq_nil_or_concat p with rfl | ⟨l, b, rfl⟩
  · simp at h1
  · simp only [List.concat_eq_append] at h1 h2 h3
    rw [List.getLast?_append] at h2
    simp only [List.getLast?_singleton, Option.some_or, Option.some.injEq] at h2
    subst h2
    rcases List.eq_nil_or_concat l with rfl | ⟨l', a, rfl⟩
    · simp only [List.nil_append, List.head?_cons, Option.some.injEq] at h1
      exact absurd h1 hv
    · rw [List.isChain_append] at h3
      exact edge_node (h3.2.2 a (by simp) b (by simp))

theorem site_tail (inv : t.Inv) (p : List GNode) (a s : SiteId)
    (h1 : p.head? = some (.site a)) (h2 : p.getLast? = some (.site s))
    (h3 : p.IsChain (fun x y => (t.buildDigraph StatusType.active cost).edge (x, y))) :
    ∃ q : List SiteId, p = q.map GNode.site ∧ q.head? = some a ∧ q.IsChain (LinkInUse t) ∧ q.getLast? = some s := by
  induction p generalizing a with
  | nil => simp at h1
  | cons u p ih =>
    simp only [List.head?_cons, Option.some.injEq] at h1
    subst h1
    cases p with
    | nil =>
      simp only [List.getLast?_singleton, Option.some.injEq, GNode.site.injEq] at h2
      subst h2
      exact ⟨[a], rfl, rfl, by simp, rfl⟩
    | cons v p =>
      rw [List.getLast?_cons_cons] at h2
      rw [List.isChain_cons_cons] at h3
      cases v with
      | super => exact absurd h3.1 build_no_in
      | demand d' =>
        cases p with
        | nil => simp at h2
        | cons w p =>
          rw [List.isChain_cons_cons] at h3
          exact absurd h3.2.1 build_no_out
      | site b =>
        obtain ⟨q, e, g1, g2, g3⟩ := ih b rfl h2 h3.2
        have hl := (edge_site_iff inv).1 h3.1
        cases q with
        | nil => simp at g1
        | cons x q =>
          simp only [List.head?_cons, Option.some.injEq] at g1
          subst g1
          refine ⟨a :: x :: q, by rw [e]; rfl, rfl, List.isChain_cons_cons.2 ⟨hl, g2⟩, ?_⟩
          rw [List.getLast?_cons_cons]
          exact g3

theorem chain_site (inv : t.Inv) (q : List SiteId) (h : q.IsChain (LinkInUse t)) :
    (q.map GNode.site).IsChain (fun x y => (t.buildDigraph StatusType.active cost).edge (x, y)) := by
  rw [List.isChain_map]
  exact h.imp fun x y h => (edge_site_iff inv).2 h

theorem walk_site (inv : t.Inv) (s : SiteId) (p : List GNode) :
    IsWalk (t.buildDigraph StatusType.active cost).edge .super (.site s) p ↔
      ∃ P q, PopPath t P s q ∧ p = .super :: q.map GNode.site := by
  constructor
  · rintro ⟨h1, h2, h3⟩
    cases p with
    | nil => simp at h1
    | cons u p =>
      simp only [List.head?_cons, Option.some.injEq] at h1
      subst h1
      cases p with
      | nil => simp at h2
      | cons v p =>
        rw [List.getLast?_cons_cons] at h2
        rw [List.isChain_cons_cons] at h3
        obtain ⟨P, y, rfl, g1, g2, g3⟩ := (build_edge_super inv).1 h3.1
        obtain ⟨q, e, f1, f2, f3⟩ := site_tail inv _ P s rfl h2 h3.2
        exact ⟨P, q, ⟨⟨y, g1, g2, (active_iff _).1 g3⟩, f1, f2, f3⟩, by rw [e]⟩
  · rintro ⟨P, q, h, rfl⟩
    obtain ⟨x, g2, g3, g4⟩ := h.pop
    have g1 := h.head
    have gl := h.last
    have := chain_site (cost := cost) inv q h.hops
    cases q with
    | nil => simp at g1
    | cons a q =>
      simp only [List.head?_cons, Option.some.injEq] at g1
      subst g1
      refine ⟨rfl, ?_, ?_⟩
      · rw [List.map_cons, List.getLast?_cons_cons, ← List.map_cons, List.getLast?_map, gl]; rfl
      · simp only [List.map_cons] at this ⊢
        exact List.isChain_cons_cons.2 ⟨(build_edge_super inv).2 ⟨a, x, rfl, g2, g3, (active_iff _).2 g4⟩, this⟩

theorem nearest_of_mem (inv : t.Inv) {v : GNode} {P s : SiteId} {r : List GNode}
    (h : IsWalk (t.buildDigraph StatusType.active cost).edge .super v (.super :: .site P :: r))
    (hmin : ∀ p, IsWalk (t.buildDigraph StatusType.active cost).edge .super v p →
      (GNode.super :: .site P :: r).length ≤ p.length)
    (hs : GNode.site s ∈ GNode.super :: .site P :: r) : NearestPop t P s := by
  obtain ⟨a, b, e⟩ := List.append_of_mem hs
  have e' : GNode.super :: .site P :: r = (a ++ [.site s]) ++ b := by rw [e]; simp
  obtain ⟨h1, h2, h3⟩ := h
  rw [e'] at h2 h3 hmin
  rw [List.isChain_append] at h3
  have hd : (a ++ [GNode.site s]).head? = some .super := by
    cases a with
    | nil => simp at e
    | cons x a =>
      simp only [List.cons_append, List.cons.injEq] at e
      rw [← e.1]; rfl
  have w : IsWalk (t.buildDigraph StatusType.active cost).edge .super (.site s) (a ++ [.site s]) :=
    ⟨hd, by simp, h3.1⟩
  obtain ⟨P1, q, hq, e2⟩ := (walk_site inv s _).1 w
  have hP : P1 = P := by
    have hh := hq.head
    cases q with
    | nil => simp at hh
    | cons x q =>
      simp only [List.head?_cons, Option.some.injEq] at hh
      rw [e2] at e'
      simp only [List.map_cons, List.cons_append, List.cons.injEq, true_and, GNode.site.injEq] at e'
      rw [← hh, e'.1]
  subst hP
  refine ⟨q, hq, fun P' q' hq' => ?_⟩
  have w' := (walk_site (cost := cost) inv s _).2 ⟨P', q', hq', rfl⟩
  have := hmin ((.super :: q'.map GNode.site) ++ b) ⟨by simp, ?_, ?_⟩
  · rw [e2] at this
    simp only [List.length_append, List.length_cons, List.length_map] at this
    omega
  · rw [List.getLast?_append] at h2 ⊢
    rw [w'.2.1]
    rw [w.2.1] at h2
    exact h2
  · rw [List.isChain_append]
    refine ⟨w'.2.2, h3.2.1, ?_⟩
    rw [w'.2.1]
    rw [w.2.1] at h3
    exact h3.2.2

/-- A demand site is on a path only as its end. -/
theorem demand_last {v : GNode} {d : DemandId} {p : List GNode}
    (h : IsWalk (t.buildDigraph StatusType.active cost).edge .super v p) (hd : GNode.demand d ∈ p) : v = .demand d := by
  obtain ⟨a, b, rfl⟩ := List.append_of_mem hd
  obtain ⟨h1, h2, h3⟩ := h
  cases b with
  | nil =>
    rw [List.getLast?_append] at h2
    simpa using h2.symm
  | cons x b =>
    rw [List.isChain_append] at h3
    have := h3.2.1
    rw [List.isChain_cons_cons] at this
    exact absurd this.1 build_no_out

theorem mem_vals_get? {κ ν : Type} [DecidableEq κ] {d : Dict κ ν} (h : d.NodupKeys) {x : ν} (hx : x ∈ d.vals) :
    ∃ k, d.get? k = some x := by
  obtain ⟨⟨k, y⟩, hk, rfl⟩ := List.mem_map.1 hx
  exact ⟨k, (Dict.mem_iff_get? h _ _).1 hk⟩

theorem dpa_spec (inv : t.Inv) {N : Searches} (hN : SearchesOk N) (c : LinkId → WithTop ℕ)
    (hc : ∀ id l, t.links.get? id = some l → c id = costOf (cost l)) (d : DemandId) (hd : ∃ q, Route t d q) :
    ∃ q, dpaPaths N (t.buildDigraph StatusType.active cost) (N.hops (t.buildDigraph StatusType.active cost)) (.demand d) =
      some (asWalk d q) ∧ GoodRoute t c d q .dpaPath := by
  generalize hG : t.buildDigraph StatusType.active cost = G
  have edge_eq : ∀ e, e ∈ G.edges.keys ↔ (t.buildDigraph StatusType.active cost).edge e := by
    intro e; rw [hG]; rfl
  have hH := hN.hops G
  -- the path with fewest hops
  obtain ⟨q0, hq0, hmin0, hp0⟩ : ∃ q0, Route t d q0 ∧ (∀ q', Route t d q' → q0.length ≤ q'.length) ∧
      N.hops G (.demand d) = some (asWalk d q0) := by
    cases hp : N.hops G (.demand d) with
    | none =>
      obtain ⟨q, hq⟩ := hd
      have := (hH.none_iff _).1 hp (asWalk d q)
      rw [← hG] at this
      exact absurd ((walk_route inv d _).2 ⟨q, hq, rfl⟩) this
    | some p =>
      have hw := hH.walk _ _ hp
      have hs := hH.short (.demand d) p
      rw [← hG] at hw hs
      obtain ⟨q, hq, rfl⟩ := (walk_route inv d p).1 hw
      refine ⟨q, hq, fun q' hq' => ?_, rfl⟩
      have := hs _ (by rw [hG]; exact hp) ((walk_route inv d _).2 ⟨q', hq', rfl⟩)
      simpa [asWalk] using this
  obtain ⟨P, xP, g1, g2, g3, g4⟩ := hq0.start
  obtain ⟨r0, hr0⟩ : ∃ r0, asWalk d q0 = .super :: .site P :: r0 := by
    cases q0 with
    | nil => simp at g1
    | cons a q0 =>
      simp only [List.head?_cons, Option.some.injEq] at g1
      subst g1
      exact ⟨_, rfl⟩
  -- the zones
  generalize hL : G.nodes.keys.filterMap (N.hops G) = L
  have memL : ∀ p, p ∈ L ↔ ∃ v ∈ G.nodes.keys, N.hops G v = some p := by
    intro p; rw [← hL, List.mem_filterMap]
  obtain ⟨znd, zs⟩ := zones_spec L [] Dict.nodupKeys_nil
  have hdL : asWalk d q0 ∈ L := by
    refine (memL _).2 ⟨.demand d, ?_, hp0⟩
    have := walk_node (cost := cost) (v := .demand d) (by simp) ((walk_route inv d _).2 ⟨q0, hq0, rfl⟩)
    rwa [hG] at this
  obtain ⟨S, hS⟩ := (zs (.site P)).2.1 ⟨.super, r0, by rw [← hr0]; exact hdL⟩
  have memS : ∀ v, v ∈ S ↔ ∃ a r, (a :: .site P :: r) ∈ L ∧ v ∈ a :: .site P :: r := by
    intro v
    rw [(zs (.site P)).1 S hS v]
    simp [Dict.get?]
  have pathL : ∀ p, p ∈ L → ∃ v, IsWalk (t.buildDigraph StatusType.active cost).edge .super v p ∧
      ∀ p', IsWalk (t.buildDigraph StatusType.active cost).edge .super v p' → p.length ≤ p'.length := by
    intro p hp
    obtain ⟨v, _, hv⟩ := (memL p).1 hp
    have h1 := hH.walk _ _ hv
    have h2 := hH.short v p
    rw [hG]
    exact ⟨v, h1, fun p' hp' => h2 p' hv hp'⟩
  have nearS : ∀ s, GNode.site s ∈ S → NearestPop t P s := by
    intro s hs
    obtain ⟨a, r, h1, h2⟩ := (memS _).1 hs
    obtain ⟨v, w, m⟩ := pathL _ h1
    have ha := w.1
    simp only [List.head?_cons, Option.some.injEq] at ha
    subst ha
    exact nearest_of_mem inv w m h2
  -- only the zone of `P` has the demand site
  have only : ∀ k S', (L.foldl zoneStep []).get? k = some S' → GNode.demand d ∈ S' → S' = S := by
    intro k S' hS' hd'
    rw [(zs k).1 S' hS'] at hd'
    simp only [Dict.get?, Option.getD_none, List.not_mem_nil, false_or] at hd'
    obtain ⟨a, r, h1, h2⟩ := hd'
    obtain ⟨v, hv, hv'⟩ := (memL _).1 h1
    have hw := hH.walk _ _ hv'
    have : v = .demand d := by
      rw [← hG] at hw
      exact demand_last hw h2
    subst this
    rw [hp0, hr0] at hv'
    simp only [Option.some.injEq, List.cons.injEq] at hv'
    rw [← hv'.2.1, hS] at hS'
    exact (Option.some.injEq _ _ ▸ hS').symm
  -- the cheapest path of the zone
  have hC := hN.cheap (G.subgraph S)
  have inS : ∀ v ∈ asWalk d q0, v ∈ S := by
    intro v hv
    rw [hr0] at hv
    exact (memS v).2 ⟨.super, r0, by rw [← hr0]; exact hdL, hv⟩
  have subw : ∀ q', Route t d q' → (∀ v ∈ asWalk d q', v ∈ S) →
      IsWalk (fun e => e ∈ (G.subgraph S).edges.keys) .super (.demand d) (asWalk d q') ∧
      walkCost (weight (G.subgraph S)) (asWalk d q') = 1 + (routeCost c q' + 1) := by
    intro q' hq' hv
    have w := (walk_route (cost := cost) inv d _).2 ⟨q', hq', rfl⟩
    have k := cost_asWalk (cost := cost) inv c hc hq'
    rw [hG] at w k
    obtain ⟨i1, i2⟩ := sub_walk hv w.2.2
    exact ⟨⟨w.1, w.2.1, i1⟩, by rw [i2, k]⟩
  obtain ⟨w0, k0⟩ := subw q0 hq0 inS
  obtain ⟨p, hp⟩ : ∃ p, N.cheap (G.subgraph S) (.demand d) = some p := by
    cases h : N.cheap (G.subgraph S) (.demand d) with
    | none => exact absurd w0 ((hC.none_iff _).1 h _)
    | some p => exact ⟨p, rfl⟩
  have hdp : dpaPaths N G (N.hops G) (.demand d) = some p := by
    unfold dpaPaths
    rw [hL]
    obtain ⟨f1, f2⟩ := foldl_update (fun S => N.cheap (G.subgraph S)) (L.foldl zoneStep []).vals (fun _ => none) (.demand d)
    have hSv : S ∈ (L.foldl zoneStep []).vals :=
      List.mem_map.2 ⟨(.site P, S), (Dict.mem_iff_get? znd _ _).2 hS, rfl⟩
    obtain ⟨p', hp'⟩ := f2 (Or.inr ⟨S, hSv, p, hp⟩)
    rcases f1 p' hp' with h | ⟨S', hS', h⟩
    · simp at h
    · obtain ⟨k, hk⟩ := mem_vals_get? znd hS'
      have w' := (hN.cheap (G.subgraph S')).walk _ _ h
      have hm : GNode.demand d ∈ S' := (walk_sub w').2 (by simp) _ (List.mem_of_getLast? w'.2.1)
      rw [only k S' hk hm, hp] at h
      rw [hp', h]
  have hwp := hC.walk _ _ hp
  obtain ⟨wp, ip⟩ := walk_sub hwp
  rw [← hG] at wp
  obtain ⟨q, hq, rfl⟩ := (walk_route inv d p).1 wp
  have inq := ip (by simp)
  obtain ⟨_, kq⟩ := subw q hq inq
  have cheap : ∀ q', Route t d q' → (∀ v ∈ asWalk d q', v ∈ S) → routeCost c q ≤ routeCost c q' := by
    intro q' hq' hv
    obtain ⟨w', k'⟩ := subw q' hq' hv
    have := hC.cheap _ _ _ hp w'
    rw [kq, k'] at this
    have := (WithTop.add_le_add_iff_left (by simp)).1 this
    exact (WithTop.add_le_add_iff_right (by simp)).1 this
  have near : ∀ s ∈ q, NearestPop t P s := fun s hs => nearS s (inq _ (by simp [asWalk, hs]))
  have hhead : q.head? = some P := by
    obtain ⟨s, x, e1, e2, e3, e4⟩ := hq.start
    obtain ⟨qs, hqs, hm⟩ := near s (List.mem_of_head? e1)
    have hl := hm s [s] ⟨⟨x, e2, e3, e4⟩, rfl, by simp, rfl⟩
    have h1 := hqs.head
    have h2 := hqs.last
    rcases qs with _ | ⟨a, _ | ⟨b, qs⟩⟩
    · simp at h1
    · simp only [List.head?_cons, Option.some.injEq, List.getLast?_singleton] at h1 h2
      rw [e1, ← h2, h1]
    · simp at hl
  refine ⟨q, hdp, hq, P, hhead, near, ⟨q0, ⟨hq0, hmin0⟩, g1, cheap q0 hq0 inS⟩, fun q' hq' hu => cheap q' hq' ?_⟩
  intro v hv
  simp only [asWalk, List.mem_cons, List.mem_append, List.mem_map, List.not_mem_nil, or_false] at hv
  rcases hv with rfl | ⟨s, hs, rfl⟩ | rfl
  · exact inS _ (by simp [asWalk])
  · -- the path with fewest hops to `s`
    obtain ⟨i, rest, e⟩ := List.append_of_mem hs
    have wq' := (walk_route (cost := cost) inv d _).2 ⟨q', hq', rfl⟩
    have ws : IsWalk (t.buildDigraph StatusType.active cost).edge .super (.site s) (.super :: (i ++ [s]).map GNode.site) := by
      refine ⟨rfl, ?_, ?_⟩
      · rw [List.map_append, ← List.cons_append, List.getLast?_append]; rfl
      · have := wq'.2.2
        rw [asWalk, e] at this
        have e3 : (GNode.super :: ((i ++ s :: rest).map GNode.site ++ [GNode.demand d])) =
            (.super :: (i ++ [s]).map GNode.site) ++ (rest.map GNode.site ++ [GNode.demand d]) := by simp
        rw [e3, List.isChain_append] at this
        exact this.1
    have hn := walk_node (by simp) ws
    rw [hG] at hn ws
    cases hps : N.hops G (.site s) with
    | none => exact absurd ws ((hH.none_iff _).1 hps _)
    | some ps =>
      have hps' := hH.walk _ _ hps
      have hpm := hH.short (.site s) ps
      rw [← hG] at hps'
      obtain ⟨P', qs, hqs, rfl⟩ := (walk_site inv s ps).1 hps'
      have hP' : NearestPop t P' s := ⟨qs, hqs, fun P2 q2 h2 => by
        have w2 := (walk_site (cost := cost) inv s _).2 ⟨P2, q2, h2, rfl⟩
        rw [hG] at w2
        have := hpm _ hps w2
        simpa using this⟩
      have := hu s hs P' hP'
      subst this
      have hh := hqs.head
      have hl := hqs.last
      cases qs with
      | nil => simp at hh
      | cons a qs =>
        simp only [List.head?_cons, Option.some.injEq] at hh
        subst hh
        refine (memS _).2 ⟨.super, qs.map GNode.site, (memL _).2 ⟨.site s, hn, hps⟩, ?_⟩
        have := List.mem_of_getLast? hl
        exact List.mem_cons_of_mem _ (List.mem_map.2 ⟨s, this, rfl⟩)
  · exact inS _ (by simp [asWalk])

end
end Verif
