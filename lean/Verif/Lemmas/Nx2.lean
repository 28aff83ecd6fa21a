import Verif.Lemmas.Nx
import Verif.Spec.Nx

/-! The graph built from a topology. -/

namespace Verif

open Spec Topology Relation

theorem active_iff (s : StatusType) : s.active = true ↔ InNetwork s := by
  cases s <;> simp [StatusType.active, InNetwork]

namespace Graph

theorem foldl_addEdge_edge (L : List (GNode × GNode × EdgeAttr)) (G : Graph) (e : GEdge) :
    (L.foldl (fun (G : Graph) x => G.addEdge x.1 x.2.1 x.2.2) G).edge e ↔
      G.edge e ∨ ∃ x ∈ L, (x.1, x.2.1) = e := by
  induction L generalizing G with
  | nil => simp
  | cons x L ih =>
    rw [List.foldl_cons, ih, addEdge_edge]
    simp only [List.mem_cons, exists_eq_or_imp]
    rw [or_assoc]
    apply or_congr_right
    apply or_congr_left
    exact eq_comm

theorem foldl_addEdge_get? (L : List (GNode × GNode × EdgeAttr)) (G : Graph) (e : GEdge) (a : EdgeAttr)
    (h : (L.foldl (fun (G : Graph) x => G.addEdge x.1 x.2.1 x.2.2) G).edges.get? e = some a) :
    G.edges.get? e = some a ∨ (e.1, e.2, a) ∈ L := by
  induction L generalizing G with
  | nil => exact Or.inl h
  | cons x L ih =>
    rw [List.foldl_cons] at h
    rcases ih _ h with h | h
    · rw [addEdge_get?] at h
      split at h
      · rename_i hx
        simp only [Option.some.injEq] at h
        right
        rw [← hx, ← h]
        exact List.mem_cons_self
      · exact Or.inl h
    · exact Or.inr (List.mem_cons_of_mem _ h)

theorem foldl_addEdge_has (L : List (GNode × GNode × EdgeAttr)) (G : Graph) (v : GNode) :
    (L.foldl (fun (G : Graph) x => G.addEdge x.1 x.2.1 x.2.2) G).nodes.has v = true ↔
      G.nodes.has v = true ∨ ∃ x ∈ L, v = x.1 ∨ v = x.2.1 := by
  induction L generalizing G with
  | nil => simp
  | cons x L ih =>
    rw [List.foldl_cons, ih, addEdge_has]
    simp only [List.mem_cons, exists_eq_or_imp]
    rw [or_assoc]

theorem addNode_nodup {G : Graph} (h : G.nodes.NodupKeys) (v : GNode) : (G.addNode v).nodes.NodupKeys := by
  unfold addNode
  split
  · exact h
  · exact Dict.NodupKeys.set h _ _

theorem addEdge_nodup {G : Graph} (h : G.nodes.NodupKeys) (h' : G.edges.NodupKeys) (u v : GNode)
    (a : EdgeAttr) : (G.addEdge u v a).nodes.NodupKeys ∧ (G.addEdge u v a).edges.NodupKeys := by
  unfold addEdge
  refine ⟨addNode_nodup (addNode_nodup h u) v, ?_⟩
  dsimp only
  apply Dict.NodupKeys.set
  rw [addNode_edges, addNode_edges]
  exact h'

theorem foldl_addEdge_nodup (L : List (GNode × GNode × EdgeAttr)) (G : Graph)
    (h : G.nodes.NodupKeys ∧ G.edges.NodupKeys) :
    (L.foldl (fun (G : Graph) x => G.addEdge x.1 x.2.1 x.2.2) G).nodes.NodupKeys ∧
    (L.foldl (fun (G : Graph) x => G.addEdge x.1 x.2.1 x.2.2) G).edges.NodupKeys := by
  induction L generalizing G with
  | nil => exact h
  | cons x L ih =>
    rw [List.foldl_cons]
    exact ih _ (addEdge_nodup h.1 h.2 _ _ _)

theorem keys_modify {κ ν : Type} [DecidableEq κ] (d : Dict κ ν) (k : κ) (f : ν → ν) :
    (d.modify k f).keys = d.keys := by
  unfold Dict.modify Dict.keys
  rw [List.map_map]
  apply List.map_congr_left
  intro p _
  dsimp only [Function.comp]
  split <;> rfl

theorem setKinds_keys (G : Graph) (L : List (GNode × NodeKind)) :
    (G.setKinds L).nodes.keys = G.nodes.keys := by
  unfold setKinds
  dsimp only
  generalize G.nodes = n
  induction L generalizing n with
  | nil => rfl
  | cons x L ih => rw [List.foldl_cons, ih, keys_modify]

theorem setKinds_get? (L : List (GNode × NodeKind)) (n : Dict GNode (Option NodeKind)) (v : GNode) :
    (∀ k, (v, k) ∉ L) ∧
      (L.foldl (fun n e => n.modify e.1 fun _ => some e.2) n).get? v = n.get? v ∨
    ∃ k, (v, k) ∈ L ∧ (L.foldl (fun n e => n.modify e.1 fun _ => some e.2) n).get? v =
      (n.get? v).map fun _ => some k := by
  induction L generalizing n with
  | nil => exact Or.inl ⟨by simp, rfl⟩
  | cons x L ih =>
    rw [List.foldl_cons]
    rcases ih (n.modify x.1 fun _ => some x.2) with ⟨h1, h2⟩ | ⟨k, h1, h2⟩
    · rw [h2, Dict.get?_modify]
      split
      · rename_i hx
        right
        refine ⟨x.2, ?_, rfl⟩
        rw [← hx]
        exact List.mem_cons_self
      · rename_i hx
        left
        refine ⟨fun k hk => ?_, rfl⟩
        rcases List.mem_cons.1 hk with rfl | hk
        · exact hx rfl
        · exact h1 k hk
    · right
      refine ⟨k, List.mem_cons_of_mem _ h1, ?_⟩
      rw [h2, Dict.get?_modify]
      split
      · cases n.get? v <;> rfl
      · rfl

end Graph

namespace Topology

variable {t : Topology} {f : Filter} {cost : Link → Option Nat}

theorem build_nodup : (t.buildDigraph f cost).nodes.NodupKeys ∧
    (t.buildDigraph f cost).edges.NodupKeys := by
  have h := Graph.foldl_addEdge_nodup (t.digraphEdges f cost) {}
    ⟨by simp [Dict.NodupKeys, Dict.keys], by simp [Dict.NodupKeys, Dict.keys]⟩
  refine ⟨?_, h.2⟩
  unfold Dict.NodupKeys buildDigraph
  rw [Graph.setKinds_keys]
  exact h.1

theorem build_edge (e : GEdge) :
    (t.buildDigraph f cost).edge e ↔ ∃ x ∈ t.digraphEdges f cost, (x.1, x.2.1) = e := by
  have := Graph.foldl_addEdge_edge (t.digraphEdges f cost) {} e
  unfold buildDigraph Graph.edge Graph.setKinds
  unfold Graph.edge at this
  dsimp only at this ⊢
  rw [this]
  simp [Dict.keys]

theorem build_get? {e : GEdge} {a : EdgeAttr} (h : (t.buildDigraph f cost).edges.get? e = some a) :
    (e.1, e.2, a) ∈ t.digraphEdges f cost := by
  rcases Graph.foldl_addEdge_get? (t.digraphEdges f cost) {} e a h with h | h
  · simp at h
  · exact h

theorem build_has (v : GNode) : (t.buildDigraph f cost).nodes.has v = true ↔
    ∃ x ∈ t.digraphEdges f cost, v = x.1 ∨ v = x.2.1 := by
  have h1 : (t.buildDigraph f cost).nodes.has v = true ↔
      v ∈ (t.buildDigraph f cost).nodes.keys := by rw [Dict.has_iff, Dict.mem_keys_iff]
  unfold buildDigraph at h1 ⊢
  rw [Graph.setKinds_keys] at h1
  dsimp only at h1 ⊢
  rw [h1, Dict.mem_keys_iff, ← Dict.has_iff, Graph.foldl_addEdge_has]
  simp [Dict.has]

theorem mem_digraph {x : GNode × GNode × EdgeAttr} : x ∈ t.digraphEdges f cost ↔
    (∃ e ∈ t.sites, e.2.siteType = .pop ∧ f e.2.status = true ∧
      x = (.super, .site e.1, { kind := some .super, cost := some (some 1) })) ∨
    (∃ l ∈ t.links.vals, f l.status = true ∧ t.admits f l.tx = true ∧ t.admits f l.rx = true ∧
      x = (.site l.tx, .site l.rx, { kind := some (.link (t.linkType l)), cost := some (cost l) })) ∨
    (∃ e ∈ t.demandSites, ∃ s ∈ e.2.connected, t.admits f s = true ∧
      x = (.site s, .demand e.1, { kind := some .demand, cost := some (some 1) })) := by
  unfold digraphEdges
  simp only [List.mem_append, List.mem_map, List.mem_filter, List.mem_flatMap, Bool.and_eq_true,
    beq_iff_eq]
  constructor
  · rintro ((⟨e, ⟨h1, h2, h3⟩, rfl⟩ | ⟨l, ⟨h1, ⟨h2, h3⟩, h4⟩, rfl⟩) | ⟨e, h1, s, ⟨h2, h3⟩, rfl⟩)
    · exact Or.inl ⟨e, h1, h2, h3, rfl⟩
    · exact Or.inr (Or.inl ⟨l, h1, h2, h3, h4, rfl⟩)
    · exact Or.inr (Or.inr ⟨e, h1, s, h2, h3, rfl⟩)
  · rintro (⟨e, h1, h2, h3, rfl⟩ | ⟨l, h1, h2, h3, h4, rfl⟩ | ⟨e, h1, s, h2, h3, rfl⟩)
    · exact Or.inl (Or.inl ⟨e, ⟨h1, h2, h3⟩, rfl⟩)
    · exact Or.inl (Or.inr ⟨l, ⟨h1, ⟨h2, h3⟩, h4⟩, rfl⟩)
    · exact Or.inr ⟨e, h1, s, ⟨h2, h3⟩, rfl⟩

theorem admits_iff' {s : SiteId} : t.admits f s = true ↔ ∃ y, t.sites.get? s = some y ∧ f y.status = true := by
  unfold admits
  split
  · rename_i y h; rw [h]; simp
  · rename_i h; rw [h]; simp

/-- The edges of the graph, by their ends. -/
theorem build_edge_super {v : GNode} (inv : t.Inv) : (t.buildDigraph f cost).edge (.super, v) ↔
    ∃ s y, v = .site s ∧ t.sites.get? s = some y ∧ y.siteType = .pop ∧ f y.status = true := by
  rw [build_edge]
  constructor
  · rintro ⟨x, hx, he⟩
    rcases mem_digraph.1 hx with ⟨e, h1, h2, h3, rfl⟩ | ⟨l, h1, h2, h3, h4, rfl⟩ | ⟨e, h1, s, h2, h3, rfl⟩
    · simp only [Prod.mk.injEq, true_and] at he
      exact ⟨e.1, e.2, he.symm, (Dict.mem_iff_get? inv.nd_sites _ _).1 h1, h2, h3⟩
    · simp at he
    · simp at he
  · rintro ⟨s, y, rfl, h1, h2, h3⟩
    exact ⟨_, mem_digraph.2 (Or.inl ⟨(s, y), Dict.mem_of_get? _ h1, h2, h3, rfl⟩), rfl⟩

theorem build_edge_site {a b : SiteId} (inv : t.Inv) : (t.buildDigraph f cost).edge (.site a, .site b) ↔
    ∃ l, t.links.get? ⟨a, b⟩ = some l ∧ f l.status = true ∧ t.admits f a = true ∧ t.admits f b = true := by
  rw [build_edge]
  constructor
  · rintro ⟨x, hx, he⟩
    rcases mem_digraph.1 hx with ⟨e, h1, h2, h3, rfl⟩ | ⟨l, h1, h2, h3, h4, rfl⟩ | ⟨e, h1, s, h2, h3, rfl⟩
    · simp at he
    · simp only [Prod.mk.injEq, GNode.site.injEq] at he
      obtain ⟨rfl, rfl⟩ := he
      obtain ⟨⟨k, l'⟩, hk, rfl⟩ := List.mem_map.1 h1
      have hg := (Dict.mem_iff_get? inv.nd_links _ _).1 hk
      have hid := inv.link_id _ _ hg
      have : k = ⟨l'.tx, l'.rx⟩ := hid
      rw [this] at hg
      exact ⟨l', hg, h2, h3, h4⟩
    · simp at he
  · rintro ⟨l, h1, h2, h3, h4⟩
    have hid := inv.link_id _ _ h1
    have e1 : l.tx = a := (congrArg LinkId.tx hid).symm
    have e2 : l.rx = b := (congrArg LinkId.rx hid).symm
    refine ⟨_, mem_digraph.2 (Or.inr (Or.inl ⟨l, List.mem_map.2 ⟨_, Dict.mem_of_get? _ h1, rfl⟩, h2,
      by rw [e1]; exact h3, by rw [e2]; exact h4, rfl⟩)), ?_⟩
    rw [← e1, ← e2]

theorem build_edge_demand {a : SiteId} {d : DemandId} (inv : t.Inv) :
    (t.buildDigraph f cost).edge (.site a, .demand d) ↔
    ∃ dm, t.demandSites.get? d = some dm ∧ a ∈ dm.connected ∧ t.admits f a = true := by
  rw [build_edge]
  constructor
  · rintro ⟨x, hx, he⟩
    rcases mem_digraph.1 hx with ⟨e, h1, h2, h3, rfl⟩ | ⟨l, h1, h2, h3, h4, rfl⟩ | ⟨e, h1, s, h2, h3, rfl⟩
    · simp at he
    · simp at he
    · simp only [Prod.mk.injEq, GNode.site.injEq, GNode.demand.injEq] at he
      obtain ⟨rfl, rfl⟩ := he
      exact ⟨e.2, (Dict.mem_iff_get? inv.nd_demand _ _).1 h1, h2, h3⟩
  · rintro ⟨dm, h1, h2, h3⟩
    exact ⟨_, mem_digraph.2 (Or.inr (Or.inr ⟨(d, dm), Dict.mem_of_get? _ h1, a, h2, h3, rfl⟩)), rfl⟩

theorem build_no_out {d : DemandId} {v : GNode} : ¬ (t.buildDigraph f cost).edge (.demand d, v) := by
  rw [build_edge]
  rintro ⟨x, hx, he⟩
  rcases mem_digraph.1 hx with ⟨e, h1, h2, h3, rfl⟩ | ⟨l, h1, h2, h3, h4, rfl⟩ | ⟨e, h1, s, h2, h3, rfl⟩ <;>
    simp at he

theorem build_no_in {v : GNode} : ¬ (t.buildDigraph f cost).edge (v, .super) := by
  rw [build_edge]
  rintro ⟨x, hx, he⟩
  rcases mem_digraph.1 hx with ⟨e, h1, h2, h3, rfl⟩ | ⟨l, h1, h2, h3, h4, rfl⟩ | ⟨e, h1, s, h2, h3, rfl⟩ <;>
    simp at he

/-- The kinds assigned to the nodes. -/
theorem build_kind {v : GNode} (h : (t.buildDigraph f cost).nodes.has v = true) (inv : t.Inv) :
    (v = .super → (v, some NodeKind.super) ∈ (t.buildDigraph f cost).nodes) ∧
    (∀ s y, v = .site s → t.sites.get? s = some y →
      (v, some (NodeKind.site y.siteType)) ∈ (t.buildDigraph f cost).nodes) ∧
    (∀ d dm, v = .demand d → t.demandSites.get? d = some dm →
      (v, some NodeKind.demand) ∈ (t.buildDigraph f cost).nodes) := by
  obtain ⟨c, hc⟩ := (Dict.has_iff _ _).1 h
  have nd := (build_nodup (t := t) (f := f) (cost := cost)).1
  have key : ∀ k : NodeKind, (∀ k', (v, k') ∈ (((.super, .super) ::
      t.sites.map fun e => (GNode.site e.1, NodeKind.site e.2.siteType)) ++
      t.demandSites.map fun e => (GNode.demand e.1, NodeKind.demand) : List (GNode × NodeKind)) → k' = k) →
      (∃ k', (v, k') ∈ (((.super, .super) ::
      t.sites.map fun e => (GNode.site e.1, NodeKind.site e.2.siteType)) ++
      t.demandSites.map fun e => (GNode.demand e.1, NodeKind.demand) : List (GNode × NodeKind))) →
      (v, some k) ∈ (t.buildDigraph f cost).nodes := by
    intro k hk hex
    rw [Dict.mem_iff_get? nd, hc]
    unfold buildDigraph Graph.setKinds at hc
    dsimp only at hc
    rcases Graph.setKinds_get? (((.super, .super) ::
      t.sites.map fun e => (GNode.site e.1, NodeKind.site e.2.siteType)) ++
      t.demandSites.map fun e => (GNode.demand e.1, NodeKind.demand))
      ((t.digraphEdges f cost).foldl (fun (G : Graph) x => G.addEdge x.1 x.2.1 x.2.2) {}).nodes v with
      ⟨h1, _⟩ | ⟨k', h1, h2⟩
    · obtain ⟨k', hk'⟩ := hex
      exact absurd hk' (h1 k')
    · rw [h2] at hc
      rw [hk k' h1] at hc
      cases hq : ((t.digraphEdges f cost).foldl (fun (G : Graph) x => G.addEdge x.1 x.2.1 x.2.2) {}).nodes.get? v with
      | none => rw [hq] at hc; simp at hc
      | some z => rw [hq] at hc; simpa using hc.symm
  refine ⟨?_, ?_, ?_⟩
  · rintro rfl
    apply key
    · intro k' hk'
      simpa using hk'
    · exact ⟨.super, by simp⟩
  · rintro s y rfl hy
    apply key
    · intro k' hk'
      simp only [List.cons_append, List.mem_cons, Prod.mk.injEq, reduceCtorEq, false_and,
        List.mem_append, List.mem_map, GNode.site.injEq, exists_false, or_false, false_or, and_false] at hk'
      obtain ⟨e, he, rfl, rfl⟩ := hk'
      have := (Dict.mem_iff_get? inv.nd_sites e.1 e.2).1 he
      rw [this] at hy
      simp only [Option.some.injEq] at hy
      rw [hy]
    · refine ⟨.site y.siteType, ?_⟩
      simp only [List.cons_append, List.mem_cons, List.mem_append, List.mem_map]
      exact Or.inr (Or.inl ⟨(s, y), Dict.mem_of_get? _ hy, rfl⟩)
  · rintro d dm rfl hd
    apply key
    · intro k' hk'
      simp only [List.cons_append, List.mem_cons, Prod.mk.injEq, reduceCtorEq, false_and,
        List.mem_append, List.mem_map, exists_false, or_false, false_or, and_false] at hk'
      obtain ⟨e, he, _, rfl⟩ := hk'
      rfl
    · refine ⟨.demand, ?_⟩
      simp only [List.cons_append, List.mem_cons, List.mem_append, List.mem_map]
      exact Or.inr (Or.inr ⟨(d, dm), Dict.mem_of_get? _ hd, rfl⟩)

end Topology
end Verif
