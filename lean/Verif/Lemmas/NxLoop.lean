import Verif.Lemmas.NxPaths

/-! The loop of the disjoint path report. -/

namespace Verif

open Spec Relation Topology

variable {t : Topology} {cost : Link → Option Nat}

/-- An edge between sites whose head is not a CN. -/
def Backhaul (t : Topology) (e : GEdge) : Prop := ∃ a b, e = (.site a, .site b) ∧ NotCn t b

theorem build_from_site (inv : t.Inv) {a : SiteId} {v : GNode}
    (h : (t.buildDigraph StatusType.active cost).edge (.site a, v)) :
    (∃ b l y, v = .site b ∧ t.links.get? ⟨a, b⟩ = some l ∧ InNetwork l.status ∧ t.sites.get? b = some y ∧
      InNetwork y.status ∧ t.admits StatusType.active a = true) ∨
    ∃ d, v = .demand d := by
  cases v with
  | super => exact absurd h build_no_in
  | demand d => exact Or.inr ⟨d, rfl⟩
  | site b =>
    obtain ⟨l, h1, h2, h3, h4⟩ := (build_edge_site inv).1 h
    obtain ⟨y, h5, h6⟩ := admits_iff'.1 h4
    exact Or.inl ⟨b, l, y, rfl, h1, (active_iff _).1 h2, h5, (active_iff _).1 h6, h3⟩

/-- The edges removed are the edges of the path between sites, not leading to a CN. -/
theorem pathHops_spec (inv : t.Inv) (hcn : NoCnSender t) (q : List GNode) (u : SiteId) (d : DemandId)
    (h1 : q.head? = some (.site u)) (h2 : q.getLast? = some (.demand d))
    (h3 : q.IsChain (fun x y => (t.buildDigraph StatusType.active cost).edge (x, y))) :
    ∃ L, pathHops t q = .ok L ∧ L.Sublist (pairs q) ∧ ∀ e, e ∈ L ↔ e ∈ pairs q ∧ Backhaul t e := by
  induction q generalizing u with
  | nil => simp at h1
  | cons x q ih =>
    simp only [List.head?_cons, Option.some.injEq] at h1
    subst h1
    cases q with
    | nil => simp at h2
    | cons v q =>
      rw [List.isChain_cons_cons] at h3
      rw [List.getLast?_cons_cons] at h2
      cases q with
      | nil =>
        simp only [List.getLast?_singleton, Option.some.injEq] at h2
        subst h2
        refine ⟨[], by simp [pathHops], by simp, fun e => ?_⟩
        simp only [pairs, List.mem_singleton, List.not_mem_nil, false_iff, not_and]
        rintro rfl ⟨a, b, h, _⟩
        simp at h
      | cons w q =>
        rcases build_from_site inv h3.1 with ⟨b, l, y, rfl, hl, _, hy, _, _⟩ | ⟨d', rfl⟩
        · unfold pathHops
          dsimp only
          rw [hy]
          dsimp only
          by_cases hc : y.siteType = .cn
          · rw [if_pos hc]
            refine ⟨[], rfl, by simp, fun e => ?_⟩
            simp only [List.not_mem_nil, false_iff, not_and]
            have hvw := (List.isChain_cons_cons.1 h3.2)
            rcases build_from_site inv hvw.1 with ⟨b', l', y', rfl, hl', _, _, _, _⟩ | ⟨d', rfl⟩
            · exact absurd hc (hcn b b' l' y hl' hy)
            · have hq : q = [] := by
                cases q with
                | nil => rfl
                | cons z q => exact absurd (List.isChain_cons_cons.1 hvw.2).1 build_no_out
              subst hq
              simp only [pairs, List.mem_cons, List.not_mem_nil, or_false]
              rintro (rfl | rfl) ⟨a, b', h, z, hz, hz'⟩
              · simp only [Prod.mk.injEq, GNode.site.injEq] at h
                obtain ⟨_, rfl⟩ := h
                rw [hy] at hz
                simp only [Option.some.injEq] at hz
                rw [← hz] at hz'
                exact hz' hc
              · simp at h
          · rw [if_neg hc]
            obtain ⟨L, hL, hs, hL'⟩ := ih b rfl h2 h3.2
            rw [hL]
            dsimp only
            refine ⟨_, rfl, ?_, fun e => ?_⟩
            · rw [pairs]; exact hs.cons_cons _
            · rw [pairs, List.mem_cons, List.mem_cons, hL']
              constructor
              · rintro (rfl | h)
                · exact ⟨Or.inl rfl, u, b, rfl, y, hy, hc⟩
                · exact ⟨Or.inr h.1, h.2⟩
              · rintro ⟨rfl | h, hb⟩
                · exact Or.inl rfl
                · exact Or.inr ⟨h, hb⟩
        · exact absurd (List.isChain_cons_cons.1 h3.2).1 build_no_out

namespace Graph

theorem removeEdge_more {G : Graph} {u v : GNode} (h : G.edge (u, v)) (nd : G.edges.NodupKeys) :
    ∃ H, G.removeEdge u v = .ok H ∧ H.nodes = G.nodes ∧ H.edges.NodupKeys ∧
      ∀ e, H.edges.get? e = if (u, v) = e then none else G.edges.get? e := by
  unfold removeEdge
  have h' : G.edges.has (u, v) = true := by
    rw [Dict.has_iff, ← Dict.mem_keys_iff]; exact h
  rw [if_pos h']
  refine ⟨_, rfl, rfl, ?_, fun e => ?_⟩
  · exact nd.del _
  · rw [Dict.get?_del]

theorem edge_iff_get? {G : Graph} {e : GEdge} : G.edge e ↔ ∃ a, G.edges.get? e = some a := by
  unfold edge; rw [Dict.mem_keys_iff]

theorem removeEdges_spec (L : List GEdge) {G : Graph} (nd : G.edges.NodupKeys) (hL : L.Nodup)
    (hG : ∀ e ∈ L, G.edge e) :
    ∃ H, G.removeEdges L = .ok H ∧ H.nodes = G.nodes ∧ H.edges.NodupKeys ∧
      ∀ e, H.edges.get? e = if e ∈ L then none else G.edges.get? e := by
  induction L generalizing G with
  | nil => exact ⟨G, rfl, rfl, nd, by simp⟩
  | cons x L ih =>
    obtain ⟨u, v⟩ := x
    rw [List.nodup_cons] at hL
    obtain ⟨H1, h1, h2, h3, h4⟩ := removeEdge_more (hG _ List.mem_cons_self) nd
    have hG' : ∀ e ∈ L, H1.edge e := by
      intro e he
      rw [edge_iff_get?, h4, if_neg (by rintro rfl; exact hL.1 he), ← edge_iff_get?]
      exact hG e (List.mem_cons_of_mem _ he)
    obtain ⟨H, k1, k2, k3, k4⟩ := ih h3 hL.2 hG'
    refine ⟨H, ?_, k2.trans h2, k3, fun e => ?_⟩
    · unfold removeEdges
      rw [h1]
      exact k1
    · rw [k4, h4]
      by_cases he : e ∈ L
      · rw [if_pos he, if_pos (List.mem_cons_of_mem _ he)]
      · rw [if_neg he]
        by_cases hx : (u, v) = e
        · rw [if_pos hx, if_pos (by rw [← hx]; exact List.mem_cons_self)]
        · rw [if_neg hx, if_neg]
          intro c
          rcases List.mem_cons.1 c with c | c
          · exact hx c.symm
          · exact he c

theorem addNode_present {G : Graph} {v : GNode} (h : G.nodes.has v = true) : G.addNode v = G := by
  unfold addNode; rw [if_pos h]

theorem addBack_spec (L : List GEdge) {G : Graph} (nd : G.edges.NodupKeys)
    (hG : ∀ e ∈ L, G.nodes.has e.1 = true ∧ G.nodes.has e.2 = true) :
    (G.addBack L).nodes = G.nodes ∧ (G.addBack L).edges.NodupKeys ∧
      ∀ e, (G.addBack L).edges.get? e = if e ∈ L then some {} else G.edges.get? e := by
  induction L generalizing G with
  | nil => exact ⟨rfl, nd, by simp [addBack]⟩
  | cons x L ih =>
    obtain ⟨u, v⟩ := x
    have hx := hG _ List.mem_cons_self
    have hn : (G.addEdge u v {}).nodes = G.nodes := by
      unfold addEdge
      rw [addNode_present hx.1, addNode_present hx.2]
    have hnd : (G.addEdge u v {}).edges.NodupKeys := by
      unfold addEdge
      rw [addNode_present hx.1, addNode_present hx.2]
      exact nd.set _ _
    obtain ⟨k1, k2, k3⟩ := ih hnd (by rw [hn]; exact fun e he => hG e (List.mem_cons_of_mem _ he))
    refine ⟨?_, k2, fun e => ?_⟩
    · have : G.addBack ((u, v) :: L) = (G.addEdge u v {}).addBack L := rfl
      rw [this, k1, hn]
    · have : G.addBack ((u, v) :: L) = (G.addEdge u v {}).addBack L := rfl
      rw [this, k3, addEdge_get?]
      by_cases he : e ∈ L
      · rw [if_pos he, if_pos (List.mem_cons_of_mem _ he)]
      · rw [if_neg he]
        by_cases hx : (u, v) = e
        · rw [if_pos (by first | exact hx | exact hx.symm), if_pos (by rw [← hx]; exact List.mem_cons_self)]
        · rw [if_neg (by first | exact hx | exact fun c => hx c.symm), if_neg]
          intro c
          rcases List.mem_cons.1 c with c | c
          · exact hx c.symm
          · exact he c

/-- `H` is `G` except for attributes of edges in `S` that are gone. -/
structure Like (G H : Graph) (S : GEdge → Prop) : Prop where
  nodes : H.nodes = G.nodes
  edge : ∀ e, H.edge e ↔ G.edge e
  nd : H.edges.NodupKeys
  attr : ∀ e, H.edges.get? e = G.edges.get? e ∨ S e ∧ G.edge e ∧ H.edges.get? e = some {}

theorem Like.refl {G : Graph} (nd : G.edges.NodupKeys) (S) : Like G G S :=
  ⟨rfl, fun _ => Iff.rfl, nd, fun _ => Or.inl rfl⟩

end Graph

/-- The edges that lose their attributes for demand site `d`. -/
def stripped (t : Topology) (paths : Paths) (d : DemandId) (e : GEdge) : Prop :=
  ∃ p, paths (.demand d) = some p ∧ 3 < p.length ∧ e ∈ pairs p ∧ Backhaul t e

theorem disjointLoop_spec (inv : t.Inv) (hcn : NoCnSender t) {paths : Paths} {G : Graph}
    (hG : G = t.buildDigraph StatusType.active cost)
    (sp : ShortestPaths G.edge .super paths) (ds : List DemandId) (H : Graph) (R : DisjointPath)
    (S : GEdge → Prop) (hH : G.Like H S) (hS : ∀ d ∈ ds, ∀ e, stripped t paths d e → S e) :
    ∃ K R', disjointLoop t paths H R ds = .ok (K, R') ∧ G.Like K S ∧
      (∀ d ∈ ds, ∀ e, stripped t paths d e → K.edges.get? e = some {}) ∧
      (∀ e, H.edges.get? e = some {} → K.edges.get? e = some {}) ∧
      (∀ d, d ∈ R'.disconnected ↔ d ∈ R.disconnected ∨ d ∈ ds ∧ paths (.demand d) = none) ∧
      (∀ d, d ∈ R'.atPop ↔ d ∈ R.atPop ∨ d ∈ ds ∧ ∃ p, paths (.demand d) = some p ∧ p.length = 3) ∧
      (∀ d, d ∈ R'.disjoint ↔ d ∈ R.disjoint ∨ d ∈ ds ∧ ∃ p, paths (.demand d) = some p ∧ 3 < p.length ∧
        Joined (fun e => G.edge e ∧ ¬ (e ∈ pairs p ∧ Backhaul t e)) .super (.demand d)) := by
  induction ds generalizing H R with
  | nil => exact ⟨H, R, rfl, hH, by simp, fun _ h => h, by simp, by simp, by simp⟩
  | cons d ds ih =>
    unfold disjointLoop
    have hS' : ∀ d ∈ ds, ∀ e, stripped t paths d e → S e := fun d' h => hS d' (List.mem_cons_of_mem _ h)
    cases hp : paths (.demand d) with
    | none =>
      dsimp only
      obtain ⟨K, R', h1, h2, h3, h4, h5, h6, h7⟩ := ih H { R with disconnected := d :: R.disconnected } hH hS'
      refine ⟨K, R', h1, h2, ?_, h4, ?_, ?_, ?_⟩
      · intro d' hd' e he
        rcases List.mem_cons.1 hd' with rfl | hd'
        · obtain ⟨p, h, _⟩ := he; rw [hp] at h; cases h
        · exact h3 d' hd' e he
      · intro d'
        rw [h5, List.mem_cons, List.mem_cons]
        constructor
        · rintro ((rfl | h) | h)
          · exact Or.inr ⟨Or.inl rfl, hp⟩
          · exact Or.inl h
          · exact Or.inr ⟨Or.inr h.1, h.2⟩
        · rintro (h | ⟨rfl | h, h'⟩)
          · exact Or.inl (Or.inr h)
          · exact Or.inl (Or.inl rfl)
          · exact Or.inr ⟨h, h'⟩
      · intro d'
        rw [h6, List.mem_cons]
        constructor
        · rintro (h | h)
          · exact Or.inl h
          · exact Or.inr ⟨Or.inr h.1, h.2⟩
        · rintro (h | ⟨rfl | h, h'⟩)
          · exact Or.inl h
          · obtain ⟨p, h, _⟩ := h'; rw [hp] at h; cases h
          · exact Or.inr ⟨h, h'⟩
      · intro d'
        rw [h7, List.mem_cons]
        constructor
        · rintro (h | h)
          · exact Or.inl h
          · exact Or.inr ⟨Or.inr h.1, h.2⟩
        · rintro (h | ⟨rfl | h, h'⟩)
          · exact Or.inl h
          · obtain ⟨p, h, _⟩ := h'; rw [hp] at h; cases h
          · exact Or.inr ⟨h, h'⟩
    | some p =>
      dsimp only
      have hw := sp.walk _ _ hp
      have hnd := shortest_nodup hw (fun q hq => sp.short _ _ _ hp hq)
      -- shape of the path
      obtain ⟨s, y, q, rfl, hy, hyp, hya⟩ : ∃ s y q, p = .super :: .site s :: q ∧ t.sites.get? s = some y ∧
          y.siteType = .pop ∧ InNetwork y.status := by
        obtain ⟨w1, w2, w3⟩ := hw
        cases p with
        | nil => simp at w1
        | cons a p =>
          simp only [List.head?_cons, Option.some.injEq] at w1
          subst w1
          cases p with
          | nil => simp at w2
          | cons b p =>
            have := (List.isChain_cons_cons.1 w3).1
            rw [hG] at this
            obtain ⟨s, y, rfl, h1, h2, h3⟩ := (build_edge_super inv).1 this
            exact ⟨s, y, p, rfl, h1, h2, (active_iff _).1 h3⟩
      have hq : q ≠ [] := by
        rintro rfl
        have := hw.2.1
        simp at this
      obtain ⟨w, q, rfl⟩ := List.exists_cons_of_ne_nil hq
      by_cases hlen : (GNode.super :: .site s :: w :: q).length ≤ 3
      · have hq0 : q = [] := by
          cases q with
          | nil => rfl
          | cons z q => simp at hlen
        subst hq0
        rw [if_pos hlen, if_neg (by simp)]
        dsimp only
        rw [hy]
        dsimp only
        rw [if_neg (by simpa using hyp)]
        obtain ⟨K, R', h1, h2, h3, h4, h5, h6, h7⟩ := ih H { R with atPop := d :: R.atPop } hH hS'
        refine ⟨K, R', h1, h2, ?_, h4, ?_, ?_, ?_⟩
        · intro d' hd' e he
          rcases List.mem_cons.1 hd' with rfl | hd'
          · obtain ⟨p, h, h', _⟩ := he
            rw [hp] at h
            simp only [Option.some.injEq] at h
            subst h
            simp at h'
          · exact h3 d' hd' e he
        · intro d'
          rw [h5, List.mem_cons]
          constructor
          · rintro (h | h)
            · exact Or.inl h
            · exact Or.inr ⟨Or.inr h.1, h.2⟩
          · rintro (h | ⟨rfl | h, h'⟩)
            · exact Or.inl h
            · rw [hp] at h'; cases h'
            · exact Or.inr ⟨h, h'⟩
        · intro d'
          rw [h6, List.mem_cons, List.mem_cons]
          constructor
          · rintro ((rfl | h) | h)
            · exact Or.inr ⟨Or.inl rfl, _, hp, rfl⟩
            · exact Or.inl h
            · exact Or.inr ⟨Or.inr h.1, h.2⟩
          · rintro (h | ⟨rfl | h, h'⟩)
            · exact Or.inl (Or.inr h)
            · exact Or.inl (Or.inl rfl)
            · exact Or.inr ⟨h, h'⟩
        · intro d'
          rw [h7, List.mem_cons]
          constructor
          · rintro (h | h)
            · exact Or.inl h
            · exact Or.inr ⟨Or.inr h.1, h.2⟩
          · rintro (h | ⟨rfl | h, h'⟩)
            · exact Or.inl h
            · obtain ⟨p, h, h', _⟩ := h'
              rw [hp] at h
              simp only [Option.some.injEq] at h
              subst h
              simp at h'
            · exact Or.inr ⟨h, h'⟩
      · rw [if_neg hlen]
        have hch := hw.2.2
        rw [List.isChain_cons_cons] at hch
        have hlast : (GNode.site s :: w :: q).getLast? = some (.demand d) := by
          rw [← hw.2.1]; rfl
        have hch2 := hch.2
        rw [hG] at hch2
        obtain ⟨L, hL, hsub, hmem⟩ := pathHops_spec inv hcn _ s d rfl hlast hch2
        have hLnd : L.Nodup := (pairs_nodup (List.nodup_cons.1 hnd).2).sublist hsub
        have hmem' : ∀ e, e ∈ L ↔ e ∈ pairs (GNode.super :: .site s :: w :: q) ∧ Backhaul t e := by
          intro e
          have hpq : pairs (GNode.super :: .site s :: w :: q) =
              (.super, .site s) :: pairs (.site s :: w :: q) := rfl
          rw [hmem, hpq, List.mem_cons]
          constructor
          · rintro ⟨h, h'⟩; exact ⟨Or.inr h, h'⟩
          · rintro ⟨rfl | h, h'⟩
            · obtain ⟨a, b, c, _⟩ := h'; simp at c
            · exact ⟨h, h'⟩
        have hLG : ∀ e ∈ L, G.edge e := fun e he => pairs_edge hw.2.2 e ((hmem' e).1 he).1
        rw [List.tail_cons, hL]
        dsimp only
        obtain ⟨H1, r1, r2, r3, r4⟩ := Graph.removeEdges_spec L hH.nd hLnd (fun e he => (hH.edge e).2 (hLG e he))
        rw [r1]
        dsimp only
        have hends : ∀ e ∈ L, H1.nodes.has e.1 = true ∧ H1.nodes.has e.2 = true := by
          intro e he
          have := hLG e he
          rw [r2, hH.nodes, hG]
          rw [hG, build_edge] at this
          obtain ⟨x, hx, hxe⟩ := this
          rw [build_has, build_has]
          exact ⟨⟨x, hx, Or.inl (by rw [← hxe])⟩, ⟨x, hx, Or.inr (by rw [← hxe])⟩⟩
        obtain ⟨b1, b2, b3⟩ := Graph.addBack_spec L r3 hends
        have hattr : ∀ e, (H1.addBack L).edges.get? e = if e ∈ L then some {} else H.edges.get? e := by
          intro e
          rw [b3]
          by_cases he : e ∈ L
          · rw [if_pos he, if_pos he]
          · rw [if_neg he, if_neg he, r4, if_neg he]
        have hlike : G.Like (H1.addBack L) S := by
          refine ⟨b1.trans (r2.trans hH.nodes), fun e => ?_, b2, fun e => ?_⟩
          · rw [Graph.edge_iff_get?, hattr]
            by_cases he : e ∈ L
            · rw [if_pos he]
              exact ⟨fun _ => hLG e he, fun _ => ⟨_, rfl⟩⟩
            · rw [if_neg he, ← Graph.edge_iff_get?]
              exact hH.edge e
          · rw [hattr]
            by_cases he : e ∈ L
            · rw [if_pos he]
              exact Or.inr ⟨hS d List.mem_cons_self e ⟨_, hp, by omega, (hmem' e).1 he⟩, hLG e he, rfl⟩
            · rw [if_neg he]
              exact hH.attr e
        have hreach : ((H1.reach .super).contains (.demand d) = true) ↔
            Joined (fun e => G.edge e ∧ ¬ (e ∈ pairs (GNode.super :: .site s :: w :: q) ∧ Backhaul t e))
              .super (.demand d) := by
          rw [List.contains_iff_mem, Graph.mem_reach]
          apply Graph.Joined.congr
          intro e
          rw [Graph.edge_iff_get?, r4, ← hmem', ← hH.edge, Graph.edge_iff_get?]
          by_cases he : e ∈ L
          · simp [he]
          · simp [he]
        obtain ⟨K, R', h1, h2, h3, h4, h5, h6, h7⟩ := ih (H1.addBack L)
          (if (H1.reach .super).contains (.demand d) then { R with disjoint := d :: R.disjoint } else R) hlike hS'
        refine ⟨K, R', h1, h2, ?_, ?_, ?_, ?_, ?_⟩
        · intro d' hd' e he
          rcases List.mem_cons.1 hd' with rfl | hd'
          · obtain ⟨p, k1, k2, k3⟩ := he
            rw [hp] at k1
            simp only [Option.some.injEq] at k1
            subst k1
            apply h4
            rw [hattr, if_pos ((hmem' e).2 k3)]
          · exact h3 d' hd' e he
        · intro e he
          apply h4
          rw [hattr]
          split
          · rfl
          · exact he
        · intro d'
          rw [h5, List.mem_cons]
          have : (if (H1.reach .super).contains (.demand d) then { R with disjoint := d :: R.disjoint }
              else R).disconnected = R.disconnected := by split <;> rfl
          rw [this]
          constructor
          · rintro (h | h)
            · exact Or.inl h
            · exact Or.inr ⟨Or.inr h.1, h.2⟩
          · rintro (h | ⟨rfl | h, h'⟩)
            · exact Or.inl h
            · rw [hp] at h'; cases h'
            · exact Or.inr ⟨h, h'⟩
        · intro d'
          rw [h6, List.mem_cons]
          have : (if (H1.reach .super).contains (.demand d) then { R with disjoint := d :: R.disjoint }
              else R).atPop = R.atPop := by split <;> rfl
          rw [this]
          constructor
          · rintro (h | h)
            · exact Or.inl h
            · exact Or.inr ⟨Or.inr h.1, h.2⟩
          · rintro (h | ⟨rfl | h, h'⟩)
            · exact Or.inl h
            · obtain ⟨p, h, h'⟩ := h'
              rw [hp] at h
              simp only [Option.some.injEq] at h
              subst h
              exact absurd (le_of_eq h') hlen
            · exact Or.inr ⟨h, h'⟩
        · intro d'
          rw [h7, List.mem_cons]
          have : d' ∈ (if (H1.reach .super).contains (.demand d) then { R with disjoint := d :: R.disjoint }
              else R).disjoint ↔ d' ∈ R.disjoint ∨ d' = d ∧
                Joined (fun e => G.edge e ∧ ¬ (e ∈ pairs (GNode.super :: .site s :: w :: q) ∧ Backhaul t e))
                  .super (.demand d) := by
            rw [← hreach]
            split
            · rename_i hc
              simp only [List.mem_cons]
              constructor
              · rintro (h | h)
                · exact Or.inr ⟨h, hc⟩
                · exact Or.inl h
              · rintro (h | h)
                · exact Or.inr h
                · exact Or.inl h.1
            · rename_i hc
              constructor
              · exact Or.inl
              · rintro (h | h)
                · exact h
                · exact absurd h.2 hc
          rw [this]
          constructor
          · rintro ((h | ⟨rfl, h⟩) | h)
            · exact Or.inl h
            · exact Or.inr ⟨Or.inl rfl, _, hp, by omega, h⟩
            · exact Or.inr ⟨Or.inr h.1, h.2⟩
          · rintro (h | ⟨rfl | h, h'⟩)
            · exact Or.inl (Or.inl h)
            · obtain ⟨p, k1, k2, k3⟩ := h'
              rw [hp] at k1
              simp only [Option.some.injEq] at k1
              subst k1
              exact Or.inl (Or.inr ⟨rfl, k3⟩)
            · exact Or.inr ⟨h, h'⟩

end Verif
