import Verif.Lemmas.Availability2
import Verif.Props.NxReport2

/-!
# Simulated availability (C34)
-/

namespace Verif

open Spec Topology Relation

/-! ### Which links fail -/

theorem sortedEdge_lt {u v : GNode} (h : u.str ≠ v.str) :
    (Graph.sortedEdge u v).1.str < (Graph.sortedEdge u v).2.str := by
  unfold Graph.sortedEdge
  split
  · assumption
  · rename_i hn
    exact lt_of_le_of_ne (not_lt.1 hn) (Ne.symm h)

theorem failing_spec {G : Graph} (E : List (GEdge × EdgeAttr)) (done : List GEdge)
    (hE : ∀ x ∈ E, x.2.kind = some (.link .wirelessBackhaul) → G.edge (x.1.2, x.1.1)) (hnd : done.Nodup) :
    ∃ L, G.failing done E = .ok L ∧ L.Nodup ∧ ∀ k, k ∈ L ↔ k ∈ done ∨
      ∃ x ∈ E, x.2.kind = some (.link .wirelessBackhaul) ∧ k = Graph.sortedEdge x.1.1 x.1.2 := by
  induction E generalizing done with
  | nil => exact ⟨done, rfl, hnd, by simp⟩
  | cons x E ih =>
    obtain ⟨⟨u, v⟩, a⟩ := x
    have hE' : ∀ x ∈ E, x.2.kind = some (.link .wirelessBackhaul) → G.edge (x.1.2, x.1.1) :=
      fun x hx => hE x (List.mem_cons_of_mem _ hx)
    unfold Graph.failing
    by_cases h1 : a.kind ≠ some (.link .wirelessBackhaul)
    · rw [if_pos h1]
      obtain ⟨L, r1, r2, r3⟩ := ih done hE' hnd
      refine ⟨L, r1, r2, fun k => ?_⟩
      rw [r3]
      simp only [List.mem_cons, exists_eq_or_imp, h1, false_and, false_or]
    · rw [if_neg h1]
      push Not at h1
      by_cases h2 : done.contains (Graph.sortedEdge u v) = true
      · rw [if_pos h2]
        obtain ⟨L, r1, r2, r3⟩ := ih done hE' hnd
        refine ⟨L, r1, r2, fun k => ?_⟩
        rw [r3]
        simp only [List.mem_cons, exists_eq_or_imp, h1, true_and]
        constructor
        · rintro (h | h)
          · exact Or.inl h
          · exact Or.inr (Or.inr h)
        · rintro (h | rfl | h)
          · exact Or.inl h
          · exact Or.inl (by simpa using h2)
          · exact Or.inr h
      · rw [if_neg h2, if_pos ((Graph.hasEdge_iff _ _ _).2 (hE _ List.mem_cons_self h1))]
        obtain ⟨L, r1, r2, r3⟩ := ih (done ++ [Graph.sortedEdge u v]) hE' (by
          rw [List.nodup_append]
          refine ⟨hnd, by simp, ?_⟩
          intro x hx y hy
          rw [List.mem_singleton] at hy
          rintro rfl
          exact h2 (by rw [← hy]; simpa using hx))
        refine ⟨L, r1, r2, fun k => ?_⟩
        rw [r3]
        simp only [List.mem_cons, exists_eq_or_imp, h1, true_and, List.mem_append, List.mem_nil_iff, or_false]
        rw [or_assoc]

/-! ### The simulation on any graph -/

theorem availability_spec {G : Graph} (hsup : G.nodes.has .super = true)
    (hwb : ∀ x ∈ G.edges, x.2.kind = some (.link .wirelessBackhaul) →
      G.edge (x.1.2, x.1.1) ∧ x.1.1.str ≠ x.1.2.str)
    {percent sim : ℚ} (hp : 0 ≤ percent ∧ percent ≤ 100) (hsim : 0 < sim) {draws : GEdge → List (ℚ × ℚ)}
    (hd : ∀ k, ∀ x ∈ draws k, 0 < x.1 ∧ 0 ≤ x.2) (late : Nat → Bool) :
    ∃ C L A B ts T, G.availability percent sim draws late = .ok (A, B) ∧
      G.connectedDemands = .ok C ∧ (∀ d, d ∈ C ↔ G.Fed G.edge d) ∧
      L.Nodup ∧ (∀ k, k ∈ L ↔ ∃ x ∈ G.edges, x.2.kind = some (.link .wirelessBackhaul) ∧
        k = Graph.sortedEdge x.1.1 x.1.2) ∧
      ((0 : ℚ) :: ts).Pairwise (· ≤ ·) ∧ ts.getLast? = some T ∧ 0 < T ∧ T ≤ sim ∧
      ((∀ n, late n = false) → T = sim) ∧
      (∀ k ∈ L, ∀ o ∈ outages sim 0 (draws k), (o.1 < T → o.1 ∈ ts) ∧ (o.2 < T → o.2 ∈ ts)) ∧
      A = C.map (fun d => (d, upTime (reachedAt G L (fun k => outages sim 0 (draws k)) d) 0 ts / T)) ∧
      B = L.map (fun k => (k, upTime (upAt (fun k => outages sim 0 (draws k)) k) 0 ts / sim)) := by
  obtain ⟨C, hC, hCd⟩ := Graph.connected_ok hsup
  obtain ⟨L, hL, hLnd, hLm⟩ := failing_spec (G := G) G.edges [] (fun x hx h => (hwb x hx h).1) (by simp)
  have hLm' : ∀ k, k ∈ L ↔ ∃ x ∈ G.edges, x.2.kind = some (.link .wirelessBackhaul) ∧
      k = Graph.sortedEdge x.1.1 x.1.2 := by
    intro k; rw [hLm]; simp
  have hFL : FailLinks G L := by
    have hlt : ∀ k ∈ L, k.1.str < k.2.str := by
      intro k hk
      obtain ⟨x, hx, hk', rfl⟩ := (hLm' k).1 hk
      exact sortedEdge_lt (hwb x hx hk').2
    refine ⟨?_, ?_, ?_⟩
    · intro k hk
      obtain ⟨x, hx, hk', rfl⟩ := (hLm' k).1 hk
      have e1 : G.edge (x.1.1, x.1.2) := List.mem_map.2 ⟨x, hx, rfl⟩
      have e2 := (hwb x hx hk').1
      rcases Graph.sortedEdge_cases x.1.1 x.1.2 with h | h <;> rw [h]
      · exact ⟨e1, e2⟩
      · exact ⟨e2, e1⟩
    · intro k hk c
      have := hlt k hk
      rw [c] at this
      exact lt_irrefl _ this
    · intro k hk c
      exact lt_asymm (hlt k hk) (hlt _ c)
  have hO : ∀ k, Ordered 0 (outages sim 0 (draws k)) := fun k => outages_ordered _ (hd k) 0
  set O : GEdge → List (ℚ × ℚ) := fun k => outages sim 0 (draws k) with hOdef
  have hperm := List.perm_insertionSort Ev.le (⟨sim, none, .simEnd⟩ :: L.flatMap fun k => linkEvents k (O k))
  have hknown : ∀ e ∈ Graph.events sim draws L, e = ⟨sim, none, .simEnd⟩ ∨
      (∃ k ∈ L, e.key = some k) ∧ e.kind ≠ .simEnd := by
    intro e he
    rcases List.mem_cons.1 (hperm.mem_iff.1 he) with h | h
    · exact Or.inl h
    · obtain ⟨k, hk, h⟩ := List.mem_flatMap.1 h
      obtain ⟨h1, h2⟩ := linkEvents_mem h
      refine Or.inr ⟨⟨k, hk, h1⟩, ?_⟩
      rcases h2 with ⟨h2, _⟩ | ⟨h2, _⟩ <;> rw [h2] <;> simp
  have hpos : ∀ e ∈ Graph.events sim draws L, 0 < e.time := by
    intro e he
    rcases List.mem_cons.1 (hperm.mem_iff.1 he) with h | h
    · rw [h]; exact hsim
    · obtain ⟨k, hk, h⟩ := List.mem_flatMap.1 h
      obtain ⟨_, h2⟩ := linkEvents_mem h
      rcases h2 with ⟨_, o, ho, h2⟩ | ⟨_, o, ho, h2⟩ <;> rw [← h2]
      · exact ((hO k).lt o ho).1
      · exact ((hO k).lt o ho).2
  have hsorted : (Graph.events sim draws L).Pairwise Ev.le := List.pairwise_insertionSort _ _
  have inv0 : SimInv G L sim O { graph := G, demand := C.map (·, 0), link := L.map (·, 0) }
      (Graph.events sim draws L) := by
    refine ⟨by simp, hsup, by simp, by simp, ?_, hsorted, fun e he => le_of_lt (hpos e he), ?_, hknown⟩
    · intro k hk
      exact ⟨[], O k, rfl, by simp, Or.inl ⟨by simp, events_filter hLnd hk (hO k)⟩⟩
    · exact hperm.mem_iff.2 List.mem_cons_self
  obtain ⟨s', ts, T, r1, r2, r3, r4, r5, r6, r7, r8, r9⟩ := simulate_spec hFL (fun k _ => hO k) hsim _ late _ inv0 hpos
    (by
      intro x hx
      obtain ⟨d, hd, rfl⟩ := List.mem_map.1 hx
      exact ((hCd d).1 hd).2.1)
    (by
      intro x hx
      obtain ⟨k, hk, rfl⟩ := List.mem_map.1 hx
      exact hk)
  refine ⟨C, L, s'.demand, s'.link, ts, T, ?_, hC, hCd, hLnd, hLm', ?_, r3, r5, r6, r7, ?_, ?_, ?_⟩
  · unfold Graph.availability
    rw [if_neg (by simpa using hp), if_neg (by simpa using hsim), hC]
    dsimp only
    rw [hL]
    dsimp only
    rw [r1]
  · have h1 : ((Graph.events sim draws L).map (·.time)).Pairwise (· ≤ ·) := by
      rw [List.pairwise_map]
      exact hsorted.imp (fun h => Ev.le_time h)
    rw [List.pairwise_cons]
    refine ⟨fun x hx => ?_, h1.sublist r2⟩
    obtain ⟨e, he, rfl⟩ := List.mem_map.1 (r2.subset hx)
    exact le_of_lt (hpos e he)
  · intro k hk o ho
    obtain ⟨⟨e1, he1, ht1⟩, e2, he2, ht2⟩ := linkEvents_of (k := k) ho
    have hin : ∀ e ∈ linkEvents k (O k), e ∈ Graph.events sim draws L := fun e he =>
      hperm.mem_iff.2 (List.mem_cons_of_mem _ (List.mem_flatMap.2 ⟨k, hk, he⟩))
    rw [← ht1, ← ht2]
    exact ⟨r4 e1 (hin e1 he1), r4 e2 (hin e2 he2)⟩
  · rw [r8, List.map_map]
    apply List.map_congr_left
    intro d _
    simp only [Function.comp]
    congr 1
    have h1 := ne_of_gt r5
    have h2 := ne_of_gt hsim
    field_simp
    ring
  · rw [r9, List.map_map]
    apply List.map_congr_left
    intro d _
    simp only [Function.comp]
    congr 1
    ring

/-! ### Shortest paths do not use a link in both directions -/

theorem pairs_split {α : Type} {p : List α} {u v : α} (h : (u, v) ∈ pairs p) :
    ∃ p1 p2, p = p1 ++ u :: v :: p2 := by
  induction p with
  | nil => simp [pairs] at h
  | cons x p ih =>
    cases p with
    | nil => simp [pairs] at h
    | cons y p =>
      rw [pairs, List.mem_cons] at h
      rcases h with h | h
      · obtain ⟨rfl, rfl⟩ := Prod.mk.inj h
        exact ⟨[], p, rfl⟩
      · obtain ⟨p1, p2, h⟩ := ih h
        exact ⟨x :: p1, p2, by rw [h]; rfl⟩

theorem short_prefix {α : Type} {E : α × α → Prop} {a b : α} {p : List α} (hw : IsWalk E a b p)
    (hs : ∀ q, IsWalk E a b q → p.length ≤ q.length) {u v : α} (h : (u, v) ∈ pairs p) :
    ∃ n, (∃ w, IsWalk E a u w ∧ w.length = n) ∧ ∀ w, IsWalk E a v w → n + 1 ≤ w.length := by
  obtain ⟨p1, p2, rfl⟩ := pairs_split h
  obtain ⟨w1, w2, w3⟩ := hw
  have happ : p1 ++ u :: v :: p2 = (p1 ++ [u]) ++ v :: p2 := by simp
  refine ⟨(p1 ++ [u]).length, ⟨p1 ++ [u], ⟨?_, by simp, ?_⟩, rfl⟩, ?_⟩
  · cases p1 with
    | nil => simpa using w1
    | cons x p1 => simpa using w1
  · rw [happ, List.isChain_append] at w3
    exact w3.1
  · rintro w ⟨k1, k2, k3⟩
    obtain ⟨w0, rfl⟩ : ∃ w0, w = w0 ++ [v] := by
      rw [List.getLast?_eq_some_iff] at k2
      exact k2
    have hq : IsWalk E a b (w0 ++ v :: p2) := by
      refine ⟨?_, ?_, ?_⟩
      · cases w0 with
        | nil => simpa using k1
        | cons x w0 => simpa using k1
      · rw [happ] at w2
        simp only [List.getLast?_append, List.getLast?_cons] at w2 ⊢
        simpa using w2
      · rw [happ, List.isChain_append] at w3
        rw [List.isChain_append] at k3 ⊢
        refine ⟨k3.1, w3.2.1, ?_⟩
        intro x hx y hy
        exact k3.2.2 x hx y (by simpa using hy)
    have := hs _ hq
    simp only [List.length_append, List.length_cons] at this ⊢
    simp
    omega

/-- No link is stripped of its attributes in both directions. -/
theorem stripped_once {t : Topology} {paths : Paths} {E : GEdge → Prop} (sp : ShortestPaths E .super paths)
    {d d' : DemandId} {u v : GNode} (h : stripped t paths d (u, v)) (h' : stripped t paths d' (v, u)) : False := by
  obtain ⟨p, hp, _, hm, _⟩ := h
  obtain ⟨q, hq, _, hm', _⟩ := h'
  obtain ⟨n, ⟨w, hw, hn⟩, hmin⟩ := short_prefix (sp.walk _ _ hp) (fun q hq => sp.short _ _ _ hp hq) hm
  obtain ⟨m, ⟨w', hw', hm''⟩, hmin'⟩ := short_prefix (sp.walk _ _ hq) (fun q' hq' => sp.short _ _ _ hq hq') hm'
  have := hmin _ hw'
  have := hmin' _ hw
  omega

/-! ### Service while links are down -/

variable {t : Topology} {cost : Link → Option Nat}

/-- The edges left when the links in `G` are taken out. -/
def spared (G : List (SiteId × SiteId)) (e : GEdge) : Prop :=
  ∀ p ∈ G, e ≠ (.site p.1, .site p.2) ∧ e ≠ (.site p.2, .site p.1)

theorem joined_links_iff (inv : t.Inv) {G : List (SiteId × SiteId)} {d : DemandId} :
    Joined (fun e => (t.buildDigraph inUse cost).edge e ∧ spared G e) .super (.demand d) ↔ Served t [] G d := by
  constructor
  · intro h
    have key : ∀ v, Joined (fun e => (t.buildDigraph inUse cost).edge e ∧ spared G e) .super v →
        (∀ s, v = .site s → Survives t [] G s) ∧ (∀ d, v = .demand d → Served t [] G d) := by
      intro v h
      induction h with
      | refl => exact ⟨fun s h => by simp at h, fun d h => by simp at h⟩
      | @tail u w _ he ih =>
        obtain ⟨he, hsp⟩ := he
        cases u with
        | super =>
          obtain ⟨s, y, rfl, h1, h2, h3⟩ := (build_edge_super inv).1 he
          refine ⟨fun s' hs => ?_, fun d h => by simp at h⟩
          simp only [GNode.site.injEq] at hs
          subst hs
          exact Survives.pop h1 h2 ((active_iff _).1 h3) (by simp)
        | demand d => exact absurd he build_no_out
        | site u =>
          cases w with
          | super => exact absurd he build_no_in
          | site y =>
            refine ⟨fun s' hs => ?_, fun d h => by simp at h⟩
            simp only [GNode.site.injEq] at hs
            subst hs
            obtain ⟨l, h1, h2, h3, h4⟩ := (build_edge_site inv).1 he
            obtain ⟨z, h5, h6⟩ := admits_iff'.1 h4
            exact Survives.hop (ih.1 u rfl) h1 ((active_iff _).1 h2) (fun c => (hsp _ c).1 rfl)
              (fun c => (hsp _ c).2 rfl) h5 ((active_iff _).1 h6) (by simp)
          | demand d =>
            refine ⟨fun s' hs => by simp at hs, fun d' hd => ?_⟩
            simp only [GNode.demand.injEq] at hd
            subst hd
            obtain ⟨dm, h1, h2, h3⟩ := (build_edge_demand inv).1 he
            exact ⟨dm, h1, u, h2, ih.1 u rfl⟩
    exact (key _ h).2 d rfl
  · rintro ⟨dm, h1, s, h2, h3⟩
    have hs : Joined (fun e => (t.buildDigraph inUse cost).edge e ∧ spared G e) .super (.site s) := by
      clear h2 h1
      induction h3 with
      | pop h1 h2 h3 _ =>
        exact ReflTransGen.single ⟨(build_edge_super inv).2 ⟨_, _, rfl, h1, h2, (active_iff _).2 h3⟩,
          fun p _ => by simp⟩
      | @hop x y l z hx h1 h2 h3 h4 h5 h6 _ ih =>
        refine ReflTransGen.tail ih ⟨(build_edge_site inv).2 ⟨l, h1, (active_iff _).2 h2, survives_admits hx,
          admits_iff'.2 ⟨z, h5, (active_iff _).2 h6⟩⟩, fun p hp => ⟨?_, ?_⟩⟩
        · intro c
          simp only [Prod.mk.injEq, GNode.site.injEq] at c
          exact h3 (by rw [c.1, c.2]; exact hp)
        · intro c
          simp only [Prod.mk.injEq, GNode.site.injEq] at c
          exact h4 (by rw [c.1, c.2]; exact hp)
    exact ReflTransGen.tail hs ⟨(build_edge_demand inv).2 ⟨dm, h1, h2, survives_admits h3⟩, fun p _ => by simp⟩

theorem wb_edge (inv : t.Inv) {e : GEdge} {a : EdgeAttr}
    (h : (t.buildDigraph inUse cost).edges.get? e = some a) (hk : a.kind = some (.link .wirelessBackhaul)) :
    ∃ u v, e = (.site u, .site v) ∧ ∃ l, t.links.get? ⟨u, v⟩ = some l ∧ l.isWireless = true ∧ NotCn t v := by
  have he : (t.buildDigraph inUse cost).edge e := Graph.edge_iff_get?.2 ⟨a, h⟩
  rcases mem_digraph.1 (build_get? h) with ⟨x, k1, k2, k3, k4⟩ | ⟨l, k1, k2, k3, k4, k5⟩ |
    ⟨x, k1, s, k2, k3, k4⟩
  · simp only [Prod.mk.injEq] at k4
    rw [k4.2.2] at hk
    simp at hk
  · simp only [Prod.mk.injEq] at k5
    obtain ⟨e1, e2, rfl⟩ := k5
    obtain ⟨⟨k, l'⟩, hkm, rfl⟩ := List.mem_map.1 k1
    have hg := (Dict.mem_iff_get? inv.nd_links _ _).1 hkm
    have hid : k = ⟨l'.tx, l'.rx⟩ := inv.link_id _ _ hg
    rw [hid] at hg
    refine ⟨l'.tx, l'.rx, Prod.ext e1 e2, l', hg, ?_⟩
    dsimp only at hk k4
    obtain ⟨y, hy, _⟩ := admits_iff'.1 k4
    unfold linkType at hk
    rw [hy] at hk
    by_cases hw : l'.isWireless = true
    · refine ⟨hw, y, hy, ?_⟩
      intro hc
      simp [hw, hc] at hk
    · simp [hw] at hk
  · simp only [Prod.mk.injEq] at k4
    rw [k4.2.2] at hk
    simp at hk

/-- The links that fail in the simulation are the radio links in use between DNs and POPs. -/
theorem failing_links (inv : t.Inv) (valid : t.validateStatus = none) (hcn : NoCnSender t) (hloop : NoSelfLink t)
    (hmed : SameMedium t) {paths : Paths} (sp : ShortestPaths (t.buildDigraph inUse cost).edge .super paths)
    {K : Graph}
    (hlike : (t.buildDigraph inUse cost).Like K (fun e => ∃ d ∈ t.demandSites.keys, stripped t paths d e)) :
    (∀ x ∈ K.edges, x.2.kind = some (.link .wirelessBackhaul) →
      K.edge (x.1.2, x.1.1) ∧ x.1.1.str ≠ x.1.2.str) ∧
    ∀ k, (∃ x ∈ K.edges, x.2.kind = some (.link .wirelessBackhaul) ∧ k = Graph.sortedEdge x.1.1 x.1.2) ↔
      ∃ a b, k = (.site a, .site b) ∧ FailingLink t a b := by
  have first : ∀ x ∈ K.edges, x.2.kind = some (.link .wirelessBackhaul) →
      ∃ u v l, x.1 = (.site u, .site v) ∧ u ≠ v ∧ CountedLink t l ∧
        t.links.get? ⟨u, v⟩ = some l ∧ NotCn t u ∧ NotCn t v := by
    intro x hx hk
    have hg := (Dict.mem_iff_get? hlike.nd _ _).1 hx
    rcases hlike.attr x.1 with h | ⟨_, _, h⟩
    · rw [hg] at h
      obtain ⟨u, v, h1, l, h2, h3, h4⟩ := wb_edge inv h.symm hk
      have he : (t.buildDigraph inUse cost).edge (.site u, .site v) :=
        h1 ▸ Graph.edge_iff_get?.2 ⟨_, h.symm⟩
      obtain ⟨l', m1, m2, m3, m4⟩ := (build_edge_site inv).1 he
      rw [h2] at m1
      simp only [Option.some.injEq] at m1
      subst m1
      obtain ⟨z, n1, n2⟩ := admits_iff'.1 m3
      obtain ⟨y, n3, n4⟩ := admits_iff'.1 m4
      obtain ⟨y', n5, n6⟩ := h4
      rw [n3] at n5
      simp only [Option.some.injEq] at n5
      subst n5
      have hid := inv.link_id _ _ h2
      have e1 : l.tx = u := (congrArg LinkId.tx hid).symm
      have e2 : l.rx = v := (congrArg LinkId.rx hid).symm
      refine ⟨u, v, l, h1, ?_, ?_, h2, ⟨z, n1, hcn u v l z h2 n1⟩, ⟨y, n3, n6⟩⟩
      · rintro rfl
        rw [hloop u] at h2
        cases h2
      · exact ⟨by rw [e1, e2]; exact h2, h3, (active_iff _).1 m2, ⟨z, by rw [e1]; exact n1, (active_iff _).1 n2⟩,
          y, by rw [e2]; exact n3, (active_iff _).1 n4, n6⟩
    · rw [hg] at h
      simp only [Option.some.injEq] at h
      rw [h] at hk
      simp at hk
  -- a radio link in use between DNs and POPs, in both directions
  have both : ∀ u v l, t.links.get? ⟨u, v⟩ = some l → CountedLink t l → NotCn t u → NotCn t v →
      ∃ r, t.links.get? ⟨v, u⟩ = some r ∧ CountedLink t r := by
    intro u v l hl hc hu hv
    obtain ⟨r, hr, hst⟩ := validated_two_way inv valid hl hv
    refine ⟨r, hr, ?_⟩
    have hid := inv.link_id _ _ hl
    have e1 : l.tx = u := (congrArg LinkId.tx hid).symm
    have e2 : l.rx = v := (congrArg LinkId.rx hid).symm
    have hid' := inv.link_id _ _ hr
    have e1' : r.tx = v := (congrArg LinkId.tx hid').symm
    have e2' : r.rx = u := (congrArg LinkId.rx hid').symm
    obtain ⟨_, c2, c3, ⟨z, c4, c5⟩, y, c6, c7, c8⟩ := hc
    rw [e1] at c4
    rw [e2] at c6
    obtain ⟨z', q1, q2⟩ := hu
    rw [c4] at q1
    simp only [Option.some.injEq] at q1
    subst q1
    exact ⟨by rw [e1', e2']; exact hr, by rw [← hmed _ _ _ _ hl hr]; exact c2, by rw [← hst]; exact c3,
      ⟨y, by rw [e1']; exact c6, c7⟩, z, by rw [e2']; exact c4, c5, q2⟩
  refine ⟨?_, ?_⟩
  · intro x hx hk
    obtain ⟨u, v, l, h1, h2, h3, h4, h5, h6⟩ := first x hx hk
    rw [h1]
    refine ⟨?_, h2⟩
    rw [hlike.edge]
    refine back_edge inv valid ?_ h6
    rw [← hlike.edge, ← h1]
    exact List.mem_map.2 ⟨x, hx, rfl⟩
  · intro k
    constructor
    · rintro ⟨x, hx, hk, rfl⟩
      obtain ⟨u, v, l, h1, h2, h3, h4, h5, h6⟩ := first x hx hk
      rw [h1]
      unfold Graph.sortedEdge
      have mk : ∀ u v l, t.links.get? ⟨u, v⟩ = some l → CountedLink t l → NotCn t u → u < v →
          FailingLink t u v := by
        rintro u v l hl ⟨_, c2, c3, ⟨z, c4, c5⟩, y, c6, c7, c8⟩ ⟨z', q1, q2⟩ hlt
        have hid := inv.link_id _ _ hl
        have e1 : l.tx = u := (congrArg LinkId.tx hid).symm
        have e2 : l.rx = v := (congrArg LinkId.rx hid).symm
        rw [e1] at c4
        rw [e2] at c6
        rw [c4] at q1
        simp only [Option.some.injEq] at q1
        subst q1
        exact ⟨hlt, l, z, y, hl, c2, c3, c4, c5, q2, c6, c7, c8⟩
      dsimp only
      by_cases hlt : u < v
      · rw [if_pos (show (GNode.site u).str < (GNode.site v).str from hlt)]
        exact ⟨u, v, rfl, mk u v l h4 h3 h5 hlt⟩
      · rw [if_neg (show ¬ (GNode.site u).str < (GNode.site v).str from hlt)]
        obtain ⟨r, hr, hrc⟩ := both u v l h4 h3 h5 h6
        exact ⟨v, u, rfl, mk v u r hr hrc h6 (lt_of_le_of_ne (not_lt.1 hlt) (Ne.symm h2))⟩
    · rintro ⟨a, b, rfl, hlt, l, x, y, f1, f2, f3, f4, f5, f6, f7, f8, f9⟩
      have hid := inv.link_id _ _ f1
      have e1 : l.tx = a := (congrArg LinkId.tx hid).symm
      have e2 : l.rx = b := (congrArg LinkId.rx hid).symm
      have hc : CountedLink t l := ⟨by rw [e1, e2]; exact f1, f2, f3, ⟨x, by rw [e1]; exact f4, f5⟩,
        y, by rw [e2]; exact f7, f8, f9⟩
      obtain ⟨r, hr, hrc⟩ := both a b l f1 hc ⟨x, f4, f6⟩ ⟨y, f7, f9⟩
      have hid' := inv.link_id _ _ hr
      have e1' : r.tx = b := (congrArg LinkId.tx hid').symm
      have e2' : r.rx = a := (congrArg LinkId.rx hid').symm
      obtain ⟨at1, g1, g2⟩ := counted_edge (cost := cost) inv hc
      obtain ⟨at2, g3, g4⟩ := counted_edge (cost := cost) inv hrc
      rw [e1, e2] at g1
      rw [e1', e2'] at g3
      have s1 : Graph.sortedEdge (.site a) (.site b) = (.site a, .site b) := by
        unfold Graph.sortedEdge; exact if_pos hlt
      have s2 : Graph.sortedEdge (.site b) (.site a) = (.site a, .site b) := by
        unfold Graph.sortedEdge; exact if_neg (lt_asymm hlt)
      rcases hlike.attr (.site a, .site b) with h | ⟨⟨d, _, hs⟩, _, _⟩
      · exact ⟨((.site a, .site b), at1), Dict.mem_of_get? _ (h.trans g1), g2, s1.symm⟩
      · rcases hlike.attr (.site b, .site a) with h | ⟨⟨d', _, hs'⟩, _, _⟩
        · exact ⟨((.site b, .site a), at2), Dict.mem_of_get? _ (h.trans g3), g4, s2.symm⟩
        · exact absurd (stripped_once sp hs hs') (by simp)

end Verif
