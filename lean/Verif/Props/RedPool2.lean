import Verif.Props.RedPool

/-! # The link pool of the redundancy phase covers the connected DNs -/

namespace Verif
open Topology Spec

namespace HGraph
variable {G : HGraph}

theorem in_nonneg {f : HEdge → ℚ} (h : ∀ e ∈ G.edges, 0 ≤ f e) (v : HNode) : 0 ≤ G.inflow f v :=
  List.sum_nonneg fun y hy => by
    obtain ⟨e, he, rfl⟩ := List.mem_map.1 hy
    exact h e (List.mem_filter.1 he).1

theorem out_nonneg {f : HEdge → ℚ} (h : ∀ e ∈ G.edges, 0 ≤ f e) (v : HNode) : 0 ≤ G.outflow f v :=
  List.sum_nonneg fun y hy => by
    obtain ⟨e, he, rfl⟩ := List.mem_map.1 hy
    exact h e (List.mem_filter.1 he).1

/-- What leaves the source arrives at the sink. -/
theorem sink_value {snk : HNode} (hs : snk ≠ .super) {f : HEdge → ℚ} (h : IsFlow G snk f) :
    G.inflow f snk - G.outflow f snk = G.value f := by
  let V : List HNode := (HNode.super :: snk :: hNodes G).dedup
  have hV : V.Nodup := List.nodup_dedup _
  have m : ∀ e ∈ G.edges, e.1 ∈ V ∧ e.2 ∈ V := fun e he =>
    ⟨List.mem_dedup.2 (List.mem_cons_of_mem _ (List.mem_cons_of_mem _ (List.mem_flatMap.2 ⟨e, he, by simp⟩))),
     List.mem_dedup.2 (List.mem_cons_of_mem _ (List.mem_cons_of_mem _ (List.mem_flatMap.2 ⟨e, he, by simp⟩)))⟩
  have e1 := sum_partition G.edges (fun e => e.2) f V hV fun e he => (m e he).2
  have e2 := sum_partition G.edges (fun e => e.1) f V hV fun e he => (m e he).1
  have tot : (V.map fun v => G.inflow f v - G.outflow f v).sum = 0 := by
    have : (V.map fun v => G.inflow f v - G.outflow f v).sum =
        (V.map fun v => G.inflow f v).sum - (V.map fun v => G.outflow f v).sum := by
      clear * -
      induction V with
      | nil => simp
      | cons a V ih => simp only [List.map_cons, List.sum_cons, ih]; ring
    rw [this]
    unfold inflow outflow
    rw [← e1, ← e2, sub_self]
  have m1 : HNode.super ∈ V := List.mem_dedup.2 (by simp)
  have m2 : snk ∈ V := List.mem_dedup.2 (by simp)
  have m2' : snk ∈ V.erase .super := (List.mem_erase_of_ne hs).2 m2
  have hp := (List.perm_cons_erase m1).trans ((List.perm_cons_erase m2').cons _)
  rw [(hp.map _).sum_eq, List.map_cons, List.map_cons, List.sum_cons, List.sum_cons] at tot
  have z : (((V.erase .super).erase snk).map fun v => G.inflow f v - G.outflow f v).sum = 0 := by
    apply List.sum_eq_zero
    intro y hy
    obtain ⟨v, hv, rfl⟩ := List.mem_map.1 hy
    have n2 := (hV.erase .super).mem_erase_iff.1 hv
    have n1 := hV.mem_erase_iff.1 n2.2
    rw [h.balance v n1.1 n2.1, sub_self]
  rw [z] at tot
  unfold value
  linarith

/-- A usable edge of the graph. -/
def Step (G : HGraph) (u v : HNode) : Prop := (u, v) ∈ G.edges ∧ 1 ≤ G.cap (u, v)

theorem inflow_add (f g : HEdge → ℚ) (v : HNode) :
    G.inflow (fun e => f e + g e) v = G.inflow f v + G.inflow g v := List.sum_map_add

theorem outflow_add (f g : HEdge → ℚ) (v : HNode) :
    G.outflow (fun e => f e + g e) v = G.outflow f v + G.outflow g v := List.sum_map_add

theorem sum_indicator {L : List HEdge} (hn : L.Nodup) (a : HEdge) :
    (L.map fun e => if e = a then (1 : ℚ) else 0).sum = if a ∈ L then 1 else 0 := by
  by_cases h : a ∈ L
  · rw [if_pos h]
    refine Eq.trans ?_ (sum_ite_nodup L a 1 hn h)
    congr 1
    apply List.map_congr_left
    intro e _
    by_cases c : e = a
    · rw [if_pos c, if_pos c.symm]
    · rw [if_neg c, if_neg (Ne.symm c)]
  · rw [if_neg h]
    apply List.sum_eq_zero
    intro y hy
    obtain ⟨e, he, rfl⟩ := List.mem_map.1 hy
    rw [if_neg]
    rintro rfl
    exact h he

/-- Sending one unit along a walk. -/
theorem walk_flow (hn : G.edges.Nodup) {u v : HNode} (h : Relation.ReflTransGen G.Step u v) :
    ∃ g : HEdge → ℚ, (∀ e, 0 ≤ g e) ∧ (∀ e, 0 < g e → 1 ≤ G.cap e) ∧
      ∀ w, G.inflow g w - G.outflow g w = (if w = v then 1 else 0) - if w = u then 1 else 0 := by
  induction h with
  | refl =>
    refine ⟨fun _ => 0, fun _ => le_refl _, fun e h => absurd h (lt_irrefl _), fun w => ?_⟩
    unfold inflow outflow
    simp
  | @tail b c _ hbc ih =>
    obtain ⟨g, g1, g2, g3⟩ := ih
    refine ⟨fun e => g e + if e = (b, c) then 1 else 0, fun e => ?_, fun e he => ?_, fun w => ?_⟩
    · have := g1 e
      dsimp only
      split <;> linarith
    · by_cases c' : e = (b, c)
      · rw [c']; exact hbc.2
      · dsimp only at he
        rw [if_neg c', add_zero] at he
        exact g2 e he
    · rw [inflow_add, outflow_add]
      have i1 : G.inflow (fun e => if e = (b, c) then (1 : ℚ) else 0) w = if w = c then 1 else 0 := by
        unfold inflow
        rw [sum_indicator (hn.filter _)]
        refine if_congr ?_ rfl rfl
        rw [List.mem_filter, decide_eq_true_eq]
        exact ⟨fun h => h.2.symm, fun h => ⟨hbc.1, h.symm⟩⟩
      have i2 : G.outflow (fun e => if e = (b, c) then (1 : ℚ) else 0) w = if w = b then 1 else 0 := by
        unfold outflow
        rw [sum_indicator (hn.filter _)]
        refine if_congr ?_ rfl rfl
        rw [List.mem_filter, decide_eq_true_eq]
        exact ⟨fun h => h.2.symm, fun h => ⟨hbc.1, h.symm⟩⟩
      rw [i1, i2]
      have := g3 w
      linarith

/-- A maximum flow reaches every sink that can be reached. -/
theorem max_positive (hn : G.edges.Nodup) (hc : ∀ e ∈ G.edges, 0 ≤ G.cap e) {snk : HNode}
    (hs : snk ≠ .super)
    (h : Relation.ReflTransGen G.Step .super snk) {f : HEdge → ℚ} (hf : IsMaxFlow G snk f) :
    0 < G.value f := by
  obtain ⟨g, g1, g2, g3⟩ := walk_flow hn h
  let M : ℚ := 1 + (G.edges.map g).sum
  have hsum : 0 ≤ (G.edges.map g).sum := List.sum_nonneg fun y hy => by
    obtain ⟨e, _, rfl⟩ := List.mem_map.1 hy
    exact g1 e
  have hM : 0 < M := by change 0 < 1 + _; linarith
  have scale : ∀ w, G.inflow (fun e => g e / M) w = G.inflow g w / M ∧
      G.outflow (fun e => g e / M) w = G.outflow g w / M := by
    intro w
    have key : ∀ L : List HEdge, (L.map fun e => g e / M).sum = (L.map g).sum / M := by
      intro L
      induction L with
      | nil => simp
      | cons a L ih => simp only [List.map_cons, List.sum_cons, ih]; ring
    exact ⟨key _, key _⟩
  have hflow : IsFlow G snk fun e => g e / M := by
    constructor
    · intro e he
      refine ⟨div_nonneg (g1 e) hM.le, ?_⟩
      rcases (g1 e).lt_or_eq with hp | hz
      · have hle : g e ≤ (G.edges.map g).sum := by
          apply List.single_le_sum
          · intro y hy
            obtain ⟨e', _, rfl⟩ := List.mem_map.1 hy
            exact g1 e'
          · exact List.mem_map.2 ⟨e, he, rfl⟩
        have : g e / M ≤ 1 := by
          rw [div_le_one hM]
          change g e ≤ 1 + _
          linarith
        exact le_trans this (g2 e hp)
      · rw [← hz, zero_div]
        exact hc e he
    · intro v hv hv'
      have := g3 v
      rw [if_neg hv', if_neg hv] at this
      rw [(scale v).1, (scale v).2]
      congr 1
      linarith
  have hval : G.value (fun e => g e / M) = 1 / M := by
    unfold value
    rw [(scale .super).1, (scale .super).2, ← sub_div]
    congr 1
    have := g3 .super
    rw [if_neg (Ne.symm hs), if_pos rfl] at this
    linarith
  have := hf.2 _ hflow
  rw [hval] at this
  exact lt_of_lt_of_le (by positivity) this

theorem into_sink {snk : HNode} (hs : snk ≠ .super) {f : HEdge → ℚ} (hf : IsFlow G snk f)
    (hv : 0 < G.value f) : ∃ e ∈ G.edges, e.2 = snk ∧ 0 < f e := by
  by_contra hno
  push Not at hno
  have h1 := sink_value hs hf
  have h2 := out_nonneg (fun e he => (hf.bound e he).1) snk
  have h3 : G.inflow f snk ≤ 0 := by
    refine le_trans (Plan.sum_map_mono _ _ (fun _ => 0) fun e he => ?_) (le_of_eq (by simp))
    obtain ⟨k1, k2⟩ := List.mem_filter.1 he
    exact hno e k1 (by simpa using k2)
  linarith

end HGraph

theorem mem_heurLinks {t : Topology} (inv : t.Inv) {l : Link} :
    l ∈ t.heurLinks ↔ t.links.get? ⟨l.tx, l.rx⟩ = some l ∧ UsableHop t l.tx l.rx := by
  have hl : l ∈ t.links.vals ↔ t.links.get? ⟨l.tx, l.rx⟩ = some l := by
    constructor
    · intro h
      exact Plan.linkOf_arcOf (P := ⟨t, redDemoParams⟩) inv h
    · intro h
      exact List.mem_map.2 ⟨_, Dict.mem_of_get? _ h, rfl⟩
  have st : ∀ st : StatusType, st.inactive = false ↔ st ≠ .unavailable ∧ st ≠ .unreachable := by
    intro st; cases st <;> simp [StatusType.inactive]
  have ty : ∀ ty : SiteType, ty.isDist = true ↔ ty ≠ .cn := by
    intro ty; cases ty <;> simp [SiteType.isDist]
  unfold heurLinks
  rw [List.mem_filter, hl]
  refine and_congr_right fun hget => ?_
  obtain ⟨y, hy⟩ := inv.link_tx _ _ hget
  obtain ⟨z, hz⟩ := inv.link_rx _ _ hget
  have sy : t.siteStatus l.tx = some y.status := by unfold siteStatus; rw [hy]; rfl
  have sz : t.siteStatus l.rx = some z.status := by unfold siteStatus; rw [hz]; rfl
  simp only [Bool.and_eq_true, Bool.not_eq_true', decide_eq_true_eq]
  rw [sy, sz, hy, hz]
  simp only [Option.any_some, st, ty]
  constructor
  · rintro ⟨⟨⟨⟨⟨h1, h2⟩, h3⟩, h4⟩, h5⟩, h6⟩
    refine ⟨l, y, z, hget, hy, hz, h2, h5, h6, ?_⟩
    intro s hs
    simp only [List.mem_cons, List.not_mem_nil, or_false] at hs
    rcases hs with rfl | rfl | rfl
    · exact h1
    · exact h3
    · exact h4
  · rintro ⟨l', y', z', k1, k2, k3, k4, k5, k6, k7⟩
    rw [hget] at k1; cases k1
    rw [hy] at k2; cases k2
    rw [hz] at k3; cases k3
    exact ⟨⟨⟨⟨⟨k7 _ (by simp), k4⟩, k7 _ (by simp)⟩, k7 _ (by simp)⟩, k5⟩, k6⟩

theorem heurBase_nodup {t : Topology} (inv : t.Inv) : t.heurBase.Nodup := by
  unfold heurBase
  refine List.Nodup.append ?_ ?_ ?_
  · have e : (t.heurSites.map fun e => ((.inn e.1, .out e.1) : HEdge)) =
        (t.heurSites.map (·.1)).map fun s => (.inn s, .out s) := by rw [List.map_map]; rfl
    rw [e]
    exact (heurSites_nodup inv).map fun a b hab => by simpa using hab
  · rw [List.nodup_map_iff_inj_on]
    · intro a ha b hb hab
      simp only [Prod.mk.injEq, HNode.out.injEq, HNode.inn.injEq] at hab
      have h1 := ((mem_heurLinks inv).1 ha).1
      have h2 := ((mem_heurLinks inv).1 hb).1
      rw [hab.1, hab.2, h2] at h1
      cases h1; rfl
    · exact (Plan.link_vals_nodup (P := ⟨t, redDemoParams⟩) inv).filter _
  · intro e h1 h2
    obtain ⟨_, _, rfl⟩ := List.mem_map.1 h1
    obtain ⟨_, _, h⟩ := List.mem_map.1 h2
    simp at h

theorem from_edges {t : Topology} (c : ℚ) (p : SiteId) : (t.heurFrom c p).edges = t.heurBase ++ popEdges t := rfl

theorem from_nodup {t : Topology} (inv : t.Inv) (c : ℚ) (p : SiteId) : (t.heurFrom c p).edges.Nodup := by
  rw [from_edges]
  refine List.Nodup.append (heurBase_nodup inv) (popEdges_nodup inv) ?_
  intro e h1 h2
  obtain ⟨_, _, rfl⟩ := List.mem_map.1 h2
  exact super_edges h1 rfl

theorem from_cap_base {t : Topology} {c : ℚ} (hc : 1 ≤ c) (p : SiteId) {e : HEdge} (he : e.1 ≠ .super) :
    1 ≤ (t.heurFrom c p).cap e := by
  rcases e with ⟨u, v⟩
  cases u with
  | super => exact absurd rfl he
  | inn s =>
    cases v with
    | super => exact le_refl _
    | inn s' => exact le_refl _
    | out s' =>
      change 1 ≤ if _ then c else 1
      split
      · exact hc
      · exact le_refl _
  | out s => cases v <;> exact le_refl _

theorem from_cap_nonneg {t : Topology} {c : ℚ} (hc : 1 ≤ c) (p : SiteId) (e : HEdge) :
    0 ≤ (t.heurFrom c p).cap e := by
  by_cases he : e.1 = .super
  · rcases e with ⟨u, v⟩
    cases he
    cases v with
    | super => change 0 ≤ c; linarith
    | out s => change 0 ≤ c; linarith
    | inn s =>
      change 0 ≤ if _ then _ else c
      split
      · split <;> linarith
      · linarith
  · exact le_trans zero_le_one (from_cap_base hc p he)

theorem usable_ends {t : Topology} (inv : t.Inv) {a b : SiteId} (h : UsableHop t a b) :
    (∃ y, (a, y) ∈ t.heurSites) ∧ (∃ z, (b, z) ∈ t.heurSites) ∧ ∃ l ∈ t.heurLinks, l.tx = a ∧ l.rx = b := by
  have h0 := h
  obtain ⟨l, y, z, h1, h2, h3, h4, h5, h6, h7⟩ := h
  have st : ∀ st : StatusType, (st ≠ .unavailable ∧ st ≠ .unreachable) → st.inactive = false := by
    intro st; cases st <;> simp [StatusType.inactive]
  have hid := inv.link_id _ _ h1
  have e1 : l.tx = a := (congrArg LinkId.tx hid).symm
  have e2 : l.rx = b := (congrArg LinkId.rx hid).symm
  refine ⟨⟨y, (mem_heurSites inv).2 ⟨h2, st _ (h7 _ (by simp)), h5⟩⟩,
    ⟨z, (mem_heurSites inv).2 ⟨h3, st _ (h7 _ (by simp)), h6⟩⟩, l, (mem_heurLinks inv).2 ?_, e1, e2⟩
  rw [e1, e2]
  exact ⟨h1, h0⟩

/-- The walk through the split nodes. -/
theorem walk_in {t : Topology} (inv : t.Inv) {c : ℚ} (hc : 1 ≤ c) {p d : SiteId} {y : Site}
    (hy : t.sites.get? p = some y) (hp : y.siteType = .pop)
    (ha : y.status = .proposed ∨ y.status = .existing)
    (h : Relation.ReflTransGen (UsableHop t) p d) :
    Relation.ReflTransGen (t.heurFrom c p).Step .super (.inn d) := by
  induction h with
  | refl =>
    refine .single ⟨?_, ?_⟩
    · rw [from_edges, List.mem_append]
      right
      unfold popEdges
      refine List.mem_map.2 ⟨(p, y), List.mem_filter.2 ⟨(mem_heurSites inv).2 ⟨hy, ?_, ?_⟩, ?_⟩, rfl⟩
      · rcases ha with h | h <;> rw [h] <;> rfl
      · rw [hp]; simp
      · rw [hp]; rfl
    · change 1 ≤ if t.heurPops.contains p = true then (if p = p then c else 0) else c
      rw [if_pos rfl, ite_self]; exact hc
  | @tail a b _ hab ih =>
    obtain ⟨⟨ya, h1⟩, -, l, h3, rfl, rfl⟩ := usable_ends inv hab
    refine (ih.tail (c := .out l.tx) ⟨?_, from_cap_base hc p (by simp)⟩).tail
      ⟨?_, from_cap_base hc p (by simp)⟩
    · rw [from_edges, List.mem_append]
      exact .inl (List.mem_append.2 (.inl (List.mem_map.2 ⟨_, h1, rfl⟩)))
    · rw [from_edges, List.mem_append]
      exact .inl (List.mem_append.2 (.inr (List.mem_map.2 ⟨_, h3, rfl⟩)))

/-- Edges into the node of a DN come from links. -/
theorem into_dn {t : Topology} (inv : t.Inv) {c : ℚ} {p d : SiteId} {y : Site}
    (hy : t.sites.get? d = some y) (hd : y.siteType = .dn) {e : HEdge}
    (he : e ∈ (t.heurFrom c p).edges) (h2 : e.2 = .inn d) :
    ∃ u, e = (.out u, .inn d) ∧ UsableHop t u d := by
  rw [from_edges, List.mem_append] at he
  rcases he with he | he
  · unfold heurBase at he
    rcases List.mem_append.1 he with he | he
    · obtain ⟨_, _, rfl⟩ := List.mem_map.1 he
      cases h2
    · obtain ⟨l, hl, rfl⟩ := List.mem_map.1 he
      injection h2 with h2
      subst h2
      exact ⟨l.tx, rfl, ((mem_heurLinks inv).1 hl).2⟩
  · unfold popEdges at he
    obtain ⟨⟨s, z⟩, hm, rfl⟩ := List.mem_map.1 he
    injection h2 with h2
    dsimp only at h2
    subst h2
    obtain ⟨k1, k2⟩ := List.mem_filter.1 hm
    obtain ⟨g1, -⟩ := (mem_heurSites inv).1 k1
    rw [hy] at g1; cases g1
    rw [hd] at k2
    cases k2

/-- A connected DN ends a link of the pool. -/
theorem pool_link {t : Topology} (inv : t.Inv) {mf : HGraph → HNode → HEdge → ℚ}
    {pairs : List (SiteId × SiteId)} {popCap dnCap : ℚ} (hc : 1 ≤ popCap)
    (hmf : MaxFlowsFor t mf pairs popCap dnCap)
    (hint : ∀ G snk, ∀ e ∈ G.edges, mf G snk e = 0 ∨ 1 ≤ mf G snk e)
    {edges : List (SiteId × SiteId)} (h : t.heurPool mf pairs popCap dnCap = .ok edges)
    {d : SiteId} {y : Site} (hy : t.sites.get? d = some y) (hd : y.siteType = .dn)
    (ha : y.status = .proposed ∨ y.status = .existing) (hb : Backed t d) (hloop : ∀ l ∈ t.links.vals, l.tx ≠ l.rx) :
    ∃ u, UsableHop t u d ∧ (u, d) ∈ edges := by
  obtain ⟨p, z, hz, hzt, hza, hpath⟩ := hb
  have hpp : p ∈ t.heurPops := (mem_heurPops inv).2 ⟨z, hz, hzt, hza⟩
  have hdd : d ∈ t.heurDns := (mem_heurDns inv).2 ⟨y, hy, hd, ha⟩
  have hmax := hmf.1 d hdd p hpp
  have hpos := HGraph.max_positive (from_nodup inv popCap p) (fun e _ => from_cap_nonneg hc p e)
    (by simp) (walk_in inv hc hz hzt hza hpath) hmax
  obtain ⟨e, he, he2, hf⟩ := HGraph.into_sink (by simp) hmax.1 hpos
  obtain ⟨u, rfl, hu⟩ := into_dn inv hy hd he he2
  refine ⟨u, hu, ?_⟩
  have hud : u ≠ d := by
    obtain ⟨-, -, l, hl, rfl, rfl⟩ := usable_ends inv hu
    exact hloop l (List.mem_filter.1 hl).1
  have hf1 := (hint _ _ _ he).resolve_left (fun c => by rw [c] at hf; exact lt_irrefl _ hf)
  have hused : (u, d) ∈ usedLinks (t.heurFrom popCap p) (mf (t.heurFrom popCap p) (.inn d)) := by
    unfold usedLinks
    refine List.mem_filterMap.2 ⟨_, he, ?_⟩
    dsimp only
    rw [if_pos ⟨hud, by linarith⟩]
  unfold heurPool at h
  split at h
  · cases h
  rename_i L hL
  have hm := heurRound_mem hL (List.mem_flatMap.2 ⟨d, hdd, List.mem_map.2 ⟨p, hpp, rfl⟩⟩) _ hused
  split at h
  · cases h
  split at h
  · cases h
  cases h
  exact List.mem_append.2 (.inl (List.mem_append.2 (.inl hm)))

open Plan

/-- **C102, `_partial`.** Full statement (false of the code): the redundancy problem can be set up with
the computed link pool for every network. Proved if every DN in use is reached over usable
links from a POP in use; missing: installed DNs that are not, see `C102_isolated_dn_violation`.
(`hint`: networkx returns whole flows for whole capacities.) -/
theorem C102_pool_covers_partial (ops : List Op) (p : OptParams) (mf : HGraph → HNode → HEdge → ℚ)
    (pairs : List (SiteId × SiteId)) (popCap dnCap : ℚ) (hc : 1 ≤ popCap)
    (hmf : MaxFlowsFor (run {} ops) mf pairs popCap dnCap)
    (hint : ∀ G snk, ∀ e ∈ G.edges, mf G snk e = 0 ∨ 1 ≤ mf G snk e)
    (edges : List (SiteId × SiteId)) (h : (run {} ops).heurPool mf pairs popCap dnCap = .ok edges)
    (hset : (Plan.mk (run {} ops) p).setupErr = none)
    (hb : ∀ d y, (run {} ops).sites.get? d = some y → y.siteType = .dn →
      (y.status = .proposed ∨ y.status = .existing) → Backed (run {} ops) d) :
    (Plan.mk (run {} ops) p).redErr (some ((run {} ops).redPool edges)) = none := by
  have inv : Topology.Inv (run {} ops) := Inv.empty.run ops
  set P : Plan := ⟨run {} ops, p⟩ with hP
  have invP : P.t.Inv := inv
  have rdy := ready hset
  unfold redErr
  rw [hset]
  dsimp only
  rw [if_pos]
  rw [List.all_eq_true]
  intro d hd
  obtain ⟨k1, k2, k3⟩ := redDns_iff.1 hd
  obtain ⟨y, hy⟩ := (Dict.mem_keys_iff _ _).1 k1
  have hty : y.siteType = .dn := by
    rw [siteType?_of hy] at k3; injection k3
  have hact := (isActive_of hy).1 k2
  obtain ⟨u, hu, he⟩ := pool_link invP hc hmf hint h hy hty hact (hb d y hy hty hact) rdy.noLoop
  have hm : (u, d) ∈ P.t.redPool edges := by
    unfold redPool
    exact List.mem_append.2 (.inl he)
  obtain ⟨-, -, l, hl, rfl, rfl⟩ := usable_ends invP hu
  have hlv : l ∈ P.t.links.vals := (List.mem_filter.1 hl).1
  obtain ⟨l', y', z', g1, g2, g3, g4, g5, g6, -⟩ := hu
  have hget : P.t.links.get? ⟨l.tx, l.rx⟩ = some l := linkOf_arcOf invP hlv
  rw [hget] at g1; cases g1
  refine redSite_iff.2 ⟨(.site l.tx, .site l.rx), mem_redArcs.2 ⟨arcOf_mem hlv, ?_, ?_, ?_, ?_⟩, .inr rfl⟩
  · rw [show P.cap (.site l.tx, .site l.rx) = l.capacity from cap_arcOf invP hlv]; exact g4
  · exact (isDist_iff' g2).2 g5
  · exact (isDist_iff' g3).2 g6
  · exact .inr (.inr (.inr ⟨_, _, rfl, hm⟩))

namespace HGraph

theorem sum_sub_map {α : Type} (L : List α) (f g : α → ℚ) :
    (L.map fun a => f a - g a).sum = (L.map f).sum - (L.map g).sum := by
  induction L with
  | nil => simp
  | cons a L ih => simp only [List.map_cons, List.sum_cons, ih]; ring

/-- No flow exceeds a cut. -/
theorem cut_bound {G : HGraph} {snk : HNode} (U : HNode → Bool) (hs : U .super = true) (hk : U snk = false)
    {f : HEdge → ℚ} (h : IsFlow G snk f) :
    G.value f ≤ ((G.edges.filter fun e => U e.1 && !U e.2).map G.cap).sum := by
  let V : List HNode := (HNode.super :: hNodes G).dedup
  have hV : V.Nodup := List.nodup_dedup _
  have m : ∀ e ∈ G.edges, e.1 ∈ V ∧ e.2 ∈ V := fun e he =>
    ⟨List.mem_dedup.2 (List.mem_cons_of_mem _ (List.mem_flatMap.2 ⟨e, he, by simp⟩)),
     List.mem_dedup.2 (List.mem_cons_of_mem _ (List.mem_flatMap.2 ⟨e, he, by simp⟩))⟩
  have part : ∀ key : HEdge → HNode, (∀ e ∈ G.edges, key e ∈ V) →
      (G.edges.map fun e => if U (key e) then f e else 0).sum =
      (V.map fun v => if U v then ((G.edges.filter fun e => key e = v).map f).sum else 0).sum := by
    intro key hkey
    rw [sum_partition G.edges key _ V hV hkey]
    congr 1
    apply List.map_congr_left
    intro v _
    by_cases c : U v = true
    · rw [if_pos c]
      congr 1
      apply List.map_congr_left
      intro e he
      have : key e = v := by simpa using (List.mem_filter.1 he).2
      rw [this, if_pos c]
    · rw [if_neg c]
      apply List.sum_eq_zero
      intro y hy
      obtain ⟨e, he, rfl⟩ := List.mem_map.1 hy
      have : key e = v := by simpa using (List.mem_filter.1 he).2
      rw [this, if_neg c]
  have p1 := part (fun e => e.1) fun e he => (m e he).1
  have p2 := part (fun e => e.2) fun e he => (m e he).2
  have val : (V.map fun v => (if U v then G.outflow f v else 0) - if U v then G.inflow f v else 0).sum =
      G.value f := by
    have m1 : HNode.super ∈ V := List.mem_dedup.2 (by simp)
    rw [((List.perm_cons_erase m1).map _).sum_eq, List.map_cons, List.sum_cons, if_pos hs, if_pos hs]
    have z : ((V.erase .super).map fun v => (if U v then G.outflow f v else 0) -
        if U v then G.inflow f v else 0).sum = 0 := by
      apply List.sum_eq_zero
      intro y hy
      obtain ⟨v, hv, rfl⟩ := List.mem_map.1 hy
      have n1 := hV.mem_erase_iff.1 hv
      split
      · rename_i c
        rw [h.balance v n1.1 (by rintro rfl; rw [hk] at c; cases c), sub_self]
      · rw [sub_self]
    rw [z, add_zero]; rfl
  rw [sum_sub_map] at val
  unfold inflow outflow at val
  rw [← p1, ← p2, ← sum_sub_map] at val
  rw [← val, ← Plan.sum_filter_zero (p := fun e : HEdge => U e.1 && !U e.2) (f := G.cap)]
  refine Plan.sum_map_mono _ _ _ fun e he => ?_
  obtain ⟨b1, b2⟩ := h.bound e he
  cases h1 : U e.1 <;> cases h2 : U e.2 <;> simp <;> linarith

end HGraph

/-- Flows for the demo: from `P` over its link, from `Q` over `E`. -/
def redDemoFlow (G : HGraph) (_ : HNode) (e : HEdge) : ℚ :=
  if G.cap (.super, .inn "P") = 4 then
    if e ∈ [((.super, .inn "P") : HEdge), (.inn "P", .out "P"), (.out "P", .inn "D")] then 1 else 0
  else if e ∈ [((.super, .inn "Q") : HEdge), (.inn "Q", .out "Q"), (.out "Q", .inn "E"), (.inn "E", .out "E"),
    (.out "E", .inn "D")] then 1 else 0

theorem redDemoFlow_max : MaxFlowsFor (run {} redDemo) redDemoFlow [] 4 2 := by
  have hd : (run {} redDemo).heurDns = ["D"] := by decide +kernel
  have hp : (run {} redDemo).heurPops = ["P", "Q"] := by decide +kernel
  refine ⟨?_, fun q hq => by cases hq⟩
  rw [hd, hp]
  intro d hd p hp
  rw [List.mem_singleton] at hd
  subst hd
  simp only [List.mem_cons, List.not_mem_nil, or_false] at hp
  rcases hp with rfl | rfl
  · refine ⟨isFlow_of (by decide +kernel) (by decide +kernel), fun g hg => ?_⟩
    have h1 : ((run {} redDemo).heurFrom 4 "P").value
        (redDemoFlow ((run {} redDemo).heurFrom 4 "P") (.inn "D")) = 1 := by decide +kernel
    rw [h1]
    refine le_trans (HGraph.cut_bound (fun v => [HNode.super, .inn "P", .out "P", .inn "A", .out "A"].contains v)
      (by decide) (by decide) hg) ?_
    decide +kernel
  · refine ⟨isFlow_of (by decide +kernel) (by decide +kernel), fun g hg => ?_⟩
    have h1 : ((run {} redDemo).heurFrom 4 "Q").value
        (redDemoFlow ((run {} redDemo).heurFrom 4 "Q") (.inn "D")) = 1 := by decide +kernel
    rw [h1]
    refine le_trans (HGraph.cut_bound (fun v => [HNode.super, .inn "Q", .out "Q"].contains v)
      (by decide) (by decide) hg) ?_
    decide +kernel

/-- The hypotheses of C101 and C102 hold of the demo. -/
example :
    let t := run {} redDemo
    MaxFlowsFor t redDemoFlow [] 4 2 ∧
    (∀ G snk, ∀ e ∈ G.edges, redDemoFlow G snk e = 0 ∨ 1 ≤ redDemoFlow G snk e) ∧
    t.heurPool redDemoFlow [] 4 2 = .ok [("P", "D"), ("Q", "E"), ("E", "D")] ∧
    (∀ y ∈ t.sites.vals, y.siteType = .pop → y.status ≠ .candidate) ∧
    (Plan.mk t redDemoParams).setupErr = none ∧
    (∀ y ∈ t.sites.vals, y.siteType = .dn → (y.status = .proposed ∨ y.status = .existing) → y.id = "D") ∧
    Backed t "D" := by
  refine ⟨redDemoFlow_max, ?_, by decide +kernel, by decide +kernel, by decide +kernel, by decide +kernel, ?_⟩
  · intro G snk e _
    unfold redDemoFlow
    split <;> split <;> simp
  · have h : ∃ y ∈ (run {} redDemo).sites.get? "P", y.siteType = .pop ∧
        (y.status = .proposed ∨ y.status = .existing) := by decide +kernel
    obtain ⟨y, hy, h1, h2⟩ := h
    refine ⟨"P", y, hy, h1, h2, .single ?_⟩
    have : ∃ l ∈ (run {} redDemo).links.get? ⟨"P", "D"⟩, ∃ y ∈ (run {} redDemo).sites.get? "P",
        ∃ z ∈ (run {} redDemo).sites.get? "D", 0 < l.capacity ∧ y.siteType ≠ .cn ∧ z.siteType ≠ .cn ∧
        (∀ st ∈ [l.status, y.status, z.status], st ≠ .unavailable ∧ st ≠ .unreachable) := by decide +kernel
    obtain ⟨l, hl, y, hy, z, hz, h⟩ := this
    exact ⟨l, y, z, hl, hy, hz, h⟩

end Verif
