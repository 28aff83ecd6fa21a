import Verif.Spec.RedPool
import Verif.Props.Redundancy4

/-! # The link pool of the redundancy phase -/

namespace Verif
open Topology Spec

namespace HGraph
variable {G : HGraph}

theorem value_le_cap {snk : HNode} {f : HEdge → ℚ} (h : IsFlow G snk f) :
    G.value f ≤ ((G.edges.filter fun e => e.1 = .super).map G.cap).sum := by
  have h1 : 0 ≤ G.inflow f .super := by
    apply List.sum_nonneg
    intro y hy
    obtain ⟨e, he, rfl⟩ := List.mem_map.1 hy
    exact (h.bound e (List.mem_filter.1 he).1).1
  have h2 : G.outflow f .super ≤ ((G.edges.filter fun e => e.1 = .super).map G.cap).sum :=
    Plan.sum_map_mono _ _ _ fun e he => (h.bound e (List.mem_filter.1 he).1).2
  unfold value
  linarith

end HGraph

theorem heurRound_total {mf : HGraph → HNode → HEdge → ℚ} {bound : ℚ} (L : List (HGraph × SiteId))
    (h : ∀ q ∈ L, q.1.value (mf q.1 (.inn q.2)) ≤ bound) : ∃ M, heurRound mf bound L = .ok M := by
  induction L with
  | nil => exact ⟨_, rfl⟩
  | cons q L ih =>
    obtain ⟨M, hM⟩ := ih fun q hq => h q (List.mem_cons_of_mem _ hq)
    refine ⟨usedLinks q.1 (mf q.1 (.inn q.2)) ++ M, ?_⟩
    unfold heurRound
    rw [if_neg (not_lt.2 (h q List.mem_cons_self)), hM]

theorem heurRound_mem {mf : HGraph → HNode → HEdge → ℚ} {bound : ℚ} {L : List (HGraph × SiteId)}
    {M : List (SiteId × SiteId)} (h : heurRound mf bound L = .ok M) {G : HGraph} {d : SiteId}
    (hq : (G, d) ∈ L) : ∀ e ∈ usedLinks G (mf G (.inn d)), e ∈ M := by
  induction L generalizing M with
  | nil => cases hq
  | cons q L ih =>
    unfold heurRound at h
    split at h
    · cases h
    split at h
    · rename_i M' hM
      cases h
      intro e he
      rw [List.mem_append]
      rcases List.mem_cons.1 hq with rfl | hq
      · exact .inl he
      · exact .inr (ih hM hq e he)
    · cases h

theorem super_edges {t : Topology} {e : HEdge} (he : e ∈ t.heurBase) : e.1 ≠ .super := by
  unfold heurBase at he
  rw [List.mem_append, List.mem_map, List.mem_map] at he
  rcases he with ⟨x, _, rfl⟩ | ⟨x, _, rfl⟩ <;> simp

/-- Sum with at most one nonzero summand. -/
theorem sum_single_le {α : Type} [DecidableEq α] (L : List α) (hn : L.Nodup) (f : α → ℚ) (a : α) (c : ℚ)
    (hc : 0 ≤ c) (ha : f a ≤ c) (h0 : ∀ b ∈ L, b ≠ a → f b = 0) : (L.map f).sum ≤ c := by
  induction L with
  | nil => simpa using hc
  | cons b L ih =>
    rw [List.nodup_cons] at hn
    rw [List.map_cons, List.sum_cons]
    by_cases e : b = a
    · subst e
      have : (L.map f).sum = 0 := List.sum_eq_zero fun y hy => by
        obtain ⟨d, hd, rfl⟩ := List.mem_map.1 hy
        exact h0 d (List.mem_cons_of_mem _ hd) fun c => hn.1 (c ▸ hd)
      rw [this, add_zero]; exact ha
    · rw [h0 b List.mem_cons_self e, zero_add]
      exact ih hn.2 fun d hd => h0 d (List.mem_cons_of_mem _ hd)

theorem heurSites_nodup {t : Topology} (inv : t.Inv) : (t.heurSites.map (·.1)).Nodup :=
  inv.nd_sites.sublist (List.Sublist.map _ List.filter_sublist)

theorem mem_heurSites {t : Topology} (inv : t.Inv) {s : SiteId} {y : Site} :
    (s, y) ∈ t.heurSites ↔ t.sites.get? s = some y ∧ y.status.inactive = false ∧ y.siteType ≠ .cn := by
  unfold heurSites
  rw [List.mem_filter, Dict.mem_iff_get? inv.nd_sites, Bool.and_eq_true, Bool.not_eq_true']
  refine and_congr_right fun _ => and_congr_right fun _ => ?_
  cases y.siteType <;> simp [SiteType.isDist]

theorem mem_heurPops {t : Topology} (inv : t.Inv) {s : SiteId} :
    s ∈ t.heurPops ↔ ∃ y, t.sites.get? s = some y ∧ y.siteType = .pop ∧
      (y.status = .proposed ∨ y.status = .existing) := by
  unfold heurPops
  rw [List.mem_map]
  constructor
  · rintro ⟨⟨i, y⟩, hm, rfl⟩
    rw [List.mem_filter, Bool.and_eq_true, beq_iff_eq] at hm
    refine ⟨y, (Dict.mem_iff_get? inv.nd_sites _ _).1 hm.1, hm.2.1, ?_⟩
    have := hm.2.2
    revert this
    cases y.status <;> simp [StatusType.active]
  · rintro ⟨y, hy, h1, h2⟩
    refine ⟨(s, y), List.mem_filter.2 ⟨Dict.mem_of_get? _ hy, ?_⟩, rfl⟩
    rw [Bool.and_eq_true, beq_iff_eq]
    refine ⟨h1, ?_⟩
    rcases h2 with h2 | h2 <;> rw [h2] <;> rfl

theorem mem_heurDns {t : Topology} (inv : t.Inv) {s : SiteId} :
    s ∈ t.heurDns ↔ ∃ y, t.sites.get? s = some y ∧ y.siteType = .dn ∧
      (y.status = .proposed ∨ y.status = .existing) := by
  unfold heurDns
  rw [List.mem_map]
  constructor
  · rintro ⟨⟨i, y⟩, hm, rfl⟩
    rw [List.mem_filter, Bool.and_eq_true, beq_iff_eq] at hm
    refine ⟨y, (Dict.mem_iff_get? inv.nd_sites _ _).1 hm.1, hm.2.1, ?_⟩
    have := hm.2.2
    revert this
    cases y.status <;> simp [StatusType.active]
  · rintro ⟨y, hy, h1, h2⟩
    refine ⟨(s, y), List.mem_filter.2 ⟨Dict.mem_of_get? _ hy, ?_⟩, rfl⟩
    rw [Bool.and_eq_true, beq_iff_eq]
    refine ⟨h1, ?_⟩
    rcases h2 with h2 | h2 <;> rw [h2] <;> rfl

/-- The supersource edges of `G`. -/
def popEdges (t : Topology) : List HEdge :=
  (t.heurSites.filter fun e => e.2.siteType == .pop).map fun e => (.super, .inn e.1)

theorem popEdges_nodup {t : Topology} (inv : t.Inv) : (popEdges t).Nodup := by
  have h : ((t.heurSites.filter fun e => e.2.siteType == .pop).map (·.1)).Nodup :=
    (heurSites_nodup inv).sublist (List.Sublist.map _ List.filter_sublist)
  have e : popEdges t = ((t.heurSites.filter fun e => e.2.siteType == .pop).map (·.1)).map
      fun s => ((.super, .inn s) : HEdge) := by
    unfold popEdges; rw [List.map_map]; rfl
  rw [e]
  exact h.map fun a b hab => by simpa using hab

theorem filter_super {t : Topology} (L : List HEdge) (hL : ∀ e ∈ L, e.1 = .super) :
    ((t.heurBase ++ L).filter fun e => e.1 = .super) = L := by
  rw [List.filter_append, List.filter_eq_nil_iff.2 (fun e he => by simpa using super_edges he),
    List.filter_eq_self.2 (fun e he => by simpa using hL e he), List.nil_append]

theorem from_value {t : Topology} (inv : t.Inv) {c : ℚ} (hc : 0 ≤ c) {p : SiteId}
    (hpop : ∀ s y, t.sites.get? s = some y → y.siteType = .pop → y.status.inactive = false →
      y.status = .proposed ∨ y.status = .existing)
    {snk : HNode} {f : HEdge → ℚ} (h : IsFlow (t.heurFrom c p) snk f) :
    (t.heurFrom c p).value f ≤ c := by
  refine le_trans (HGraph.value_le_cap h) ?_
  have e : (t.heurFrom c p).edges.filter (fun e => e.1 = .super) = popEdges t :=
    filter_super (t := t) (popEdges t) fun e he => by
      unfold popEdges at he
      obtain ⟨_, _, rfl⟩ := List.mem_map.1 he; rfl
  rw [e]
  refine sum_single_le _ (popEdges_nodup inv) _ (.super, .inn p) c hc ?_ ?_
  · dsimp only [heurFrom]
    split
    · rw [if_pos rfl]
    · exact le_refl _
  · intro b hb hne
    unfold popEdges at hb
    obtain ⟨⟨s, y⟩, hm, rfl⟩ := List.mem_map.1 hb
    obtain ⟨h1, h2⟩ := List.mem_filter.1 hm
    obtain ⟨g1, g2, g3⟩ := (mem_heurSites inv).1 h1
    have hty : y.siteType = .pop := by simpa using h2
    have hs : s ∈ t.heurPops := (mem_heurPops inv).2 ⟨y, g1, hty, hpop s y g1 hty g2⟩
    dsimp only [heurFrom]
    rw [if_pos (by simpa using hs), if_neg]
    rintro rfl
    exact hne rfl

theorem between_value {t : Topology} {c d : ℚ} {p : SiteId}
    {snk : HNode} {f : HEdge → ℚ} (h : IsFlow (t.heurBetween c d p) snk f) :
    (t.heurBetween c d p).value f ≤ d := by
  refine le_trans (HGraph.value_le_cap h) ?_
  have e : (t.heurBetween c d p).edges.filter (fun e => e.1 = .super) = [(.super, .inn p)] :=
    filter_super (t := t) _ fun e he => by
      rw [List.mem_singleton] at he; rw [he]
  rw [e]
  simp [heurBetween]

namespace Spec

/-- `mf` returns maximum flows in the calls made by the pool computation. -/
def MaxFlowsFor (t : Topology) (mf : HGraph → HNode → HEdge → ℚ) (pairs : List (SiteId × SiteId))
    (popCap dnCap : ℚ) : Prop :=
  (∀ d ∈ t.heurDns, ∀ p ∈ t.heurPops, IsMaxFlow (t.heurFrom popCap p) (.inn d) (mf (t.heurFrom popCap p) (.inn d))) ∧
  ∀ q ∈ pairs, IsMaxFlow (t.heurBetween popCap dnCap q.1) (.inn q.2)
    (mf (t.heurBetween popCap dnCap q.1) (.inn q.2))

end Spec

/-- **C101, `_partial`.** Full statement (false of the code): computing the link pool of the
redundancy phase does not raise. Proved when every POP is in use or ruled out; missing: CANDIDATE POPs,
which stay joined to the supersource, see `C101_candidate_pop_violation`. -/
theorem C101_pool_never_raises_partial (ops : List Op) (mf : HGraph → HNode → HEdge → ℚ)
    (pairs : List (SiteId × SiteId)) (popCap dnCap : ℚ) (hc : 0 ≤ popCap)
    (hmf : MaxFlowsFor (run {} ops) mf pairs popCap dnCap)
    (hpop : ∀ s y, (run {} ops).sites.get? s = some y → y.siteType = .pop → y.status ≠ .candidate)
    (hone : ∃ s y, (run {} ops).sites.get? s = some y ∧ y.siteType = .pop ∧
      (y.status = .proposed ∨ y.status = .existing)) :
    ∃ L, (run {} ops).heurPool mf pairs popCap dnCap = .ok L := by
  have inv : Topology.Inv (run {} ops) := Inv.empty.run ops
  have hpop' : ∀ s y, (run {} ops).sites.get? s = some y → y.siteType = .pop → y.status.inactive = false →
      y.status = .proposed ∨ y.status = .existing := by
    intro s y hy ht hi
    have := hpop s y hy ht
    revert hi this
    cases y.status <;> simp [StatusType.inactive]
  obtain ⟨L, hL⟩ := heurRound_total (mf := mf) (bound := popCap)
    ((run {} ops).heurDns.flatMap fun d => (run {} ops).heurPops.map fun p => ((run {} ops).heurFrom popCap p, d)) (by
      rintro ⟨G, d⟩ hq
      obtain ⟨d', hd, hq⟩ := List.mem_flatMap.1 hq
      obtain ⟨p, hp, hq⟩ := List.mem_map.1 hq
      cases hq
      exact from_value inv hc hpop' (hmf.1 d hd p hp).1)
  obtain ⟨M, hM⟩ := heurRound_total (mf := mf) (bound := dnCap)
    (pairs.map fun q => ((run {} ops).heurBetween popCap dnCap q.1, q.2)) (by
      rintro ⟨G, d⟩ hq
      obtain ⟨q, hq', hq⟩ := List.mem_map.1 hq
      cases hq
      exact between_value (hmf.2 q hq').1)
  obtain ⟨s, y, hy, ht, hst⟩ := hone
  have hany : ((run {} ops).heurSites.any fun e => e.2.siteType == .pop) = true := by
    rw [List.any_eq_true]
    refine ⟨(s, y), (mem_heurSites inv).2 ⟨hy, ?_, by rw [ht]; simp⟩, by rw [ht]; rfl⟩
    rcases hst with h | h <;> rw [h] <;> rfl
  refine ⟨L ++ M ++ if (run {} ops).heurSymmetric then M.map (fun e => (e.2, e.1)) else [], ?_⟩
  unfold heurPool
  rw [hL]
  dsimp only
  rw [hany, hM]
  rfl

/-- One POP in use and four CANDIDATE ones, all linked to the planned DN `D`. -/
def manyPopDemo : List Op :=
  let pop (i : String) (k : ℚ) (st : StatusType) : List Op :=
    let s : Site := { id := i, siteType := .pop, status := st, lat := k }
    let d : Sector := { site := i, node := 0, pos := 0, status := st }
    let l : Link := { tx := i, rx := "D", capacity := 4, status := st,
                      sectors := some (⟨i, 0, 0, .dn⟩, ⟨"D", 0, 0, .dn⟩) }
    let r : Link := { tx := "D", rx := i, capacity := 4, status := st,
                      sectors := some (⟨"D", 0, 0, .dn⟩, ⟨i, 0, 0, .dn⟩) }
    [.addSite s false, .addSector d, .addLink l, .addLink r]
  let d : Site := { id := "D", siteType := .dn, status := .proposed, lat := 9 }
  let e : Sector := { site := "D", node := 0, pos := 0, status := .proposed }
  let q : DemandSite := { id := "q", connected := ["D"], demand := some 1 }
  [Op.addSite d false, Op.addSector e, Op.addDemandSite q] ++ pop "P" 0 .proposed ++ pop "Q" 1 .candidate ++
    pop "R" 2 .candidate ++ pop "S" 3 .candidate ++ pop "T" 4 .candidate

/-- One unit from every POP to `D`. -/
def manyPopFlow (e : HEdge) : ℚ :=
  match e with
  | (.super, _) => 1
  | (.inn a, .out _) => if a = "D" then 0 else 1
  | (.out _, .inn b) => if b = "D" then 1 else 0
  | _ => 0

def hNodes (G : HGraph) : List HNode := G.edges.flatMap fun e => [e.1, e.2]

theorem isFlow_of {G : HGraph} {snk : HNode} {f : HEdge → ℚ}
    (h1 : ∀ e ∈ G.edges, 0 ≤ f e ∧ f e ≤ G.cap e)
    (h2 : ∀ v ∈ hNodes G, v ≠ .super → v ≠ snk → G.inflow f v = G.outflow f v) : IsFlow G snk f := by
  refine ⟨h1, fun v hv hs => ?_⟩
  by_cases hm : v ∈ hNodes G
  · exact h2 v hm hv hs
  · have k1 : ∀ e ∈ G.edges, e.1 ≠ v ∧ e.2 ≠ v := fun e he =>
      ⟨fun c => hm (List.mem_flatMap.2 ⟨e, he, by simp [c]⟩), fun c => hm (List.mem_flatMap.2 ⟨e, he, by simp [c]⟩)⟩
    unfold HGraph.inflow HGraph.outflow
    rw [List.filter_eq_nil_iff.2 (fun e he => by simpa using (k1 e he).2),
      List.filter_eq_nil_iff.2 (fun e he => by simpa using (k1 e he).1)]

/-- With CANDIDATE POPs the redundancy phase raises on well-connected networks: their supersource edges keep
their capacity, the flow exceeds that of one POP and the assertion on its value fails, whatever maximum
flow is found. 4 and 2 are the values used by `_run_redundancy_step`. -/
theorem C101_candidate_pop_violation :
    ∃ ops : List Op, (run {} ops).validateStatus = none ∧
      (∃ s y, (run {} ops).sites.get? s = some y ∧ y.siteType = .pop ∧ y.status = .proposed) ∧
      ∀ mf pairs, MaxFlowsFor (run {} ops) mf pairs 4 2 →
        (run {} ops).heurPool mf pairs 4 2 = .error .optimizer := by
  refine ⟨manyPopDemo, by decide +kernel, by
    have h : ∃ y ∈ (run {} manyPopDemo).sites.get? "P", y.siteType = .pop ∧ y.status = .proposed := by
      decide +kernel
    obtain ⟨y, hy, h⟩ := h
    exact ⟨"P", y, hy, h⟩, ?_⟩
  intro mf pairs hmf
  have hd : (run {} manyPopDemo).heurDns = ["D"] := by decide +kernel
  have hp : (run {} manyPopDemo).heurPops = ["P"] := by decide +kernel
  obtain ⟨-, hmax⟩ := hmf.1 "D" (by rw [hd]; simp) "P" (by rw [hp]; simp)
  have h5 := hmax manyPopFlow (isFlow_of (by decide +kernel) (by decide +kernel))
  have hv : ((run {} manyPopDemo).heurFrom 4 "P").value manyPopFlow = 5 := by decide +kernel
  rw [hv] at h5
  unfold heurPool
  rw [hd, hp]
  simp only [List.flatMap_cons, List.flatMap_nil, List.map_cons, List.map_nil, List.append_nil]
  unfold heurRound
  rw [if_pos (by linarith)]

end Verif
