import Verif.Lemmas.Adversarial
import Verif.Spec.Adversarial
import Verif.Props.Connected
import Verif.Props.Availability
import Verif.Props.NxReport2

/-! # C38: adversarial links -/

namespace Verif
open Spec Topology Relation

namespace Graph

/-- Exactly `n` demand nodes lose their connection to the supersource with edge `e`. -/
def Cuts (P : Graph) (e : GEdge) (n : Nat) : Prop :=
  ∃ S : List GNode, S.Nodup ∧ S.length = n ∧
    ∀ d, d ∈ S ↔ P.Fed P.edge d ∧ ¬ Joined (P.without e.1 e.2) .super d

theorem Cuts.unique {P : Graph} {e : GEdge} {n m : Nat} (h : P.Cuts e n) (h' : P.Cuts e m) : n = m := by
  obtain ⟨S, h1, h2, h3⟩ := h
  obtain ⟨T, g1, g2, g3⟩ := h'
  rw [← h2, ← g2]
  exact ((List.perm_ext_iff_of_nodup h1 g1).2 fun d => by rw [h3, g3]).length_eq

theorem Cuts.same {P : Graph} {e f : GEdge} {n : Nat}
    (h : sortedEdge e.1 e.2 = sortedEdge f.1 f.2) : P.Cuts e n ↔ P.Cuts f n := by
  unfold Cuts
  simp only [Joined.congr (sortedEdge_same h P)]

/-- C38 for any two graphs of which the second contains the backhaul edges of the first: the edges
returned are the directions in the candidate graph of at most `count` links; without all of them every
demand connected in the candidate graph still is; each of the links cuts off some demand in the proposed
graph; any other such link would cut off a demand of the candidate graph, or the search was complete and
none of the links found cuts off fewer. -/
theorem C38_disruptive_links (P C : Graph) (count : Int) (hP : P.nodes.has .super = true)
    (hC : C.nodes.has .super = true) (nd : P.nodes.NodupKeys)
    (hself : ∀ e ∈ P.edges.keys, e.1 ≠ e.2)
    (hback : ∀ x ∈ P.edges, skipped x.2 = false → ∃ a k,
      P.edges.get? (sortedEdge x.1.1 x.1.2) = some a ∧ a.kind = some k ∧ k ≠ .link .wirelessAccess ∧
      sortedEdge x.1.1 x.1.2 ∈ C.edges.keys) :
    ∃ R K : List GEdge, mostDisruptive P C count = .ok R ∧ R.Nodup ∧ (K.length : Int) ≤ max count 0 ∧
      (R.length : Int) ≤ max count 0 + 1 ∧
      (∀ e, e ∈ R ↔ e ∈ C.edges.keys ∧ (e ∈ K ∨ e.swap ∈ K)) ∧
      (∀ d, C.Fed C.edge d → Joined (fun e => C.edge e ∧ e ∉ R) .super d) ∧
      (∀ k ∈ K, k ∈ R ∧ (∃ n, P.Cuts k n ∧ 0 < n) ∧
        ∃ x ∈ P.edges, skipped x.2 = false ∧ k = sortedEdge x.1.1 x.1.2) ∧
      ∀ x ∈ P.edges, skipped x.2 = false → ∀ n, P.Cuts x.1 n → 0 < n →
        sortedEdge x.1.1 x.1.2 ∈ R ∨
        (count ≤ R.length ∧ ∀ k ∈ K, ∀ m, P.Cuts k m → n ≤ m) ∨
        ∃ d, C.Fed C.edge d ∧
          ¬ Joined (fun e => C.edge e ∧ e ∉ R ∧ e ≠ x.1 ∧ e ≠ x.1.swap) .super d := by
  unfold mostDisruptive
  by_cases c0 : count ≤ 0
  · rw [if_pos c0]
    refine ⟨[], [], rfl, List.nodup_nil, ?_, ?_, by simp, ?_, by simp, ?_⟩
    · simp
    · simp only [List.length_nil, Nat.cast_zero]; omega
    · intro d hd
      have : (fun e => C.edge e ∧ e ∉ ([] : List GEdge)) = C.edge := by funext e; simp
      rw [this]; exact hd.2.2
    · intro x hx hs n hn hn0
      exact Or.inr (Or.inl ⟨by simpa using c0, by simp⟩)
  rw [if_neg c0]
  obtain ⟨D, hD, hD1, hD2⟩ := edgeFailures_spec hself hP
  obtain ⟨conn, hconn, hconnd⟩ := connected_ok hC
  rw [hD, hconn]
  dsimp only
  have hSnd : ∀ k S, D.get? k = some S → S.Nodup := by
    intro k S hS
    have hE := hD
    unfold edgeFailures at hE
    obtain ⟨C', hC', _⟩ := connected_ok hP
    rw [hC'] at hE
    exact (connected_nodup nd hC').sublist (edgeLoop_sub _ _ _ _ hE (by simp) _ _ hS)
  have keyOf : ∀ k ∈ D.keys, ∃ x ∈ P.edges, skipped x.2 = false ∧ k = sortedEdge x.1.1 x.1.2 := by
    intro k hk
    exact hD2 k ((Dict.has_iff _ _).2 ((Dict.mem_keys_iff _ _).1 hk))
  have same : ∀ u v : GNode, ∀ e, P.without (sortedEdge u v).1 (sortedEdge u v).2 e ↔ P.without u v e := by
    intro u v e
    rcases sortedEdge_cases u v with h | h <;> rw [h]
    exact without_comm _ _ _ _
  have cutsOf : ∀ x ∈ P.edges, skipped x.2 = false →
      P.Cuts x.1 (weight D (sortedEdge x.1.1 x.1.2)) ∧
      P.Cuts (sortedEdge x.1.1 x.1.2) (weight D (sortedEdge x.1.1 x.1.2)) ∧
      sortedEdge x.1.1 x.1.2 ∈ D.keys := by
    intro x hx hs
    obtain ⟨S, hS, hSd⟩ := hD1 x hx hs
    have hw : weight D (sortedEdge x.1.1 x.1.2) = S.length := by unfold weight; rw [hS]; rfl
    have hc : P.Cuts x.1 (weight D (sortedEdge x.1.1 x.1.2)) := ⟨S, hSnd _ _ hS, hw.symm, hSd⟩
    refine ⟨hc, ?_, (Dict.mem_keys_iff _ _).2 ⟨S, hS⟩⟩
    refine ⟨S, hSnd _ _ hS, hw.symm, fun d => ?_⟩
    rw [hSd, Joined.congr (same _ _)]
  have hready : ∀ k ∈ D.keys, k.1 ≠ k.2 ∧ C.edge k ∧
      ∃ kd, (P.edges.get? k).bind (·.kind) = some kd ∧ kd ≠ .link .wirelessAccess := by
    intro k hk
    obtain ⟨x, hx, hs, rfl⟩ := keyOf k hk
    obtain ⟨a, kd, h1, h2, h3, h4⟩ := hback x hx hs
    refine ⟨?_, h4, kd, by rw [h1]; exact h2, h3⟩
    have := hself x.1 (List.mem_map.2 ⟨x, hx, rfl⟩)
    rcases sortedEdge_cases x.1.1 x.1.2 with h | h <;> rw [h]
    · exact this
    · exact this.symm
  have hperm := List.perm_insertionSort
    (fun a b => ((D.get? b).getD []).length ≤ ((D.get? a).getD []).length) D.keys
  have hmemL : ∀ k, k ∈ byDisruption D ↔ k ∈ D.keys := fun k => hperm.mem_iff
  have hsort : (byDisruption D).Pairwise fun a b => weight D b ≤ weight D a := by
    unfold byDisruption
    have : IsTotal GEdge (fun a b => ((D.get? b).getD []).length ≤ ((D.get? a).getD []).length) :=
      ⟨fun a b => Nat.le_total _ _⟩
    have : IsTrans GEdge (fun a b => ((D.get? b).getD []).length ≤ ((D.get? a).getD []).length) :=
      ⟨fun a b c h1 h2 => Nat.le_trans h2 h1⟩
    exact List.pairwise_insertionSort _ _
  have hcd : ∀ d ∈ conn, d ≠ .super := fun d hd => ((hconnd d).1 hd).2.1
  obtain ⟨R, K, h1, h2, _, h4⟩ := disruptLoop_spec (P := P) (count := count) hcd hready (byDisruption D)
    (fun k hk => (hmemL k).1 hk) hsort C [] [] hC (by simp)
    ⟨List.nodup_nil, by simp, by simp; omega, by simp; omega, fun d hd => by
      have : (fun e => C.edge e ∧ e ∉ ([] : List GEdge)) = C.edge := by funext e; simp
      rw [this]; exact ((hconnd d).1 hd).2.2, by simp, by simp, by simp⟩ (by simp)
  refine ⟨R, K, h1, h2.nodup, by have := h2.lenK; omega, by have := h2.lenR; omega, h2.iff,
    fun d hd => h2.served d ((hconnd d).2 hd), ?_, ?_⟩
  · intro k hk
    obtain ⟨h5, h6⟩ := h2.keys k hk
    obtain ⟨x, hx, hs, rfl⟩ := keyOf k h5
    refine ⟨h2.sub _ hk, ⟨_, (cutsOf x hx hs).2.1, ?_⟩, x, hx, hs, rfl⟩
    exact List.length_pos_iff.2 h6
  · intro x hx hs n hn hn0
    obtain ⟨g1, g2, g3⟩ := cutsOf x hx hs
    have e := hn.unique g1
    rcases h4 _ ((hmemL _).2 g3) with h | h | ⟨h5, h6⟩ | ⟨d, hd, hd2⟩
    · exact Or.inl h
    · rw [e] at hn0; unfold weight at hn0; rw [h] at hn0; simp at hn0
    · refine Or.inr (Or.inl ⟨h5, fun k hk m hm => ?_⟩)
      obtain ⟨h7, h8⟩ := h2.keys k hk
      obtain ⟨y, hy, hys, rfl⟩ := keyOf k h7
      rw [e, hm.unique (cutsOf y hy hys).2.1]
      exact h6 _ hk
    · refine Or.inr (Or.inr ⟨d, (hconnd d).1 hd, fun c => hd2 ?_⟩)
      refine ReflTransGen.mono ?_ _ _ c
      rintro a b ⟨i1, i2, i3, i4⟩
      refine ⟨i1, i2, ?_⟩
      rcases sortedEdge_cases x.1.1 x.1.2 with h | h <;> rw [h]
      · exact ⟨i3, i4⟩
      · exact ⟨i4, i3⟩

end Graph

/-! ## The candidate graph -/

variable {t : Topology} {cost : Link → Option Nat}

theorem reachable_iff (s : StatusType) : s.reachable = true ↔ Plannable s := by
  cases s <;> simp [StatusType.reachable, Plannable]

theorem plannable_of (s : StatusType) (h : InNetwork s) : Plannable s := by
  rcases h with h | h
  · exact Or.inl h
  · exact Or.inr (Or.inl h)

/-- The sites removed are those taken. -/
theorem colocatedToRemove_iff (nd : t.sites.NodupKeys) (s : SiteId) : s ∈ t.colocatedToRemove ↔ Taken t s := by
  let P : Plan := ⟨t, { popCapacity := 0, costs := ⟨0, 0, 0⟩ }⟩
  have e : t.colocatedToRemove = P.ignoreSites := by
    have ha : t.admits StatusType.active = P.isActive := by
      funext s
      rw [Bool.eq_iff_iff, admits_iff', Plan.isActive_iff]
    unfold colocatedToRemove Plan.ignoreSites
    rw [ha]
    dsimp only
    simp only [List.length_eq_zero_iff]
    rfl
  rw [e, Plan.ignoreSites_iff nd]
  have hp : ∀ a x, t.sites.get? s = some x → (SamePlace P s a ↔ ∃ y, t.sites.get? a = some y ∧ Beside x y) := by
    intro a x hx
    constructor
    · rintro ⟨x', y, h1, h2, h3⟩
      have h1' : t.sites.get? s = some x' := h1
      rw [hx] at h1'
      injection h1' with h1'
      subst h1'
      exact ⟨y, h2, h3⟩
    · rintro ⟨y, h2, h3⟩
      exact ⟨x, y, hx, h2, h3⟩
  have hr : ∀ ty, Spec.rank ty = grade ty := by intro ty; cases ty <;> rfl
  constructor
  · rintro ⟨a, x, y, h1, h2, h3, h4, h5, h6, h7⟩
    have h2' : t.sites.get? s = some x := h2
    have h3' : t.sites.get? a = some y := h3
    obtain ⟨y', hy', hb⟩ := (hp a x h2').1 h1
    rw [h3'] at hy'
    injection hy' with hy'
    subst hy'
    refine ⟨x, a, y, h2', h3', hb, (active_iff _).1 h4, fun b z hz hbz hzs => ?_, ?_, h7⟩
    · rw [← hr, ← hr]
      exact h5 b z ((hp b x h2').2 ⟨z, hz, hbz⟩) hz ((active_iff _).2 hzs)
    · rw [← active_iff]; exact h6
  · rintro ⟨x, a, y, h2, h3, hb, h4, h5, h6, h7⟩
    refine ⟨a, x, y, (hp a x h2).2 ⟨y, h3, hb⟩, h2, h3, (active_iff _).2 h4, fun b z h8 h9 h10 => ?_, ?_, h7⟩
    · have h9' : t.sites.get? b = some z := h9
      obtain ⟨z', hz', hbz⟩ := (hp b x h2).1 h8
      rw [h9'] at hz'
      injection hz' with hz'
      subst hz'
      rw [hr, hr]
      exact h5 b z h9' hbz ((active_iff _).1 h10)
    · rw [active_iff]; exact h6

theorem dropEdge_edge (G : Graph) (u v : GNode) (e : GEdge) :
    (G.dropEdge u v).edge e ↔ G.edge e ∧ e ≠ (u, v) := by
  unfold Graph.dropEdge Graph.edge
  dsimp only
  rw [Dict.mem_keys_iff, Dict.mem_keys_iff]
  simp only [Dict.get?_del]
  constructor
  · rintro ⟨x, hx⟩
    split at hx
    · simp at hx
    · rename_i hne; exact ⟨⟨x, hx⟩, fun h => hne h.symm⟩
  · rintro ⟨⟨x, hx⟩, hne⟩
    exact ⟨x, by rw [if_neg (fun h => hne h.symm)]; exact hx⟩

theorem dropNode_edge (G : Graph) (v : GNode) (e : GEdge) :
    (G.dropNode v).edge e ↔ G.edge e ∧ e.1 ≠ v ∧ e.2 ≠ v := by
  unfold Graph.dropNode Graph.edge Dict.keys
  simp only [List.mem_map, List.mem_filter]
  constructor
  · rintro ⟨x, ⟨h1, h2⟩, rfl⟩
    simp only [ne_eq, decide_not, Bool.and_eq_true, Bool.not_eq_true', decide_eq_false_iff_not] at h2
    exact ⟨⟨x, h1, rfl⟩, h2⟩
  · rintro ⟨⟨x, h1, rfl⟩, h2⟩
    exact ⟨x, ⟨h1, by simpa using h2⟩, rfl⟩

theorem dropEdges_edge (L : List Link) (G : Graph) (e : GEdge) :
    (L.foldl (fun (G : Graph) l => G.dropEdge (.site l.tx) (.site l.rx)) G).edge e ↔
      G.edge e ∧ ∀ l ∈ L, e ≠ (.site l.tx, .site l.rx) := by
  induction L generalizing G with
  | nil => simp
  | cons l L ih =>
    rw [List.foldl_cons, ih, dropEdge_edge, and_assoc]
    simp

theorem dropEdges_nodes (L : List Link) (G : Graph) :
    (L.foldl (fun (G : Graph) l => G.dropEdge (.site l.tx) (.site l.rx)) G).nodes = G.nodes := by
  induction L generalizing G with
  | nil => rfl
  | cons l L ih => rw [List.foldl_cons, ih]; rfl

theorem dropNodes_edge (L : List SiteId) (G : Graph) (e : GEdge) :
    (L.foldl (fun (G : Graph) s => G.dropNode (.site s)) G).edge e ↔
      G.edge e ∧ ∀ s ∈ L, e.1 ≠ .site s ∧ e.2 ≠ .site s := by
  induction L generalizing G with
  | nil => simp
  | cons l L ih =>
    rw [List.foldl_cons, ih, dropNode_edge, and_assoc]
    simp

theorem dropNodes_get? (L : List SiteId) (G : Graph) (v : GNode) (h : ∀ s, v ≠ .site s) :
    (L.foldl (fun (G : Graph) s => G.dropNode (.site s)) G).nodes.get? v = G.nodes.get? v := by
  induction L generalizing G with
  | nil => rfl
  | cons l L ih =>
    rw [List.foldl_cons, ih]
    unfold Graph.dropNode
    dsimp only
    rw [Dict.get?_del, if_neg (fun c => h l c.symm)]

theorem dropNodes_nodup (L : List SiteId) (G : Graph) (h : G.nodes.NodupKeys) :
    (L.foldl (fun (G : Graph) s => G.dropNode (.site s)) G).nodes.NodupKeys := by
  induction L generalizing G with
  | nil => exact h
  | cons l L ih =>
    rw [List.foldl_cons]
    exact ih _ (Dict.NodupKeys.del h _)

theorem candidate_edge (e : GEdge) : (t.candidateGraph cost).edge e ↔
    (t.buildDigraph StatusType.reachable cost).edge e ∧
    (∀ l ∈ t.links.vals, l.capacity ≤ 0 → e ≠ (.site l.tx, .site l.rx)) ∧
    ∀ s ∈ t.colocatedToRemove, e.1 ≠ .site s ∧ e.2 ≠ .site s := by
  unfold candidateGraph
  dsimp only
  rw [dropNodes_edge, dropEdges_edge, and_assoc]
  simp only [List.mem_filter, decide_eq_true_eq, and_imp]

theorem candidate_node {v : GNode} (h : ∀ s, v ≠ .site s) :
    (t.candidateGraph cost).nodes.get? v = (t.buildDigraph StatusType.reachable cost).nodes.get? v := by
  unfold candidateGraph
  dsimp only
  rw [dropNodes_get? _ _ _ h, dropEdges_nodes]

theorem candidate_nodup : (t.candidateGraph cost).nodes.NodupKeys := by
  unfold candidateGraph
  dsimp only
  apply dropNodes_nodup
  rw [dropEdges_nodes]
  exact build_nodup.1

theorem dropNodes_sub (L : List SiteId) (G : Graph) :
    (L.foldl (fun (G : Graph) s => G.dropNode (.site s)) G).nodes.Sublist G.nodes := by
  induction L generalizing G with
  | nil => exact List.Sublist.refl _
  | cons l L ih =>
    rw [List.foldl_cons]
    exact (ih _).trans List.filter_sublist

theorem candidate_sub : (t.candidateGraph cost).nodes.Sublist (t.buildDigraph StatusType.reachable cost).nodes := by
  unfold candidateGraph
  dsimp only
  refine (dropNodes_sub _ _).trans ?_
  rw [dropEdges_nodes]

theorem cand_super (inv : t.Inv) {v : GNode} : (t.candidateGraph cost).edge (.super, v) ↔
    ∃ s y, v = .site s ∧ t.sites.get? s = some y ∧ y.siteType = .pop ∧ Plannable y.status ∧ ¬ Taken t s := by
  rw [candidate_edge, build_edge_super inv]
  constructor
  · rintro ⟨⟨s, y, rfl, h1, h2, h3⟩, _, h4⟩
    exact ⟨s, y, rfl, h1, h2, (reachable_iff _).1 h3, fun c =>
      (h4 s ((colocatedToRemove_iff inv.nd_sites s).2 c)).2 rfl⟩
  · rintro ⟨s, y, rfl, h1, h2, h3, h4⟩
    refine ⟨⟨s, y, rfl, h1, h2, (reachable_iff _).2 h3⟩, by simp, fun s' hs' => ⟨by simp, fun c => ?_⟩⟩
    simp only [GNode.site.injEq] at c
    subst c
    exact h4 ((colocatedToRemove_iff inv.nd_sites s).1 hs')

theorem cand_site (inv : t.Inv) {a b : SiteId} : (t.candidateGraph cost).edge (.site a, .site b) ↔
    ∃ l x y, t.links.get? ⟨a, b⟩ = some l ∧ Plannable l.status ∧ 0 < l.capacity ∧
      t.sites.get? a = some x ∧ Plannable x.status ∧ ¬ Taken t a ∧
      t.sites.get? b = some y ∧ Plannable y.status ∧ ¬ Taken t b := by
  rw [candidate_edge, build_edge_site inv]
  constructor
  · rintro ⟨⟨l, h1, h2, h3, h4⟩, h5, h6⟩
    obtain ⟨x, hx, hx2⟩ := admits_iff'.1 h3
    obtain ⟨y, hy, hy2⟩ := admits_iff'.1 h4
    refine ⟨l, x, y, h1, (reachable_iff _).1 h2, ?_, hx, (reachable_iff _).1 hx2, fun c =>
      (h6 a ((colocatedToRemove_iff inv.nd_sites a).2 c)).1 rfl, hy, (reachable_iff _).1 hy2, fun c =>
      (h6 b ((colocatedToRemove_iff inv.nd_sites b).2 c)).2 rfl⟩
    by_contra c
    have hid := inv.link_id _ _ h1
    refine h5 l (List.mem_map.2 ⟨(⟨a, b⟩, l), Dict.mem_of_get? _ h1, rfl⟩) (le_of_not_gt c) ?_
    injection hid with i1 i2
    rw [i1, i2]
  · rintro ⟨l, x, y, h1, h2, h3, hx, hx2, hx3, hy, hy2, hy3⟩
    refine ⟨⟨l, h1, (reachable_iff _).2 h2, admits_iff'.2 ⟨x, hx, (reachable_iff _).2 hx2⟩,
      admits_iff'.2 ⟨y, hy, (reachable_iff _).2 hy2⟩⟩, ?_, ?_⟩
    · intro l' hl' hc he
      simp only [Prod.mk.injEq, GNode.site.injEq] at he
      obtain ⟨⟨k, l''⟩, hk, rfl⟩ := List.mem_map.1 hl'
      have hk' := (Dict.mem_iff_get? inv.nd_links _ _).1 hk
      have hid := inv.link_id _ _ hk'
      dsimp only at he hc
      rw [hid, ← he.1, ← he.2, h1] at hk'
      injection hk' with hk'
      subst hk'
      exact absurd h3 (not_lt.2 hc)
    · intro s hs
      have hs' := (colocatedToRemove_iff inv.nd_sites s).1 hs
      refine ⟨fun c => ?_, fun c => ?_⟩ <;> simp only [GNode.site.injEq] at c <;> subst c
      · exact hx3 hs'
      · exact hy3 hs'

theorem cand_demand (inv : t.Inv) {a : SiteId} {d : DemandId} :
    (t.candidateGraph cost).edge (.site a, .demand d) ↔
    ∃ dm x, t.demandSites.get? d = some dm ∧ a ∈ dm.connected ∧ t.sites.get? a = some x ∧
      Plannable x.status ∧ ¬ Taken t a := by
  rw [candidate_edge, build_edge_demand inv]
  constructor
  · rintro ⟨⟨dm, h1, h2, h3⟩, _, h6⟩
    obtain ⟨x, hx, hx2⟩ := admits_iff'.1 h3
    exact ⟨dm, x, h1, h2, hx, (reachable_iff _).1 hx2, fun c =>
      (h6 a ((colocatedToRemove_iff inv.nd_sites a).2 c)).1 rfl⟩
  · rintro ⟨dm, x, h1, h2, hx, hx2, hx3⟩
    refine ⟨⟨dm, h1, h2, admits_iff'.2 ⟨x, hx, (reachable_iff _).2 hx2⟩⟩, by simp, fun s hs => ⟨fun c => ?_, by simp⟩⟩
    simp only [GNode.site.injEq] at c
    subst c
    exact hx3 ((colocatedToRemove_iff inv.nd_sites a).1 hs)

theorem joinable_site {G : List (SiteId × SiteId)} {s : SiteId} (h : Joinable t G s) :
    ∃ x, t.sites.get? s = some x ∧ Plannable x.status ∧ ¬ Taken t s := by
  cases h with
  | pop h1 _ h3 h4 => exact ⟨_, h1, h3, h4⟩
  | hop _ _ _ _ _ _ h5 h6 h7 => exact ⟨_, h5, h6, h7⟩

/-- Edges that are not directions of links in `G`. -/
def Off (G : List (SiteId × SiteId)) (e : GEdge) : Prop :=
  ∀ a b, e = (.site a, .site b) → (a, b) ∉ G ∧ (b, a) ∉ G

/-- Walks in the candidate graph without some links. -/
theorem servable_iff (inv : t.Inv) {G : List (SiteId × SiteId)} {d : DemandId} :
    Joined (fun e => (t.candidateGraph cost).edge e ∧ Off G e) .super (.demand d) ↔ Servable t G d := by
  constructor
  · intro h
    have key : ∀ v, Joined (fun e => (t.candidateGraph cost).edge e ∧ Off G e) .super v →
        (∀ s, v = .site s → Joinable t G s) ∧ (∀ d, v = .demand d → Servable t G d) := by
      intro v h
      induction h with
      | refl => exact ⟨fun s h => by simp at h, fun d h => by simp at h⟩
      | @tail u w _ he ih =>
        obtain ⟨he, hoff⟩ := he
        cases u with
        | super =>
          obtain ⟨s, y, rfl, h1, h2, h3, h4⟩ := (cand_super inv).1 he
          refine ⟨fun s' hs => ?_, fun d h => by simp at h⟩
          simp only [GNode.site.injEq] at hs
          subst hs
          exact Joinable.pop h1 h2 h3 h4
        | demand d => exact absurd ((candidate_edge _).1 he).1 build_no_out
        | site u =>
          cases w with
          | super => exact absurd ((candidate_edge _).1 he).1 build_no_in
          | site y =>
            refine ⟨fun s' hs => ?_, fun d h => by simp at h⟩
            simp only [GNode.site.injEq] at hs
            subst hs
            obtain ⟨l, x, z, h1, h2, h3, _, _, _, h4, h5, h6⟩ := (cand_site inv).1 he
            obtain ⟨o1, o2⟩ := hoff u y rfl
            exact Joinable.hop (ih.1 u rfl) h1 h2 h3 o1 o2 h4 h5 h6
          | demand d =>
            refine ⟨fun s' hs => by simp at hs, fun d' hd => ?_⟩
            simp only [GNode.demand.injEq] at hd
            subst hd
            obtain ⟨dm, x, h1, h2, _⟩ := (cand_demand inv).1 he
            exact ⟨dm, h1, u, h2, ih.1 u rfl⟩
    exact (key _ h).2 d rfl
  · rintro ⟨dm, h1, s, h2, h3⟩
    have hs : Joined (fun e => (t.candidateGraph cost).edge e ∧ Off G e) .super (.site s) := by
      clear h2
      induction h3 with
      | pop h1 h2 h3 h4 =>
        exact ReflTransGen.single ⟨(cand_super inv).2 ⟨_, _, rfl, h1, h2, h3, h4⟩, fun a b h => by simp at h⟩
      | @hop a b l y ha h1 h2 h3 h4 h5 h6 h7 h8 ih =>
        obtain ⟨x, hx, hx2, hx3⟩ := joinable_site ha
        refine ReflTransGen.tail ih ⟨(cand_site inv).2 ⟨l, x, y, h1, h2, h3, hx, hx2, hx3, h6, h7, h8⟩, ?_⟩
        intro a' b' h
        simp only [Prod.mk.injEq, GNode.site.injEq] at h
        obtain ⟨rfl, rfl⟩ := h
        exact ⟨h4, h5⟩
    obtain ⟨x, hx, hx2, hx3⟩ := joinable_site h3
    exact ReflTransGen.tail hs ⟨(cand_demand inv).2 ⟨dm, x, h1, h2, hx, hx2, hx3⟩, fun a b h => by simp at h⟩

theorem off_nil : (fun e => (t.candidateGraph cost).edge e ∧ Off [] e) = (t.candidateGraph cost).edge := by
  funext e; simp [Off]

theorem cand_fed (inv : t.Inv) {v : GNode} :
    (t.candidateGraph cost).Fed (t.candidateGraph cost).edge v ↔ ∃ d, v = .demand d ∧ Servable t [] d := by
  constructor
  · rintro ⟨h1, h2, h3⟩
    cases v with
    | super => exact absurd rfl h2
    | demand d => exact ⟨d, rfl, (servable_iff (cost := cost) inv).1 (by rw [off_nil]; exact h3)⟩
    | site s =>
      exfalso
      have h1' := candidate_sub.subset h1
      have hh : (t.buildDigraph StatusType.reachable cost).nodes.has (.site s) = true := by
        rw [Dict.has_iff]; exact ⟨_, (Dict.mem_iff_get? build_nodup.1 _ _).1 h1'⟩
      have : ∃ y, t.sites.get? s = some y := by
        rcases ReflTransGen.cases_tail h3 with h | ⟨u, _, he⟩
        · simp at h
        · cases u with
          | super =>
            obtain ⟨s', y, e, h1, _⟩ := (cand_super inv).1 he
            simp only [GNode.site.injEq] at e
            exact ⟨y, e ▸ h1⟩
          | demand d => exact absurd ((candidate_edge _).1 he).1 build_no_out
          | site u =>
            obtain ⟨l, _, y, _, _, _, _, _, _, hy, _⟩ := (cand_site inv).1 he
            exact ⟨y, hy⟩
      obtain ⟨y, hy⟩ := this
      have := (build_kind hh inv).2.1 s y rfl hy
      have e1 := (Dict.mem_iff_get? (build_nodup (cost := cost)).1 _ _).1 this
      have e2 := (Dict.mem_iff_get? (build_nodup (cost := cost)).1 _ _).1 h1'
      rw [e1] at e2
      simp at e2
  · rintro ⟨d, rfl, h⟩
    have hj := (servable_iff (cost := cost) inv).2 h
    rw [off_nil] at hj
    refine ⟨?_, by simp, hj⟩
    obtain ⟨dm, h1, s, h2, h3⟩ := h
    obtain ⟨x, hx, hx2, hx3⟩ := joinable_site h3
    rw [Dict.mem_iff_get? candidate_nodup, candidate_node (by simp), ← Dict.mem_iff_get? build_nodup.1]
    refine (build_kind ?_ inv).2.2 d dm rfl h1
    rw [build_has]
    exact ⟨_, mem_digraph.2 (Or.inr (Or.inr ⟨(d, dm), Dict.mem_of_get? _ h1, s, h2,
      admits_iff'.2 ⟨x, hx, (reachable_iff _).2 hx2⟩, rfl⟩)), Or.inr rfl⟩

/-! ## The property -/

theorem cuts_iff (inv : t.Inv) {a b : SiteId} {n : Nat} :
    (t.buildDigraph inUse cost).Cuts (.site a, .site b) n ↔ LoseService t [] [(a, b)] n := by
  unfold Graph.Cuts LoseService
  simp only [fed_iff inv]
  constructor
  · rintro ⟨S, h1, h2, h3⟩
    obtain ⟨T, g1, g2, g3⟩ := demand_list h1 (fun v hv => by
      obtain ⟨⟨d, h, _⟩, _⟩ := (h3 v).1 hv; exact ⟨d, h⟩)
    refine ⟨T, g1, g2.trans h2, fun d => ?_⟩
    rw [g3, h3, joined_link_iff inv]
    simp
  · rintro ⟨T, h1, h2, h3⟩
    refine ⟨T.map .demand, h1.map (fun _ _ h => by simpa using h), by simpa using h2, fun v => ?_⟩
    rw [List.mem_map]
    constructor
    · rintro ⟨d, hd, rfl⟩
      obtain ⟨g1, g2⟩ := (h3 d).1 hd
      exact ⟨⟨d, rfl, g1⟩, fun c => g2 ((joined_link_iff inv).1 c)⟩
    · rintro ⟨⟨d, rfl, g1⟩, g2⟩
      exact ⟨d, (h3 d).2 ⟨g1, fun c => g2 ((joined_link_iff inv).2 c)⟩, rfl⟩

theorem unskipped_edge (inv : t.Inv) {x : GEdge × EdgeAttr} (hx : x ∈ (t.buildDigraph inUse cost).edges)
    (hs : Graph.skipped x.2 = false) : ∃ l, CountedLink t l ∧ x.1 = (.site l.tx, .site l.rx) := by
  have hg := (Dict.mem_iff_get? (build_nodup (cost := cost)).2 x.1 x.2).1 hx
  have hk : x.2.kind = some (.link .wirelessBackhaul) := by
    rcases mem_digraph.1 (build_get? hg) with ⟨x', k1, k2, k3, k4⟩ | ⟨l, k1, k2, k3, k4, k5⟩ |
      ⟨x', k1, s, k2, k3, k4⟩
    · simp only [Prod.mk.injEq] at k4
      rw [k4.2.2] at hs; simp [Graph.skipped] at hs
    · simp only [Prod.mk.injEq] at k5
      rw [k5.2.2] at hs ⊢
      dsimp only
      unfold Graph.skipped at hs
      cases h : t.linkType l <;> simp [h] at hs ⊢
    · simp only [Prod.mk.injEq] at k4
      rw [k4.2.2] at hs; simp [Graph.skipped] at hs
  obtain ⟨u, v, he, l, hl, hw, y, hy, hyc⟩ := wb_edge inv hg hk
  have he' : (t.buildDigraph inUse cost).edge (.site u, .site v) := by
    rw [← he]; exact Graph.edge_iff_get?.2 ⟨_, hg⟩
  obtain ⟨l', h1, h2, h3, h4⟩ := (build_edge_site inv).1 he'
  rw [hl] at h1
  injection h1 with h1
  subst h1
  have hid := inv.link_id _ _ hl
  injection hid with i1 i2
  subst i1 i2
  obtain ⟨x', hx', hx2⟩ := admits_iff'.1 h3
  obtain ⟨y', hy', hy2⟩ := admits_iff'.1 h4
  rw [hy] at hy'
  injection hy' with hy'
  subst hy'
  exact ⟨l, ⟨hl, hw, (active_iff _).1 h2, ⟨x', hx', (active_iff _).1 hx2⟩, y, hy, (active_iff _).1 hy2, hyc⟩, he⟩

theorem site_list {K : List GEdge} (h : ∀ k ∈ K, ∃ a b, k = (.site a, .site b)) :
    ∃ T : List (SiteId × SiteId), T.length = K.length ∧ ∀ a b, (a, b) ∈ T ↔ (GNode.site a, GNode.site b) ∈ K := by
  induction K with
  | nil => exact ⟨[], rfl, by simp⟩
  | cons k K ih =>
    obtain ⟨T, h1, h2⟩ := ih (fun k hk => h k (List.mem_cons_of_mem _ hk))
    obtain ⟨a, b, rfl⟩ := h k List.mem_cons_self
    refine ⟨(a, b) :: T, by simp [h1], fun a' b' => ?_⟩
    simp [h2]

/-- The radio links in use between DNs and POPs are counted once per direction. -/
theorem activeBackhaul_count (inv : t.Inv) : ∃ B : List Link, B.Nodup ∧ B.length = t.activeBackhaul ∧
    ∀ l, l ∈ B ↔ t.links.get? ⟨l.tx, l.rx⟩ = some l ∧ InNetwork l.status ∧ l.isWireless = true ∧
      NotCn t l.rx := by
  refine ⟨_, ?_, rfl, fun l => ?_⟩
  · refine List.Nodup.filter _ ?_
    refine List.Nodup.of_map (fun l => (⟨l.tx, l.rx⟩ : LinkId)) ?_
    have : t.links.vals.map (fun l => (⟨l.tx, l.rx⟩ : LinkId)) = t.links.keys := by
      unfold Dict.vals Dict.keys
      rw [List.map_map]
      apply List.map_congr_left
      rintro ⟨k, l⟩ h
      exact (inv.link_id _ _ ((Dict.mem_iff_get? inv.nd_links _ _).1 h)).symm
    rw [this]
    exact inv.nd_links
  · simp only [List.mem_filter, Bool.and_eq_true, beq_iff_eq, active_iff]
    constructor
    · rintro ⟨h1, h2, h3⟩
      obtain ⟨⟨k, l'⟩, hk, rfl⟩ := List.mem_map.1 h1
      have hg := (Dict.mem_iff_get? inv.nd_links _ _).1 hk
      have hid := inv.link_id _ _ hg
      dsimp only at *
      rw [hid] at hg
      refine ⟨hg, h2, ?_⟩
      obtain ⟨y, hy⟩ := inv.link_rx _ _ hg
      unfold linkType at h3
      rw [hy] at h3
      cases hw : l'.isWireless with
      | false => simp [hw] at h3
      | true => exact ⟨rfl, y, hy, fun c => by simp [hw, c] at h3⟩
    · rintro ⟨h1, h2, h3, y, hy, hyc⟩
      refine ⟨List.mem_map.2 ⟨_, Dict.mem_of_get? _ h1, rfl⟩, h2, ?_⟩
      unfold linkType
      rw [hy]
      simp [h3, hyc]

/-- C38, the part that holds: in a valid topology whose links in use between DNs and POPs have capacity and
no two sites in use compete for a place, the adversarial links are found. They are both directions of at
most `⌈ratio · n⌉` links, where `n` counts the (directed) radio links in use between DNs and POPs; every
demand site that can be served at all can be served without all of them; each of them is disruptive; and
a disruptive link is passed over only if some demand site could then not be served at all, or if there
are enough and none of those taken disrupts fewer demand sites. Missing: links in use without capacity
and competing sites in use, which make the search fail. -/
theorem C38_adversarial_links_partial (ops : List Op) (cost : Link → Option Nat) (ratio : ℚ)
    (valid : (run {} ops).validateStatus = none) (hcn : NoCnSender (run {} ops))
    (hloop : NoSelfLink (run {} ops)) (hpop : PopInUse (run {} ops))
    (hcap : ∀ a b l, (run {} ops).links.get? ⟨a, b⟩ = some l → InNetwork l.status → NotCn (run {} ops) b →
      0 < l.capacity)
    (hplace : ∀ s x, (run {} ops).sites.get? s = some x → x.siteType ≠ .cn → InNetwork x.status →
      ¬ Taken (run {} ops) s) :
    let t := run {} ops
    ∃ (R : List GEdge) (K : List (SiteId × SiteId)) (count : Int) (B : List Link),
      t.adversarialLinks cost ratio = .ok R ∧ B.Nodup ∧
      (∀ l, l ∈ B ↔ t.links.get? ⟨l.tx, l.rx⟩ = some l ∧ InNetwork l.status ∧ l.isWireless = true ∧
        NotCn t l.rx) ∧ count = max ⌈ratio * B.length⌉ 0 ∧
      R.Nodup ∧ K.length ≤ count ∧ R.length ≤ count + 1 ∧
      (∀ e, e ∈ R ↔ ∃ a b, e = (.site a, .site b) ∧ ((a, b) ∈ K ∨ (b, a) ∈ K)) ∧
      (∀ p ∈ K, Disruptive t p ∧ ∃ l, CountedLink t l ∧ (p = (l.tx, l.rx) ∨ p = (l.rx, l.tx))) ∧
      (∀ d, Servable t [] d → Servable t K d) ∧
      ∀ l, CountedLink t l → Disruptive t (l.tx, l.rx) →
        (l.tx, l.rx) ∈ K ∨ (l.rx, l.tx) ∈ K ∨
        (∃ d, Servable t [] d ∧ ¬ Servable t ((l.tx, l.rx) :: K) d) ∨
        (count ≤ R.length ∧ ∀ p ∈ K, ∀ n m, LoseService t [] [(l.tx, l.rx)] n → LoseService t [] [p] m →
          n ≤ m) := by
  have inv := Inv.empty.run ops
  generalize run {} ops = t at *
  dsimp only
  obtain ⟨B, hB1, hB2, hB3⟩ := activeBackhaul_count inv
  unfold adversarialLinks
  rw [← hB2]
  by_cases c0 : B.length = 0 ∨ ratio = 0
  · rw [if_pos c0]
    have hz : max ⌈ratio * B.length⌉ 0 = (0 : Int) := by
      rcases c0 with c | c <;> rw [c] <;> simp
    refine ⟨[], [], 0, B, rfl, hB1, hB3, hz.symm, List.nodup_nil, by simp, by simp, by simp, by simp, fun _ h => h, ?_⟩
    intro l _ _
    exact Or.inr (Or.inr (Or.inr ⟨by simp, by simp⟩))
  rw [if_neg c0, mul_comm]
  set P := t.buildDigraph inUse cost with hP
  set C := t.candidateGraph cost with hC
  -- links of the network in use are in the candidate graph
  have cand : ∀ a b, P.edge (.site a, .site b) → NotCn t a → NotCn t b → C.edge (.site a, .site b) := by
    intro a b he ⟨x, hx, hxc⟩ ⟨y, hy, hyc⟩
    obtain ⟨l, h1, h2, h3, h4⟩ := (build_edge_site inv).1 he
    obtain ⟨x', hx', hx2⟩ := admits_iff'.1 h3
    obtain ⟨y', hy', hy2⟩ := admits_iff'.1 h4
    rw [hx] at hx'; injection hx' with hx'; subst hx'
    rw [hy] at hy'; injection hy' with hy'; subst hy'
    have hx3 := (active_iff _).1 hx2
    have hy3 := (active_iff _).1 hy2
    exact (cand_site inv).2 ⟨l, x, y, h1, plannable_of _ ((active_iff _).1 h2),
      hcap a b l h1 ((active_iff _).1 h2) ⟨y, hy, hyc⟩, hx, plannable_of _ hx3, hplace a x hx hxc hx3, hy,
      plannable_of _ hy3, hplace b y hy hyc hy3⟩
  have notcn : ∀ l, CountedLink t l → NotCn t l.tx ∧ NotCn t l.rx := by
    rintro l ⟨h1, _, _, ⟨x, hx, _⟩, y, hy, _, hyc⟩
    exact ⟨⟨x, hx, hcn _ _ _ _ h1 hx⟩, y, hy, hyc⟩
  have both : ∀ l, CountedLink t l → P.edge (.site l.tx, .site l.rx) ∧ P.edge (.site l.rx, .site l.tx) := by
    intro l hl
    obtain ⟨a, ha, _⟩ := counted_edge (cost := cost) inv hl
    have h1 : P.edge (.site l.tx, .site l.rx) := Graph.edge_iff_get?.2 ⟨a, ha⟩
    exact ⟨h1, back_edge inv valid h1 (notcn l hl).2⟩
  have kind : ∀ a b, P.edge (.site a, .site b) → NotCn t b → ∃ at' k, P.edges.get? (.site a, .site b) = some at' ∧
      at'.kind = some k ∧ k ≠ .link .wirelessAccess := by
    intro a b he ⟨y, hy, hyc⟩
    obtain ⟨at', hat⟩ := Graph.edge_iff_get?.1 he
    rcases mem_digraph.1 (build_get? hat) with ⟨x', k1, k2, k3, k4⟩ | ⟨l, k1, k2, k3, k4, k5⟩ |
      ⟨x', k1, s, k2, k3, k4⟩
    · simp at k4
    · simp only [Prod.mk.injEq, GNode.site.injEq] at k5
      obtain ⟨rfl, rfl, rfl⟩ := k5
      refine ⟨_, _, hat, rfl, ?_⟩
      intro c
      simp only [EdgeKind.link.injEq] at c
      unfold linkType at c
      rw [hy] at c
      cases hw : l.isWireless <;> simp [hw, hyc] at c
    · simp at k4
  have hself : ∀ e ∈ P.edges.keys, e.1 ≠ e.2 := by
    rintro ⟨u, v⟩ he c
    dsimp only at c
    subst c
    have this : P.edge (u, u) := he
    cases u with
    | super => exact build_no_in this
    | demand d => exact build_no_out this
    | site s =>
      obtain ⟨l, hl, _⟩ := (build_edge_site inv).1 this
      rw [hloop s] at hl
      cases hl
  have hCs : C.nodes.has .super = true := by
    obtain ⟨s, x, h1, h2, h3⟩ := hpop
    have hh : (t.buildDigraph StatusType.reachable cost).nodes.has .super = true := by
      rw [build_has]
      exact ⟨_, mem_digraph.2 (Or.inl ⟨(s, x), Dict.mem_of_get? _ h1, h2,
        (reachable_iff _).2 (plannable_of _ h3), rfl⟩), Or.inl rfl⟩
    obtain ⟨v, hv⟩ := (Dict.has_iff _ _).1 hh
    rw [Dict.has_iff]
    exact ⟨v, (candidate_node (by simp)).trans hv⟩
  obtain ⟨R, K, h1, h2, h3, h4, h5, h6, h7, h8⟩ := Graph.C38_disruptive_links P C
    ⌈ratio * B.length⌉ (build_super hpop) hCs build_nodup.1 hself (by
      intro x hx hs
      obtain ⟨l, hl, he⟩ := unskipped_edge inv hx hs
      obtain ⟨b1, b2⟩ := both l hl
      obtain ⟨n1, n2⟩ := notcn l hl
      rw [he]
      dsimp only
      rcases Graph.sortedEdge_cases (.site l.tx) (.site l.rx) with h | h <;> rw [h]
      · obtain ⟨a, k, g1, g2, g3⟩ := kind _ _ b1 n2
        exact ⟨a, k, g1, g2, g3, cand _ _ b1 n1 n2⟩
      · obtain ⟨a, k, g1, g2, g3⟩ := kind _ _ b2 n1
        exact ⟨a, k, g1, g2, g3, cand _ _ b2 n2 n1⟩)
  -- links found
  have hKc : ∀ k ∈ K, ∃ l, CountedLink t l ∧ (k = (.site l.tx, .site l.rx) ∨ k = (.site l.rx, .site l.tx)) := by
    intro k hk
    obtain ⟨_, _, x, hx, hs, rfl⟩ := h7 k hk
    obtain ⟨l, hl, he⟩ := unskipped_edge inv hx hs
    refine ⟨l, hl, ?_⟩
    rw [he]
    exact Graph.sortedEdge_cases _ _
  obtain ⟨T, hT1, hT2⟩ := site_list (K := K) (fun k hk => by
    obtain ⟨l, _, h | h⟩ := hKc k hk <;> exact ⟨_, _, h⟩)
  have hKC : ∀ a b, (a, b) ∈ T → C.edge (.site a, .site b) ∧ C.edge (.site b, .site a) := by
    intro a b hab
    obtain ⟨l, hl, h⟩ := hKc _ ((hT2 a b).1 hab)
    obtain ⟨b1, b2⟩ := both l hl
    obtain ⟨n1, n2⟩ := notcn l hl
    simp only [Prod.mk.injEq, GNode.site.injEq] at h
    rcases h with ⟨rfl, rfl⟩ | ⟨rfl, rfl⟩
    · exact ⟨cand _ _ b1 n1 n2, cand _ _ b2 n2 n1⟩
    · exact ⟨cand _ _ b2 n2 n1, cand _ _ b1 n1 n2⟩
  have hR : ∀ e, e ∈ R ↔ ∃ a b, e = (.site a, .site b) ∧ ((a, b) ∈ T ∨ (b, a) ∈ T) := by
    intro e
    rw [h5]
    constructor
    · rintro ⟨_, h | h⟩
      · obtain ⟨l, _, h' | h'⟩ := hKc _ h <;> rw [h'] at h ⊢ <;>
          exact ⟨_, _, rfl, Or.inl ((hT2 _ _).2 h)⟩
      · have he : e = (e.swap).swap := rfl
        obtain ⟨l, _, h' | h'⟩ := hKc _ h <;> rw [he, h'] <;> rw [h'] at h <;>
          exact ⟨_, _, rfl, Or.inr ((hT2 _ _).2 h)⟩
    · rintro ⟨a, b, rfl, h | h⟩
      · exact ⟨(hKC a b h).1, Or.inl ((hT2 a b).1 h)⟩
      · exact ⟨(hKC b a h).2, Or.inr ((hT2 b a).1 h)⟩
  have hoff : (fun e => C.edge e ∧ e ∉ R) = fun e => C.edge e ∧ Off T e := by
    funext e
    apply propext
    apply and_congr_right
    intro _
    rw [hR]
    constructor
    · intro h a b he
      exact ⟨fun c => h ⟨a, b, he, Or.inl c⟩, fun c => h ⟨a, b, he, Or.inr c⟩⟩
    · rintro h ⟨a, b, he, h' | h'⟩
      · exact (h a b he).1 h'
      · exact (h a b he).2 h'
  have hoff' : ∀ x y : SiteId, (fun e => C.edge e ∧ e ∉ R ∧ e ≠ (.site x, .site y) ∧
      e ≠ Prod.swap ((.site x, .site y) : GEdge)) = fun e => C.edge e ∧ Off ((x, y) :: T) e := by
    intro x y
    funext e
    apply propext
    apply and_congr_right
    intro _
    rw [hR]
    constructor
    · rintro ⟨h, g1, g2⟩ a b he
      subst he
      constructor
      · intro c
        rcases List.mem_cons.1 c with c | c
        · simp only [Prod.mk.injEq] at c
          exact g1 (by rw [c.1, c.2])
        · exact h ⟨a, b, rfl, Or.inl c⟩
      · intro c
        rcases List.mem_cons.1 c with c | c
        · simp only [Prod.mk.injEq] at c
          exact g2 (by rw [← c.1, ← c.2]; rfl)
        · exact h ⟨a, b, rfl, Or.inr c⟩
    · intro h
      refine ⟨?_, ?_, ?_⟩
      · rintro ⟨a, b, he, h' | h'⟩
        · exact (h a b he).1 (List.mem_cons_of_mem _ h')
        · exact (h a b he).2 (List.mem_cons_of_mem _ h')
      · intro he
        exact (h x y he).1 List.mem_cons_self
      · intro he
        exact (h y x he).2 List.mem_cons_self
  have lose : ∀ a b n, LoseService t [] [(a, b)] n → 0 < n → Disruptive t (a, b) := by
    rintro a b n ⟨S, g1, g2, g3⟩ hn
    obtain ⟨d, hd⟩ := List.exists_mem_of_length_pos (by rw [g2]; exact hn)
    exact ⟨d, (g3 d).1 hd⟩
  have serv : ∀ d, Servable t [] d → C.Fed C.edge (.demand d) := fun d hd => (cand_fed inv).2 ⟨d, rfl, hd⟩
  refine ⟨R, T, _, B, h1, hB1, hB3, rfl, h2, by rw [hT1]; exact h3, h4, hR, ?_, ?_, ?_⟩
  · rintro ⟨a, b⟩ hp
    obtain ⟨_, ⟨n, hn, hn0⟩, _⟩ := h7 _ ((hT2 a b).1 hp)
    obtain ⟨l, hl, h⟩ := hKc _ ((hT2 a b).1 hp)
    simp only [Prod.mk.injEq, GNode.site.injEq] at h
    exact ⟨lose a b n ((cuts_iff inv).1 hn) hn0, l, hl, by simpa using h⟩
  · intro d hd
    have := h6 _ (serv d hd)
    rw [hoff] at this
    exact (servable_iff inv).1 this
  · intro l hl hd
    obtain ⟨a, ha, hak⟩ := counted_edge (cost := cost) inv hl
    have hx : ((GNode.site l.tx, GNode.site l.rx), a) ∈ P.edges := Dict.mem_of_get? _ ha
    obtain ⟨n, hn⟩ : ∃ n, LoseService t [] [(l.tx, l.rx)] n := ⟨_, (loseService_iff inv _ _ _).2 rfl⟩
    have hn0 : 0 < n := by
      obtain ⟨d, hd1, hd2⟩ := hd
      obtain ⟨S, g1, g2, g3⟩ := hn
      rw [← g2]
      exact List.length_pos_of_mem ((g3 d).2 ⟨hd1, hd2⟩)
    rcases h8 _ hx (by unfold Graph.skipped; dsimp only; rw [hak]; decide) n ((cuts_iff inv).2 hn) hn0 with h | ⟨h, h'⟩ | ⟨v, hv, hv2⟩
    · rw [hR] at h
      obtain ⟨a', b', he, h⟩ := h
      dsimp only at he
      rcases Graph.sortedEdge_cases (.site l.tx) (.site l.rx) with e | e <;> rw [e] at he <;>
        simp only [Prod.mk.injEq, GNode.site.injEq] at he <;> rw [← he.1, ← he.2] at h <;> tauto
    · refine Or.inr (Or.inr (Or.inr ⟨by omega, ?_⟩))
      rintro ⟨a', b'⟩ hp n' m' hn' hm'
      have e : n' = n := ((cuts_iff (cost := cost) inv).2 hn').unique ((cuts_iff inv).2 hn)
      rw [e]
      exact h' _ ((hT2 a' b').1 hp) m' ((cuts_iff inv).2 hm')
    · obtain ⟨d, rfl, hd⟩ := (cand_fed inv).1 hv
      refine Or.inr (Or.inr (Or.inl ⟨d, hd, fun c => hv2 ?_⟩))
      dsimp only
      rw [hoff' l.tx l.rx]
      exact (servable_iff inv).2 c

end Verif
