import Verif.Props.Nx
import Verif.Lemmas.NxLoop
import Verif.Props.Prepare

/-!
# What the report says about failures (C35, C36, C37, C103)
-/

namespace Verif

open Spec Topology Relation

variable {t : Topology} {cost : Link → Option Nat}

theorem validated_two_way (inv : t.Inv) (h : t.validateStatus = none) {a b : SiteId} {l : Link}
    (hl : t.links.get? ⟨a, b⟩ = some l) (hb : NotCn t b) :
    ∃ r, t.links.get? ⟨b, a⟩ = some r ∧ l.status = r.status := by
  have hall : t.links.vals.all t.statusOk = true := by
    unfold validateStatus at h
    by_cases c : t.links.vals.all t.statusOk = true
    · exact c
    · rw [if_neg c] at h; cases h
  rw [List.all_eq_true] at hall
  have hm : l ∈ t.links.vals := List.mem_map.2 ⟨(_, l), Dict.mem_of_get? _ hl, rfl⟩
  obtain ⟨h1, h2⟩ := (statusOk_iff t l).1 (hall l hm)
  have hid := inv.link_id _ _ hl
  have e1 : l.tx = a := (congrArg LinkId.tx hid).symm
  have e2 : l.rx = b := (congrArg LinkId.rx hid).symm
  rw [e1, e2] at h1 h2
  cases hr : t.links.get? ⟨b, a⟩ with
  | some r => exact ⟨r, rfl, (h2 r hr).1⟩
  | none =>
    exfalso
    have := h1 hr
    obtain ⟨x, hx, hxc⟩ := hb
    unfold notAccess at this
    rw [e2, hx] at this
    simp [hxc] at this

theorem back_edge (inv : t.Inv) (valid : t.validateStatus = none) {a b : SiteId}
    (h : (t.buildDigraph inUse cost).edge (.site a, .site b)) (hb : NotCn t b) :
    (t.buildDigraph inUse cost).edge (.site b, .site a) := by
  obtain ⟨l, h1, h2, h3, h4⟩ := (build_edge_site inv).1 h
  obtain ⟨r, hr, hs⟩ := validated_two_way inv valid h1 hb
  exact (build_edge_site inv).2 ⟨r, hr, by rw [← hs]; exact h2, h4, h3⟩

/-- A path is left by at most one of its links exactly if no link of the path is vital. -/
theorem disjoint_iff (inv : t.Inv) (hcn : NoCnSender t) (valid : t.validateStatus = none) {d : DemandId}
    {p : List GNode} (hw : IsWalk (t.buildDigraph inUse cost).edge .super (.demand d) p) (hnd : p.Nodup) :
    Joined (fun e => (t.buildDigraph inUse cost).edge e ∧ ¬ (e ∈ pairs p ∧ Backhaul t e)) .super (.demand d) ↔
      ∀ a b, NotCn t a → NotCn t b → Served t [] [(a, b)] d := by
  set E := (t.buildDigraph inUse cost).edge with hE
  constructor
  · intro h a b ha hb
    rw [← joined_link_iff (cost := cost) inv]
    by_contra c
    let R : GNode → Prop := fun v => Joined ((t.buildDigraph inUse cost).without (.site a) (.site b)) .super v
    have hR0 : R .super := ReflTransGen.refl
    obtain ⟨e, he, he1, he2⟩ := crossing (R := R) hw.1 hw.2.1 hR0 c
    have hEe : E e := pairs_edge hw.2.2 e he
    have leave : ∀ f, E f → R f.1 → ¬ R f.2 → f = (.site a, .site b) ∨ f = (.site b, .site a) := by
      intro f hf h1 h2
      by_contra cc
      push Not at cc
      exact h2 (ReflTransGen.tail h1 ⟨hf, cc.1, cc.2⟩)
    have hback : Backhaul t e := by
      rcases leave e hEe he1 he2 with rfl | rfl
      · exact ⟨a, b, rfl, hb⟩
      · exact ⟨b, a, rfl, ha⟩
    have only : ∀ f, E f → R f.1 → ¬ R f.2 → f = e := by
      intro f hf h1 h2
      rcases leave f hf h1 h2 with rfl | rfl <;> rcases leave e hEe he1 he2 with rfl | rfl
      · rfl
      · exact absurd he1 h2
      · exact absurd he1 h2
      · rfl
    have stay : ∀ v, Joined (fun e => E e ∧ ¬ (e ∈ pairs p ∧ Backhaul t e)) .super v → R v := by
      intro v hv
      induction hv with
      | refl => exact hR0
      | @tail u w _ huw ih =>
        by_contra cc
        have := only (u, w) huw.1 ih cc
        exact huw.2 (this ▸ ⟨he, hback⟩)
    exact c (stay _ h)
  · intro h
    by_contra c
    let R : GNode → Prop := fun v => Joined (fun e => E e ∧ ¬ (e ∈ pairs p ∧ Backhaul t e)) .super v
    have hR0 : R .super := ReflTransGen.refl
    have leave : ∀ f, E f → R f.1 → ¬ R f.2 → f ∈ pairs p ∧ Backhaul t f := by
      intro f hf h1 h2
      by_contra cc
      exact h2 (ReflTransGen.tail h1 ⟨hf, cc⟩)
    have mono : ∀ e ∈ pairs p, ¬ R e.1 → ¬ R e.2 := by
      rintro ⟨x, y⟩ he hx hy
      have hEe : E (x, y) := pairs_edge hw.2.2 _ he
      cases x with
      | super => exact hx hR0
      | demand d' => exact build_no_out hEe
      | site x =>
        cases y with
        | super => exact build_no_in hEe
        | demand d' =>
          -- the last edge of the path
          have : d' = d := by
            have hl : ∀ q : List GNode, q.getLast? = some (.demand d) → q.IsChain (fun x y => E (x, y)) →
                ∀ e ∈ pairs q, ∀ d', e.2 = .demand d' → d' = d := by
              intro q
              induction q with
              | nil => intro h; simp at h
              | cons a q ih =>
                intro h1 h2 e he d' hd
                cases q with
                | nil => simp [pairs] at he
                | cons b q =>
                  rw [List.getLast?_cons_cons] at h1
                  rw [List.isChain_cons_cons] at h2
                  rw [pairs, List.mem_cons] at he
                  rcases he with rfl | he
                  · dsimp only at hd
                    subst hd
                    cases q with
                    | nil => simpa using h1
                    | cons z q => exact absurd (List.isChain_cons_cons.1 h2.2).1 build_no_out
                  · exact ih h1 h2.2 e he d' hd
            exact hl p hw.2.1 hw.2.2 _ he d' rfl
          subst this
          exact c hy
        | site y =>
          obtain ⟨l, hl, _, _, hya⟩ := (build_edge_site inv).1 hEe
          obtain ⟨z, hz, _⟩ := admits_iff'.1 hya
          by_cases hzc : z.siteType = .cn
          · -- a CN is followed by the demand site
            have hlast : ∀ q : List GNode, q.getLast? = some (.demand d) → q.IsChain (fun x y => E (x, y)) →
                GNode.site y ∈ q → E (.site y, .demand d) := by
              intro q
              induction q with
              | nil => intro h; simp at h
              | cons a q ih =>
                intro h1 h2 hy
                cases q with
                | nil =>
                  simp only [List.mem_singleton] at hy
                  subst hy
                  simp at h1
                | cons b q =>
                  rw [List.getLast?_cons_cons] at h1
                  rw [List.isChain_cons_cons] at h2
                  rcases List.mem_cons.1 hy with rfl | hy
                  · rcases build_from_site inv h2.1 with ⟨b', l', y', rfl, hl', _⟩ | ⟨d', rfl⟩
                    · exact absurd hzc (hcn y b' l' z hl' hz)
                    · have : q = [] := by
                        cases q with
                        | nil => rfl
                        | cons z q => exact absurd (List.isChain_cons_cons.1 h2.2).1 build_no_out
                      subst this
                      simp only [List.getLast?_singleton, Option.some.injEq] at h1
                      rw [← h1]
                      exact h2.1
                  · exact ih h1 h2.2 hy
            have hyd := hlast p hw.2.1 hw.2.2 (List.mem_of_mem_tail (pairs_mem _ he).2)
            refine c (ReflTransGen.tail hy ⟨hyd, ?_⟩)
            rintro ⟨_, a', b', h', _⟩
            simp at h'
          · have hrev := back_edge inv valid hEe ⟨z, hz, hzc⟩
            exact hx (ReflTransGen.tail hy ⟨hrev, fun cc => pairs_swap hnd he cc.1⟩)
    obtain ⟨e, he, he1, he2⟩ := crossing (R := R) hw.1 hw.2.1 hR0 c
    obtain ⟨_, a, b, rfl, hb⟩ := leave e (pairs_edge hw.2.2 e he) he1 he2
    have hEe : E (.site a, .site b) := pairs_edge hw.2.2 _ he
    obtain ⟨l, hl, _, haa, _⟩ := (build_edge_site inv).1 hEe
    obtain ⟨z, hz, _⟩ := admits_iff'.1 haa
    have ha : NotCn t a := ⟨z, hz, hcn a b l z hl hz⟩
    have hs := (joined_link_iff (cost := cost) inv).2 (h a b ha hb)
    have stay : ∀ v, Joined ((t.buildDigraph inUse cost).without (.site a) (.site b)) .super v → R v := by
      intro v hv
      induction hv with
      | refl => exact hR0
      | @tail u w _ huw ih =>
        by_contra cc
        have hp := leave (u, w) huw.1 ih cc
        exact huw.2.1 (crossing_unique hw.1 mono _ hp.1 _ he ih cc he1 he2)
    exact c (stay _ hs)


namespace Graph

theorem edgeLoop_sub {G : Graph} {conn : List GNode} (L : List (GEdge × EdgeAttr)) :
    ∀ (H : Graph) (D R : Dict GEdge (List GNode)), edgeLoop G conn H D L = .ok R →
      (∀ k S, D.get? k = some S → S.Sublist conn) → ∀ k S, R.get? k = some S → S.Sublist conn := by
  induction L with
  | nil =>
    intro H D R h hD
    unfold edgeLoop at h
    simp only [Except.ok.injEq] at h
    subst h
    exact hD
  | cons x L ih =>
    obtain ⟨⟨u, v⟩, a⟩ := x
    intro H D R h hD
    unfold edgeLoop at h
    split at h
    · exact ih _ _ _ h hD
    split at h
    · exact ih _ _ _ h hD
    split at h
    · cases h
    split at h
    · cases h
    refine ih _ _ _ h ?_
    intro k S hS
    rw [Dict.get?_set] at hS
    split at hS
    · simp only [Option.some.injEq] at hS
      subst hS
      exact List.filter_sublist
    · exact hD k S hS

theorem siteLoop_sub {conn : List GNode} (L : List (GNode × Option NodeKind)) :
    ∀ (H : Graph) (D R : Dict GNode (List GNode) × Dict GNode (List GNode)), siteLoop conn H D L = .ok R →
      (∀ k S, D.1.get? k = some S ∨ D.2.get? k = some S → S.Sublist conn) →
      ∀ k S, R.1.get? k = some S ∨ R.2.get? k = some S → S.Sublist conn := by
  induction L with
  | nil =>
    intro H D R h hD
    unfold siteLoop at h
    simp only [Except.ok.injEq] at h
    subst h
    exact hD
  | cons x L ih =>
    obtain ⟨s, k⟩ := x
    intro H D R h hD
    unfold siteLoop at h
    split at h
    · exact ih _ _ _ h hD
    split at h
    · cases h
    refine ih _ _ _ h ?_
    intro k S hS
    split at hS
    · exact hD k S hS
    split at hS
    · rw [Dict.get?_set] at hS
      rcases hS with hS | hS
      · split at hS
        · simp only [Option.some.injEq] at hS
          subst hS
          exact List.filter_sublist
        · exact hD k S (Or.inl hS)
      · exact hD k S (Or.inr hS)
    split at hS
    · rw [Dict.get?_set] at hS
      rcases hS with hS | hS
      · exact hD k S (Or.inl hS)
      · split at hS
        · simp only [Option.some.injEq] at hS
          subst hS
          exact List.filter_sublist
        · exact hD k S (Or.inr hS)
    · exact hD k S hS

theorem connected_nodup {G : Graph} (nd : G.nodes.NodupKeys) {C : List GNode}
    (h : G.connectedDemands = .ok C) : C.Nodup := by
  unfold connectedDemands at h
  split at h
  · cases h
  simp only [Except.ok.injEq] at h
  subst h
  exact (nd : (G.nodes.map (·.1)).Nodup).sublist (List.filter_sublist.map _)

end Graph

/-- A list of demand nodes as a list of demand sites. -/
theorem demand_list {S : List GNode} (hnd : S.Nodup) (h : ∀ v ∈ S, ∃ d, v = .demand d) :
    ∃ T : List DemandId, T.Nodup ∧ T.length = S.length ∧ ∀ d, d ∈ T ↔ GNode.demand d ∈ S := by
  induction S with
  | nil => exact ⟨[], by simp⟩
  | cons v S ih =>
    rw [List.nodup_cons] at hnd
    obtain ⟨T, h1, h2, h3⟩ := ih hnd.2 (fun v hv => h v (List.mem_cons_of_mem _ hv))
    obtain ⟨d, rfl⟩ := h v List.mem_cons_self
    refine ⟨d :: T, List.nodup_cons.2 ⟨fun c => hnd.1 ((h3 d).1 c), h1⟩, by simp [h2], fun d' => ?_⟩
    rw [List.mem_cons, List.mem_cons, h3]
    simp [GNode.demand.injEq]

theorem Like.fed_iff {G K : Graph} {S} (h : G.Like K S) (v : GNode) : K.Fed K.edge v ↔ G.Fed G.edge v := by
  have : K.edge = G.edge := funext fun e => propext (h.edge e)
  unfold Graph.Fed
  rw [h.nodes, this]

/-- The whole report, in terms of the graph that `disjoint_paths` leaves. -/
theorem report_ok (inv : t.Inv) (hcn : NoCnSender t) (hloop : NoSelfLink t) (hpop : PopInUse t) {paths : Paths}
    (sp : ShortestPaths (t.buildDigraph inUse cost).edge .super paths) :
    ∃ K r, disjointPaths t paths (t.buildDigraph inUse cost) = .ok (K, r.paths) ∧
      failureReport t cost paths = .ok r ∧
      (t.buildDigraph inUse cost).Like K (fun e => ∃ d ∈ t.demandSites.keys, stripped t paths d e) ∧
      (∀ d ∈ t.demandSites.keys, ∀ e, stripped t paths d e → K.edges.get? e = some {}) ∧
      K.edgeFailures = .ok r.edges ∧ K.siteFailures = .ok r.sites ∧
      (∀ d, d ∈ r.paths.disconnected ↔ d ∈ t.demandSites.keys ∧ paths (.demand d) = none) ∧
      (∀ d, d ∈ r.paths.atPop ↔ d ∈ t.demandSites.keys ∧ ∃ p, paths (.demand d) = some p ∧ p.length = 3) ∧
      (∀ d, d ∈ r.paths.disjoint ↔ d ∈ t.demandSites.keys ∧ ∃ p, paths (.demand d) = some p ∧ 3 < p.length ∧
        Joined (fun e => (t.buildDigraph inUse cost).edge e ∧ ¬ (e ∈ pairs p ∧ Backhaul t e)) .super
          (.demand d)) := by
  have hsup := build_super (cost := cost) hpop
  obtain ⟨K, R, h1, h2, h3, _, h5, h6, h7⟩ := disjointLoop_spec (cost := cost) inv hcn rfl sp t.demandSites.keys
    (t.buildDigraph inUse cost) {} (fun e => ∃ d ∈ t.demandSites.keys, stripped t paths d e)
    (Graph.Like.refl build_nodup.2 _) (fun d hd e he => ⟨d, hd, he⟩)
  have hK : K.nodes.has .super = true := by rw [h2.nodes]; exact hsup
  have hself : ∀ e, K.edge e → e.1 ≠ e.2 := by
    rintro ⟨u, v⟩ he c
    dsimp only at c
    subst c
    have := (h2.edge _).1 he
    cases u with
    | super => exact build_no_in this
    | demand d => exact build_no_out this
    | site s =>
      obtain ⟨l, hl, _⟩ := (build_edge_site inv).1 this
      rw [hloop s] at hl
      cases hl
  obtain ⟨D, hD, _⟩ := Graph.edgeFailures_spec hself hK
  obtain ⟨S, hS⟩ : ∃ S, K.siteFailures = .ok S := by
    unfold Graph.siteFailures
    obtain ⟨C, hC, hCd⟩ := Graph.connected_ok hK
    rw [hC]
    dsimp only
    obtain ⟨S, hS, _⟩ := Graph.siteLoop_spec (conn := C) hCd K.nodes
      (by have := (build_nodup (t := t) (f := inUse) (cost := cost)).1; rw [← h2.nodes] at this; exact this)
      K ([], []) hK (fun _ => Iff.rfl)
    exact ⟨S, hS⟩
  have hdp : disjointPaths t paths (t.buildDigraph inUse cost) = .ok (K, R) := by
    unfold disjointPaths; rw [if_pos hsup]; exact h1
  refine ⟨K, ⟨R, D, S⟩, hdp, ?_, h2, h3, hD, hS, ?_, ?_, ?_⟩
  · unfold failureReport
    rw [show disjointPaths t paths (t.buildDigraph StatusType.active cost) = .ok (K, R) from hdp]
    dsimp only
    rw [hD]
    dsimp only
    rw [hS]
  · intro d; rw [h5]; simp
  · intro d; rw [h6]; simp
  · intro d; rw [h7]; simp

/-- The counted links: wireless, in use between sites in use, not to a CN. -/
def CountedLink (t : Topology) (l : Link) : Prop :=
  t.links.get? ⟨l.tx, l.rx⟩ = some l ∧ l.isWireless = true ∧ InNetwork l.status ∧
    (∃ x, t.sites.get? l.tx = some x ∧ InNetwork x.status) ∧
    (∃ y, t.sites.get? l.rx = some y ∧ InNetwork y.status ∧ y.siteType ≠ .cn)

theorem counted_edge (inv : t.Inv) {l : Link} (h : CountedLink t l) :
    ∃ a, (t.buildDigraph inUse cost).edges.get? (.site l.tx, .site l.rx) = some a ∧
      a.kind = some (.link .wirelessBackhaul) := by
  obtain ⟨h1, h2, h3, ⟨x, h4, h5⟩, y, h6, h7, h8⟩ := h
  have he : (t.buildDigraph inUse cost).edge (.site l.tx, .site l.rx) :=
    (build_edge_site inv).2 ⟨l, h1, (active_iff _).2 h3, admits_iff'.2 ⟨x, h4, (active_iff _).2 h5⟩,
      admits_iff'.2 ⟨y, h6, (active_iff _).2 h7⟩⟩
  obtain ⟨a, ha⟩ := Graph.edge_iff_get?.1 he
  refine ⟨a, ha, ?_⟩
  rcases mem_digraph.1 (build_get? ha) with ⟨e, k1, k2, k3, k4⟩ | ⟨l', k1, k2, k3, k4, k5⟩ |
    ⟨e, k1, s, k2, k3, k4⟩
  · simp at k4
  · simp only [Prod.mk.injEq, GNode.site.injEq] at k5
    obtain ⟨e1, e2, rfl⟩ := k5
    obtain ⟨⟨k, l''⟩, hk, rfl⟩ := List.mem_map.1 k1
    have hg := (Dict.mem_iff_get? inv.nd_links _ _).1 hk
    have hid : k = ⟨l''.tx, l''.rx⟩ := inv.link_id _ _ hg
    dsimp only at e1 e2
    rw [hid, ← e1, ← e2, h1] at hg
    simp only [Option.some.injEq] at hg
    dsimp only
    rw [← hg]
    unfold linkType
    rw [h2, h6]
    simp [h8]
  · simp at k4

/-- C35, the part that holds: for a wireless link in use that does not lead to a CN, and whose sender's
id comes before its receiver's, the reported count is the number of demand sites that lose service when
the link fails. Missing: the other direction of the link (always 0), links to CNs and wired links. -/
theorem C35_link_breakdowns_partial (ops : List Op) (cost : Link → Option Nat) (paths : Paths)
    (hcn : NoCnSender (run {} ops)) (hloop : NoSelfLink (run {} ops)) (hpop : PopInUse (run {} ops))
    (sp : ShortestPaths ((run {} ops).buildDigraph StatusType.active cost).edge .super paths) :
    ∃ r, failureReport (run {} ops) cost paths = .ok r ∧
      ∀ l, CountedLink (run {} ops) l → l.tx < l.rx →
        LoseService (run {} ops) [] [(l.tx, l.rx)] (r.linkBreakdowns l) := by
  have inv := Inv.empty.run ops
  generalize run {} ops = t at *
  obtain ⟨K, r, _, hr, hlike, _, hE, _, _⟩ := report_ok inv hcn hloop hpop sp
  refine ⟨r, hr, fun l hl hlt => ?_⟩
  have hK : K.nodes.has .super = true := by rw [hlike.nodes]; exact build_super hpop
  have hself : ∀ e, K.edge e → e.1 ≠ e.2 := by
    rintro ⟨u, v⟩ he c
    dsimp only at c
    subst c
    have := (hlike.edge _).1 he
    cases u with
    | super => exact build_no_in this
    | demand d => exact build_no_out this
    | site s =>
      obtain ⟨l, hl, _⟩ := (build_edge_site inv).1 this
      rw [hloop s] at hl
      cases hl
  obtain ⟨D, hD, hD1, _⟩ := Graph.edgeFailures_spec hself hK
  rw [hE] at hD
  simp only [Except.ok.injEq] at hD
  subst hD
  obtain ⟨a, ha, hak⟩ := counted_edge (cost := cost) inv hl
  obtain ⟨a', ha', hsk⟩ : ∃ a', K.edges.get? (.site l.tx, .site l.rx) = some a' ∧ Graph.skipped a' = false := by
    rcases hlike.attr (.site l.tx, .site l.rx) with h | ⟨_, _, h⟩
    · exact ⟨a, h.trans ha, by unfold Graph.skipped; rw [hak]; decide⟩
    · exact ⟨_, h, by decide⟩
  obtain ⟨S, hS, hSd⟩ := hD1 (_, a') (Dict.mem_of_get? _ ha') hsk
  have hkey : Graph.sortedEdge (.site l.tx) (.site l.rx) = (.site l.tx, .site l.rx) := by
    unfold Graph.sortedEdge
    exact if_pos hlt
  rw [hkey] at hS
  have hbd : r.linkBreakdowns l = S.length := by
    unfold FailureReport.linkBreakdowns; rw [hS]; rfl
  rw [hbd]
  -- no repetitions
  have hSnd : S.Nodup := by
    unfold Graph.edgeFailures at hE
    obtain ⟨C, hC, _⟩ := Graph.connected_ok hK
    rw [hC] at hE
    have hCnd := Graph.connected_nodup (by rw [hlike.nodes]; exact build_nodup.1) hC
    exact hCnd.sublist (Graph.edgeLoop_sub _ _ _ _ hE (by simp) _ _ hS)
  have hKe : K.edge = (t.buildDigraph StatusType.active cost).edge := funext fun e => propext (hlike.edge e)
  have hmem : ∀ v, v ∈ S ↔ (∃ d, v = .demand d ∧ Served t [] [] d) ∧
      ¬ Joined ((t.buildDigraph StatusType.active cost).without (.site l.tx) (.site l.rx)) .super v := by
    intro v
    rw [hSd, Like.fed_iff hlike, fed_iff inv]
    have : K.without (.site l.tx) (.site l.rx) =
        (t.buildDigraph StatusType.active cost).without (.site l.tx) (.site l.rx) := by
      funext e; unfold Graph.without; rw [hKe]
    dsimp only
    rw [this]
  obtain ⟨T, h1, h2, h3⟩ := demand_list hSnd (fun v hv => by
    obtain ⟨⟨d, h, _⟩, _⟩ := (hmem v).1 hv; exact ⟨d, h⟩)
  refine ⟨T, h1, h2, fun d => ?_⟩
  rw [h3, hmem]
  constructor
  · rintro ⟨⟨d', h, hs⟩, hn⟩
    simp only [GNode.demand.injEq] at h
    subst h
    exact ⟨hs, fun c => hn ((joined_link_iff inv).2 c)⟩
  · rintro ⟨hs, hn⟩
    exact ⟨⟨d, rfl, hs⟩, fun c => hn ((joined_link_iff inv).1 c)⟩

/-- C35 fails for half of the links: whatever the network, a link whose sender's id does not come before
its receiver's is reported with no breakdowns. -/
theorem C35_direction_violation (ops : List Op) (cost : Link → Option Nat) (paths : Paths)
    (r : FailureReport) (h : failureReport (run {} ops) cost paths = .ok r) (l : Link)
    (hlt : l.rx < l.tx) : r.linkBreakdowns l = 0 := by
  have key : ∀ (G : Graph) (conn : List GNode) (L : List (GEdge × EdgeAttr)) (H : Graph)
      (D R : Dict GEdge (List GNode)), Graph.edgeLoop G conn H D L = .ok R →
      (∀ k, D.has k = true → ∃ u v, k = Graph.sortedEdge u v) →
      ∀ k, R.has k = true → ∃ u v, k = Graph.sortedEdge u v := by
    intro G conn L
    induction L with
    | nil =>
      intro H D R h hD
      unfold Graph.edgeLoop at h
      simp only [Except.ok.injEq] at h
      subst h
      exact hD
    | cons x L ih =>
      obtain ⟨⟨u, v⟩, a⟩ := x
      intro H D R h hD
      unfold Graph.edgeLoop at h
      split at h
      · exact ih _ _ _ h hD
      split at h
      · exact ih _ _ _ h hD
      split at h
      · cases h
      split at h
      · cases h
      refine ih _ _ _ h ?_
      intro k hk
      obtain ⟨S, hS⟩ := (Dict.has_iff _ _).1 hk
      rw [Dict.get?_set] at hS
      split at hS
      · rename_i hk'; exact ⟨u, v, hk'.symm⟩
      · exact hD k ((Dict.has_iff _ _).2 ⟨S, hS⟩)
  unfold failureReport at h
  split at h
  · cases h
  rename_i G P _
  split at h
  · cases h
  rename_i E hE
  split at h
  · cases h
  simp only [Except.ok.injEq] at h
  subst h
  unfold FailureReport.linkBreakdowns
  dsimp only
  cases hg : E.get? (.site l.tx, .site l.rx) with
  | none => rfl
  | some S =>
    exfalso
    unfold Graph.edgeFailures at hE
    split at hE
    · cases hE
    obtain ⟨u, v, huv⟩ := key _ _ _ _ _ _ hE (by simp [Dict.has]) (.site l.tx, .site l.rx)
      ((Dict.has_iff _ _).2 ⟨S, hg⟩)
    unfold Graph.sortedEdge at huv
    split at huv
    · rename_i hlt'
      simp only [Prod.mk.injEq] at huv
      rw [← huv.1, ← huv.2] at hlt'
      exact absurd hlt (String.lt_asymm hlt')
    · rename_i hlt'
      simp only [Prod.mk.injEq] at huv
      rw [← huv.1, ← huv.2] at hlt'
      exact hlt' hlt


theorem lostAt_iff (inv : t.Inv) {K : Graph} {S} (hlike : (t.buildDigraph inUse cost).Like K S) {s : SiteId}
    {v : GNode} : K.lostAt (.site s) v ↔ ∃ d, v = .demand d ∧ Served t [] [] d ∧ ¬ Served t [s] [] d := by
  have hKe : K.edge = (t.buildDigraph inUse cost).edge := funext fun e => propext (hlike.edge e)
  unfold Graph.lostAt
  rw [Like.fed_iff hlike, fed_iff inv, hKe]
  constructor
  · rintro ⟨⟨d, rfl, hd⟩, hn⟩
    exact ⟨d, rfl, hd, fun c => hn ((joined_site_iff inv).2 c)⟩
  · rintro ⟨d, rfl, hd, hn⟩
    exact ⟨⟨d, rfl, hd⟩, fun c => hn ((joined_site_iff inv).1 c)⟩

/-- C36, the part that holds: for every POP and DN the reported count is the number of demand sites that
lose service when the site fails. Missing: CNs, always reported with 0. -/
theorem C36_site_breakdowns_partial (ops : List Op) (cost : Link → Option Nat) (paths : Paths)
    (hcn : NoCnSender (run {} ops)) (hloop : NoSelfLink (run {} ops)) (hpop : PopInUse (run {} ops))
    (sp : ShortestPaths ((run {} ops).buildDigraph StatusType.active cost).edge .super paths) :
    ∃ r, failureReport (run {} ops) cost paths = .ok r ∧
      ∀ s x, (run {} ops).sites.get? s = some x → x.siteType ≠ .cn →
        LoseService (run {} ops) [s] [] (r.siteBreakdowns x) := by
  have inv := Inv.empty.run ops
  generalize run {} ops = t at *
  obtain ⟨K, r, _, hr, hlike, _, _, hS, _⟩ := report_ok inv hcn hloop hpop sp
  refine ⟨r, hr, fun s x hx hxc => ?_⟩
  have hK : K.nodes.has .super = true := by rw [hlike.nodes]; exact build_super hpop
  have hnd : K.nodes.NodupKeys := by rw [hlike.nodes]; exact build_nodup.1
  unfold Graph.siteFailures at hS
  obtain ⟨C, hC, hCd⟩ := Graph.connected_ok hK
  rw [hC] at hS
  dsimp only at hS
  obtain ⟨S, hS', h1, h2⟩ := Graph.siteLoop_spec (conn := C) hCd K.nodes hnd K ([], []) hK (fun _ => Iff.rfl)
  rw [hS] at hS'
  simp only [Except.ok.injEq] at hS'
  subst hS'
  have hid : x.id = s := inv.site_id _ _ hx
  have hCnd := Graph.connected_nodup hnd hC
  have hsub := Graph.siteLoop_sub _ _ _ _ hS (by simp)
  -- a list of nodes that is exactly the lost demand sites settles the claim
  have fin : ∀ L : List GNode, L.Sublist C → (∀ d, d ∈ L ↔ K.lostAt (.site s) d) →
      LoseService t [s] [] L.length := by
    intro L hL hLd
    obtain ⟨T, k1, k2, k3⟩ := demand_list (hCnd.sublist hL) (fun v hv => by
      obtain ⟨d, h, _⟩ := (lostAt_iff inv hlike).1 ((hLd v).1 hv); exact ⟨d, h⟩)
    refine ⟨T, k1, k2, fun d => ?_⟩
    rw [k3, hLd, lostAt_iff inv hlike]
    constructor
    · rintro ⟨d', h, hs⟩
      simp only [GNode.demand.injEq] at h
      subst h
      exact hs
    · intro h; exact ⟨d, rfl, h⟩
  have fin0 : (∀ d, ¬ K.lostAt (.site s) d) → LoseService t [s] [] 0 := by
    intro h
    exact fin [] (List.nil_sublist _) (fun d => ⟨fun c => by simp at c, fun c => absurd c (h d)⟩)
  by_cases hn : GNode.site s ∈ K.nodes.map (·.1)
  · obtain ⟨a1, a2, a3, a4⟩ := h2 (.site s) hn (by simp) (by simp)
    have hkind : (GNode.site s, some (NodeKind.site x.siteType)) ∈ K.nodes := by
      rw [hlike.nodes] at hn ⊢
      refine (build_kind ?_ inv).2.1 s x rfl hx
      rw [Dict.has_iff, ← Dict.mem_keys_iff]
      exact hn
    unfold FailureReport.siteBreakdowns
    rw [hid]
    cases hty : x.siteType with
    | cn => exact absurd hty hxc
    | pop =>
      dsimp only
      cases hg : r.sites.1.get? (.site s) with
      | none => exact fin0 (a3 (hty ▸ hkind) (by simp) hg)
      | some L => exact fin L (hsub _ _ (Or.inl hg)) (a1 L hg).2.2
    | dn =>
      dsimp only
      cases hg : r.sites.2.get? (.site s) with
      | none => exact fin0 (a4 (hty ▸ hkind) (by simp) hg)
      | some L => exact fin L (hsub _ _ (Or.inr hg)) (a2 L hg).2.2
  · obtain ⟨b1, b2⟩ := h1 (.site s) hn
    have h0 : r.siteBreakdowns x = 0 := by
      unfold FailureReport.siteBreakdowns
      rw [hid, b1, b2]
      cases x.siteType <;> rfl
    rw [h0]
    apply fin0
    rintro v ⟨⟨_, _, hj⟩, hnj⟩
    apply hnj
    have : (fun e => K.edge e ∧ e.1 ≠ GNode.site s) = K.edge := by
      funext e
      apply propext
      constructor
      · exact fun h => h.1
      · intro he
        refine ⟨he, fun c => hn ?_⟩
        have hb := (hlike.edge e).1 he
        rw [build_edge] at hb
        obtain ⟨y, hy, hye⟩ := hb
        have : (t.buildDigraph StatusType.active cost).nodes.has (.site s) = true := by
          rw [build_has]
          exact ⟨y, hy, Or.inl (by rw [← c, ← hye])⟩
        rw [hlike.nodes]
        rw [Dict.has_iff, ← Dict.mem_keys_iff] at this
        exact this
    rw [this]
    exact hj

/-- C37, the part that holds: `disjoint_paths` leaves the same nodes (with attributes) and the same
edges, and the attributes of every edge that leads to a CN, to a demand site or from the supersource.
Missing: the attributes of the other edges on the paths. -/
theorem C37_graph_kept_partial (ops : List Op) (cost : Link → Option Nat) (paths : Paths)
    (hcn : NoCnSender (run {} ops)) (hpop : PopInUse (run {} ops))
    (sp : ShortestPaths ((run {} ops).buildDigraph StatusType.active cost).edge .super paths) :
    let G := (run {} ops).buildDigraph StatusType.active cost
    ∃ K R, disjointPaths (run {} ops) paths G = .ok (K, R) ∧ K.nodes = G.nodes ∧
      (∀ e, e ∈ K.edges.keys ↔ e ∈ G.edges.keys) ∧
      ∀ e, (∀ a b, e = (.site a, .site b) → ¬ NotCn (run {} ops) b) → K.edges.get? e = G.edges.get? e := by
  have inv := Inv.empty.run ops
  generalize run {} ops = t at *
  intro G
  have hsup := build_super (cost := cost) hpop
  obtain ⟨K, R, h1, h2, _⟩ := disjointLoop_spec (cost := cost) inv hcn rfl sp t.demandSites.keys
    (t.buildDigraph inUse cost) {} (fun e => ∃ d ∈ t.demandSites.keys, stripped t paths d e)
    (Graph.Like.refl build_nodup.2 _) (fun d hd e he => ⟨d, hd, he⟩)
  refine ⟨K, R, ?_, h2.nodes, h2.edge, fun e he => ?_⟩
  · unfold disjointPaths; rw [if_pos hsup]; exact h1
  · rcases h2.attr e with h | ⟨⟨d, _, p, _, _, _, a, b, hab, hb⟩, _⟩
    · exact h
    · exact absurd hb (he a b hab)

/-- C37 fails for the edges of every shortest path to a demand site (not one at a POP) that lead to a DN
or POP: they come back without any attribute. -/
theorem C37_attributes_lost_violation (ops : List Op) (cost : Link → Option Nat) (paths : Paths)
    (hcn : NoCnSender (run {} ops)) (hpop : PopInUse (run {} ops))
    (sp : ShortestPaths ((run {} ops).buildDigraph StatusType.active cost).edge .super paths)
    (d : DemandId) (hd : d ∈ (run {} ops).demandSites.keys) (p : List GNode)
    (hp : paths (.demand d) = some p) (hl : 3 < p.length) (a b : SiteId)
    (hab : (GNode.site a, GNode.site b) ∈ pairs p) (hb : NotCn (run {} ops) b) :
    ∃ K R, disjointPaths (run {} ops) paths ((run {} ops).buildDigraph StatusType.active cost) = .ok (K, R) ∧
      K.edges.get? (.site a, .site b) = some { kind := none, cost := none } := by
  have inv := Inv.empty.run ops
  generalize run {} ops = t at *
  have hsup := build_super (cost := cost) hpop
  obtain ⟨K, R, h1, _, h3, _⟩ := disjointLoop_spec (cost := cost) inv hcn rfl sp t.demandSites.keys
    (t.buildDigraph inUse cost) {} (fun e => ∃ d ∈ t.demandSites.keys, stripped t paths d e)
    (Graph.Like.refl build_nodup.2 _) (fun d hd e he => ⟨d, hd, he⟩)
  refine ⟨K, R, ?_, h3 d hd _ ⟨p, hp, hl, hab, a, b, rfl, hb⟩⟩
  unfold disjointPaths; rw [if_pos hsup]; exact h1

/-- C103: the three groups of the report. A demand site is reported disconnected exactly if it has no
service; as connected to a POP exactly if one of its sites is a POP in use; and as having disjoint paths
exactly if it is neither and no single link between DNs and POPs is vital for it. -/
theorem C103_disjoint_paths_exact (ops : List Op) (cost : Link → Option Nat) (paths : Paths)
    (valid : (run {} ops).validateStatus = none)
    (hcn : NoCnSender (run {} ops)) (hpop : PopInUse (run {} ops))
    (sp : ShortestPaths ((run {} ops).buildDigraph StatusType.active cost).edge .super paths) :
    ∃ K R, disjointPaths (run {} ops) paths ((run {} ops).buildDigraph StatusType.active cost) = .ok (K, R) ∧
      (∀ d, d ∈ R.disconnected ↔ d ∈ (run {} ops).demandSites.keys ∧ ¬ Served (run {} ops) [] [] d) ∧
      (∀ d, d ∈ R.atPop ↔ AtPop (run {} ops) d) ∧
      (∀ d, d ∈ R.disjoint ↔ Served (run {} ops) [] [] d ∧ ¬ AtPop (run {} ops) d ∧
        ∀ a b, NotCn (run {} ops) a → NotCn (run {} ops) b → Served (run {} ops) [] [(a, b)] d) := by
  have inv := Inv.empty.run ops
  generalize run {} ops = t at *
  have hsup := build_super (cost := cost) hpop
  obtain ⟨K, R, h1, _, _, _, h5, h6, h7⟩ := disjointLoop_spec (cost := cost) inv hcn rfl sp t.demandSites.keys
    (t.buildDigraph inUse cost) {} (fun e => ∃ d ∈ t.demandSites.keys, stripped t paths d e)
    (Graph.Like.refl build_nodup.2 _) (fun d hd e he => ⟨d, hd, he⟩)
  have hserved : ∀ d, Served t [] [] d ↔ ∃ p, paths (.demand d) = some p := by
    intro d
    rw [← joined_all_iff (cost := cost) inv]
    constructor
    · intro h
      obtain ⟨q, hq⟩ := Joined.walk h
      cases hp : paths (.demand d) with
      | none => exact absurd hq ((sp.none_iff _).1 hp q)
      | some p => exact ⟨p, rfl⟩
    · rintro ⟨p, hp⟩
      exact IsWalk.joined (sp.walk _ _ hp)
  have hkey : ∀ d, Served t [] [] d → d ∈ t.demandSites.keys := by
    rintro d ⟨dm, h, _⟩
    exact (Dict.mem_keys_iff _ _).2 ⟨dm, h⟩
  -- the length of the path
  have hthree : ∀ d p, paths (.demand d) = some p → (p.length ≤ 3 ↔ AtPop t d) := by
    intro d p hp
    obtain ⟨w1, w2, w3⟩ := sp.walk _ _ hp
    constructor
    · intro hl
      obtain ⟨p0, q0, rfl⟩ : ∃ a q, p = a :: q := by
        cases p with
        | nil => simp at w1
        | cons a q => exact ⟨a, q, rfl⟩
      simp only [List.head?_cons, Option.some.injEq] at w1
      subst w1
      cases q0 with
      | nil => simp at w2
      | cons b q =>
        rw [List.isChain_cons_cons] at w3
        obtain ⟨s, y, rfl, k1, k2, k3⟩ := (build_edge_super inv).1 w3.1
        cases q with
        | nil => simp at w2
        | cons c q =>
          have hq : q = [] := by
            cases q with
            | nil => rfl
            | cons z q => simp at hl
          subst hq
          simp only [List.getLast?_cons_cons, List.getLast?_singleton, Option.some.injEq] at w2
          subst w2
          obtain ⟨dm, m1, m2, _⟩ := (build_edge_demand inv).1 (List.isChain_cons_cons.1 w3.2).1
          exact ⟨dm, m1, s, m2, y, k1, k2, (active_iff _).1 k3⟩
    · rintro ⟨dm, m1, s, m2, y, k1, k2, k3⟩
      have := sp.short _ p [.super, .site s, .demand d] hp ⟨rfl, rfl, by
        rw [List.isChain_cons_cons, List.isChain_cons_cons]
        refine ⟨(build_edge_super inv).2 ⟨s, y, rfl, k1, k2, (active_iff _).2 k3⟩,
          (build_edge_demand inv).2 ⟨dm, m1, m2, admits_iff'.2 ⟨y, k1, (active_iff _).2 k3⟩⟩, by simp⟩⟩
      simpa using this
  have hge : ∀ d p, paths (.demand d) = some p → 3 ≤ p.length := by
    intro d p hp
    obtain ⟨w1, w2, w3⟩ := sp.walk _ _ hp
    cases p with
    | nil => simp at w1
    | cons a q =>
      simp only [List.head?_cons, Option.some.injEq] at w1
      subst w1
      cases q with
      | nil => simp at w2
      | cons b q =>
        rw [List.isChain_cons_cons] at w3
        obtain ⟨s, y, rfl, k1, k2, k3⟩ := (build_edge_super inv).1 w3.1
        cases q with
        | nil => simp at w2
        | cons c q => simp
  have hpserved : ∀ d, AtPop t d → Served t [] [] d := by
    rintro d ⟨dm, m1, s, m2, y, k1, k2, k3⟩
    exact ⟨dm, m1, s, m2, Survives.pop k1 k2 k3 (by simp)⟩
  refine ⟨K, R, ?_, fun d => ?_, fun d => ?_, fun d => ?_⟩
  · unfold disjointPaths; rw [if_pos hsup]; exact h1
  · rw [h5, hserved]
    simp only [List.not_mem_nil, false_or, not_exists]
    cases paths (.demand d) <;> simp
  · rw [h6]
    simp only [List.not_mem_nil, false_or]
    constructor
    · rintro ⟨_, p, hp, hl⟩
      exact (hthree d p hp).1 (le_of_eq hl)
    · intro h
      have hs := hpserved d h
      obtain ⟨p, hp⟩ := (hserved d).1 hs
      exact ⟨hkey d hs, p, hp, le_antisymm ((hthree d p hp).2 h) (hge d p hp)⟩
  · rw [h7]
    simp only [List.not_mem_nil, false_or]
    constructor
    · rintro ⟨_, p, hp, hl, hj⟩
      have hw := sp.walk _ _ hp
      refine ⟨(hserved d).2 ⟨p, hp⟩, fun c => absurd ((hthree d p hp).2 c) (by omega), ?_⟩
      exact (disjoint_iff inv hcn valid hw (shortest_nodup hw (fun q hq => sp.short _ _ _ hp hq))).1 hj
    · rintro ⟨hs, hn, h⟩
      obtain ⟨p, hp⟩ := (hserved d).1 hs
      have hw := sp.walk _ _ hp
      refine ⟨hkey d hs, p, hp, ?_, ?_⟩
      · by_contra c
        exact hn ((hthree d p hp).1 (by omega))
      · exact (disjoint_iff inv hcn valid hw (shortest_nodup hw (fun q hq => sp.short _ _ _ hp hq))).2 h

end Verif
