import Verif.Lemmas.Percentile
import Verif.Props.Statistics
import Verif.Props.Availability

/-!
# Failures, demand and availability in the report (C120)
-/

namespace Verif

open Spec Topology Relation Finset

variable {t : Topology} {cost : Link → Option Nat}

/-- Counting by another name. -/
theorem Describes_image {ι κ : Type} [DecidableEq κ] {s : Stat} {S : Finset ι} {f : ι → ℚ} (h : Describes s S f)
    (g : ι → κ) (f' : κ → ℚ) (hg : ∀ i ∈ S, ∀ j ∈ S, g i = g j → i = j) (hf : ∀ i ∈ S, f' (g i) = f i) :
    Describes s (S.image g) f' := by
  refine ⟨fun c => h.none (Finset.image_eq_empty.1 c), ?_, fun hne => ?_, fun hne => ?_⟩
  · rw [Finset.card_image_of_injOn (fun i hi j hj e => hg i hi j hj e), Finset.sum_image hg, h.avg]
    exact Finset.sum_congr rfl fun i hi => (hf i hi).symm
  · obtain ⟨⟨i, hi, e⟩, h2⟩ := h.max (Finset.image_nonempty.1 hne)
    refine ⟨⟨g i, Finset.mem_image_of_mem _ hi, (hf i hi).trans e⟩, fun k hk => ?_⟩
    obtain ⟨j, hj, rfl⟩ := Finset.mem_image.1 hk
    rw [hf j hj]; exact h2 j hj
  · obtain ⟨⟨i, hi, e⟩, h2⟩ := h.min (Finset.image_nonempty.1 hne)
    refine ⟨⟨g i, Finset.mem_image_of_mem _ hi, (hf i hi).trans e⟩, fun k hk => ?_⟩
    obtain ⟨j, hj, rfl⟩ := Finset.mem_image.1 hk
    rw [hf j hj]; exact h2 j hj

theorem sizes_keys {α β : Type} [DecidableEq α] {d : Dict α (List β)} (hd : d.NodupKeys) :
    sizes d = d.keys.map fun k => ((((d.get? k).getD []).length : ℕ) : ℚ) := by
  unfold sizes Dict.vals Dict.keys
  rw [List.map_map, List.map_map]
  apply List.map_congr_left
  rintro ⟨k, v⟩ hk
  have := (Dict.mem_iff_get? hd k v).1 hk
  simp only [Function.comp]
  rw [this]
  rfl

/-! ### Failures of sites -/

theorem Graph.siteLoop_nodup {conn : List GNode} (L : List (GNode × Option NodeKind)) :
    ∀ (H : Graph) (D R : Dict GNode (List GNode) × Dict GNode (List GNode)), Graph.siteLoop conn H D L = .ok R →
      D.1.NodupKeys → D.2.NodupKeys → R.1.NodupKeys ∧ R.2.NodupKeys := by
  induction L with
  | nil =>
    intro H D R h h1 h2
    unfold Graph.siteLoop at h
    simp only [Except.ok.injEq] at h
    subst h
    exact ⟨h1, h2⟩
  | cons x L ih =>
    obtain ⟨s, k⟩ := x
    intro H D R h h1 h2
    unfold Graph.siteLoop at h
    split at h
    · exact ih _ _ _ h h1 h2
    · split at h
      · cases h
      · dsimp only at h
        refine ih _ _ _ h ?_ ?_
        · split
          · exact h1
          · split
            · exact Dict.NodupKeys.set h1 _ _
            · split <;> exact h1
        · split
          · exact h2
          · split
            · exact h2
            · split
              · exact Dict.NodupKeys.set h2 _ _
              · exact h2

/-- The nodes of a type are the sites in use of that type, as far as they occur in the graph. -/
theorem node_of_kind (inv : t.Inv) {v : GNode} {ty : SiteType}
    (h : (v, some (NodeKind.site ty)) ∈ (t.buildDigraph inUse cost).nodes) :
    ∃ s x, v = .site s ∧ t.sites.get? s = some x ∧ x.siteType = ty ∧ InNetwork x.status := by
  have nd := (build_nodup (t := t) (f := inUse) (cost := cost)).1
  have hg := (Dict.mem_iff_get? nd _ _).1 h
  have hh : (t.buildDigraph inUse cost).nodes.has v = true := (Dict.has_iff _ _).2 ⟨_, hg⟩
  have uniq : ∀ k, (v, some k) ∈ (t.buildDigraph inUse cost).nodes → k = .site ty := by
    intro k hk
    have := (Dict.mem_iff_get? nd _ _).1 hk
    rw [hg] at this
    simp only [Option.some.injEq] at this
    exact this.symm
  obtain ⟨k1, k2, k3⟩ := build_kind hh inv
  have adm : ∀ s, t.admits inUse s = true → v = .site s →
      ∃ s x, v = .site s ∧ t.sites.get? s = some x ∧ x.siteType = ty ∧ InNetwork x.status := by
    intro s hs e
    obtain ⟨x, hx, hf⟩ := admits_iff'.1 hs
    have := uniq _ (k2 s x e hx)
    simp only [NodeKind.site.injEq] at this
    exact ⟨s, x, e, hx, this, (active_iff _).1 hf⟩
  obtain ⟨x, hx, hv⟩ := (build_has v).1 hh
  rcases mem_digraph.1 hx with ⟨e, h1, h2, h3, rfl⟩ | ⟨l, h1, h2, h3, h4, rfl⟩ | ⟨e, h1, s, h2, h3, rfl⟩
  · rcases hv with hv | hv
    · have := uniq _ (k1 hv); cases this
    · have hx := (Dict.mem_iff_get? inv.nd_sites e.1 e.2).1 h1
      exact adm e.1 (admits_iff'.2 ⟨e.2, hx, h3⟩) hv
  · rcases hv with hv | hv
    · exact adm _ h3 hv
    · exact adm _ h4 hv
  · rcases hv with hv | hv
    · exact adm _ h3 hv
    · have hx := (Dict.mem_iff_get? inv.nd_demand e.1 e.2).1 h1
      have := uniq _ (k3 e.1 e.2 hv hx)
      cases this

/-- The sites in use of a type. -/
def usedSites (t : Topology) (ty : SiteType) : Finset SiteId :=
  ((t.sites.filter (fun p => p.2.siteType = ty && activeFilter p.2.status)).map (·.1)).toFinset

theorem mem_usedSites (inv : t.Inv) {ty : SiteType} {s : SiteId} :
    s ∈ usedSites t ty ↔ ∃ x, t.sites.get? s = some x ∧ x.siteType = ty ∧ InNetwork x.status := by
  unfold usedSites
  rw [List.mem_toFinset, List.mem_map]
  constructor
  · rintro ⟨⟨s', x⟩, h, rfl⟩
    rw [List.mem_filter] at h
    simp only [Bool.and_eq_true, decide_eq_true_eq] at h
    exact ⟨x, (Dict.mem_iff_get? inv.nd_sites _ _).1 h.1, h.2.1, (active_iff _).1 h.2.2⟩
  · rintro ⟨x, h1, h2, h3⟩
    refine ⟨(s, x), List.mem_filter.2 ⟨(Dict.mem_iff_get? inv.nd_sites _ _).2 h1, ?_⟩, rfl⟩
    simp only [Bool.and_eq_true, decide_eq_true_eq]
    exact ⟨h2, (active_iff _).2 h3⟩

theorem usedSites_card (inv : t.Inv) (ty : SiteType) : (usedSites t ty).card = t.siteCount activeFilter ty := by
  unfold usedSites
  rw [siteCount_eq, List.toFinset_card_of_nodup, List.length_map]
  exact List.Nodup.sublist (List.Sublist.map _ List.filter_sublist) inv.nd_sites

/-- Statistics from a dictionary of failures of the sites of a type. -/
theorem siteStat_describes (inv : t.Inv) {D : Dict GNode (List GNode)} (hn : D.NodupKeys) (ty : SiteType)
    (hD : ∀ v S, D.get? v = some S → S ≠ [] ∧ ∃ s ∈ usedSites t ty, v = .site s) :
    Describes (failStat (sizes D) (t.siteCount activeFilter ty)) (usedSites t ty)
      (fun s => ((((D.get? (.site s)).getD []).length : ℕ) : ℚ)) := by
  classical
  let back : GNode → SiteId := fun v => match v with | .site s => s | _ => ""
  have hk : ∀ v ∈ D.keys, ∃ s ∈ usedSites t ty, v = .site s := by
    intro v hv
    obtain ⟨S, hS⟩ := (Dict.mem_keys_iff _ _).1 hv
    exact (hD v S hS).2
  have hback : ∀ v ∈ D.keys, .site (back v) = v := by
    intro v hv
    obtain ⟨s, _, rfl⟩ := hk v hv
    rfl
  have e : sizes D = (D.keys.map back).map fun s => ((((D.get? (.site s)).getD []).length : ℕ) : ℚ) := by
    rw [sizes_keys hn, List.map_map]
    apply List.map_congr_left
    intro v hv
    simp only [Function.comp]
    rw [hback v hv]
  rw [e, ← usedSites_card inv]
  refine failStat_describes (D.keys.map back) ?_ _ ?_ (fun s => ((D.get? (.site s)).getD []).length) ?_ ?_
  · refine List.Nodup.map_on ?_ hn
    intro a ha b hb hab
    rw [← hback a ha, ← hback b hb, hab]
  · intro s hs
    obtain ⟨v, hv, rfl⟩ := List.mem_map.1 hs
    obtain ⟨s', hs', rfl⟩ := hk v hv
    exact hs'
  · intro s hs
    obtain ⟨v, hv, rfl⟩ := List.mem_map.1 hs
    rw [hback v hv]
    obtain ⟨S, hS⟩ := (Dict.mem_keys_iff _ _).1 hv
    rw [hS]
    exact List.length_pos_iff.2 (hD v S hS).1
  · intro s _ hni
    cases hg : D.get? (.site s) with
    | none => rfl
    | some S =>
      exact absurd (List.mem_map.2 ⟨GNode.site s, (Dict.mem_keys_iff _ _).2 ⟨S, hg⟩, rfl⟩) hni

/-- The failures of sites, for a given network. -/
theorem site_failures (inv : t.Inv) {paths : Paths} (hcn : NoCnSender t) (hloop : NoSelfLink t) (hpop : PopInUse t)
    (sp : ShortestPaths (t.buildDigraph inUse cost).edge .super paths) {r : FailureReport}
    (hr : failureReport t cost paths = .ok r) :
    r.sites.1.NodupKeys ∧ r.sites.2.NodupKeys ∧
    (∀ v S, r.sites.1.get? v = some S → S ≠ [] ∧ ∃ s ∈ usedSites t .pop, v = .site s) ∧
    (∀ v S, r.sites.2.get? v = some S → S ≠ [] ∧ ∃ s ∈ usedSites t .dn, v = .site s) := by
  obtain ⟨K, r', _, hr', hlike, _, _, hS, _⟩ := report_ok inv hcn hloop hpop sp
  rw [hr] at hr'
  simp only [Except.ok.injEq] at hr'
  subst hr'
  have hK : K.nodes.has .super = true := by rw [hlike.nodes]; exact build_super hpop
  have hnd : K.nodes.NodupKeys := by rw [hlike.nodes]; exact build_nodup.1
  unfold Graph.siteFailures at hS
  obtain ⟨C, hC, hCd⟩ := Graph.connected_ok hK
  rw [hC] at hS
  dsimp only at hS
  obtain ⟨S, hS', h1, h2⟩ := Graph.siteLoop_spec (conn := C) hCd K.nodes hnd K ([], []) hK (fun _ => Iff.rfl)
  rw [hS] at hS'
  simp only [Except.ok.injEq] at hS'
  subst hS'
  obtain ⟨n1, n2⟩ := Graph.siteLoop_nodup _ _ _ _ hS (by simp [Dict.NodupKeys, Dict.keys])
    (by simp [Dict.NodupKeys, Dict.keys])
  refine ⟨n1, n2, fun v S hg => ?_, fun v S hg => ?_⟩
  · by_cases hn : v ∈ K.nodes.map (·.1)
    · obtain ⟨a1, _⟩ := h2 v hn (by simp) (by simp)
      obtain ⟨b1, b2, _⟩ := a1 S hg
      rw [hlike.nodes] at b1
      obtain ⟨s, x, e, hx, k1, k2⟩ := node_of_kind inv b1
      exact ⟨b2, s, (mem_usedSites inv).2 ⟨x, hx, k1, k2⟩, e⟩
    · have := (h1 v hn).1
      rw [hg] at this
      simp at this
  · by_cases hn : v ∈ K.nodes.map (·.1)
    · obtain ⟨_, a1, _⟩ := h2 v hn (by simp) (by simp)
      obtain ⟨b1, b2, _⟩ := a1 S hg
      rw [hlike.nodes] at b1
      obtain ⟨s, x, e, hx, k1, k2⟩ := node_of_kind inv b1
      exact ⟨b2, s, (mem_usedSites inv).2 ⟨x, hx, k1, k2⟩, e⟩
    · have := (h1 v hn).2
      rw [hg] at this
      simp at this

/-- **C120.** The statistics of site failures are over the POPs in use and over the DNs in use, of the number of demand
sites that lose service when the site fails. -/
theorem C120_site_failures (ops : List Op) (cost : Link → Option Nat) (paths : Paths)
    (hcn : NoCnSender (run {} ops)) (hloop : NoSelfLink (run {} ops)) (hpop : PopInUse (run {} ops))
    (sp : ShortestPaths ((run {} ops).buildDigraph StatusType.active cost).edge .super paths)
    (I : MetricsInput) (m : Metrics) (hr : failureReport (run {} ops) cost paths = .ok I.failures)
    (h : metrics (run {} ops) I = .ok m) :
    ∃ (P D : Finset SiteId) (f : SiteId → ℕ),
      (∀ s, s ∈ P ↔ ∃ x, (run {} ops).sites.get? s = some x ∧ x.siteType = .pop ∧ InNetwork x.status) ∧
      (∀ s, s ∈ D ↔ ∃ x, (run {} ops).sites.get? s = some x ∧ x.siteType = .dn ∧ InNetwork x.status) ∧
      (∀ s, s ∈ P ∨ s ∈ D → LoseService (run {} ops) [s] [] (f s)) ∧
      Describes m.popFail P (fun s => (f s : ℚ)) ∧ Describes m.dnFail D (fun s => (f s : ℚ)) := by
  have inv := Inv.empty.run ops
  obtain ⟨r, hr', hl⟩ := C36_site_breakdowns_partial ops cost paths hcn hloop hpop sp
  generalize run {} ops = t at *
  rw [hr] at hr'
  simp only [Except.ok.injEq] at hr'
  subst hr'
  obtain ⟨n1, n2, k1, k2⟩ := site_failures inv hcn hloop hpop sp hr
  obtain ⟨bh, ac, _, _, rfl⟩ := metrics_ok inv h
  have d1 := siteStat_describes inv n1 .pop k1
  have d2 := siteStat_describes inv n2 .dn k2
  have hdisj : ∀ s, s ∈ usedSites t .dn → s ∉ usedSites t .pop := by
    intro s h1 h2
    obtain ⟨x, hx, hx1, _⟩ := (mem_usedSites inv).1 h1
    obtain ⟨y, hy, hy1, _⟩ := (mem_usedSites inv).1 h2
    rw [hx] at hy
    cases hy
    rw [hx1] at hy1
    cases hy1
  refine ⟨usedSites t .pop, usedSites t .dn, fun s => if s ∈ usedSites t .pop
      then ((I.failures.sites.1.get? (.site s)).getD []).length
      else ((I.failures.sites.2.get? (.site s)).getD []).length,
    fun s => mem_usedSites inv, fun s => mem_usedSites inv, ?_, ?_, ?_⟩
  · intro s hs
    have hs' : ∃ x, t.sites.get? s = some x ∧ x.siteType ≠ .cn := by
      rcases hs with hs | hs
      · obtain ⟨x, hx, hx1, _⟩ := (mem_usedSites inv).1 hs
        exact ⟨x, hx, by rw [hx1]; simp⟩
      · obtain ⟨x, hx, hx1, _⟩ := (mem_usedSites inv).1 hs
        exact ⟨x, hx, by rw [hx1]; simp⟩
    obtain ⟨x, hx, hxc⟩ := hs'
    have := hl s x hx hxc
    have hid : x.id = s := inv.site_id _ _ hx
    unfold FailureReport.siteBreakdowns at this
    rw [hid] at this
    by_cases c : s ∈ usedSites t .pop
    · obtain ⟨y, hy, hy1, _⟩ := (mem_usedSites inv).1 c
      rw [hx] at hy
      cases hy
      rw [hy1] at this
      simp only [c, if_true]
      exact this
    · rcases hs with hs | hs
      · exact absurd hs c
      · obtain ⟨y, hy, hy1, _⟩ := (mem_usedSites inv).1 hs
        rw [hx] at hy
        cases hy
        rw [hy1] at this
        simp only [c, if_false]
        exact this
  · have e := Describes_image d1 id (fun s => (((if s ∈ usedSites t .pop
      then ((I.failures.sites.1.get? (.site s)).getD []).length
      else ((I.failures.sites.2.get? (.site s)).getD []).length) : ℕ) : ℚ)) (fun _ _ _ _ e => e)
      (fun i hi => by simp only [id, hi, if_true])
    rwa [Finset.image_id] at e
  · have e := Describes_image d2 id (fun s => (((if s ∈ usedSites t .pop
      then ((I.failures.sites.1.get? (.site s)).getD []).length
      else ((I.failures.sites.2.get? (.site s)).getD []).length) : ℕ) : ℚ)) (fun _ _ _ _ e => e)
      (fun i hi => by simp only [id, hdisj i hi, if_false])
    rwa [Finset.image_id] at e

/-! ### Failures of links -/

theorem Graph.edgeLoop_nodup {G : Graph} {conn : List GNode} (L : List (GEdge × EdgeAttr)) :
    ∀ (H : Graph) (D R : Dict GEdge (List GNode)), Graph.edgeLoop G conn H D L = .ok R →
      D.NodupKeys → R.NodupKeys := by
  induction L with
  | nil =>
    intro H D R h hD
    unfold Graph.edgeLoop at h
    simp only [Except.ok.injEq] at h
    subst h
    exact hD
  | cons x L ih =>
    obtain ⟨⟨u, v⟩, a⟩ := x
    intro H D R h hD
    unfold Graph.edgeLoop at h
    split at h
    · exact ih _ _ _ h hD
    · split at h
      · exact ih _ _ _ h hD
      · split at h
        · cases h
        · split at h
          · cases h
          · exact ih _ _ _ h (Dict.NodupKeys.set hD _ _)

theorem sortedEdge_comm' (u v : SiteId) :
    Graph.sortedEdge (.site u) (.site v) = Graph.sortedEdge (.site v) (.site u) := by
  unfold Graph.sortedEdge
  change (if u < v then _ else _) = (if v < u then _ else _)
  rcases lt_trichotomy u v with h | h | h
  · rw [if_pos h, if_neg (not_lt.2 h.le)]
  · subst h; rfl
  · rw [if_neg (not_lt.2 h.le), if_pos h]

/-- The key under which the failure of the links between two sites is listed. -/
def pairKey : Sym2 SiteId → GEdge :=
  Sym2.lift ⟨fun a b => Graph.sortedEdge (.site a) (.site b), sortedEdge_comm'⟩

/-- The sites of a key. -/
def keyPair : GEdge → Sym2 SiteId
  | (.site a, .site b) => s(a, b)
  | _ => s("", "")

theorem keyPair_sorted (a b : SiteId) : keyPair (Graph.sortedEdge (.site a) (.site b)) = s(a, b) := by
  rcases Graph.sortedEdge_cases (.site a) (.site b) with h | h <;> rw [h]
  · rfl
  · exact Sym2.eq_swap

theorem pairKey_keyPair (a b : SiteId) :
    pairKey (keyPair (Graph.sortedEdge (.site a) (.site b))) = Graph.sortedEdge (.site a) (.site b) := by
  rw [keyPair_sorted]; rfl

/-- The failures of links, for a given network without wired links in use. -/
theorem link_failures (inv : t.Inv) {paths : Paths} (hcn : NoCnSender t) (hloop : NoSelfLink t) (hpop : PopInUse t)
    (hw : ∀ i l, t.links.get? i = some l → InNetwork l.status → l.isWireless = true)
    (sp : ShortestPaths (t.buildDigraph inUse cost).edge .super paths) {r : FailureReport}
    (hr : failureReport t cost paths = .ok r) :
    r.edges.NodupKeys ∧
    (∀ k ∈ r.edges.keys, ∃ l, CountedLink t l ∧ k = Graph.sortedEdge (.site l.tx) (.site l.rx)) ∧
    ∀ l, CountedLink t l → ∃ S, r.edges.get? (Graph.sortedEdge (.site l.tx) (.site l.rx)) = some S ∧
      LoseService t [] [(l.tx, l.rx)] S.length := by
  obtain ⟨K, r', _, hr', hlike, _, hE, _, _⟩ := report_ok inv hcn hloop hpop sp
  rw [hr] at hr'
  simp only [Except.ok.injEq] at hr'
  subst hr'
  have hK : K.nodes.has .super = true := by rw [hlike.nodes]; exact build_super hpop
  have hself : ∀ e, K.edge e → e.1 ≠ e.2 := by
    rintro ⟨u, v⟩ he c
    dsimp only at c
    subst c
    have := (hlike.edge _).1 he
    cases u with
    | super => exact build_no_in this
    | demand d => exact build_no_out this
    | site s =>
      obtain ⟨l, hl, _⟩ := (build_edge_site inv).1 this
      rw [hloop s] at hl
      cases hl
  obtain ⟨D, hD, hD1, hD2⟩ := Graph.edgeFailures_spec hself hK
  rw [hE] at hD
  simp only [Except.ok.injEq] at hD
  subst hD
  have hE' := hE
  unfold Graph.edgeFailures at hE
  obtain ⟨C, hC, _⟩ := Graph.connected_ok hK
  rw [hC] at hE
  dsimp only at hE
  have hCnd := Graph.connected_nodup (by rw [hlike.nodes]; exact build_nodup.1) hC
  refine ⟨Graph.edgeLoop_nodup _ _ _ _ hE (by simp [Dict.NodupKeys, Dict.keys]), ?_, ?_⟩
  · intro k hk
    obtain ⟨⟨⟨u, v⟩, a⟩, hx, hsk, rfl⟩ := hD2 k ((Dict.has_iff _ _).2 ((Dict.mem_keys_iff _ _).1 hk))
    dsimp only at hsk ⊢
    have hge : K.edge (u, v) := List.mem_map.2 ⟨_, hx, rfl⟩
    have hbe := (hlike.edge _).1 hge
    -- such an edge joins two sites, the second of which is no CN
    have main : ∃ p q y, u = .site p ∧ v = .site q ∧ t.sites.get? q = some y ∧ y.siteType ≠ .cn := by
      rcases hlike.attr (u, v) with hat | ⟨⟨d, _, p, _, _, _, p', q', e, y, hy, hyc⟩, _, _⟩
      · have hKn : K.edges.NodupKeys := hlike.nd
        rw [(Dict.mem_iff_get? hKn _ _).1 hx] at hat
        rcases mem_digraph.1 (build_get? hat.symm) with ⟨e, k1, k2, k3, k4⟩ | ⟨l', k1, k2, k3, k4, k5⟩ |
          ⟨e, k1, s, k2, k3, k4⟩
        · simp only [Prod.mk.injEq] at k4
          rw [k4.2.2] at hsk
          exact absurd hsk (by decide)
        · simp only [Prod.mk.injEq] at k5
          obtain ⟨rfl, rfl, rfl⟩ := k5
          have hg := (mem_vals_iff inv).1 k1
          obtain ⟨y, hy⟩ := inv.link_rx _ _ hg
          refine ⟨l'.tx, l'.rx, y, rfl, rfl, hy, fun c => ?_⟩
          have hty : t.linkType l' = .wirelessAccess :=
            (linkType_iff hy _).2 ⟨hw _ _ hg ((active_iff _).1 k2), y, hy, c⟩
          unfold Graph.skipped at hsk
          rw [hty] at hsk
          simp at hsk
        · simp only [Prod.mk.injEq] at k4
          rw [k4.2.2] at hsk
          exact absurd hsk (by decide)
      · simp only [Prod.mk.injEq] at e
        exact ⟨p', q', y, e.1, e.2, hy, hyc⟩
    obtain ⟨p, q, y, rfl, rfl, hy, hyc⟩ := main
    obtain ⟨l, hl, hf, ha, hb⟩ := (build_edge_site inv).1 hbe
    obtain ⟨x, hx1, hx2⟩ := admits_iff'.1 ha
    obtain ⟨y', hy1, hy2⟩ := admits_iff'.1 hb
    rw [hy] at hy1
    cases hy1
    have hid : (⟨p, q⟩ : LinkId) = ⟨l.tx, l.rx⟩ := inv.link_id _ _ hl
    cases hid
    exact ⟨l, ⟨hl, hw _ _ hl ((active_iff _).1 hf), (active_iff _).1 hf, ⟨x, hx1, (active_iff _).1 hx2⟩, y, hy,
      (active_iff _).1 hy2, hyc⟩, rfl⟩
  · intro l hl
    obtain ⟨a, ha, hak⟩ := counted_edge (cost := cost) inv hl
    obtain ⟨a', ha', hsk⟩ : ∃ a', K.edges.get? (.site l.tx, .site l.rx) = some a' ∧ Graph.skipped a' = false := by
      rcases hlike.attr (.site l.tx, .site l.rx) with h | ⟨_, _, h⟩
      · exact ⟨a, h.trans ha, by unfold Graph.skipped; rw [hak]; decide⟩
      · exact ⟨_, h, by decide⟩
    obtain ⟨S, hS, hSd⟩ := hD1 (_, a') (Dict.mem_of_get? _ ha') hsk
    refine ⟨S, hS, ?_⟩
    have hSnd : S.Nodup := hCnd.sublist (Graph.edgeLoop_sub _ _ _ _ hE (by simp) _ _ hS)
    have hKe : K.edge = (t.buildDigraph StatusType.active cost).edge := funext fun e => propext (hlike.edge e)
    have hmem : ∀ v, v ∈ S ↔ (∃ d, v = .demand d ∧ Served t [] [] d) ∧
        ¬ Joined ((t.buildDigraph StatusType.active cost).without (.site l.tx) (.site l.rx)) .super v := by
      intro v
      rw [hSd, Like.fed_iff hlike, fed_iff inv]
      have : K.without (.site l.tx) (.site l.rx) =
          (t.buildDigraph StatusType.active cost).without (.site l.tx) (.site l.rx) := by
        funext e; unfold Graph.without; rw [hKe]
      dsimp only
      rw [this]
    obtain ⟨T, h1, h2, h3⟩ := demand_list hSnd (fun v hv => by
      obtain ⟨⟨d, h, _⟩, _⟩ := (hmem v).1 hv; exact ⟨d, h⟩)
    refine ⟨T, h1, h2, fun d => ?_⟩
    rw [h3, hmem]
    constructor
    · rintro ⟨⟨d', h, hs⟩, hn⟩
      simp only [GNode.demand.injEq] at h
      subst h
      exact ⟨hs, fun c => hn ((joined_link_iff inv).2 c)⟩
    · rintro ⟨hs, hn⟩
      exact ⟨⟨d, rfl, hs⟩, fun c => hn ((joined_link_iff inv).1 c)⟩

/-- **C120.** The statistics of link failures are over the pairs of sites with a wireless backhaul link in use, of the
number of demand sites that lose service when both directions fail. (A report with a wired link in use is not made, see
`C119_wired_violation`.) -/
theorem C120_link_failures (ops : List Op) (cost : Link → Option Nat) (paths : Paths)
    (hcn : NoCnSender (run {} ops)) (hloop : NoSelfLink (run {} ops)) (hpop : PopInUse (run {} ops))
    (hw : ∀ i l, (run {} ops).links.get? i = some l → InNetwork l.status → l.isWireless = true)
    (sp : ShortestPaths ((run {} ops).buildDigraph StatusType.active cost).edge .super paths)
    (I : MetricsInput) (m : Metrics) (hr : failureReport (run {} ops) cost paths = .ok I.failures)
    (h : metrics (run {} ops) I = .ok m) :
    ∃ (P : Finset (Sym2 SiteId)) (f : Sym2 SiteId → ℕ),
      (∀ p, p ∈ P ↔ ∃ l, CountedLink (run {} ops) l ∧ p = s(l.tx, l.rx)) ∧
      (∀ l, CountedLink (run {} ops) l → LoseService (run {} ops) [] [(l.tx, l.rx)] (f s(l.tx, l.rx))) ∧
      Describes m.edgeFail P (fun p => (f p : ℚ)) := by
  have inv := Inv.empty.run ops
  generalize run {} ops = t at *
  obtain ⟨n, k1, k2⟩ := link_failures inv hcn hloop hpop hw sp hr
  obtain ⟨bh, ac, _, _, rfl⟩ := metrics_ok inv h
  have d := statOf_describes I.failures.edges.keys n
    (fun k => ((((I.failures.edges.get? k).getD []).length : ℕ) : ℚ))
  rw [← sizes_keys n] at d
  have hpk : ∀ k ∈ I.failures.edges.keys.toFinset, pairKey (keyPair k) = k := by
    intro k hk
    obtain ⟨l, _, rfl⟩ := k1 k (List.mem_toFinset.1 hk)
    exact pairKey_keyPair _ _
  refine ⟨I.failures.edges.keys.toFinset.image keyPair,
    fun p => ((I.failures.edges.get? (pairKey p)).getD []).length, fun p => ?_, fun l hl => ?_,
    Describes_image d keyPair _ (fun i hi j hj e => ?_) (fun i hi => ?_)⟩
  · rw [Finset.mem_image]
    constructor
    · rintro ⟨k, hk, rfl⟩
      obtain ⟨l, hl, rfl⟩ := k1 k (List.mem_toFinset.1 hk)
      exact ⟨l, hl, keyPair_sorted _ _⟩
    · rintro ⟨l, hl, rfl⟩
      obtain ⟨S, hS, _⟩ := k2 l hl
      exact ⟨_, List.mem_toFinset.2 ((Dict.mem_keys_iff _ _).2 ⟨S, hS⟩), keyPair_sorted _ _⟩
  · obtain ⟨S, hS, hL⟩ := k2 l hl
    change LoseService t [] _ ((I.failures.edges.get? (Graph.sortedEdge (.site l.tx) (.site l.rx))).getD []).length
    rw [hS]
    exact hL
  · rw [← hpk i hi, ← hpk j hj, e]
  · dsimp only
    rw [hpk i hi]

/-! ### Demand -/

theorem disjointLoop_nodup {paths : Paths} (L : List DemandId) : ∀ (G K : Graph) (R R' : DisjointPath),
    disjointLoop t paths G R L = .ok (K, R') →
    (∃ A, R'.disconnected = A ++ R.disconnected ∧ A.Sublist L.reverse) ∧
    (∃ A, R'.atPop = A ++ R.atPop ∧ A.Sublist L.reverse) ∧
    (∃ A, R'.disjoint = A ++ R.disjoint ∧ A.Sublist L.reverse) := by
  induction L with
  | nil =>
    intro G K R R' h
    unfold disjointLoop at h
    simp only [Except.ok.injEq, Prod.mk.injEq] at h
    obtain ⟨rfl, rfl⟩ := h
    exact ⟨⟨[], rfl, List.nil_sublist _⟩, ⟨[], rfl, List.nil_sublist _⟩, ⟨[], rfl, List.nil_sublist _⟩⟩
  | cons d L ih =>
    intro G K R R' h
    have keep : ∀ {A : List DemandId}, A.Sublist L.reverse → A.Sublist (d :: L).reverse := by
      intro A hA
      rw [List.reverse_cons]
      exact hA.trans (List.sublist_append_left _ _)
    have more : ∀ {A : List DemandId}, A.Sublist L.reverse → (A ++ [d]).Sublist (d :: L).reverse := by
      intro A hA
      rw [List.reverse_cons]
      exact hA.append (List.Sublist.refl _)
    unfold disjointLoop at h
    split at h
    · obtain ⟨⟨A, a1, a2⟩, ⟨B, b1, b2⟩, ⟨C, c1, c2⟩⟩ := ih _ _ _ _ h
      exact ⟨⟨A ++ [d], by rw [a1]; simp, more a2⟩, ⟨B, b1, keep b2⟩, ⟨C, c1, keep c2⟩⟩
    · split at h
      · split at h
        · cases h
        · split at h
          · split at h
            · cases h
            · split at h
              · cases h
              · obtain ⟨⟨A, a1, a2⟩, ⟨B, b1, b2⟩, ⟨C, c1, c2⟩⟩ := ih _ _ _ _ h
                exact ⟨⟨A, a1, keep a2⟩, ⟨B ++ [d], by rw [b1]; simp, more b2⟩, ⟨C, c1, keep c2⟩⟩
          · cases h
      · split at h
        · cases h
        · split at h
          · cases h
          · rename_i H _
            obtain ⟨⟨A, a1, a2⟩, ⟨B, b1, b2⟩, ⟨C, c1, c2⟩⟩ := ih _ _ _ _ h
            by_cases cc : ((H.reach .super).contains (GNode.demand d)) = true
            · rw [if_pos cc] at a1 b1 c1
              exact ⟨⟨A, a1, keep a2⟩, ⟨B, b1, keep b2⟩, ⟨C ++ [d], by rw [c1]; simp, more c2⟩⟩
            · rw [if_neg cc] at a1 b1 c1
              exact ⟨⟨A, a1, keep a2⟩, ⟨B, b1, keep b2⟩, ⟨C, c1, keep c2⟩⟩

/-- **C120.** The numbers of demand sites are those of all, of those without service, of those at a POP in use, and of
those that keep service whichever backhaul link fails; the percentage is the share of the last among those not at a
POP, between 0 and 100. -/
theorem C120_demand (ops : List Op) (cost : Link → Option Nat) (paths : Paths)
    (valid : (run {} ops).validateStatus = none) (hcn : NoCnSender (run {} ops)) (hpop : PopInUse (run {} ops))
    (sp : ShortestPaths ((run {} ops).buildDigraph StatusType.active cost).edge .super paths)
    (I : MetricsInput) (m : Metrics) (hr : failureReport (run {} ops) cost paths = .ok I.failures)
    (h : metrics (run {} ops) I = .ok m) :
    ∃ all off atPop safe : Finset DemandId,
      (∀ d, d ∈ all ↔ ∃ x, (run {} ops).demandSites.get? d = some x) ∧
      (∀ d, d ∈ off ↔ d ∈ all ∧ ¬ Served (run {} ops) [] [] d) ∧
      (∀ d, d ∈ atPop ↔ AtPop (run {} ops) d) ∧
      (∀ d, d ∈ safe ↔ Served (run {} ops) [] [] d ∧ ¬ AtPop (run {} ops) d ∧
        ∀ a b, NotCn (run {} ops) a → NotCn (run {} ops) b → Served (run {} ops) [] [(a, b)] d) ∧
      m.demands = all.card ∧ m.disconnected = off.card ∧ m.atPop = atPop.card ∧ m.disjoint = safe.card ∧
      m.disjointPercent * (all \ atPop).card = 100 * safe.card ∧ 0 ≤ m.disjointPercent ∧ m.disjointPercent ≤ 100 ∧
      m.totalDemand = ∑ d ∈ all, (match (run {} ops).demandSites.get? d with
        | some x => x.demand.getD 0 * x.numSites
        | none => 0) ∧
      m.totalOversubscribed * I.oversubscription = m.totalDemand := by
  have inv := Inv.empty.run ops
  obtain ⟨K, R, hd, k1, k2, k3⟩ := C103_disjoint_paths_exact ops cost paths valid hcn hpop sp
  have ho := ((C119_raises_exactly_partial ops I).1 ⟨m, h⟩).1
  generalize run {} ops = t at *
  have hR : I.failures.paths = R := by
    unfold failureReport at hr
    rw [hd] at hr
    dsimp only at hr
    split at hr
    · cases hr
    · split at hr
      · cases hr
      · simp only [Except.ok.injEq] at hr
        rw [← hr]
  obtain ⟨bh, ac, _, _, rfl⟩ := metrics_ok inv h
  dsimp only
  rw [hR]
  have hloop := hd
  unfold disjointPaths at hloop
  rw [if_pos (build_super hpop)] at hloop
  obtain ⟨⟨A, a1, a2⟩, ⟨B, b1, b2⟩, ⟨C, c1, c2⟩⟩ := disjointLoop_nodup _ _ _ _ _ hloop
  have hn : t.demandSites.keys.reverse.Nodup := List.nodup_reverse.2 inv.nd_demand
  simp only [List.append_nil] at a1 b1 c1
  have na : R.disconnected.Nodup := by rw [a1]; exact hn.sublist a2
  have nb : R.atPop.Nodup := by rw [b1]; exact hn.sublist b2
  have nc : R.disjoint.Nodup := by rw [c1]; exact hn.sublist c2
  have hlen : t.demandSites.length = t.demandSites.keys.toFinset.card := by
    rw [List.toFinset_card_of_nodup inv.nd_demand]
    unfold Dict.keys
    rw [List.length_map]
  have hsubB : R.atPop.toFinset ⊆ t.demandSites.keys.toFinset := by
    intro d hd'
    rw [List.mem_toFinset, b1] at hd'
    rw [List.mem_toFinset]
    exact List.mem_reverse.1 (b2.subset hd')
  have hsubC : R.disjoint.toFinset ⊆ t.demandSites.keys.toFinset \ R.atPop.toFinset := by
    intro d hd'
    rw [List.mem_toFinset] at hd'
    rw [Finset.mem_sdiff, List.mem_toFinset, List.mem_toFinset]
    refine ⟨?_, fun c => ((k3 d).1 hd').2.1 ((k2 d).1 c)⟩
    rw [c1] at hd'
    exact List.mem_reverse.1 (c2.subset hd')
  have hcd : (t.demandSites.keys.toFinset \ R.atPop.toFinset).card =
      t.demandSites.length - R.atPop.length := by
    rw [Finset.card_sdiff_of_subset hsubB, ← hlen, List.toFinset_card_of_nodup nb]
  have hle : R.atPop.length ≤ t.demandSites.length := by
    rw [hlen, ← List.toFinset_card_of_nodup nb]
    exact Finset.card_le_card hsubB
  have hcc : R.disjoint.length ≤ t.demandSites.length - R.atPop.length := by
    rw [← hcd, ← List.toFinset_card_of_nodup nc]
    exact Finset.card_le_card hsubC
  refine ⟨t.demandSites.keys.toFinset, R.disconnected.toFinset, R.atPop.toFinset, R.disjoint.toFinset,
    fun d => ?_, fun d => ?_, fun d => ?_, fun d => ?_, hlen, ?_, ?_, ?_, ?_, ?_, ?_, ?_, ?_⟩
  · rw [List.mem_toFinset, Dict.mem_keys_iff]
  · rw [List.mem_toFinset, List.mem_toFinset, k1]
  · rw [List.mem_toFinset, k2]
  · rw [List.mem_toFinset, k3]
  · rw [List.toFinset_card_of_nodup na]
  · rw [List.toFinset_card_of_nodup nb]
  · rw [List.toFinset_card_of_nodup nc]
  · rw [hcd, List.toFinset_card_of_nodup nc]
    unfold disjointPercent
    by_cases c : t.demandSites.length = 0 ∨ R.atPop.length ≥ t.demandSites.length
    · rw [if_pos c]
      have : R.disjoint.length = 0 := by omega
      rw [this]; simp
    · rw [if_neg c, Nat.cast_sub hle]
      have hne : (t.demandSites.length : ℚ) - R.atPop.length ≠ 0 := by
        have : R.atPop.length < t.demandSites.length := by omega
        have : (R.atPop.length : ℚ) < t.demandSites.length := by exact_mod_cast this
        linarith
      field_simp
  · unfold disjointPercent
    split
    · exact le_refl _
    · have : (R.atPop.length : ℚ) ≤ t.demandSites.length := by exact_mod_cast hle
      exact mul_nonneg (by norm_num) (div_nonneg (Nat.cast_nonneg _) (by linarith))
  · unfold disjointPercent
    split
    · norm_num
    · rename_i c
      have h1 : R.atPop.length < t.demandSites.length := by omega
      have h2 : (R.atPop.length : ℚ) < t.demandSites.length := by exact_mod_cast h1
      have h3 : (R.disjoint.length : ℚ) ≤ t.demandSites.length - R.atPop.length := by
        rw [← Nat.cast_sub hle]; exact_mod_cast hcc
      have := (div_le_one (by linarith : (0 : ℚ) < t.demandSites.length - R.atPop.length)).2 h3
      linarith
  · rw [List.sum_toFinset _ inv.nd_demand]
    unfold Topology.totalDemand Dict.vals Dict.keys
    rw [List.map_map, List.map_map]
    congr 1
    apply List.map_congr_left
    rintro ⟨k, v⟩ hk
    have := (Dict.mem_iff_get? inv.nd_demand k v).1 hk
    simp only [Function.comp]
    rw [this]
    dsimp only
    cases v.demand <;> simp
  · exact div_mul_cancel₀ _ ho

/-! ### Availability -/

/-- **C120.** Average and percentiles of the availability: with values between 0 and 1 all are percentages between 0 and
100; the percentiles grow; the first is the least and the last the greatest value; more than `p` percent of the gaps
between values are covered by the values up to percentile `p`, and likewise from there on. -/
theorem C120_availability (ops : List Op) (I : MetricsInput) (m : Metrics) (h : metrics (run {} ops) I = .ok m)
    (ha : I.availability ≠ []) :
    ∃ q0 q25 q50 q75 q100 : ℚ,
      m.percentiles = [(0, q0), (25, q25), (50, q50), (75, q75), (100, q100)] ∧
      (∃ x ∈ I.availability, q0 = 100 * x) ∧ (∃ x ∈ I.availability, q100 = 100 * x) ∧
      (∀ x ∈ I.availability, q0 ≤ 100 * x ∧ 100 * x ≤ q100) ∧
      q0 ≤ q25 ∧ q25 ≤ q50 ∧ q50 ≤ q75 ∧ q75 ≤ q100 ∧
      (∀ p q, (p, q) ∈ m.percentiles →
        p * ((I.availability.length : ℚ) - 1) < 100 * (I.availability.filter (fun x => 100 * x ≤ q)).length ∧
        (100 - p) * ((I.availability.length : ℚ) - 1) <
          100 * (I.availability.filter (fun x => q ≤ 100 * x)).length) ∧
      m.availability * I.availability.length = 100 * I.availability.sum ∧
      q0 ≤ m.availability ∧ m.availability ≤ q100 ∧
      ((∀ x ∈ I.availability, 0 ≤ x ∧ x ≤ 1) → 0 ≤ q0 ∧ q100 ≤ 100) := by
  have inv := Inv.empty.run ops
  generalize run {} ops = t at *
  obtain ⟨bh, ac, _, _, rfl⟩ := metrics_ok inv h
  dsimp only
  generalize I.availability = xs at *
  have hl : xs.length > 0 := List.length_pos_iff.2 ha
  have hlq : (0 : ℚ) < xs.length := by exact_mod_cast hl
  simp only [if_pos hl]
  obtain ⟨z1, z2⟩ := percentile_zero ha
  obtain ⟨o1, o2⟩ := percentile_hundred ha
  have sumLe : ∀ (ys : List ℚ) (b : ℚ), (∀ y ∈ ys, y ≤ b) → ys.sum ≤ ys.length * b := by
    intro ys b hy
    have := List.sum_le_card_nsmul ys b hy
    simpa [nsmul_eq_mul] using this
  have sumGe : ∀ (ys : List ℚ) (b : ℚ), (∀ y ∈ ys, b ≤ y) → ys.length * b ≤ ys.sum := by
    intro ys b hy
    have := List.card_nsmul_le_sum ys b hy
    simpa [nsmul_eq_mul] using this
  refine ⟨_, _, _, _, _, rfl, ⟨_, z1, rfl⟩, ⟨_, o1, rfl⟩, fun x hx => ?_, ?_, ?_, ?_, ?_, ?_, ?_, ?_, ?_, ?_⟩
  · have := z2 x hx; have := o2 x hx; constructor <;> linarith
  · have := percentile_mono ha (p := 0) (q := 25) (by norm_num) (by norm_num) (by norm_num); linarith
  · have := percentile_mono ha (p := 25) (q := 50) (by norm_num) (by norm_num) (by norm_num); linarith
  · have := percentile_mono ha (p := 50) (q := 75) (by norm_num) (by norm_num) (by norm_num); linarith
  · have := percentile_mono ha (p := 75) (q := 100) (by norm_num) (by norm_num) (by norm_num); linarith
  · intro p q hpq
    obtain ⟨p', hp', e⟩ := List.mem_map.1 hpq
    simp only [Prod.mk.injEq] at e
    obtain ⟨rfl, rfl⟩ := e
    have hb : 0 ≤ p' ∧ p' ≤ 100 := by
      simp only [List.mem_cons, List.not_mem_nil, or_false] at hp'
      rcases hp' with rfl | rfl | rfl | rfl | rfl <;> norm_num
    have := percentile_share ha hb.1 hb.2
    simpa only [mul_le_mul_iff_right₀ (by norm_num : (0 : ℚ) < 100)] using this
  · field_simp
  · have := sumGe xs _ z2
    rw [mul_le_mul_iff_right₀ (by norm_num : (0 : ℚ) < 100), le_div_iff₀ hlq]
    linarith
  · have := sumLe xs _ o2
    rw [mul_le_mul_iff_right₀ (by norm_num : (0 : ℚ) < 100), div_le_iff₀ hlq]
    linarith
  · intro hb
    have := (hb _ z1).1
    have := (hb _ o1).2
    constructor <;> linarith

/-- **C120.** Without a simulation of the availability all its numbers are 0. -/
theorem C120_availability_none (ops : List Op) (I : MetricsInput) (m : Metrics) (h : metrics (run {} ops) I = .ok m)
    (ha : I.availability = []) :
    m.availability = 0 ∧ m.percentiles = [(0, 0), (25, 0), (50, 0), (75, 0), (100, 0)] := by
  have inv := Inv.empty.run ops
  generalize run {} ops = t at *
  obtain ⟨bh, ac, _, _, rfl⟩ := metrics_ok inv h
  dsimp only
  rw [ha]
  decide +kernel

theorem ringDemo_report (I : MetricsInput) (h1 : I.oversubscription ≠ 0) (h2 : I.utilization ≠ some []) :
    ∃ m, metrics (run {} ringDemo) I = .ok m := by
  have e1 : ((run {} ringDemo).linkChannels activeFilter).isSome = true := by decide +kernel
  have e2 : ((run {} ringDemo).linkChannels anyFilter).isSome = true := by decide +kernel
  have e3 : (match (run {} ringDemo).countLinks ((run {} ringDemo).dnSectors, (run {} ringDemo).dnSectors)
      (run {} ringDemo).links.vals with | .ok _ => true | .error _ => false) = true := by decide +kernel
  have e4 : (run {} ringDemo).siteCount activeFilter .pop ≠ 0 := by decide +kernel
  obtain ⟨a, ha⟩ := Option.isSome_iff_exists.1 e1
  obtain ⟨b, hb⟩ := Option.isSome_iff_exists.1 e2
  unfold metrics
  rw [ha, hb]
  dsimp only
  rw [if_neg h1, if_neg h2]
  split at e3
  · rename_i d hd
    rw [hd]
    dsimp only
    rw [if_neg e4]
    exact ⟨_, rfl⟩
  · cases e3

theorem ringDemo_wireless : ∀ i l, (run {} ringDemo).links.get? i = some l → InNetwork l.status →
    l.isWireless = true := by
  have h : ∀ e ∈ (run {} ringDemo).links, e.2.isWireless = true := by decide +kernel
  intro i l hl _
  exact h _ (Dict.mem_of_get? _ hl)

/-- C120 on the demo network, whatever the shortest paths: there is a report, with four demand sites, of
which one has no service and one is at the POP, and the failure of the POP takes down three. -/
example (cost : Link → Option Nat) : ∃ paths I m,
    ShortestPaths ((run {} ringDemo).buildDigraph StatusType.active cost).edge .super paths ∧
    failureReport (run {} ringDemo) cost paths = .ok I.failures ∧ metrics (run {} ringDemo) I = .ok m ∧
    m.popFail.max = 3 ∧ m.demands = 4 ∧ m.disconnected = 1 ∧ m.atPop = 1 ∧ m.availability = 75 := by
  have inv := Inv.empty.run ringDemo
  obtain ⟨h1, h2, h3, h4⟩ := ringDemo_hyps
  obtain ⟨paths, sp⟩ := shortestPaths_exist ((run {} ringDemo).buildDigraph StatusType.active cost).edge .super
  obtain ⟨r, hr, _⟩ := C36_site_breakdowns_partial ringDemo cost paths h1 h2 h3 sp
  let I : MetricsInput := ⟨1, none, r, [1, 1 / 2], fun _ => 9⟩
  obtain ⟨m, hm⟩ := ringDemo_report I (by simp [I]) (by simp [I])
  refine ⟨paths, I, m, sp, hr, hm, ?_, ?_, ?_, ?_, ?_⟩
  · obtain ⟨P, D, f, p1, p2, p3, p4, _⟩ := C120_site_failures ringDemo cost paths h1 h2 h3 sp I m hr hm
    have hP : ∀ s, s ∈ P ↔ s = "P" := by
      intro s
      rw [p1]
      have h : ∀ e ∈ (run {} ringDemo).sites, e.2.siteType = .pop → e.1 = "P" := by decide +kernel
      constructor
      · rintro ⟨x, hx, hx1, _⟩
        exact h _ (Dict.mem_of_get? _ hx) hx1
      · rintro rfl
        obtain ⟨x, hx, k⟩ : ∃ x ∈ (run {} ringDemo).sites.get? "P", x.siteType = .pop ∧ InNetwork x.status := by
          decide +kernel
        exact ⟨x, hx, k⟩
    obtain ⟨⟨i, hi, e⟩, _⟩ := p4.max ⟨"P", (hP _).2 rfl⟩
    rw [(hP i).1 hi] at e
    have := (loseService_iff inv _ _ _).1 (p3 "P" (Or.inl ((hP _).2 rfl)))
    rw [← e, ← this]
    decide +kernel
  all_goals
    obtain ⟨all, off, atPop, safe, q1, q2, q3, q4, r1, r2, r3, _⟩ :=
      C120_demand ringDemo cost paths h4 h1 h3 sp I m hr hm
  · have e : all = {"c", "z", "p", "n"} := by
      ext d
      rw [q1, ← Dict.mem_keys_iff]
      have : (run {} ringDemo).demandSites.keys = ["c", "z", "p", "n"] := by decide +kernel
      rw [this]
      simp
    rw [r1, e]
    decide
  · have e : off = {"n"} := by
      ext d
      rw [q2, q1, ← Dict.mem_keys_iff]
      have hk : (run {} ringDemo).demandSites.keys = ["c", "z", "p", "n"] := by decide +kernel
      have hs : ∀ d ∈ ["c", "z", "p", "n"], (served (run {} ringDemo) [] [] d = true ↔ d ≠ "n") := by decide +kernel
      rw [hk, ← served_iff inv, Finset.mem_singleton]
      constructor
      · rintro ⟨k1, k2⟩
        by_contra c
        exact k2 ((hs d k1).2 c)
      · rintro rfl
        exact ⟨by simp, fun c => (hs "n" (by simp)).1 c rfl⟩
    rw [r2, e]
    rfl
  · have e : atPop = {"p"} := by
      ext d
      rw [q3, Finset.mem_singleton]
      have atp : AtPop (run {} ringDemo) d ↔ ∃ dm ∈ (run {} ringDemo).demandSites.get? d,
        ∃ s ∈ dm.connected, ∃ x ∈ (run {} ringDemo).sites.get? s, x.siteType = .pop ∧ InNetwork x.status := Iff.rfl
      rw [atp]
      have h : ∀ e ∈ (run {} ringDemo).demandSites, (∃ s ∈ e.2.connected, ∃ x ∈ (run {} ringDemo).sites.get? s,
        x.siteType = .pop ∧ InNetwork x.status) → e.1 = "p" := by decide +kernel
      constructor
      · rintro ⟨dm, hd, k⟩
        exact h (d, dm) (Dict.mem_of_get? _ hd) k
      · rintro rfl
        decide +kernel
    rw [r3, e]
    rfl
  · obtain ⟨_, _, _, _, _, _, _, _, _, _, _, _, _, _, k, _⟩ := C120_availability ringDemo I m hm (by simp [I])
    have hs : I.availability = [1, 1 / 2] := rfl
    rw [hs] at k
    norm_num at k
    linarith

/-- The hypotheses of the claim on links hold for it as well. -/
example (cost : Link → Option Nat) (paths : Paths) (I : MetricsInput) (m : Metrics)
    (sp : ShortestPaths ((run {} ringDemo).buildDigraph StatusType.active cost).edge .super paths)
    (hr : failureReport (run {} ringDemo) cost paths = .ok I.failures) (h : metrics (run {} ringDemo) I = .ok m) :
    1 ≤ m.edgeFail.max := by
  have inv := Inv.empty.run ringDemo
  obtain ⟨h1, h2, h3, _⟩ := ringDemo_hyps
  obtain ⟨P, f, p1, p2, p3⟩ := C120_link_failures ringDemo cost paths h1 h2 h3 ringDemo_wireless sp I m hr h
  have hm := (p1 _).2 ⟨_, ringDemo_counted.1, rfl⟩
  have := (p3.max ⟨_, hm⟩).2 _ hm
  have k := (loseService_iff inv _ _ _).1 (p2 _ ringDemo_counted.1)
  rw [← k] at this
  refine le_trans ?_ this
  decide +kernel

end Verif
